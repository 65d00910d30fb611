import Verif.Asm.X86Code
import Verif.Asm.X86Call

/-
Atomic objects on x86 of the size of a register.
Written by tools/asmgen.py.
-/

set_option linter.unusedVariables false

namespace Verif.Asm

/-- Objects of 1 byte: core_arch_ops_gcc_x86.hpp 58–112, 114–222 and extra_ops_gcc_x86.hpp 34–450;
`add` and `sub`, and the `bit_test_and_*` functions, are those of extra_ops_generic.hpp 65–75,
173–196.  `set`: the compiler has no operands that are flags
(`BOOST_ATOMIC_DETAIL_ASM_HAS_FLAG_OUTPUTS` is not defined). -/
def X86x1.code (R : Nat) (set : Bool) (c : X86.Call 8) : Code R 8 (Integral.Ret 8) :=
  match c.op with
  | .load => (plainLoad R 8).code ()
  | .store v => if c.seqCst then ((X86x1.exchange R).code v).map discard else (plainStore R 8).code v
  | .exchange v => (X86x1.exchange R).code v
  | .casWeak e d => (if set then X86x1.compareExchangeStrongSet R else X86x1.compareExchangeStrong R).code (e, d)
  | .casStrong e d => (if set then X86x1.compareExchangeStrongSet R else X86x1.compareExchangeStrong R).code (e, d)
  | .fetchAdd v => (X86x1.fetchAdd R).code v
  | .fetchSub v => (X86x1.fetchAdd R).code (-v)
  | .fetchAnd v => (X86x1.fetchAnd R).code v
  | .fetchOr v => (X86x1.fetchOr R).code v
  | .fetchXor v => (X86x1.fetchXor R).code v
  | .fetchNegate => (X86x1.fetchNegate R).code ()
  | .fetchComplement => (X86x1.fetchComplement R).code ()
  | .add v => ((X86x1.fetchAdd R).code v).map (newVal (· + v))
  | .sub v => ((X86x1.fetchAdd R).code (-v)).map (newVal (· - v))
  | .negate => (X86x1.negate R).code ()
  | .bitwiseAnd v => (X86x1.bitwiseAnd R).code v
  | .bitwiseOr v => (X86x1.bitwiseOr R).code v
  | .bitwiseXor v => (X86x1.bitwiseXor R).code v
  | .bitwiseComplement => (X86x1.bitwiseComplement R).code ()
  | .opaqueAdd v => if c.const ∧ v = 1 then (X86x1.opaqueAddOne R).code () else (X86x1.opaqueAdd R).code v
  | .opaqueSub v => if c.const ∧ v = 1 then (X86x1.opaqueSubOne R).code () else (X86x1.opaqueSub R).code v
  | .opaqueNegate => (X86x1.opaqueNegate R).code ()
  | .opaqueAnd v => (X86x1.opaqueAnd R).code v
  | .opaqueOr v => (X86x1.opaqueOr R).code v
  | .opaqueXor v => (X86x1.opaqueXor R).code v
  | .opaqueComplement => (X86x1.opaqueComplement R).code ()
  | .addAndTest v => if c.const ∧ v = 1 then (if set then X86x1.addAndTestOneSet R else X86x1.addAndTestOne R).code () else (if set then X86x1.addAndTestSet R else X86x1.addAndTest R).code v
  | .subAndTest v => if c.const ∧ v = 1 then (if set then X86x1.subAndTestOneSet R else X86x1.subAndTestOne R).code () else (if set then X86x1.subAndTestSet R else X86x1.subAndTest R).code v
  | .negateAndTest => ((X86x1.negate R).code ()).map test
  | .andAndTest v => (if set then X86x1.andAndTestSet R else X86x1.andAndTest R).code v
  | .orAndTest v => (if set then X86x1.orAndTestSet R else X86x1.orAndTest R).code v
  | .xorAndTest v => (if set then X86x1.xorAndTestSet R else X86x1.xorAndTest R).code v
  | .complementAndTest => ((X86x1.bitwiseComplement R).code ()).map test
  | .bitTestAndSet b => ((X86x1.fetchOr R).code (bit b)).map (testBit (bit b))
  | .bitTestAndReset b => ((X86x1.fetchAnd R).code (~~~ bit b)).map (testBit (bit b))
  | .bitTestAndComplement b => ((X86x1.fetchXor R).code (bit b)).map (testBit (bit b))

/-- Objects of 2 bytes: core_arch_ops_gcc_x86.hpp 58–112, 223–331 and extra_ops_gcc_x86.hpp 454–950;
`add` and `sub` are those of extra_ops_generic.hpp 65–75.  `set`: the compiler has no operands that
are flags (`BOOST_ATOMIC_DETAIL_ASM_HAS_FLAG_OUTPUTS` is not defined). -/
def X86x2.code (R : Nat) (set : Bool) (c : X86.Call 16) : Code R 16 (Integral.Ret 16) :=
  match c.op with
  | .load => (plainLoad R 16).code ()
  | .store v => if c.seqCst then ((X86x2.exchange R).code v).map discard else (plainStore R 16).code v
  | .exchange v => (X86x2.exchange R).code v
  | .casWeak e d => (if set then X86x2.compareExchangeStrongSet R else X86x2.compareExchangeStrong R).code (e, d)
  | .casStrong e d => (if set then X86x2.compareExchangeStrongSet R else X86x2.compareExchangeStrong R).code (e, d)
  | .fetchAdd v => (X86x2.fetchAdd R).code v
  | .fetchSub v => (X86x2.fetchAdd R).code (-v)
  | .fetchAnd v => (X86x2.fetchAnd R).code v
  | .fetchOr v => (X86x2.fetchOr R).code v
  | .fetchXor v => (X86x2.fetchXor R).code v
  | .fetchNegate => (X86x2.fetchNegate R).code ()
  | .fetchComplement => (X86x2.fetchComplement R).code ()
  | .add v => ((X86x2.fetchAdd R).code v).map (newVal (· + v))
  | .sub v => ((X86x2.fetchAdd R).code (-v)).map (newVal (· - v))
  | .negate => (X86x2.negate R).code ()
  | .bitwiseAnd v => (X86x2.bitwiseAnd R).code v
  | .bitwiseOr v => (X86x2.bitwiseOr R).code v
  | .bitwiseXor v => (X86x2.bitwiseXor R).code v
  | .bitwiseComplement => (X86x2.bitwiseComplement R).code ()
  | .opaqueAdd v => if c.const ∧ v = 1 then (X86x2.opaqueAddOne R).code () else (X86x2.opaqueAdd R).code v
  | .opaqueSub v => if c.const ∧ v = 1 then (X86x2.opaqueSubOne R).code () else (X86x2.opaqueSub R).code v
  | .opaqueNegate => (X86x2.opaqueNegate R).code ()
  | .opaqueAnd v => (X86x2.opaqueAnd R).code v
  | .opaqueOr v => (X86x2.opaqueOr R).code v
  | .opaqueXor v => (X86x2.opaqueXor R).code v
  | .opaqueComplement => (X86x2.opaqueComplement R).code ()
  | .addAndTest v => if c.const ∧ v = 1 then (if set then X86x2.addAndTestOneSet R else X86x2.addAndTestOne R).code () else (if set then X86x2.addAndTestSet R else X86x2.addAndTest R).code v
  | .subAndTest v => if c.const ∧ v = 1 then (if set then X86x2.subAndTestOneSet R else X86x2.subAndTestOne R).code () else (if set then X86x2.subAndTestSet R else X86x2.subAndTest R).code v
  | .negateAndTest => ((X86x2.negate R).code ()).map test
  | .andAndTest v => (if set then X86x2.andAndTestSet R else X86x2.andAndTest R).code v
  | .orAndTest v => (if set then X86x2.orAndTestSet R else X86x2.orAndTest R).code v
  | .xorAndTest v => (if set then X86x2.xorAndTestSet R else X86x2.xorAndTest R).code v
  | .complementAndTest => ((X86x2.bitwiseComplement R).code ()).map test
  | .bitTestAndSet b => (if set then X86x2.bitTestAndSetSet R else X86x2.bitTestAndSet R).code b
  | .bitTestAndReset b => (if set then X86x2.bitTestAndResetSet R else X86x2.bitTestAndReset R).code b
  | .bitTestAndComplement b => (if set then X86x2.bitTestAndComplementSet R else X86x2.bitTestAndComplement R).code b

/-- Objects of 4 bytes: core_arch_ops_gcc_x86.hpp 58–112, 332–439 and extra_ops_gcc_x86.hpp
952–1447; `add` and `sub` are those of extra_ops_generic.hpp 65–75.  `set`: the compiler has no
operands that are flags (`BOOST_ATOMIC_DETAIL_ASM_HAS_FLAG_OUTPUTS` is not defined). -/
def X86x4.code (R : Nat) (set : Bool) (c : X86.Call 32) : Code R 32 (Integral.Ret 32) :=
  match c.op with
  | .load => (plainLoad R 32).code ()
  | .store v => if c.seqCst then ((X86x4.exchange R).code v).map discard else (plainStore R 32).code v
  | .exchange v => (X86x4.exchange R).code v
  | .casWeak e d => (if set then X86x4.compareExchangeStrongSet R else X86x4.compareExchangeStrong R).code (e, d)
  | .casStrong e d => (if set then X86x4.compareExchangeStrongSet R else X86x4.compareExchangeStrong R).code (e, d)
  | .fetchAdd v => (X86x4.fetchAdd R).code v
  | .fetchSub v => (X86x4.fetchAdd R).code (-v)
  | .fetchAnd v => (X86x4.fetchAnd R).code v
  | .fetchOr v => (X86x4.fetchOr R).code v
  | .fetchXor v => (X86x4.fetchXor R).code v
  | .fetchNegate => (X86x4.fetchNegate R).code ()
  | .fetchComplement => (X86x4.fetchComplement R).code ()
  | .add v => ((X86x4.fetchAdd R).code v).map (newVal (· + v))
  | .sub v => ((X86x4.fetchAdd R).code (-v)).map (newVal (· - v))
  | .negate => (X86x4.negate R).code ()
  | .bitwiseAnd v => (X86x4.bitwiseAnd R).code v
  | .bitwiseOr v => (X86x4.bitwiseOr R).code v
  | .bitwiseXor v => (X86x4.bitwiseXor R).code v
  | .bitwiseComplement => (X86x4.bitwiseComplement R).code ()
  | .opaqueAdd v => if c.const ∧ v = 1 then (X86x4.opaqueAddOne R).code () else (X86x4.opaqueAdd R).code v
  | .opaqueSub v => if c.const ∧ v = 1 then (X86x4.opaqueSubOne R).code () else (X86x4.opaqueSub R).code v
  | .opaqueNegate => (X86x4.opaqueNegate R).code ()
  | .opaqueAnd v => (X86x4.opaqueAnd R).code v
  | .opaqueOr v => (X86x4.opaqueOr R).code v
  | .opaqueXor v => (X86x4.opaqueXor R).code v
  | .opaqueComplement => (X86x4.opaqueComplement R).code ()
  | .addAndTest v => if c.const ∧ v = 1 then (if set then X86x4.addAndTestOneSet R else X86x4.addAndTestOne R).code () else (if set then X86x4.addAndTestSet R else X86x4.addAndTest R).code v
  | .subAndTest v => if c.const ∧ v = 1 then (if set then X86x4.subAndTestOneSet R else X86x4.subAndTestOne R).code () else (if set then X86x4.subAndTestSet R else X86x4.subAndTest R).code v
  | .negateAndTest => ((X86x4.negate R).code ()).map test
  | .andAndTest v => (if set then X86x4.andAndTestSet R else X86x4.andAndTest R).code v
  | .orAndTest v => (if set then X86x4.orAndTestSet R else X86x4.orAndTest R).code v
  | .xorAndTest v => (if set then X86x4.xorAndTestSet R else X86x4.xorAndTest R).code v
  | .complementAndTest => ((X86x4.bitwiseComplement R).code ()).map test
  | .bitTestAndSet b => (if set then X86x4.bitTestAndSetSet R else X86x4.bitTestAndSet R).code b
  | .bitTestAndReset b => (if set then X86x4.bitTestAndResetSet R else X86x4.bitTestAndReset R).code b
  | .bitTestAndComplement b => (if set then X86x4.bitTestAndComplementSet R else X86x4.bitTestAndComplement R).code b

/-- Objects of 8 bytes: core_arch_ops_gcc_x86.hpp 58–112, 806–915 and extra_ops_gcc_x86.hpp
1451–1946; `add` and `sub` are those of extra_ops_generic.hpp 65–75.  `set`: the compiler has no
operands that are flags (`BOOST_ATOMIC_DETAIL_ASM_HAS_FLAG_OUTPUTS` is not defined). -/
def X86x8.code (set : Bool) (c : X86.Call 64) : Code 64 64 (Integral.Ret 64) :=
  match c.op with
  | .load => (plainLoad 64 64).code ()
  | .store v => if c.seqCst then ((X86x8.exchange).code v).map discard else (plainStore 64 64).code v
  | .exchange v => (X86x8.exchange).code v
  | .casWeak e d => (if set then X86x8.compareExchangeStrongSet else X86x8.compareExchangeStrong).code (e, d)
  | .casStrong e d => (if set then X86x8.compareExchangeStrongSet else X86x8.compareExchangeStrong).code (e, d)
  | .fetchAdd v => (X86x8.fetchAdd).code v
  | .fetchSub v => (X86x8.fetchAdd).code (-v)
  | .fetchAnd v => (X86x8.fetchAnd).code v
  | .fetchOr v => (X86x8.fetchOr).code v
  | .fetchXor v => (X86x8.fetchXor).code v
  | .fetchNegate => (X86x8.fetchNegate).code ()
  | .fetchComplement => (X86x8.fetchComplement).code ()
  | .add v => ((X86x8.fetchAdd).code v).map (newVal (· + v))
  | .sub v => ((X86x8.fetchAdd).code (-v)).map (newVal (· - v))
  | .negate => (X86x8.negate).code ()
  | .bitwiseAnd v => (X86x8.bitwiseAnd).code v
  | .bitwiseOr v => (X86x8.bitwiseOr).code v
  | .bitwiseXor v => (X86x8.bitwiseXor).code v
  | .bitwiseComplement => (X86x8.bitwiseComplement).code ()
  | .opaqueAdd v => if c.const ∧ v = 1 then (X86x8.opaqueAddOne).code () else (X86x8.opaqueAdd).code v
  | .opaqueSub v => if c.const ∧ v = 1 then (X86x8.opaqueSubOne).code () else (X86x8.opaqueSub).code v
  | .opaqueNegate => (X86x8.opaqueNegate).code ()
  | .opaqueAnd v => (X86x8.opaqueAnd).code v
  | .opaqueOr v => (X86x8.opaqueOr).code v
  | .opaqueXor v => (X86x8.opaqueXor).code v
  | .opaqueComplement => (X86x8.opaqueComplement).code ()
  | .addAndTest v => if c.const ∧ v = 1 then (if set then X86x8.addAndTestOneSet else X86x8.addAndTestOne).code () else (if set then X86x8.addAndTestSet else X86x8.addAndTest).code v
  | .subAndTest v => if c.const ∧ v = 1 then (if set then X86x8.subAndTestOneSet else X86x8.subAndTestOne).code () else (if set then X86x8.subAndTestSet else X86x8.subAndTest).code v
  | .negateAndTest => ((X86x8.negate).code ()).map test
  | .andAndTest v => (if set then X86x8.andAndTestSet else X86x8.andAndTest).code v
  | .orAndTest v => (if set then X86x8.orAndTestSet else X86x8.orAndTest).code v
  | .xorAndTest v => (if set then X86x8.xorAndTestSet else X86x8.xorAndTest).code v
  | .complementAndTest => ((X86x8.bitwiseComplement).code ()).map test
  | .bitTestAndSet b => (if set then X86x8.bitTestAndSetSet else X86x8.bitTestAndSet).code b
  | .bitTestAndReset b => (if set then X86x8.bitTestAndResetSet else X86x8.bitTestAndReset).code b
  | .bitTestAndComplement b => (if set then X86x8.bitTestAndComplementSet else X86x8.bitTestAndComplement).code b

end Verif.Asm
