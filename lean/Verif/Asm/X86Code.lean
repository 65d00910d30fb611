import Verif.Asm.Tactic
import Verif.Asm.IsaX86

/-
The assembly blocks of core_arch_ops_gcc_x86.hpp and extra_ops_gcc_x86.hpp for objects of one register.
Written by tools/asmgen.py from the source text.
-/

set_option linter.unusedVariables false

namespace Verif.Asm

namespace X86x1
open X86

/-- `fetch_add`, core_arch_ops_gcc_x86.hpp 123–135 (assembly block 126–132).  Operands, in this
order: %0 "+q" (v); %1 "+m" (storage). -/
def fetchAdd (R : Nat) : Fn R 8 (BitVec 8) (Integral.Ret 8) where
  block := {
    prog := [
      xadd 8 0 1]                             -- lock; xaddb %0, %1
    opnds := [(0, .inout), (1, .input)]
    addr := [1]
    results := [0] }
  args a x := (x 0).setWidth 8 = a
  ret _ r := .val ((r 0).setWidth 8)

/-- `exchange`, core_arch_ops_gcc_x86.hpp 137–149 (assembly block 140–146).  Operands, in this
order: %0 "+q" (v); %1 "+m" (storage). -/
def exchange (R : Nat) : Fn R 8 (BitVec 8) (Integral.Ret 8) where
  block := {
    prog := [
      xchg 8 0 1]                             -- xchgb %0, %1
    opnds := [(0, .inout), (1, .input)]
    addr := [1]
    results := [0] }
  args a x := (x 0).setWidth 8 = a
  ret _ r := .val ((r 0).setWidth 8)

/-- `compare_exchange_strong`, core_arch_ops_gcc_x86.hpp 151–178 (assembly block 158–164). 
Operands, in this order: %0 "+a" (previous); %1 "+m" (storage); %2 "=@ccz" (success); %3 "q"
(desired). -/
def compareExchangeStrong (R : Nat) : Fn R 8 (BitVec 8 × BitVec 8) (Integral.Ret 8) where
  block := {
    prog := [
      cmpxchg 8 0 3 1,                        -- lock; cmpxchgb %3, %1
      sete 2]                                 -- sete %2
    opnds := [(0, .inout), (1, .input), (2, .out), (3, .input)]
    fixed := [(0, 0)]
    addr := [1]
    results := [0, 2] }
  args a x := (x 0).setWidth 8 = a.1 ∧ (x 3).setWidth 8 = a.2
  ret _ r := bool8 (r 2) (.cas · ((r 0).setWidth 8))

/-- `fetch_and`, core_arch_ops_gcc_x86.hpp 194–201 (assembly block 182–192).  Operands, in this
order: [res] "+a" (res); [storage] "+m" (storage); %2 "=&q" (new_val); [arg] "ir"
((temp_storage_type)v). -/
def fetchAnd (R : Nat) : Fn R 8 (BitVec 8) (Integral.Ret 8) where
  block := {
    prog := [
      .label 1,                               -- 1:
      mov 32 3 2,                             -- mov %[arg], %2
      and 8 0 2,                              -- andb %%al, %b2
      cmpxchg 8 0 2 1,                        -- lock; cmpxchgb %b2, %[storage]
      jne 0 1 false]                          -- jne 1b
    opnds := [(0, .inout), (1, .input), (2, .outEarly), (3, .input)]
    fixed := [(0, 0)]
    differ := [(0, 1), (0, 3)]
    addr := [1]
    results := [0] }
  args a x := (x 3).setWidth 8 = a
  ret _ r := .val ((r 0).setWidth 8)

/-- `fetch_or`, core_arch_ops_gcc_x86.hpp 203–210 (assembly block 182–192).  Operands, in this
order: [res] "+a" (res); [storage] "+m" (storage); %2 "=&q" (new_val); [arg] "ir"
((temp_storage_type)v). -/
def fetchOr (R : Nat) : Fn R 8 (BitVec 8) (Integral.Ret 8) where
  block := {
    prog := [
      .label 1,                               -- 1:
      mov 32 3 2,                             -- mov %[arg], %2
      or 8 0 2,                               -- orb %%al, %b2
      cmpxchg 8 0 2 1,                        -- lock; cmpxchgb %b2, %[storage]
      jne 0 1 false]                          -- jne 1b
    opnds := [(0, .inout), (1, .input), (2, .outEarly), (3, .input)]
    fixed := [(0, 0)]
    differ := [(0, 1), (0, 3)]
    addr := [1]
    results := [0] }
  args a x := (x 3).setWidth 8 = a
  ret _ r := .val ((r 0).setWidth 8)

/-- `fetch_xor`, core_arch_ops_gcc_x86.hpp 212–219 (assembly block 182–192).  Operands, in this
order: [res] "+a" (res); [storage] "+m" (storage); %2 "=&q" (new_val); [arg] "ir"
((temp_storage_type)v). -/
def fetchXor (R : Nat) : Fn R 8 (BitVec 8) (Integral.Ret 8) where
  block := {
    prog := [
      .label 1,                               -- 1:
      mov 32 3 2,                             -- mov %[arg], %2
      xor 8 0 2,                              -- xorb %%al, %b2
      cmpxchg 8 0 2 1,                        -- lock; cmpxchgb %b2, %[storage]
      jne 0 1 false]                          -- jne 1b
    opnds := [(0, .inout), (1, .input), (2, .outEarly), (3, .input)]
    fixed := [(0, 0)]
    differ := [(0, 1), (0, 3)]
    addr := [1]
    results := [0] }
  args a x := (x 3).setWidth 8 = a
  ret _ r := .val ((r 0).setWidth 8)

/-- `fetch_negate`, extra_ops_gcc_x86.hpp 55–63 (assembly block 43–53).  Operands, in this order:
[orig] "+a" (original); [storage] "+m" (storage); %2 "=&q" (result). -/
def fetchNegate (R : Nat) : Fn R 8 (Unit) (Integral.Ret 8) where
  block := {
    prog := [
      .label 1,                               -- 1:
      movz 8 0 2,                             -- movzbl %[orig], %2
      neg 8 2,                                -- negb %b2
      cmpxchg 8 0 2 1,                        -- lock; cmpxchgb %b2, %[storage]
      jne 0 1 false]                          -- jne 1b
    opnds := [(0, .inout), (1, .input), (2, .outEarly)]
    fixed := [(0, 0)]
    differ := [(0, 1)]
    addr := [1]
    results := [0] }
  args _ _ := True
  ret _ r := .val ((r 0).setWidth 8)

/-- `fetch_complement`, extra_ops_gcc_x86.hpp 65–73 (assembly block 43–53).  Operands, in this
order: [orig] "+a" (original); [storage] "+m" (storage); %2 "=&q" (result). -/
def fetchComplement (R : Nat) : Fn R 8 (Unit) (Integral.Ret 8) where
  block := {
    prog := [
      .label 1,                               -- 1:
      movz 8 0 2,                             -- movzbl %[orig], %2
      not 8 2,                                -- notb %b2
      cmpxchg 8 0 2 1,                        -- lock; cmpxchgb %b2, %[storage]
      jne 0 1 false]                          -- jne 1b
    opnds := [(0, .inout), (1, .input), (2, .outEarly)]
    fixed := [(0, 0)]
    differ := [(0, 1)]
    addr := [1]
    results := [0] }
  args _ _ := True
  ret _ r := .val ((r 0).setWidth 8)

/-- `negate`, extra_ops_gcc_x86.hpp 75–83 (assembly block 43–53).  Operands, in this order: [orig]
"+a" (original); [storage] "+m" (storage); %2 "=&q" (result). -/
def negate (R : Nat) : Fn R 8 (Unit) (Integral.Ret 8) where
  block := {
    prog := [
      .label 1,                               -- 1:
      movz 8 0 2,                             -- movzbl %[orig], %2
      neg 8 2,                                -- negb %b2
      cmpxchg 8 0 2 1,                        -- lock; cmpxchgb %b2, %[storage]
      jne 0 1 false]                          -- jne 1b
    opnds := [(0, .inout), (1, .input), (2, .outEarly)]
    fixed := [(0, 0)]
    differ := [(0, 1)]
    addr := [1]
    results := [2] }
  args _ _ := True
  ret _ r := .val ((r 2).setWidth 8)

/-- `bitwise_complement`, extra_ops_gcc_x86.hpp 85–93 (assembly block 43–53).  Operands, in this
order: [orig] "+a" (original); [storage] "+m" (storage); %2 "=&q" (result). -/
def bitwiseComplement (R : Nat) : Fn R 8 (Unit) (Integral.Ret 8) where
  block := {
    prog := [
      .label 1,                               -- 1:
      movz 8 0 2,                             -- movzbl %[orig], %2
      not 8 2,                                -- notb %b2
      cmpxchg 8 0 2 1,                        -- lock; cmpxchgb %b2, %[storage]
      jne 0 1 false]                          -- jne 1b
    opnds := [(0, .inout), (1, .input), (2, .outEarly)]
    fixed := [(0, 0)]
    differ := [(0, 1)]
    addr := [1]
    results := [2] }
  args _ _ := True
  ret _ r := .val ((r 2).setWidth 8)

/-- `bitwise_and`, extra_ops_gcc_x86.hpp 110–118 (assembly block 98–108).  Operands, in this order:
[orig] "+a" (original); [storage] "+m" (storage); %2 "=&q" (result); [arg] "ir"
((temp_storage_type)v). -/
def bitwiseAnd (R : Nat) : Fn R 8 (BitVec 8) (Integral.Ret 8) where
  block := {
    prog := [
      .label 1,                               -- 1:
      mov 32 3 2,                             -- mov %[arg], %2
      and 8 0 2,                              -- andb %%al, %b2
      cmpxchg 8 0 2 1,                        -- lock; cmpxchgb %b2, %[storage]
      jne 0 1 false]                          -- jne 1b
    opnds := [(0, .inout), (1, .input), (2, .outEarly), (3, .input)]
    fixed := [(0, 0)]
    differ := [(0, 1), (0, 3)]
    addr := [1]
    results := [2] }
  args a x := (x 3).setWidth 8 = a
  ret _ r := .val ((r 2).setWidth 8)

/-- `bitwise_or`, extra_ops_gcc_x86.hpp 120–128 (assembly block 98–108).  Operands, in this order:
[orig] "+a" (original); [storage] "+m" (storage); %2 "=&q" (result); [arg] "ir"
((temp_storage_type)v). -/
def bitwiseOr (R : Nat) : Fn R 8 (BitVec 8) (Integral.Ret 8) where
  block := {
    prog := [
      .label 1,                               -- 1:
      mov 32 3 2,                             -- mov %[arg], %2
      or 8 0 2,                               -- orb %%al, %b2
      cmpxchg 8 0 2 1,                        -- lock; cmpxchgb %b2, %[storage]
      jne 0 1 false]                          -- jne 1b
    opnds := [(0, .inout), (1, .input), (2, .outEarly), (3, .input)]
    fixed := [(0, 0)]
    differ := [(0, 1), (0, 3)]
    addr := [1]
    results := [2] }
  args a x := (x 3).setWidth 8 = a
  ret _ r := .val ((r 2).setWidth 8)

/-- `bitwise_xor`, extra_ops_gcc_x86.hpp 130–138 (assembly block 98–108).  Operands, in this order:
[orig] "+a" (original); [storage] "+m" (storage); %2 "=&q" (result); [arg] "ir"
((temp_storage_type)v). -/
def bitwiseXor (R : Nat) : Fn R 8 (BitVec 8) (Integral.Ret 8) where
  block := {
    prog := [
      .label 1,                               -- 1:
      mov 32 3 2,                             -- mov %[arg], %2
      xor 8 0 2,                              -- xorb %%al, %b2
      cmpxchg 8 0 2 1,                        -- lock; cmpxchgb %b2, %[storage]
      jne 0 1 false]                          -- jne 1b
    opnds := [(0, .inout), (1, .input), (2, .outEarly), (3, .input)]
    fixed := [(0, 0)]
    differ := [(0, 1), (0, 3)]
    addr := [1]
    results := [2] }
  args a x := (x 3).setWidth 8 = a
  ret _ r := .val ((r 2).setWidth 8)

/-- `opaque_add`, extra_ops_gcc_x86.hpp 152–176 (assembly block 157–163).  Operands, in this order:
[storage] "+m" (storage). -/
def opaqueAddOne (R : Nat) : Fn R 8 (Unit) (Integral.Ret 8) where
  block := {
    prog := [
      incm 8 0]                               -- lock; incb %[storage]
    opnds := [(0, .input)]
    addr := [0]
    results := [] }
  args _ _ := True
  ret _ _ := .unit

/-- `opaque_add`, extra_ops_gcc_x86.hpp 152–176 (assembly block 167–173).  Operands, in this order:
[storage] "+m" (storage); [argument] "iq" (v). -/
def opaqueAdd (R : Nat) : Fn R 8 (BitVec 8) (Integral.Ret 8) where
  block := {
    prog := [
      addm 8 1 0]                             -- lock; addb %[argument], %[storage]
    opnds := [(0, .input), (1, .input)]
    addr := [0]
    results := [] }
  args a x := (x 1).setWidth 8 = a
  ret _ _ := .unit

/-- `opaque_sub`, extra_ops_gcc_x86.hpp 178–202 (assembly block 183–189).  Operands, in this order:
[storage] "+m" (storage). -/
def opaqueSubOne (R : Nat) : Fn R 8 (Unit) (Integral.Ret 8) where
  block := {
    prog := [
      decm 8 0]                               -- lock; decb %[storage]
    opnds := [(0, .input)]
    addr := [0]
    results := [] }
  args _ _ := True
  ret _ _ := .unit

/-- `opaque_sub`, extra_ops_gcc_x86.hpp 178–202 (assembly block 193–199).  Operands, in this order:
[storage] "+m" (storage); [argument] "iq" (v). -/
def opaqueSub (R : Nat) : Fn R 8 (BitVec 8) (Integral.Ret 8) where
  block := {
    prog := [
      subm 8 1 0]                             -- lock; subb %[argument], %[storage]
    opnds := [(0, .input), (1, .input)]
    addr := [0]
    results := [] }
  args a x := (x 1).setWidth 8 = a
  ret _ _ := .unit

/-- `opaque_negate`, extra_ops_gcc_x86.hpp 204–215 (assembly block 207–213).  Operands, in this
order: [storage] "+m" (storage). -/
def opaqueNegate (R : Nat) : Fn R 8 (Unit) (Integral.Ret 8) where
  block := {
    prog := [
      negm 8 0]                               -- lock; negb %[storage]
    opnds := [(0, .input)]
    addr := [0]
    results := [] }
  args _ _ := True
  ret _ _ := .unit

/-- `opaque_and`, extra_ops_gcc_x86.hpp 217–228 (assembly block 220–226).  Operands, in this order:
[storage] "+m" (storage); [argument] "iq" (v). -/
def opaqueAnd (R : Nat) : Fn R 8 (BitVec 8) (Integral.Ret 8) where
  block := {
    prog := [
      andm 8 1 0]                             -- lock; andb %[argument], %[storage]
    opnds := [(0, .input), (1, .input)]
    addr := [0]
    results := [] }
  args a x := (x 1).setWidth 8 = a
  ret _ _ := .unit

/-- `opaque_or`, extra_ops_gcc_x86.hpp 230–241 (assembly block 233–239).  Operands, in this order:
[storage] "+m" (storage); [argument] "iq" (v). -/
def opaqueOr (R : Nat) : Fn R 8 (BitVec 8) (Integral.Ret 8) where
  block := {
    prog := [
      orm 8 1 0]                              -- lock; orb %[argument], %[storage]
    opnds := [(0, .input), (1, .input)]
    addr := [0]
    results := [] }
  args a x := (x 1).setWidth 8 = a
  ret _ _ := .unit

/-- `opaque_xor`, extra_ops_gcc_x86.hpp 243–254 (assembly block 246–252).  Operands, in this order:
[storage] "+m" (storage); [argument] "iq" (v). -/
def opaqueXor (R : Nat) : Fn R 8 (BitVec 8) (Integral.Ret 8) where
  block := {
    prog := [
      xorm 8 1 0]                             -- lock; xorb %[argument], %[storage]
    opnds := [(0, .input), (1, .input)]
    addr := [0]
    results := [] }
  args a x := (x 1).setWidth 8 = a
  ret _ _ := .unit

/-- `opaque_complement`, extra_ops_gcc_x86.hpp 256–267 (assembly block 259–265).  Operands, in this
order: [storage] "+m" (storage). -/
def opaqueComplement (R : Nat) : Fn R 8 (Unit) (Integral.Ret 8) where
  block := {
    prog := [
      notm 8 0]                               -- lock; notb %[storage]
    opnds := [(0, .input)]
    addr := [0]
    results := [] }
  args _ _ := True
  ret _ _ := .unit

/-- `add_and_test`, extra_ops_gcc_x86.hpp 269–320 (assembly block 276–282).  Operands, in this
order: [storage] "+m" (storage); [result] "=@ccnz" (res). -/
def addAndTestOne (R : Nat) : Fn R 8 (Unit) (Integral.Ret 8) where
  block := {
    prog := [
      incm 8 0,                               -- lock; incb %[storage]
      setnz 1]                                -- setnz %1
    opnds := [(0, .input), (1, .out)]
    addr := [0]
    results := [1] }
  args _ _ := True
  ret _ r := bool8 (r 1) .flag

/-- `add_and_test`, extra_ops_gcc_x86.hpp 269–320 (assembly block 286–292).  Operands, in this
order: [storage] "+m" (storage); [result] "=@ccnz" (res); [argument] "iq" (v). -/
def addAndTest (R : Nat) : Fn R 8 (BitVec 8) (Integral.Ret 8) where
  block := {
    prog := [
      addm 8 2 0,                             -- lock; addb %[argument], %[storage]
      setnz 1]                                -- setnz %1
    opnds := [(0, .input), (1, .out), (2, .input)]
    addr := [0]
    results := [1] }
  args a x := (x 2).setWidth 8 = a
  ret _ r := bool8 (r 1) .flag

/-- `sub_and_test`, extra_ops_gcc_x86.hpp 322–373 (assembly block 329–335).  Operands, in this
order: [storage] "+m" (storage); [result] "=@ccnz" (res). -/
def subAndTestOne (R : Nat) : Fn R 8 (Unit) (Integral.Ret 8) where
  block := {
    prog := [
      decm 8 0,                               -- lock; decb %[storage]
      setnz 1]                                -- setnz %1
    opnds := [(0, .input), (1, .out)]
    addr := [0]
    results := [1] }
  args _ _ := True
  ret _ r := bool8 (r 1) .flag

/-- `sub_and_test`, extra_ops_gcc_x86.hpp 322–373 (assembly block 339–345).  Operands, in this
order: [storage] "+m" (storage); [result] "=@ccnz" (res); [argument] "iq" (v). -/
def subAndTest (R : Nat) : Fn R 8 (BitVec 8) (Integral.Ret 8) where
  block := {
    prog := [
      subm 8 2 0,                             -- lock; subb %[argument], %[storage]
      setnz 1]                                -- setnz %1
    opnds := [(0, .input), (1, .out), (2, .input)]
    addr := [0]
    results := [1] }
  args a x := (x 2).setWidth 8 = a
  ret _ r := bool8 (r 1) .flag

/-- `and_and_test`, extra_ops_gcc_x86.hpp 375–399 (assembly block 380–386).  Operands, in this
order: [storage] "+m" (storage); [result] "=@ccnz" (res); [argument] "iq" (v). -/
def andAndTest (R : Nat) : Fn R 8 (BitVec 8) (Integral.Ret 8) where
  block := {
    prog := [
      andm 8 2 0,                             -- lock; andb %[argument], %[storage]
      setnz 1]                                -- setnz %1
    opnds := [(0, .input), (1, .out), (2, .input)]
    addr := [0]
    results := [1] }
  args a x := (x 2).setWidth 8 = a
  ret _ r := bool8 (r 1) .flag

/-- `or_and_test`, extra_ops_gcc_x86.hpp 401–425 (assembly block 406–412).  Operands, in this order:
[storage] "+m" (storage); [result] "=@ccnz" (res); [argument] "iq" (v). -/
def orAndTest (R : Nat) : Fn R 8 (BitVec 8) (Integral.Ret 8) where
  block := {
    prog := [
      orm 8 2 0,                              -- lock; orb %[argument], %[storage]
      setnz 1]                                -- setnz %1
    opnds := [(0, .input), (1, .out), (2, .input)]
    addr := [0]
    results := [1] }
  args a x := (x 2).setWidth 8 = a
  ret _ r := bool8 (r 1) .flag

/-- `xor_and_test`, extra_ops_gcc_x86.hpp 427–451 (assembly block 432–438).  Operands, in this
order: [storage] "+m" (storage); [result] "=@ccnz" (res); [argument] "iq" (v). -/
def xorAndTest (R : Nat) : Fn R 8 (BitVec 8) (Integral.Ret 8) where
  block := {
    prog := [
      xorm 8 2 0,                             -- lock; xorb %[argument], %[storage]
      setnz 1]                                -- setnz %1
    opnds := [(0, .input), (1, .out), (2, .input)]
    addr := [0]
    results := [1] }
  args a x := (x 2).setWidth 8 = a
  ret _ r := bool8 (r 1) .flag

/-- `compare_exchange_strong`, core_arch_ops_gcc_x86.hpp 151–178 (assembly block 166–173, without
operands that are flags).  Operands, in this order: %0 "+a" (previous); %1 "+m" (storage); %2 "=q"
(success); %3 "q" (desired). -/
def compareExchangeStrongSet (R : Nat) : Fn R 8 (BitVec 8 × BitVec 8) (Integral.Ret 8) where
  block := {
    prog := [
      cmpxchg 8 0 3 1,                        -- lock; cmpxchgb %3, %1
      sete 2]                                 -- sete %2
    opnds := [(0, .inout), (1, .input), (2, .out), (3, .input)]
    fixed := [(0, 0)]
    addr := [1]
    results := [0, 2] }
  args a x := (x 0).setWidth 8 = a.1 ∧ (x 3).setWidth 8 = a.2
  ret _ r := bool8 (r 2) (.cas · ((r 0).setWidth 8))

/-- `add_and_test`, extra_ops_gcc_x86.hpp 269–320 (assembly block 297–304, without operands that are
flags).  Operands, in this order: [storage] "+m" (storage); [result] "=q" (res). -/
def addAndTestOneSet (R : Nat) : Fn R 8 (Unit) (Integral.Ret 8) where
  block := {
    prog := [
      incm 8 0,                               -- lock; incb %[storage]
      setnz 1]                                -- setnz %[result]
    opnds := [(0, .input), (1, .out)]
    addr := [0]
    results := [1] }
  args _ _ := True
  ret _ r := bool8 (r 1) .flag

/-- `add_and_test`, extra_ops_gcc_x86.hpp 269–320 (assembly block 308–315, without operands that are
flags).  Operands, in this order: [storage] "+m" (storage); [result] "=q" (res); [argument] "iq"
(v). -/
def addAndTestSet (R : Nat) : Fn R 8 (BitVec 8) (Integral.Ret 8) where
  block := {
    prog := [
      addm 8 2 0,                             -- lock; addb %[argument], %[storage]
      setnz 1]                                -- setnz %[result]
    opnds := [(0, .input), (1, .out), (2, .input)]
    addr := [0]
    results := [1] }
  args a x := (x 2).setWidth 8 = a
  ret _ r := bool8 (r 1) .flag

/-- `sub_and_test`, extra_ops_gcc_x86.hpp 322–373 (assembly block 350–357, without operands that are
flags).  Operands, in this order: [storage] "+m" (storage); [result] "=q" (res). -/
def subAndTestOneSet (R : Nat) : Fn R 8 (Unit) (Integral.Ret 8) where
  block := {
    prog := [
      decm 8 0,                               -- lock; decb %[storage]
      setnz 1]                                -- setnz %[result]
    opnds := [(0, .input), (1, .out)]
    addr := [0]
    results := [1] }
  args _ _ := True
  ret _ r := bool8 (r 1) .flag

/-- `sub_and_test`, extra_ops_gcc_x86.hpp 322–373 (assembly block 361–368, without operands that are
flags).  Operands, in this order: [storage] "+m" (storage); [result] "=q" (res); [argument] "iq"
(v). -/
def subAndTestSet (R : Nat) : Fn R 8 (BitVec 8) (Integral.Ret 8) where
  block := {
    prog := [
      subm 8 2 0,                             -- lock; subb %[argument], %[storage]
      setnz 1]                                -- setnz %[result]
    opnds := [(0, .input), (1, .out), (2, .input)]
    addr := [0]
    results := [1] }
  args a x := (x 2).setWidth 8 = a
  ret _ r := bool8 (r 1) .flag

/-- `and_and_test`, extra_ops_gcc_x86.hpp 375–399 (assembly block 388–395, without operands that are
flags).  Operands, in this order: [storage] "+m" (storage); [result] "=q" (res); [argument] "iq"
(v). -/
def andAndTestSet (R : Nat) : Fn R 8 (BitVec 8) (Integral.Ret 8) where
  block := {
    prog := [
      andm 8 2 0,                             -- lock; andb %[argument], %[storage]
      setnz 1]                                -- setnz %[result]
    opnds := [(0, .input), (1, .out), (2, .input)]
    addr := [0]
    results := [1] }
  args a x := (x 2).setWidth 8 = a
  ret _ r := bool8 (r 1) .flag

/-- `or_and_test`, extra_ops_gcc_x86.hpp 401–425 (assembly block 414–421, without operands that are
flags).  Operands, in this order: [storage] "+m" (storage); [result] "=q" (res); [argument] "iq"
(v). -/
def orAndTestSet (R : Nat) : Fn R 8 (BitVec 8) (Integral.Ret 8) where
  block := {
    prog := [
      orm 8 2 0,                              -- lock; orb %[argument], %[storage]
      setnz 1]                                -- setnz %[result]
    opnds := [(0, .input), (1, .out), (2, .input)]
    addr := [0]
    results := [1] }
  args a x := (x 2).setWidth 8 = a
  ret _ r := bool8 (r 1) .flag

/-- `xor_and_test`, extra_ops_gcc_x86.hpp 427–451 (assembly block 440–447, without operands that are
flags).  Operands, in this order: [storage] "+m" (storage); [result] "=q" (res); [argument] "iq"
(v). -/
def xorAndTestSet (R : Nat) : Fn R 8 (BitVec 8) (Integral.Ret 8) where
  block := {
    prog := [
      xorm 8 2 0,                             -- lock; xorb %[argument], %[storage]
      setnz 1]                                -- setnz %[result]
    opnds := [(0, .input), (1, .out), (2, .input)]
    addr := [0]
    results := [1] }
  args a x := (x 2).setWidth 8 = a
  ret _ r := bool8 (r 1) .flag

end X86x1

namespace X86x2
open X86

/-- `fetch_add`, core_arch_ops_gcc_x86.hpp 232–244 (assembly block 235–241).  Operands, in this
order: %0 "+q" (v); %1 "+m" (storage). -/
def fetchAdd (R : Nat) : Fn R 16 (BitVec 16) (Integral.Ret 16) where
  block := {
    prog := [
      xadd 16 0 1]                            -- lock; xaddw %0, %1
    opnds := [(0, .inout), (1, .input)]
    addr := [1]
    results := [0] }
  args a x := (x 0).setWidth 16 = a
  ret _ r := .val ((r 0).setWidth 16)

/-- `exchange`, core_arch_ops_gcc_x86.hpp 246–258 (assembly block 249–255).  Operands, in this
order: %0 "+q" (v); %1 "+m" (storage). -/
def exchange (R : Nat) : Fn R 16 (BitVec 16) (Integral.Ret 16) where
  block := {
    prog := [
      xchg 16 0 1]                            -- xchgw %0, %1
    opnds := [(0, .inout), (1, .input)]
    addr := [1]
    results := [0] }
  args a x := (x 0).setWidth 16 = a
  ret _ r := .val ((r 0).setWidth 16)

/-- `compare_exchange_strong`, core_arch_ops_gcc_x86.hpp 260–287 (assembly block 267–273). 
Operands, in this order: %0 "+a" (previous); %1 "+m" (storage); %2 "=@ccz" (success); %3 "q"
(desired). -/
def compareExchangeStrong (R : Nat) : Fn R 16 (BitVec 16 × BitVec 16) (Integral.Ret 16) where
  block := {
    prog := [
      cmpxchg 16 0 3 1,                       -- lock; cmpxchgw %3, %1
      sete 2]                                 -- sete %2
    opnds := [(0, .inout), (1, .input), (2, .out), (3, .input)]
    fixed := [(0, 0)]
    addr := [1]
    results := [0, 2] }
  args a x := (x 0).setWidth 16 = a.1 ∧ (x 3).setWidth 16 = a.2
  ret _ r := bool8 (r 2) (.cas · ((r 0).setWidth 16))

/-- `fetch_and`, core_arch_ops_gcc_x86.hpp 303–310 (assembly block 291–301).  Operands, in this
order: [res] "+a" (res); [storage] "+m" (storage); %2 "=&q" (new_val); [arg] "ir"
((temp_storage_type)v). -/
def fetchAnd (R : Nat) : Fn R 16 (BitVec 16) (Integral.Ret 16) where
  block := {
    prog := [
      .label 1,                               -- 1:
      mov 32 3 2,                             -- mov %[arg], %2
      and 16 0 2,                             -- andw %%ax, %w2
      cmpxchg 16 0 2 1,                       -- lock; cmpxchgw %w2, %[storage]
      jne 0 1 false]                          -- jne 1b
    opnds := [(0, .inout), (1, .input), (2, .outEarly), (3, .input)]
    fixed := [(0, 0)]
    differ := [(0, 1), (0, 3)]
    addr := [1]
    results := [0] }
  args a x := (x 3).setWidth 16 = a
  ret _ r := .val ((r 0).setWidth 16)

/-- `fetch_or`, core_arch_ops_gcc_x86.hpp 312–319 (assembly block 291–301).  Operands, in this
order: [res] "+a" (res); [storage] "+m" (storage); %2 "=&q" (new_val); [arg] "ir"
((temp_storage_type)v). -/
def fetchOr (R : Nat) : Fn R 16 (BitVec 16) (Integral.Ret 16) where
  block := {
    prog := [
      .label 1,                               -- 1:
      mov 32 3 2,                             -- mov %[arg], %2
      or 16 0 2,                              -- orw %%ax, %w2
      cmpxchg 16 0 2 1,                       -- lock; cmpxchgw %w2, %[storage]
      jne 0 1 false]                          -- jne 1b
    opnds := [(0, .inout), (1, .input), (2, .outEarly), (3, .input)]
    fixed := [(0, 0)]
    differ := [(0, 1), (0, 3)]
    addr := [1]
    results := [0] }
  args a x := (x 3).setWidth 16 = a
  ret _ r := .val ((r 0).setWidth 16)

/-- `fetch_xor`, core_arch_ops_gcc_x86.hpp 321–328 (assembly block 291–301).  Operands, in this
order: [res] "+a" (res); [storage] "+m" (storage); %2 "=&q" (new_val); [arg] "ir"
((temp_storage_type)v). -/
def fetchXor (R : Nat) : Fn R 16 (BitVec 16) (Integral.Ret 16) where
  block := {
    prog := [
      .label 1,                               -- 1:
      mov 32 3 2,                             -- mov %[arg], %2
      xor 16 0 2,                             -- xorw %%ax, %w2
      cmpxchg 16 0 2 1,                       -- lock; cmpxchgw %w2, %[storage]
      jne 0 1 false]                          -- jne 1b
    opnds := [(0, .inout), (1, .input), (2, .outEarly), (3, .input)]
    fixed := [(0, 0)]
    differ := [(0, 1), (0, 3)]
    addr := [1]
    results := [0] }
  args a x := (x 3).setWidth 16 = a
  ret _ r := .val ((r 0).setWidth 16)

/-- `fetch_negate`, extra_ops_gcc_x86.hpp 475–483 (assembly block 463–473).  Operands, in this
order: [orig] "+a" (original); [storage] "+m" (storage); %2 "=&q" (result). -/
def fetchNegate (R : Nat) : Fn R 16 (Unit) (Integral.Ret 16) where
  block := {
    prog := [
      .label 1,                               -- 1:
      movz 16 0 2,                            -- movzwl %[orig], %2
      neg 16 2,                               -- negw %w2
      cmpxchg 16 0 2 1,                       -- lock; cmpxchgw %w2, %[storage]
      jne 0 1 false]                          -- jne 1b
    opnds := [(0, .inout), (1, .input), (2, .outEarly)]
    fixed := [(0, 0)]
    differ := [(0, 1)]
    addr := [1]
    results := [0] }
  args _ _ := True
  ret _ r := .val ((r 0).setWidth 16)

/-- `fetch_complement`, extra_ops_gcc_x86.hpp 485–493 (assembly block 463–473).  Operands, in this
order: [orig] "+a" (original); [storage] "+m" (storage); %2 "=&q" (result). -/
def fetchComplement (R : Nat) : Fn R 16 (Unit) (Integral.Ret 16) where
  block := {
    prog := [
      .label 1,                               -- 1:
      movz 16 0 2,                            -- movzwl %[orig], %2
      not 16 2,                               -- notw %w2
      cmpxchg 16 0 2 1,                       -- lock; cmpxchgw %w2, %[storage]
      jne 0 1 false]                          -- jne 1b
    opnds := [(0, .inout), (1, .input), (2, .outEarly)]
    fixed := [(0, 0)]
    differ := [(0, 1)]
    addr := [1]
    results := [0] }
  args _ _ := True
  ret _ r := .val ((r 0).setWidth 16)

/-- `negate`, extra_ops_gcc_x86.hpp 495–503 (assembly block 463–473).  Operands, in this order:
[orig] "+a" (original); [storage] "+m" (storage); %2 "=&q" (result). -/
def negate (R : Nat) : Fn R 16 (Unit) (Integral.Ret 16) where
  block := {
    prog := [
      .label 1,                               -- 1:
      movz 16 0 2,                            -- movzwl %[orig], %2
      neg 16 2,                               -- negw %w2
      cmpxchg 16 0 2 1,                       -- lock; cmpxchgw %w2, %[storage]
      jne 0 1 false]                          -- jne 1b
    opnds := [(0, .inout), (1, .input), (2, .outEarly)]
    fixed := [(0, 0)]
    differ := [(0, 1)]
    addr := [1]
    results := [2] }
  args _ _ := True
  ret _ r := .val ((r 2).setWidth 16)

/-- `bitwise_complement`, extra_ops_gcc_x86.hpp 505–513 (assembly block 463–473).  Operands, in this
order: [orig] "+a" (original); [storage] "+m" (storage); %2 "=&q" (result). -/
def bitwiseComplement (R : Nat) : Fn R 16 (Unit) (Integral.Ret 16) where
  block := {
    prog := [
      .label 1,                               -- 1:
      movz 16 0 2,                            -- movzwl %[orig], %2
      not 16 2,                               -- notw %w2
      cmpxchg 16 0 2 1,                       -- lock; cmpxchgw %w2, %[storage]
      jne 0 1 false]                          -- jne 1b
    opnds := [(0, .inout), (1, .input), (2, .outEarly)]
    fixed := [(0, 0)]
    differ := [(0, 1)]
    addr := [1]
    results := [2] }
  args _ _ := True
  ret _ r := .val ((r 2).setWidth 16)

/-- `bitwise_and`, extra_ops_gcc_x86.hpp 530–538 (assembly block 518–528).  Operands, in this order:
[orig] "+a" (original); [storage] "+m" (storage); %2 "=&q" (result); [arg] "ir"
((temp_storage_type)v). -/
def bitwiseAnd (R : Nat) : Fn R 16 (BitVec 16) (Integral.Ret 16) where
  block := {
    prog := [
      .label 1,                               -- 1:
      mov 32 3 2,                             -- mov %[arg], %2
      and 16 0 2,                             -- andw %%ax, %w2
      cmpxchg 16 0 2 1,                       -- lock; cmpxchgw %w2, %[storage]
      jne 0 1 false]                          -- jne 1b
    opnds := [(0, .inout), (1, .input), (2, .outEarly), (3, .input)]
    fixed := [(0, 0)]
    differ := [(0, 1), (0, 3)]
    addr := [1]
    results := [2] }
  args a x := (x 3).setWidth 16 = a
  ret _ r := .val ((r 2).setWidth 16)

/-- `bitwise_or`, extra_ops_gcc_x86.hpp 540–548 (assembly block 518–528).  Operands, in this order:
[orig] "+a" (original); [storage] "+m" (storage); %2 "=&q" (result); [arg] "ir"
((temp_storage_type)v). -/
def bitwiseOr (R : Nat) : Fn R 16 (BitVec 16) (Integral.Ret 16) where
  block := {
    prog := [
      .label 1,                               -- 1:
      mov 32 3 2,                             -- mov %[arg], %2
      or 16 0 2,                              -- orw %%ax, %w2
      cmpxchg 16 0 2 1,                       -- lock; cmpxchgw %w2, %[storage]
      jne 0 1 false]                          -- jne 1b
    opnds := [(0, .inout), (1, .input), (2, .outEarly), (3, .input)]
    fixed := [(0, 0)]
    differ := [(0, 1), (0, 3)]
    addr := [1]
    results := [2] }
  args a x := (x 3).setWidth 16 = a
  ret _ r := .val ((r 2).setWidth 16)

/-- `bitwise_xor`, extra_ops_gcc_x86.hpp 550–558 (assembly block 518–528).  Operands, in this order:
[orig] "+a" (original); [storage] "+m" (storage); %2 "=&q" (result); [arg] "ir"
((temp_storage_type)v). -/
def bitwiseXor (R : Nat) : Fn R 16 (BitVec 16) (Integral.Ret 16) where
  block := {
    prog := [
      .label 1,                               -- 1:
      mov 32 3 2,                             -- mov %[arg], %2
      xor 16 0 2,                             -- xorw %%ax, %w2
      cmpxchg 16 0 2 1,                       -- lock; cmpxchgw %w2, %[storage]
      jne 0 1 false]                          -- jne 1b
    opnds := [(0, .inout), (1, .input), (2, .outEarly), (3, .input)]
    fixed := [(0, 0)]
    differ := [(0, 1), (0, 3)]
    addr := [1]
    results := [2] }
  args a x := (x 3).setWidth 16 = a
  ret _ r := .val ((r 2).setWidth 16)

/-- `opaque_add`, extra_ops_gcc_x86.hpp 572–596 (assembly block 577–583).  Operands, in this order:
[storage] "+m" (storage). -/
def opaqueAddOne (R : Nat) : Fn R 16 (Unit) (Integral.Ret 16) where
  block := {
    prog := [
      incm 16 0]                              -- lock; incw %[storage]
    opnds := [(0, .input)]
    addr := [0]
    results := [] }
  args _ _ := True
  ret _ _ := .unit

/-- `opaque_add`, extra_ops_gcc_x86.hpp 572–596 (assembly block 587–593).  Operands, in this order:
[storage] "+m" (storage); [argument] "iq" (v). -/
def opaqueAdd (R : Nat) : Fn R 16 (BitVec 16) (Integral.Ret 16) where
  block := {
    prog := [
      addm 16 1 0]                            -- lock; addw %[argument], %[storage]
    opnds := [(0, .input), (1, .input)]
    addr := [0]
    results := [] }
  args a x := (x 1).setWidth 16 = a
  ret _ _ := .unit

/-- `opaque_sub`, extra_ops_gcc_x86.hpp 598–622 (assembly block 603–609).  Operands, in this order:
[storage] "+m" (storage). -/
def opaqueSubOne (R : Nat) : Fn R 16 (Unit) (Integral.Ret 16) where
  block := {
    prog := [
      decm 16 0]                              -- lock; decw %[storage]
    opnds := [(0, .input)]
    addr := [0]
    results := [] }
  args _ _ := True
  ret _ _ := .unit

/-- `opaque_sub`, extra_ops_gcc_x86.hpp 598–622 (assembly block 613–619).  Operands, in this order:
[storage] "+m" (storage); [argument] "iq" (v). -/
def opaqueSub (R : Nat) : Fn R 16 (BitVec 16) (Integral.Ret 16) where
  block := {
    prog := [
      subm 16 1 0]                            -- lock; subw %[argument], %[storage]
    opnds := [(0, .input), (1, .input)]
    addr := [0]
    results := [] }
  args a x := (x 1).setWidth 16 = a
  ret _ _ := .unit

/-- `opaque_negate`, extra_ops_gcc_x86.hpp 624–635 (assembly block 627–633).  Operands, in this
order: [storage] "+m" (storage). -/
def opaqueNegate (R : Nat) : Fn R 16 (Unit) (Integral.Ret 16) where
  block := {
    prog := [
      negm 16 0]                              -- lock; negw %[storage]
    opnds := [(0, .input)]
    addr := [0]
    results := [] }
  args _ _ := True
  ret _ _ := .unit

/-- `opaque_and`, extra_ops_gcc_x86.hpp 637–648 (assembly block 640–646).  Operands, in this order:
[storage] "+m" (storage); [argument] "iq" (v). -/
def opaqueAnd (R : Nat) : Fn R 16 (BitVec 16) (Integral.Ret 16) where
  block := {
    prog := [
      andm 16 1 0]                            -- lock; andw %[argument], %[storage]
    opnds := [(0, .input), (1, .input)]
    addr := [0]
    results := [] }
  args a x := (x 1).setWidth 16 = a
  ret _ _ := .unit

/-- `opaque_or`, extra_ops_gcc_x86.hpp 650–661 (assembly block 653–659).  Operands, in this order:
[storage] "+m" (storage); [argument] "iq" (v). -/
def opaqueOr (R : Nat) : Fn R 16 (BitVec 16) (Integral.Ret 16) where
  block := {
    prog := [
      orm 16 1 0]                             -- lock; orw %[argument], %[storage]
    opnds := [(0, .input), (1, .input)]
    addr := [0]
    results := [] }
  args a x := (x 1).setWidth 16 = a
  ret _ _ := .unit

/-- `opaque_xor`, extra_ops_gcc_x86.hpp 663–674 (assembly block 666–672).  Operands, in this order:
[storage] "+m" (storage); [argument] "iq" (v). -/
def opaqueXor (R : Nat) : Fn R 16 (BitVec 16) (Integral.Ret 16) where
  block := {
    prog := [
      xorm 16 1 0]                            -- lock; xorw %[argument], %[storage]
    opnds := [(0, .input), (1, .input)]
    addr := [0]
    results := [] }
  args a x := (x 1).setWidth 16 = a
  ret _ _ := .unit

/-- `opaque_complement`, extra_ops_gcc_x86.hpp 676–687 (assembly block 679–685).  Operands, in this
order: [storage] "+m" (storage). -/
def opaqueComplement (R : Nat) : Fn R 16 (Unit) (Integral.Ret 16) where
  block := {
    prog := [
      notm 16 0]                              -- lock; notw %[storage]
    opnds := [(0, .input)]
    addr := [0]
    results := [] }
  args _ _ := True
  ret _ _ := .unit

/-- `add_and_test`, extra_ops_gcc_x86.hpp 689–740 (assembly block 696–702).  Operands, in this
order: [storage] "+m" (storage); [result] "=@ccnz" (res). -/
def addAndTestOne (R : Nat) : Fn R 16 (Unit) (Integral.Ret 16) where
  block := {
    prog := [
      incm 16 0,                              -- lock; incw %[storage]
      setnz 1]                                -- setnz %1
    opnds := [(0, .input), (1, .out)]
    addr := [0]
    results := [1] }
  args _ _ := True
  ret _ r := bool8 (r 1) .flag

/-- `add_and_test`, extra_ops_gcc_x86.hpp 689–740 (assembly block 706–712).  Operands, in this
order: [storage] "+m" (storage); [result] "=@ccnz" (res); [argument] "iq" (v). -/
def addAndTest (R : Nat) : Fn R 16 (BitVec 16) (Integral.Ret 16) where
  block := {
    prog := [
      addm 16 2 0,                            -- lock; addw %[argument], %[storage]
      setnz 1]                                -- setnz %1
    opnds := [(0, .input), (1, .out), (2, .input)]
    addr := [0]
    results := [1] }
  args a x := (x 2).setWidth 16 = a
  ret _ r := bool8 (r 1) .flag

/-- `sub_and_test`, extra_ops_gcc_x86.hpp 742–793 (assembly block 749–755).  Operands, in this
order: [storage] "+m" (storage); [result] "=@ccnz" (res). -/
def subAndTestOne (R : Nat) : Fn R 16 (Unit) (Integral.Ret 16) where
  block := {
    prog := [
      decm 16 0,                              -- lock; decw %[storage]
      setnz 1]                                -- setnz %1
    opnds := [(0, .input), (1, .out)]
    addr := [0]
    results := [1] }
  args _ _ := True
  ret _ r := bool8 (r 1) .flag

/-- `sub_and_test`, extra_ops_gcc_x86.hpp 742–793 (assembly block 759–765).  Operands, in this
order: [storage] "+m" (storage); [result] "=@ccnz" (res); [argument] "iq" (v). -/
def subAndTest (R : Nat) : Fn R 16 (BitVec 16) (Integral.Ret 16) where
  block := {
    prog := [
      subm 16 2 0,                            -- lock; subw %[argument], %[storage]
      setnz 1]                                -- setnz %1
    opnds := [(0, .input), (1, .out), (2, .input)]
    addr := [0]
    results := [1] }
  args a x := (x 2).setWidth 16 = a
  ret _ r := bool8 (r 1) .flag

/-- `and_and_test`, extra_ops_gcc_x86.hpp 795–819 (assembly block 800–806).  Operands, in this
order: [storage] "+m" (storage); [result] "=@ccnz" (res); [argument] "iq" (v). -/
def andAndTest (R : Nat) : Fn R 16 (BitVec 16) (Integral.Ret 16) where
  block := {
    prog := [
      andm 16 2 0,                            -- lock; andw %[argument], %[storage]
      setnz 1]                                -- setnz %1
    opnds := [(0, .input), (1, .out), (2, .input)]
    addr := [0]
    results := [1] }
  args a x := (x 2).setWidth 16 = a
  ret _ r := bool8 (r 1) .flag

/-- `or_and_test`, extra_ops_gcc_x86.hpp 821–845 (assembly block 826–832).  Operands, in this order:
[storage] "+m" (storage); [result] "=@ccnz" (res); [argument] "iq" (v). -/
def orAndTest (R : Nat) : Fn R 16 (BitVec 16) (Integral.Ret 16) where
  block := {
    prog := [
      orm 16 2 0,                             -- lock; orw %[argument], %[storage]
      setnz 1]                                -- setnz %1
    opnds := [(0, .input), (1, .out), (2, .input)]
    addr := [0]
    results := [1] }
  args a x := (x 2).setWidth 16 = a
  ret _ r := bool8 (r 1) .flag

/-- `xor_and_test`, extra_ops_gcc_x86.hpp 847–871 (assembly block 852–858).  Operands, in this
order: [storage] "+m" (storage); [result] "=@ccnz" (res); [argument] "iq" (v). -/
def xorAndTest (R : Nat) : Fn R 16 (BitVec 16) (Integral.Ret 16) where
  block := {
    prog := [
      xorm 16 2 0,                            -- lock; xorw %[argument], %[storage]
      setnz 1]                                -- setnz %1
    opnds := [(0, .input), (1, .out), (2, .input)]
    addr := [0]
    results := [1] }
  args a x := (x 2).setWidth 16 = a
  ret _ r := bool8 (r 1) .flag

/-- `bit_test_and_set`, extra_ops_gcc_x86.hpp 873–897 (assembly block 878–884).  Operands, in this
order: [storage] "+m" (storage); [result] "=@ccc" (res); [bit_number] "Kq"
((std::uint16_t)bit_number). -/
def bitTestAndSet (R : Nat) : Fn R 16 (Fin 16) (Integral.Ret 16) where
  block := {
    prog := [
      bts 16 2 0,                             -- lock; btsw %[bit_number], %[storage]
      setc 1]                                 -- setc %1
    opnds := [(0, .input), (1, .out), (2, .input)]
    addr := [0]
    results := [1] }
  args a x := (x 2).setWidth 16 = BitVec.ofNat 16 a
  ret _ r := bool8 (r 1) .flag

/-- `bit_test_and_reset`, extra_ops_gcc_x86.hpp 899–923 (assembly block 904–910).  Operands, in this
order: [storage] "+m" (storage); [result] "=@ccc" (res); [bit_number] "Kq"
((std::uint16_t)bit_number). -/
def bitTestAndReset (R : Nat) : Fn R 16 (Fin 16) (Integral.Ret 16) where
  block := {
    prog := [
      btr 16 2 0,                             -- lock; btrw %[bit_number], %[storage]
      setc 1]                                 -- setc %1
    opnds := [(0, .input), (1, .out), (2, .input)]
    addr := [0]
    results := [1] }
  args a x := (x 2).setWidth 16 = BitVec.ofNat 16 a
  ret _ r := bool8 (r 1) .flag

/-- `bit_test_and_complement`, extra_ops_gcc_x86.hpp 925–949 (assembly block 930–936).  Operands, in
this order: [storage] "+m" (storage); [result] "=@ccc" (res); [bit_number] "Kq"
((std::uint16_t)bit_number). -/
def bitTestAndComplement (R : Nat) : Fn R 16 (Fin 16) (Integral.Ret 16) where
  block := {
    prog := [
      btc 16 2 0,                             -- lock; btcw %[bit_number], %[storage]
      setc 1]                                 -- setc %1
    opnds := [(0, .input), (1, .out), (2, .input)]
    addr := [0]
    results := [1] }
  args a x := (x 2).setWidth 16 = BitVec.ofNat 16 a
  ret _ r := bool8 (r 1) .flag

/-- `compare_exchange_strong`, core_arch_ops_gcc_x86.hpp 260–287 (assembly block 275–282, without
operands that are flags).  Operands, in this order: %0 "+a" (previous); %1 "+m" (storage); %2 "=q"
(success); %3 "q" (desired). -/
def compareExchangeStrongSet (R : Nat) : Fn R 16 (BitVec 16 × BitVec 16) (Integral.Ret 16) where
  block := {
    prog := [
      cmpxchg 16 0 3 1,                       -- lock; cmpxchgw %3, %1
      sete 2]                                 -- sete %2
    opnds := [(0, .inout), (1, .input), (2, .out), (3, .input)]
    fixed := [(0, 0)]
    addr := [1]
    results := [0, 2] }
  args a x := (x 0).setWidth 16 = a.1 ∧ (x 3).setWidth 16 = a.2
  ret _ r := bool8 (r 2) (.cas · ((r 0).setWidth 16))

/-- `add_and_test`, extra_ops_gcc_x86.hpp 689–740 (assembly block 717–724, without operands that are
flags).  Operands, in this order: [storage] "+m" (storage); [result] "=q" (res). -/
def addAndTestOneSet (R : Nat) : Fn R 16 (Unit) (Integral.Ret 16) where
  block := {
    prog := [
      incm 16 0,                              -- lock; incw %[storage]
      setnz 1]                                -- setnz %[result]
    opnds := [(0, .input), (1, .out)]
    addr := [0]
    results := [1] }
  args _ _ := True
  ret _ r := bool8 (r 1) .flag

/-- `add_and_test`, extra_ops_gcc_x86.hpp 689–740 (assembly block 728–735, without operands that are
flags).  Operands, in this order: [storage] "+m" (storage); [result] "=q" (res); [argument] "iq"
(v). -/
def addAndTestSet (R : Nat) : Fn R 16 (BitVec 16) (Integral.Ret 16) where
  block := {
    prog := [
      addm 16 2 0,                            -- lock; addw %[argument], %[storage]
      setnz 1]                                -- setnz %[result]
    opnds := [(0, .input), (1, .out), (2, .input)]
    addr := [0]
    results := [1] }
  args a x := (x 2).setWidth 16 = a
  ret _ r := bool8 (r 1) .flag

/-- `sub_and_test`, extra_ops_gcc_x86.hpp 742–793 (assembly block 770–777, without operands that are
flags).  Operands, in this order: [storage] "+m" (storage); [result] "=q" (res). -/
def subAndTestOneSet (R : Nat) : Fn R 16 (Unit) (Integral.Ret 16) where
  block := {
    prog := [
      decm 16 0,                              -- lock; decw %[storage]
      setnz 1]                                -- setnz %[result]
    opnds := [(0, .input), (1, .out)]
    addr := [0]
    results := [1] }
  args _ _ := True
  ret _ r := bool8 (r 1) .flag

/-- `sub_and_test`, extra_ops_gcc_x86.hpp 742–793 (assembly block 781–788, without operands that are
flags).  Operands, in this order: [storage] "+m" (storage); [result] "=q" (res); [argument] "iq"
(v). -/
def subAndTestSet (R : Nat) : Fn R 16 (BitVec 16) (Integral.Ret 16) where
  block := {
    prog := [
      subm 16 2 0,                            -- lock; subw %[argument], %[storage]
      setnz 1]                                -- setnz %[result]
    opnds := [(0, .input), (1, .out), (2, .input)]
    addr := [0]
    results := [1] }
  args a x := (x 2).setWidth 16 = a
  ret _ r := bool8 (r 1) .flag

/-- `and_and_test`, extra_ops_gcc_x86.hpp 795–819 (assembly block 808–815, without operands that are
flags).  Operands, in this order: [storage] "+m" (storage); [result] "=q" (res); [argument] "iq"
(v). -/
def andAndTestSet (R : Nat) : Fn R 16 (BitVec 16) (Integral.Ret 16) where
  block := {
    prog := [
      andm 16 2 0,                            -- lock; andw %[argument], %[storage]
      setnz 1]                                -- setnz %[result]
    opnds := [(0, .input), (1, .out), (2, .input)]
    addr := [0]
    results := [1] }
  args a x := (x 2).setWidth 16 = a
  ret _ r := bool8 (r 1) .flag

/-- `or_and_test`, extra_ops_gcc_x86.hpp 821–845 (assembly block 834–841, without operands that are
flags).  Operands, in this order: [storage] "+m" (storage); [result] "=q" (res); [argument] "iq"
(v). -/
def orAndTestSet (R : Nat) : Fn R 16 (BitVec 16) (Integral.Ret 16) where
  block := {
    prog := [
      orm 16 2 0,                             -- lock; orw %[argument], %[storage]
      setnz 1]                                -- setnz %[result]
    opnds := [(0, .input), (1, .out), (2, .input)]
    addr := [0]
    results := [1] }
  args a x := (x 2).setWidth 16 = a
  ret _ r := bool8 (r 1) .flag

/-- `xor_and_test`, extra_ops_gcc_x86.hpp 847–871 (assembly block 860–867, without operands that are
flags).  Operands, in this order: [storage] "+m" (storage); [result] "=q" (res); [argument] "iq"
(v). -/
def xorAndTestSet (R : Nat) : Fn R 16 (BitVec 16) (Integral.Ret 16) where
  block := {
    prog := [
      xorm 16 2 0,                            -- lock; xorw %[argument], %[storage]
      setnz 1]                                -- setnz %[result]
    opnds := [(0, .input), (1, .out), (2, .input)]
    addr := [0]
    results := [1] }
  args a x := (x 2).setWidth 16 = a
  ret _ r := bool8 (r 1) .flag

/-- `bit_test_and_set`, extra_ops_gcc_x86.hpp 873–897 (assembly block 886–893, without operands that
are flags).  Operands, in this order: [storage] "+m" (storage); [result] "=q" (res); [bit_number]
"Kq" ((std::uint16_t)bit_number). -/
def bitTestAndSetSet (R : Nat) : Fn R 16 (Fin 16) (Integral.Ret 16) where
  block := {
    prog := [
      bts 16 2 0,                             -- lock; btsw %[bit_number], %[storage]
      setc 1]                                 -- setc %[result]
    opnds := [(0, .input), (1, .out), (2, .input)]
    addr := [0]
    results := [1] }
  args a x := (x 2).setWidth 16 = BitVec.ofNat 16 a
  ret _ r := bool8 (r 1) .flag

/-- `bit_test_and_reset`, extra_ops_gcc_x86.hpp 899–923 (assembly block 912–919, without operands
that are flags).  Operands, in this order: [storage] "+m" (storage); [result] "=q" (res);
[bit_number] "Kq" ((std::uint16_t)bit_number). -/
def bitTestAndResetSet (R : Nat) : Fn R 16 (Fin 16) (Integral.Ret 16) where
  block := {
    prog := [
      btr 16 2 0,                             -- lock; btrw %[bit_number], %[storage]
      setc 1]                                 -- setc %[result]
    opnds := [(0, .input), (1, .out), (2, .input)]
    addr := [0]
    results := [1] }
  args a x := (x 2).setWidth 16 = BitVec.ofNat 16 a
  ret _ r := bool8 (r 1) .flag

/-- `bit_test_and_complement`, extra_ops_gcc_x86.hpp 925–949 (assembly block 938–945, without
operands that are flags).  Operands, in this order: [storage] "+m" (storage); [result] "=q" (res);
[bit_number] "Kq" ((std::uint16_t)bit_number). -/
def bitTestAndComplementSet (R : Nat) : Fn R 16 (Fin 16) (Integral.Ret 16) where
  block := {
    prog := [
      btc 16 2 0,                             -- lock; btcw %[bit_number], %[storage]
      setc 1]                                 -- setc %[result]
    opnds := [(0, .input), (1, .out), (2, .input)]
    addr := [0]
    results := [1] }
  args a x := (x 2).setWidth 16 = BitVec.ofNat 16 a
  ret _ r := bool8 (r 1) .flag

end X86x2

namespace X86x4
open X86

/-- `fetch_add`, core_arch_ops_gcc_x86.hpp 340–352 (assembly block 343–349).  Operands, in this
order: %0 "+r" (v); %1 "+m" (storage). -/
def fetchAdd (R : Nat) : Fn R 32 (BitVec 32) (Integral.Ret 32) where
  block := {
    prog := [
      xadd 32 0 1]                            -- lock; xaddl %0, %1
    opnds := [(0, .inout), (1, .input)]
    addr := [1]
    results := [0] }
  args a x := (x 0).setWidth 32 = a
  ret _ r := .val ((r 0).setWidth 32)

/-- `exchange`, core_arch_ops_gcc_x86.hpp 354–366 (assembly block 357–363).  Operands, in this
order: %0 "+r" (v); %1 "+m" (storage). -/
def exchange (R : Nat) : Fn R 32 (BitVec 32) (Integral.Ret 32) where
  block := {
    prog := [
      xchg 32 0 1]                            -- xchgl %0, %1
    opnds := [(0, .inout), (1, .input)]
    addr := [1]
    results := [0] }
  args a x := (x 0).setWidth 32 = a
  ret _ r := .val ((r 0).setWidth 32)

/-- `compare_exchange_strong`, core_arch_ops_gcc_x86.hpp 368–395 (assembly block 375–381). 
Operands, in this order: %0 "+a" (previous); %1 "+m" (storage); %2 "=@ccz" (success); %3 "r"
(desired). -/
def compareExchangeStrong (R : Nat) : Fn R 32 (BitVec 32 × BitVec 32) (Integral.Ret 32) where
  block := {
    prog := [
      cmpxchg 32 0 3 1,                       -- lock; cmpxchgl %3, %1
      sete 2]                                 -- sete %2
    opnds := [(0, .inout), (1, .input), (2, .out), (3, .input)]
    fixed := [(0, 0)]
    addr := [1]
    results := [0, 2] }
  args a x := (x 0).setWidth 32 = a.1 ∧ (x 3).setWidth 32 = a.2
  ret _ r := bool8 (r 2) (.cas · ((r 0).setWidth 32))

/-- `fetch_and`, core_arch_ops_gcc_x86.hpp 411–418 (assembly block 399–409).  Operands, in this
order: [res] "+a" (res); [storage] "+m" (storage); [new_val] "=&r" (new_val); [arg] "ir" (v). -/
def fetchAnd (R : Nat) : Fn R 32 (BitVec 32) (Integral.Ret 32) where
  block := {
    prog := [
      .label 1,                               -- 1:
      mov 32 3 2,                             -- mov %[arg], %[new_val]
      and 32 0 2,                             -- andl %%eax, %[new_val]
      cmpxchg 32 0 2 1,                       -- lock; cmpxchgl %[new_val], %[storage]
      jne 0 1 false]                          -- jne 1b
    opnds := [(0, .inout), (1, .input), (2, .outEarly), (3, .input)]
    fixed := [(0, 0)]
    differ := [(0, 1), (0, 3)]
    addr := [1]
    results := [0] }
  args a x := (x 3).setWidth 32 = a
  ret _ r := .val ((r 0).setWidth 32)

/-- `fetch_or`, core_arch_ops_gcc_x86.hpp 420–427 (assembly block 399–409).  Operands, in this
order: [res] "+a" (res); [storage] "+m" (storage); [new_val] "=&r" (new_val); [arg] "ir" (v). -/
def fetchOr (R : Nat) : Fn R 32 (BitVec 32) (Integral.Ret 32) where
  block := {
    prog := [
      .label 1,                               -- 1:
      mov 32 3 2,                             -- mov %[arg], %[new_val]
      or 32 0 2,                              -- orl %%eax, %[new_val]
      cmpxchg 32 0 2 1,                       -- lock; cmpxchgl %[new_val], %[storage]
      jne 0 1 false]                          -- jne 1b
    opnds := [(0, .inout), (1, .input), (2, .outEarly), (3, .input)]
    fixed := [(0, 0)]
    differ := [(0, 1), (0, 3)]
    addr := [1]
    results := [0] }
  args a x := (x 3).setWidth 32 = a
  ret _ r := .val ((r 0).setWidth 32)

/-- `fetch_xor`, core_arch_ops_gcc_x86.hpp 429–436 (assembly block 399–409).  Operands, in this
order: [res] "+a" (res); [storage] "+m" (storage); [new_val] "=&r" (new_val); [arg] "ir" (v). -/
def fetchXor (R : Nat) : Fn R 32 (BitVec 32) (Integral.Ret 32) where
  block := {
    prog := [
      .label 1,                               -- 1:
      mov 32 3 2,                             -- mov %[arg], %[new_val]
      xor 32 0 2,                             -- xorl %%eax, %[new_val]
      cmpxchg 32 0 2 1,                       -- lock; cmpxchgl %[new_val], %[storage]
      jne 0 1 false]                          -- jne 1b
    opnds := [(0, .inout), (1, .input), (2, .outEarly), (3, .input)]
    fixed := [(0, 0)]
    differ := [(0, 1), (0, 3)]
    addr := [1]
    results := [0] }
  args a x := (x 3).setWidth 32 = a
  ret _ r := .val ((r 0).setWidth 32)

/-- `fetch_negate`, extra_ops_gcc_x86.hpp 972–980 (assembly block 960–970).  Operands, in this
order: [orig] "+a" (original); [storage] "+m" (storage); [res] "=&r" (result). -/
def fetchNegate (R : Nat) : Fn R 32 (Unit) (Integral.Ret 32) where
  block := {
    prog := [
      .label 1,                               -- 1:
      mov 32 0 2,                             -- mov %[orig], %[res]
      neg 32 2,                               -- negl %[res]
      cmpxchg 32 0 2 1,                       -- lock; cmpxchgl %[res], %[storage]
      jne 0 1 false]                          -- jne 1b
    opnds := [(0, .inout), (1, .input), (2, .outEarly)]
    fixed := [(0, 0)]
    differ := [(0, 1)]
    addr := [1]
    results := [0] }
  args _ _ := True
  ret _ r := .val ((r 0).setWidth 32)

/-- `fetch_complement`, extra_ops_gcc_x86.hpp 982–990 (assembly block 960–970).  Operands, in this
order: [orig] "+a" (original); [storage] "+m" (storage); [res] "=&r" (result). -/
def fetchComplement (R : Nat) : Fn R 32 (Unit) (Integral.Ret 32) where
  block := {
    prog := [
      .label 1,                               -- 1:
      mov 32 0 2,                             -- mov %[orig], %[res]
      not 32 2,                               -- notl %[res]
      cmpxchg 32 0 2 1,                       -- lock; cmpxchgl %[res], %[storage]
      jne 0 1 false]                          -- jne 1b
    opnds := [(0, .inout), (1, .input), (2, .outEarly)]
    fixed := [(0, 0)]
    differ := [(0, 1)]
    addr := [1]
    results := [0] }
  args _ _ := True
  ret _ r := .val ((r 0).setWidth 32)

/-- `negate`, extra_ops_gcc_x86.hpp 992–1000 (assembly block 960–970).  Operands, in this order:
[orig] "+a" (original); [storage] "+m" (storage); [res] "=&r" (result). -/
def negate (R : Nat) : Fn R 32 (Unit) (Integral.Ret 32) where
  block := {
    prog := [
      .label 1,                               -- 1:
      mov 32 0 2,                             -- mov %[orig], %[res]
      neg 32 2,                               -- negl %[res]
      cmpxchg 32 0 2 1,                       -- lock; cmpxchgl %[res], %[storage]
      jne 0 1 false]                          -- jne 1b
    opnds := [(0, .inout), (1, .input), (2, .outEarly)]
    fixed := [(0, 0)]
    differ := [(0, 1)]
    addr := [1]
    results := [2] }
  args _ _ := True
  ret _ r := .val ((r 2).setWidth 32)

/-- `bitwise_complement`, extra_ops_gcc_x86.hpp 1002–1010 (assembly block 960–970).  Operands, in
this order: [orig] "+a" (original); [storage] "+m" (storage); [res] "=&r" (result). -/
def bitwiseComplement (R : Nat) : Fn R 32 (Unit) (Integral.Ret 32) where
  block := {
    prog := [
      .label 1,                               -- 1:
      mov 32 0 2,                             -- mov %[orig], %[res]
      not 32 2,                               -- notl %[res]
      cmpxchg 32 0 2 1,                       -- lock; cmpxchgl %[res], %[storage]
      jne 0 1 false]                          -- jne 1b
    opnds := [(0, .inout), (1, .input), (2, .outEarly)]
    fixed := [(0, 0)]
    differ := [(0, 1)]
    addr := [1]
    results := [2] }
  args _ _ := True
  ret _ r := .val ((r 2).setWidth 32)

/-- `bitwise_and`, extra_ops_gcc_x86.hpp 1027–1035 (assembly block 1015–1025).  Operands, in this
order: [orig] "+a" (original); [storage] "+m" (storage); [res] "=&r" (result); [arg] "ir" (v). -/
def bitwiseAnd (R : Nat) : Fn R 32 (BitVec 32) (Integral.Ret 32) where
  block := {
    prog := [
      .label 1,                               -- 1:
      mov 32 3 2,                             -- mov %[arg], %[res]
      and 32 0 2,                             -- andl %%eax, %[res]
      cmpxchg 32 0 2 1,                       -- lock; cmpxchgl %[res], %[storage]
      jne 0 1 false]                          -- jne 1b
    opnds := [(0, .inout), (1, .input), (2, .outEarly), (3, .input)]
    fixed := [(0, 0)]
    differ := [(0, 1), (0, 3)]
    addr := [1]
    results := [2] }
  args a x := (x 3).setWidth 32 = a
  ret _ r := .val ((r 2).setWidth 32)

/-- `bitwise_or`, extra_ops_gcc_x86.hpp 1037–1045 (assembly block 1015–1025).  Operands, in this
order: [orig] "+a" (original); [storage] "+m" (storage); [res] "=&r" (result); [arg] "ir" (v). -/
def bitwiseOr (R : Nat) : Fn R 32 (BitVec 32) (Integral.Ret 32) where
  block := {
    prog := [
      .label 1,                               -- 1:
      mov 32 3 2,                             -- mov %[arg], %[res]
      or 32 0 2,                              -- orl %%eax, %[res]
      cmpxchg 32 0 2 1,                       -- lock; cmpxchgl %[res], %[storage]
      jne 0 1 false]                          -- jne 1b
    opnds := [(0, .inout), (1, .input), (2, .outEarly), (3, .input)]
    fixed := [(0, 0)]
    differ := [(0, 1), (0, 3)]
    addr := [1]
    results := [2] }
  args a x := (x 3).setWidth 32 = a
  ret _ r := .val ((r 2).setWidth 32)

/-- `bitwise_xor`, extra_ops_gcc_x86.hpp 1047–1055 (assembly block 1015–1025).  Operands, in this
order: [orig] "+a" (original); [storage] "+m" (storage); [res] "=&r" (result); [arg] "ir" (v). -/
def bitwiseXor (R : Nat) : Fn R 32 (BitVec 32) (Integral.Ret 32) where
  block := {
    prog := [
      .label 1,                               -- 1:
      mov 32 3 2,                             -- mov %[arg], %[res]
      xor 32 0 2,                             -- xorl %%eax, %[res]
      cmpxchg 32 0 2 1,                       -- lock; cmpxchgl %[res], %[storage]
      jne 0 1 false]                          -- jne 1b
    opnds := [(0, .inout), (1, .input), (2, .outEarly), (3, .input)]
    fixed := [(0, 0)]
    differ := [(0, 1), (0, 3)]
    addr := [1]
    results := [2] }
  args a x := (x 3).setWidth 32 = a
  ret _ r := .val ((r 2).setWidth 32)

/-- `opaque_add`, extra_ops_gcc_x86.hpp 1069–1093 (assembly block 1074–1080).  Operands, in this
order: [storage] "+m" (storage). -/
def opaqueAddOne (R : Nat) : Fn R 32 (Unit) (Integral.Ret 32) where
  block := {
    prog := [
      incm 32 0]                              -- lock; incl %[storage]
    opnds := [(0, .input)]
    addr := [0]
    results := [] }
  args _ _ := True
  ret _ _ := .unit

/-- `opaque_add`, extra_ops_gcc_x86.hpp 1069–1093 (assembly block 1084–1090).  Operands, in this
order: [storage] "+m" (storage); [argument] "ir" (v). -/
def opaqueAdd (R : Nat) : Fn R 32 (BitVec 32) (Integral.Ret 32) where
  block := {
    prog := [
      addm 32 1 0]                            -- lock; addl %[argument], %[storage]
    opnds := [(0, .input), (1, .input)]
    addr := [0]
    results := [] }
  args a x := (x 1).setWidth 32 = a
  ret _ _ := .unit

/-- `opaque_sub`, extra_ops_gcc_x86.hpp 1095–1119 (assembly block 1100–1106).  Operands, in this
order: [storage] "+m" (storage). -/
def opaqueSubOne (R : Nat) : Fn R 32 (Unit) (Integral.Ret 32) where
  block := {
    prog := [
      decm 32 0]                              -- lock; decl %[storage]
    opnds := [(0, .input)]
    addr := [0]
    results := [] }
  args _ _ := True
  ret _ _ := .unit

/-- `opaque_sub`, extra_ops_gcc_x86.hpp 1095–1119 (assembly block 1110–1116).  Operands, in this
order: [storage] "+m" (storage); [argument] "ir" (v). -/
def opaqueSub (R : Nat) : Fn R 32 (BitVec 32) (Integral.Ret 32) where
  block := {
    prog := [
      subm 32 1 0]                            -- lock; subl %[argument], %[storage]
    opnds := [(0, .input), (1, .input)]
    addr := [0]
    results := [] }
  args a x := (x 1).setWidth 32 = a
  ret _ _ := .unit

/-- `opaque_negate`, extra_ops_gcc_x86.hpp 1121–1132 (assembly block 1124–1130).  Operands, in this
order: [storage] "+m" (storage). -/
def opaqueNegate (R : Nat) : Fn R 32 (Unit) (Integral.Ret 32) where
  block := {
    prog := [
      negm 32 0]                              -- lock; negl %[storage]
    opnds := [(0, .input)]
    addr := [0]
    results := [] }
  args _ _ := True
  ret _ _ := .unit

/-- `opaque_and`, extra_ops_gcc_x86.hpp 1134–1145 (assembly block 1137–1143).  Operands, in this
order: [storage] "+m" (storage); [argument] "ir" (v). -/
def opaqueAnd (R : Nat) : Fn R 32 (BitVec 32) (Integral.Ret 32) where
  block := {
    prog := [
      andm 32 1 0]                            -- lock; andl %[argument], %[storage]
    opnds := [(0, .input), (1, .input)]
    addr := [0]
    results := [] }
  args a x := (x 1).setWidth 32 = a
  ret _ _ := .unit

/-- `opaque_or`, extra_ops_gcc_x86.hpp 1147–1158 (assembly block 1150–1156).  Operands, in this
order: [storage] "+m" (storage); [argument] "ir" (v). -/
def opaqueOr (R : Nat) : Fn R 32 (BitVec 32) (Integral.Ret 32) where
  block := {
    prog := [
      orm 32 1 0]                             -- lock; orl %[argument], %[storage]
    opnds := [(0, .input), (1, .input)]
    addr := [0]
    results := [] }
  args a x := (x 1).setWidth 32 = a
  ret _ _ := .unit

/-- `opaque_xor`, extra_ops_gcc_x86.hpp 1160–1171 (assembly block 1163–1169).  Operands, in this
order: [storage] "+m" (storage); [argument] "ir" (v). -/
def opaqueXor (R : Nat) : Fn R 32 (BitVec 32) (Integral.Ret 32) where
  block := {
    prog := [
      xorm 32 1 0]                            -- lock; xorl %[argument], %[storage]
    opnds := [(0, .input), (1, .input)]
    addr := [0]
    results := [] }
  args a x := (x 1).setWidth 32 = a
  ret _ _ := .unit

/-- `opaque_complement`, extra_ops_gcc_x86.hpp 1173–1184 (assembly block 1176–1182).  Operands, in
this order: [storage] "+m" (storage). -/
def opaqueComplement (R : Nat) : Fn R 32 (Unit) (Integral.Ret 32) where
  block := {
    prog := [
      notm 32 0]                              -- lock; notl %[storage]
    opnds := [(0, .input)]
    addr := [0]
    results := [] }
  args _ _ := True
  ret _ _ := .unit

/-- `add_and_test`, extra_ops_gcc_x86.hpp 1186–1237 (assembly block 1193–1199).  Operands, in this
order: [storage] "+m" (storage); [result] "=@ccnz" (res). -/
def addAndTestOne (R : Nat) : Fn R 32 (Unit) (Integral.Ret 32) where
  block := {
    prog := [
      incm 32 0,                              -- lock; incl %[storage]
      setnz 1]                                -- setnz %1
    opnds := [(0, .input), (1, .out)]
    addr := [0]
    results := [1] }
  args _ _ := True
  ret _ r := bool8 (r 1) .flag

/-- `add_and_test`, extra_ops_gcc_x86.hpp 1186–1237 (assembly block 1203–1209).  Operands, in this
order: [storage] "+m" (storage); [result] "=@ccnz" (res); [argument] "ir" (v). -/
def addAndTest (R : Nat) : Fn R 32 (BitVec 32) (Integral.Ret 32) where
  block := {
    prog := [
      addm 32 2 0,                            -- lock; addl %[argument], %[storage]
      setnz 1]                                -- setnz %1
    opnds := [(0, .input), (1, .out), (2, .input)]
    addr := [0]
    results := [1] }
  args a x := (x 2).setWidth 32 = a
  ret _ r := bool8 (r 1) .flag

/-- `sub_and_test`, extra_ops_gcc_x86.hpp 1239–1290 (assembly block 1246–1252).  Operands, in this
order: [storage] "+m" (storage); [result] "=@ccnz" (res). -/
def subAndTestOne (R : Nat) : Fn R 32 (Unit) (Integral.Ret 32) where
  block := {
    prog := [
      decm 32 0,                              -- lock; decl %[storage]
      setnz 1]                                -- setnz %1
    opnds := [(0, .input), (1, .out)]
    addr := [0]
    results := [1] }
  args _ _ := True
  ret _ r := bool8 (r 1) .flag

/-- `sub_and_test`, extra_ops_gcc_x86.hpp 1239–1290 (assembly block 1256–1262).  Operands, in this
order: [storage] "+m" (storage); [result] "=@ccnz" (res); [argument] "ir" (v). -/
def subAndTest (R : Nat) : Fn R 32 (BitVec 32) (Integral.Ret 32) where
  block := {
    prog := [
      subm 32 2 0,                            -- lock; subl %[argument], %[storage]
      setnz 1]                                -- setnz %1
    opnds := [(0, .input), (1, .out), (2, .input)]
    addr := [0]
    results := [1] }
  args a x := (x 2).setWidth 32 = a
  ret _ r := bool8 (r 1) .flag

/-- `and_and_test`, extra_ops_gcc_x86.hpp 1292–1316 (assembly block 1297–1303).  Operands, in this
order: [storage] "+m" (storage); [result] "=@ccnz" (res); [argument] "ir" (v). -/
def andAndTest (R : Nat) : Fn R 32 (BitVec 32) (Integral.Ret 32) where
  block := {
    prog := [
      andm 32 2 0,                            -- lock; andl %[argument], %[storage]
      setnz 1]                                -- setnz %1
    opnds := [(0, .input), (1, .out), (2, .input)]
    addr := [0]
    results := [1] }
  args a x := (x 2).setWidth 32 = a
  ret _ r := bool8 (r 1) .flag

/-- `or_and_test`, extra_ops_gcc_x86.hpp 1318–1342 (assembly block 1323–1329).  Operands, in this
order: [storage] "+m" (storage); [result] "=@ccnz" (res); [argument] "ir" (v). -/
def orAndTest (R : Nat) : Fn R 32 (BitVec 32) (Integral.Ret 32) where
  block := {
    prog := [
      orm 32 2 0,                             -- lock; orl %[argument], %[storage]
      setnz 1]                                -- setnz %1
    opnds := [(0, .input), (1, .out), (2, .input)]
    addr := [0]
    results := [1] }
  args a x := (x 2).setWidth 32 = a
  ret _ r := bool8 (r 1) .flag

/-- `xor_and_test`, extra_ops_gcc_x86.hpp 1344–1368 (assembly block 1349–1355).  Operands, in this
order: [storage] "+m" (storage); [result] "=@ccnz" (res); [argument] "ir" (v). -/
def xorAndTest (R : Nat) : Fn R 32 (BitVec 32) (Integral.Ret 32) where
  block := {
    prog := [
      xorm 32 2 0,                            -- lock; xorl %[argument], %[storage]
      setnz 1]                                -- setnz %1
    opnds := [(0, .input), (1, .out), (2, .input)]
    addr := [0]
    results := [1] }
  args a x := (x 2).setWidth 32 = a
  ret _ r := bool8 (r 1) .flag

/-- `bit_test_and_set`, extra_ops_gcc_x86.hpp 1370–1394 (assembly block 1375–1381).  Operands, in
this order: [storage] "+m" (storage); [result] "=@ccc" (res); [bit_number] "Kr"
((std::uint32_t)bit_number). -/
def bitTestAndSet (R : Nat) : Fn R 32 (Fin 32) (Integral.Ret 32) where
  block := {
    prog := [
      bts 32 2 0,                             -- lock; btsl %[bit_number], %[storage]
      setc 1]                                 -- setc %1
    opnds := [(0, .input), (1, .out), (2, .input)]
    addr := [0]
    results := [1] }
  args a x := (x 2).setWidth 32 = BitVec.ofNat 32 a
  ret _ r := bool8 (r 1) .flag

/-- `bit_test_and_reset`, extra_ops_gcc_x86.hpp 1396–1420 (assembly block 1401–1407).  Operands, in
this order: [storage] "+m" (storage); [result] "=@ccc" (res); [bit_number] "Kr"
((std::uint32_t)bit_number). -/
def bitTestAndReset (R : Nat) : Fn R 32 (Fin 32) (Integral.Ret 32) where
  block := {
    prog := [
      btr 32 2 0,                             -- lock; btrl %[bit_number], %[storage]
      setc 1]                                 -- setc %1
    opnds := [(0, .input), (1, .out), (2, .input)]
    addr := [0]
    results := [1] }
  args a x := (x 2).setWidth 32 = BitVec.ofNat 32 a
  ret _ r := bool8 (r 1) .flag

/-- `bit_test_and_complement`, extra_ops_gcc_x86.hpp 1422–1446 (assembly block 1427–1433). 
Operands, in this order: [storage] "+m" (storage); [result] "=@ccc" (res); [bit_number] "Kr"
((std::uint32_t)bit_number). -/
def bitTestAndComplement (R : Nat) : Fn R 32 (Fin 32) (Integral.Ret 32) where
  block := {
    prog := [
      btc 32 2 0,                             -- lock; btcl %[bit_number], %[storage]
      setc 1]                                 -- setc %1
    opnds := [(0, .input), (1, .out), (2, .input)]
    addr := [0]
    results := [1] }
  args a x := (x 2).setWidth 32 = BitVec.ofNat 32 a
  ret _ r := bool8 (r 1) .flag

/-- `compare_exchange_strong`, core_arch_ops_gcc_x86.hpp 368–395 (assembly block 383–390, without
operands that are flags).  Operands, in this order: %0 "+a" (previous); %1 "+m" (storage); %2 "=q"
(success); %3 "r" (desired). -/
def compareExchangeStrongSet (R : Nat) : Fn R 32 (BitVec 32 × BitVec 32) (Integral.Ret 32) where
  block := {
    prog := [
      cmpxchg 32 0 3 1,                       -- lock; cmpxchgl %3, %1
      sete 2]                                 -- sete %2
    opnds := [(0, .inout), (1, .input), (2, .out), (3, .input)]
    fixed := [(0, 0)]
    addr := [1]
    results := [0, 2] }
  args a x := (x 0).setWidth 32 = a.1 ∧ (x 3).setWidth 32 = a.2
  ret _ r := bool8 (r 2) (.cas · ((r 0).setWidth 32))

/-- `add_and_test`, extra_ops_gcc_x86.hpp 1186–1237 (assembly block 1214–1221, without operands that
are flags).  Operands, in this order: [storage] "+m" (storage); [result] "=q" (res). -/
def addAndTestOneSet (R : Nat) : Fn R 32 (Unit) (Integral.Ret 32) where
  block := {
    prog := [
      incm 32 0,                              -- lock; incl %[storage]
      setnz 1]                                -- setnz %[result]
    opnds := [(0, .input), (1, .out)]
    addr := [0]
    results := [1] }
  args _ _ := True
  ret _ r := bool8 (r 1) .flag

/-- `add_and_test`, extra_ops_gcc_x86.hpp 1186–1237 (assembly block 1225–1232, without operands that
are flags).  Operands, in this order: [storage] "+m" (storage); [result] "=q" (res); [argument] "ir"
(v). -/
def addAndTestSet (R : Nat) : Fn R 32 (BitVec 32) (Integral.Ret 32) where
  block := {
    prog := [
      addm 32 2 0,                            -- lock; addl %[argument], %[storage]
      setnz 1]                                -- setnz %[result]
    opnds := [(0, .input), (1, .out), (2, .input)]
    addr := [0]
    results := [1] }
  args a x := (x 2).setWidth 32 = a
  ret _ r := bool8 (r 1) .flag

/-- `sub_and_test`, extra_ops_gcc_x86.hpp 1239–1290 (assembly block 1267–1274, without operands that
are flags).  Operands, in this order: [storage] "+m" (storage); [result] "=q" (res). -/
def subAndTestOneSet (R : Nat) : Fn R 32 (Unit) (Integral.Ret 32) where
  block := {
    prog := [
      decm 32 0,                              -- lock; decl %[storage]
      setnz 1]                                -- setnz %[result]
    opnds := [(0, .input), (1, .out)]
    addr := [0]
    results := [1] }
  args _ _ := True
  ret _ r := bool8 (r 1) .flag

/-- `sub_and_test`, extra_ops_gcc_x86.hpp 1239–1290 (assembly block 1278–1285, without operands that
are flags).  Operands, in this order: [storage] "+m" (storage); [result] "=q" (res); [argument] "ir"
(v). -/
def subAndTestSet (R : Nat) : Fn R 32 (BitVec 32) (Integral.Ret 32) where
  block := {
    prog := [
      subm 32 2 0,                            -- lock; subl %[argument], %[storage]
      setnz 1]                                -- setnz %[result]
    opnds := [(0, .input), (1, .out), (2, .input)]
    addr := [0]
    results := [1] }
  args a x := (x 2).setWidth 32 = a
  ret _ r := bool8 (r 1) .flag

/-- `and_and_test`, extra_ops_gcc_x86.hpp 1292–1316 (assembly block 1305–1312, without operands that
are flags).  Operands, in this order: [storage] "+m" (storage); [result] "=q" (res); [argument] "ir"
(v). -/
def andAndTestSet (R : Nat) : Fn R 32 (BitVec 32) (Integral.Ret 32) where
  block := {
    prog := [
      andm 32 2 0,                            -- lock; andl %[argument], %[storage]
      setnz 1]                                -- setnz %[result]
    opnds := [(0, .input), (1, .out), (2, .input)]
    addr := [0]
    results := [1] }
  args a x := (x 2).setWidth 32 = a
  ret _ r := bool8 (r 1) .flag

/-- `or_and_test`, extra_ops_gcc_x86.hpp 1318–1342 (assembly block 1331–1338, without operands that
are flags).  Operands, in this order: [storage] "+m" (storage); [result] "=q" (res); [argument] "ir"
(v). -/
def orAndTestSet (R : Nat) : Fn R 32 (BitVec 32) (Integral.Ret 32) where
  block := {
    prog := [
      orm 32 2 0,                             -- lock; orl %[argument], %[storage]
      setnz 1]                                -- setnz %[result]
    opnds := [(0, .input), (1, .out), (2, .input)]
    addr := [0]
    results := [1] }
  args a x := (x 2).setWidth 32 = a
  ret _ r := bool8 (r 1) .flag

/-- `xor_and_test`, extra_ops_gcc_x86.hpp 1344–1368 (assembly block 1357–1364, without operands that
are flags).  Operands, in this order: [storage] "+m" (storage); [result] "=q" (res); [argument] "ir"
(v). -/
def xorAndTestSet (R : Nat) : Fn R 32 (BitVec 32) (Integral.Ret 32) where
  block := {
    prog := [
      xorm 32 2 0,                            -- lock; xorl %[argument], %[storage]
      setnz 1]                                -- setnz %[result]
    opnds := [(0, .input), (1, .out), (2, .input)]
    addr := [0]
    results := [1] }
  args a x := (x 2).setWidth 32 = a
  ret _ r := bool8 (r 1) .flag

/-- `bit_test_and_set`, extra_ops_gcc_x86.hpp 1370–1394 (assembly block 1383–1390, without operands
that are flags).  Operands, in this order: [storage] "+m" (storage); [result] "=q" (res);
[bit_number] "Kr" ((std::uint32_t)bit_number). -/
def bitTestAndSetSet (R : Nat) : Fn R 32 (Fin 32) (Integral.Ret 32) where
  block := {
    prog := [
      bts 32 2 0,                             -- lock; btsl %[bit_number], %[storage]
      setc 1]                                 -- setc %[result]
    opnds := [(0, .input), (1, .out), (2, .input)]
    addr := [0]
    results := [1] }
  args a x := (x 2).setWidth 32 = BitVec.ofNat 32 a
  ret _ r := bool8 (r 1) .flag

/-- `bit_test_and_reset`, extra_ops_gcc_x86.hpp 1396–1420 (assembly block 1409–1416, without
operands that are flags).  Operands, in this order: [storage] "+m" (storage); [result] "=q" (res);
[bit_number] "Kr" ((std::uint32_t)bit_number). -/
def bitTestAndResetSet (R : Nat) : Fn R 32 (Fin 32) (Integral.Ret 32) where
  block := {
    prog := [
      btr 32 2 0,                             -- lock; btrl %[bit_number], %[storage]
      setc 1]                                 -- setc %[result]
    opnds := [(0, .input), (1, .out), (2, .input)]
    addr := [0]
    results := [1] }
  args a x := (x 2).setWidth 32 = BitVec.ofNat 32 a
  ret _ r := bool8 (r 1) .flag

/-- `bit_test_and_complement`, extra_ops_gcc_x86.hpp 1422–1446 (assembly block 1435–1442, without
operands that are flags).  Operands, in this order: [storage] "+m" (storage); [result] "=q" (res);
[bit_number] "Kr" ((std::uint32_t)bit_number). -/
def bitTestAndComplementSet (R : Nat) : Fn R 32 (Fin 32) (Integral.Ret 32) where
  block := {
    prog := [
      btc 32 2 0,                             -- lock; btcl %[bit_number], %[storage]
      setc 1]                                 -- setc %[result]
    opnds := [(0, .input), (1, .out), (2, .input)]
    addr := [0]
    results := [1] }
  args a x := (x 2).setWidth 32 = BitVec.ofNat 32 a
  ret _ r := bool8 (r 1) .flag

end X86x4

namespace X86x8
open X86

/-- `fetch_add`, core_arch_ops_gcc_x86.hpp 817–829 (assembly block 820–826).  Operands, in this
order: %0 "+r" (v); %1 "+m" (storage). -/
def fetchAdd : Fn 64 64 (BitVec 64) (Integral.Ret 64) where
  block := {
    prog := [
      xadd 64 0 1]                            -- lock; xaddq %0, %1
    opnds := [(0, .inout), (1, .input)]
    addr := [1]
    results := [0] }
  args a x := (x 0).setWidth 64 = a
  ret _ r := .val ((r 0).setWidth 64)

/-- `exchange`, core_arch_ops_gcc_x86.hpp 831–843 (assembly block 834–840).  Operands, in this
order: %0 "+r" (v); %1 "+m" (storage). -/
def exchange : Fn 64 64 (BitVec 64) (Integral.Ret 64) where
  block := {
    prog := [
      xchg 64 0 1]                            -- xchgq %0, %1
    opnds := [(0, .inout), (1, .input)]
    addr := [1]
    results := [0] }
  args a x := (x 0).setWidth 64 = a
  ret _ r := .val ((r 0).setWidth 64)

/-- `compare_exchange_strong`, core_arch_ops_gcc_x86.hpp 845–872 (assembly block 852–858). 
Operands, in this order: %0 "+a" (previous); %1 "+m" (storage); %2 "=@ccz" (success); %3 "r"
(desired). -/
def compareExchangeStrong : Fn 64 64 (BitVec 64 × BitVec 64) (Integral.Ret 64) where
  block := {
    prog := [
      cmpxchg 64 0 3 1,                       -- lock; cmpxchgq %3, %1
      sete 2]                                 -- sete %2
    opnds := [(0, .inout), (1, .input), (2, .out), (3, .input)]
    fixed := [(0, 0)]
    addr := [1]
    results := [0, 2] }
  args a x := (x 0).setWidth 64 = a.1 ∧ (x 3).setWidth 64 = a.2
  ret _ r := bool8 (r 2) (.cas · ((r 0).setWidth 64))

/-- `fetch_and`, core_arch_ops_gcc_x86.hpp 888–895 (assembly block 876–886).  Operands, in this
order: [res] "+a" (res); [storage] "+m" (storage); [new_val] "=&r" (new_val); [arg] "r" (v). -/
def fetchAnd : Fn 64 64 (BitVec 64) (Integral.Ret 64) where
  block := {
    prog := [
      .label 1,                               -- 1:
      mov 64 3 2,                             -- movq %[arg], %[new_val]
      and 64 0 2,                             -- andq %%rax, %[new_val]
      cmpxchg 64 0 2 1,                       -- lock; cmpxchgq %[new_val], %[storage]
      jne 0 1 false]                          -- jne 1b
    opnds := [(0, .inout), (1, .input), (2, .outEarly), (3, .input)]
    fixed := [(0, 0)]
    differ := [(0, 1), (0, 3)]
    addr := [1]
    results := [0] }
  args a x := (x 3).setWidth 64 = a
  ret _ r := .val ((r 0).setWidth 64)

/-- `fetch_or`, core_arch_ops_gcc_x86.hpp 897–904 (assembly block 876–886).  Operands, in this
order: [res] "+a" (res); [storage] "+m" (storage); [new_val] "=&r" (new_val); [arg] "r" (v). -/
def fetchOr : Fn 64 64 (BitVec 64) (Integral.Ret 64) where
  block := {
    prog := [
      .label 1,                               -- 1:
      mov 64 3 2,                             -- movq %[arg], %[new_val]
      or 64 0 2,                              -- orq %%rax, %[new_val]
      cmpxchg 64 0 2 1,                       -- lock; cmpxchgq %[new_val], %[storage]
      jne 0 1 false]                          -- jne 1b
    opnds := [(0, .inout), (1, .input), (2, .outEarly), (3, .input)]
    fixed := [(0, 0)]
    differ := [(0, 1), (0, 3)]
    addr := [1]
    results := [0] }
  args a x := (x 3).setWidth 64 = a
  ret _ r := .val ((r 0).setWidth 64)

/-- `fetch_xor`, core_arch_ops_gcc_x86.hpp 906–913 (assembly block 876–886).  Operands, in this
order: [res] "+a" (res); [storage] "+m" (storage); [new_val] "=&r" (new_val); [arg] "r" (v). -/
def fetchXor : Fn 64 64 (BitVec 64) (Integral.Ret 64) where
  block := {
    prog := [
      .label 1,                               -- 1:
      mov 64 3 2,                             -- movq %[arg], %[new_val]
      xor 64 0 2,                             -- xorq %%rax, %[new_val]
      cmpxchg 64 0 2 1,                       -- lock; cmpxchgq %[new_val], %[storage]
      jne 0 1 false]                          -- jne 1b
    opnds := [(0, .inout), (1, .input), (2, .outEarly), (3, .input)]
    fixed := [(0, 0)]
    differ := [(0, 1), (0, 3)]
    addr := [1]
    results := [0] }
  args a x := (x 3).setWidth 64 = a
  ret _ r := .val ((r 0).setWidth 64)

/-- `fetch_negate`, extra_ops_gcc_x86.hpp 1471–1479 (assembly block 1459–1469).  Operands, in this
order: [orig] "+a" (original); [storage] "+m" (storage); [res] "=&r" (result). -/
def fetchNegate : Fn 64 64 (Unit) (Integral.Ret 64) where
  block := {
    prog := [
      .label 1,                               -- 1:
      mov 64 0 2,                             -- mov %[orig], %[res]
      neg 64 2,                               -- negq %[res]
      cmpxchg 64 0 2 1,                       -- lock; cmpxchgq %[res], %[storage]
      jne 0 1 false]                          -- jne 1b
    opnds := [(0, .inout), (1, .input), (2, .outEarly)]
    fixed := [(0, 0)]
    differ := [(0, 1)]
    addr := [1]
    results := [0] }
  args _ _ := True
  ret _ r := .val ((r 0).setWidth 64)

/-- `fetch_complement`, extra_ops_gcc_x86.hpp 1481–1489 (assembly block 1459–1469).  Operands, in
this order: [orig] "+a" (original); [storage] "+m" (storage); [res] "=&r" (result). -/
def fetchComplement : Fn 64 64 (Unit) (Integral.Ret 64) where
  block := {
    prog := [
      .label 1,                               -- 1:
      mov 64 0 2,                             -- mov %[orig], %[res]
      not 64 2,                               -- notq %[res]
      cmpxchg 64 0 2 1,                       -- lock; cmpxchgq %[res], %[storage]
      jne 0 1 false]                          -- jne 1b
    opnds := [(0, .inout), (1, .input), (2, .outEarly)]
    fixed := [(0, 0)]
    differ := [(0, 1)]
    addr := [1]
    results := [0] }
  args _ _ := True
  ret _ r := .val ((r 0).setWidth 64)

/-- `negate`, extra_ops_gcc_x86.hpp 1491–1499 (assembly block 1459–1469).  Operands, in this order:
[orig] "+a" (original); [storage] "+m" (storage); [res] "=&r" (result). -/
def negate : Fn 64 64 (Unit) (Integral.Ret 64) where
  block := {
    prog := [
      .label 1,                               -- 1:
      mov 64 0 2,                             -- mov %[orig], %[res]
      neg 64 2,                               -- negq %[res]
      cmpxchg 64 0 2 1,                       -- lock; cmpxchgq %[res], %[storage]
      jne 0 1 false]                          -- jne 1b
    opnds := [(0, .inout), (1, .input), (2, .outEarly)]
    fixed := [(0, 0)]
    differ := [(0, 1)]
    addr := [1]
    results := [2] }
  args _ _ := True
  ret _ r := .val ((r 2).setWidth 64)

/-- `bitwise_complement`, extra_ops_gcc_x86.hpp 1501–1509 (assembly block 1459–1469).  Operands, in
this order: [orig] "+a" (original); [storage] "+m" (storage); [res] "=&r" (result). -/
def bitwiseComplement : Fn 64 64 (Unit) (Integral.Ret 64) where
  block := {
    prog := [
      .label 1,                               -- 1:
      mov 64 0 2,                             -- mov %[orig], %[res]
      not 64 2,                               -- notq %[res]
      cmpxchg 64 0 2 1,                       -- lock; cmpxchgq %[res], %[storage]
      jne 0 1 false]                          -- jne 1b
    opnds := [(0, .inout), (1, .input), (2, .outEarly)]
    fixed := [(0, 0)]
    differ := [(0, 1)]
    addr := [1]
    results := [2] }
  args _ _ := True
  ret _ r := .val ((r 2).setWidth 64)

/-- `bitwise_and`, extra_ops_gcc_x86.hpp 1526–1534 (assembly block 1514–1524).  Operands, in this
order: [orig] "+a" (original); [storage] "+m" (storage); [res] "=&r" (result); [arg] "r" (v). -/
def bitwiseAnd : Fn 64 64 (BitVec 64) (Integral.Ret 64) where
  block := {
    prog := [
      .label 1,                               -- 1:
      mov 64 3 2,                             -- mov %[arg], %[res]
      and 64 0 2,                             -- andq %%rax, %[res]
      cmpxchg 64 0 2 1,                       -- lock; cmpxchgq %[res], %[storage]
      jne 0 1 false]                          -- jne 1b
    opnds := [(0, .inout), (1, .input), (2, .outEarly), (3, .input)]
    fixed := [(0, 0)]
    differ := [(0, 1), (0, 3)]
    addr := [1]
    results := [2] }
  args a x := (x 3).setWidth 64 = a
  ret _ r := .val ((r 2).setWidth 64)

/-- `bitwise_or`, extra_ops_gcc_x86.hpp 1536–1544 (assembly block 1514–1524).  Operands, in this
order: [orig] "+a" (original); [storage] "+m" (storage); [res] "=&r" (result); [arg] "r" (v). -/
def bitwiseOr : Fn 64 64 (BitVec 64) (Integral.Ret 64) where
  block := {
    prog := [
      .label 1,                               -- 1:
      mov 64 3 2,                             -- mov %[arg], %[res]
      or 64 0 2,                              -- orq %%rax, %[res]
      cmpxchg 64 0 2 1,                       -- lock; cmpxchgq %[res], %[storage]
      jne 0 1 false]                          -- jne 1b
    opnds := [(0, .inout), (1, .input), (2, .outEarly), (3, .input)]
    fixed := [(0, 0)]
    differ := [(0, 1), (0, 3)]
    addr := [1]
    results := [2] }
  args a x := (x 3).setWidth 64 = a
  ret _ r := .val ((r 2).setWidth 64)

/-- `bitwise_xor`, extra_ops_gcc_x86.hpp 1546–1554 (assembly block 1514–1524).  Operands, in this
order: [orig] "+a" (original); [storage] "+m" (storage); [res] "=&r" (result); [arg] "r" (v). -/
def bitwiseXor : Fn 64 64 (BitVec 64) (Integral.Ret 64) where
  block := {
    prog := [
      .label 1,                               -- 1:
      mov 64 3 2,                             -- mov %[arg], %[res]
      xor 64 0 2,                             -- xorq %%rax, %[res]
      cmpxchg 64 0 2 1,                       -- lock; cmpxchgq %[res], %[storage]
      jne 0 1 false]                          -- jne 1b
    opnds := [(0, .inout), (1, .input), (2, .outEarly), (3, .input)]
    fixed := [(0, 0)]
    differ := [(0, 1), (0, 3)]
    addr := [1]
    results := [2] }
  args a x := (x 3).setWidth 64 = a
  ret _ r := .val ((r 2).setWidth 64)

/-- `opaque_add`, extra_ops_gcc_x86.hpp 1568–1592 (assembly block 1573–1579).  Operands, in this
order: [storage] "+m" (storage). -/
def opaqueAddOne : Fn 64 64 (Unit) (Integral.Ret 64) where
  block := {
    prog := [
      incm 64 0]                              -- lock; incq %[storage]
    opnds := [(0, .input)]
    addr := [0]
    results := [] }
  args _ _ := True
  ret _ _ := .unit

/-- `opaque_add`, extra_ops_gcc_x86.hpp 1568–1592 (assembly block 1583–1589).  Operands, in this
order: [storage] "+m" (storage); [argument] "er" (v). -/
def opaqueAdd : Fn 64 64 (BitVec 64) (Integral.Ret 64) where
  block := {
    prog := [
      addm 64 1 0]                            -- lock; addq %[argument], %[storage]
    opnds := [(0, .input), (1, .input)]
    addr := [0]
    results := [] }
  args a x := (x 1).setWidth 64 = a
  ret _ _ := .unit

/-- `opaque_sub`, extra_ops_gcc_x86.hpp 1594–1618 (assembly block 1599–1605).  Operands, in this
order: [storage] "+m" (storage). -/
def opaqueSubOne : Fn 64 64 (Unit) (Integral.Ret 64) where
  block := {
    prog := [
      decm 64 0]                              -- lock; decq %[storage]
    opnds := [(0, .input)]
    addr := [0]
    results := [] }
  args _ _ := True
  ret _ _ := .unit

/-- `opaque_sub`, extra_ops_gcc_x86.hpp 1594–1618 (assembly block 1609–1615).  Operands, in this
order: [storage] "+m" (storage); [argument] "er" (v). -/
def opaqueSub : Fn 64 64 (BitVec 64) (Integral.Ret 64) where
  block := {
    prog := [
      subm 64 1 0]                            -- lock; subq %[argument], %[storage]
    opnds := [(0, .input), (1, .input)]
    addr := [0]
    results := [] }
  args a x := (x 1).setWidth 64 = a
  ret _ _ := .unit

/-- `opaque_negate`, extra_ops_gcc_x86.hpp 1620–1631 (assembly block 1623–1629).  Operands, in this
order: [storage] "+m" (storage). -/
def opaqueNegate : Fn 64 64 (Unit) (Integral.Ret 64) where
  block := {
    prog := [
      negm 64 0]                              -- lock; negq %[storage]
    opnds := [(0, .input)]
    addr := [0]
    results := [] }
  args _ _ := True
  ret _ _ := .unit

/-- `opaque_and`, extra_ops_gcc_x86.hpp 1633–1644 (assembly block 1636–1642).  Operands, in this
order: [storage] "+m" (storage); [argument] "er" (v). -/
def opaqueAnd : Fn 64 64 (BitVec 64) (Integral.Ret 64) where
  block := {
    prog := [
      andm 64 1 0]                            -- lock; andq %[argument], %[storage]
    opnds := [(0, .input), (1, .input)]
    addr := [0]
    results := [] }
  args a x := (x 1).setWidth 64 = a
  ret _ _ := .unit

/-- `opaque_or`, extra_ops_gcc_x86.hpp 1646–1657 (assembly block 1649–1655).  Operands, in this
order: [storage] "+m" (storage); [argument] "er" (v). -/
def opaqueOr : Fn 64 64 (BitVec 64) (Integral.Ret 64) where
  block := {
    prog := [
      orm 64 1 0]                             -- lock; orq %[argument], %[storage]
    opnds := [(0, .input), (1, .input)]
    addr := [0]
    results := [] }
  args a x := (x 1).setWidth 64 = a
  ret _ _ := .unit

/-- `opaque_xor`, extra_ops_gcc_x86.hpp 1659–1670 (assembly block 1662–1668).  Operands, in this
order: [storage] "+m" (storage); [argument] "er" (v). -/
def opaqueXor : Fn 64 64 (BitVec 64) (Integral.Ret 64) where
  block := {
    prog := [
      xorm 64 1 0]                            -- lock; xorq %[argument], %[storage]
    opnds := [(0, .input), (1, .input)]
    addr := [0]
    results := [] }
  args a x := (x 1).setWidth 64 = a
  ret _ _ := .unit

/-- `opaque_complement`, extra_ops_gcc_x86.hpp 1672–1683 (assembly block 1675–1681).  Operands, in
this order: [storage] "+m" (storage). -/
def opaqueComplement : Fn 64 64 (Unit) (Integral.Ret 64) where
  block := {
    prog := [
      notm 64 0]                              -- lock; notq %[storage]
    opnds := [(0, .input)]
    addr := [0]
    results := [] }
  args _ _ := True
  ret _ _ := .unit

/-- `add_and_test`, extra_ops_gcc_x86.hpp 1685–1736 (assembly block 1692–1698).  Operands, in this
order: [storage] "+m" (storage); [result] "=@ccnz" (res). -/
def addAndTestOne : Fn 64 64 (Unit) (Integral.Ret 64) where
  block := {
    prog := [
      incm 64 0,                              -- lock; incq %[storage]
      setnz 1]                                -- setnz %1
    opnds := [(0, .input), (1, .out)]
    addr := [0]
    results := [1] }
  args _ _ := True
  ret _ r := bool8 (r 1) .flag

/-- `add_and_test`, extra_ops_gcc_x86.hpp 1685–1736 (assembly block 1702–1708).  Operands, in this
order: [storage] "+m" (storage); [result] "=@ccnz" (res); [argument] "er" (v). -/
def addAndTest : Fn 64 64 (BitVec 64) (Integral.Ret 64) where
  block := {
    prog := [
      addm 64 2 0,                            -- lock; addq %[argument], %[storage]
      setnz 1]                                -- setnz %1
    opnds := [(0, .input), (1, .out), (2, .input)]
    addr := [0]
    results := [1] }
  args a x := (x 2).setWidth 64 = a
  ret _ r := bool8 (r 1) .flag

/-- `sub_and_test`, extra_ops_gcc_x86.hpp 1738–1789 (assembly block 1745–1751).  Operands, in this
order: [storage] "+m" (storage); [result] "=@ccnz" (res). -/
def subAndTestOne : Fn 64 64 (Unit) (Integral.Ret 64) where
  block := {
    prog := [
      decm 64 0,                              -- lock; decq %[storage]
      setnz 1]                                -- setnz %1
    opnds := [(0, .input), (1, .out)]
    addr := [0]
    results := [1] }
  args _ _ := True
  ret _ r := bool8 (r 1) .flag

/-- `sub_and_test`, extra_ops_gcc_x86.hpp 1738–1789 (assembly block 1755–1761).  Operands, in this
order: [storage] "+m" (storage); [result] "=@ccnz" (res); [argument] "er" (v). -/
def subAndTest : Fn 64 64 (BitVec 64) (Integral.Ret 64) where
  block := {
    prog := [
      subm 64 2 0,                            -- lock; subq %[argument], %[storage]
      setnz 1]                                -- setnz %1
    opnds := [(0, .input), (1, .out), (2, .input)]
    addr := [0]
    results := [1] }
  args a x := (x 2).setWidth 64 = a
  ret _ r := bool8 (r 1) .flag

/-- `and_and_test`, extra_ops_gcc_x86.hpp 1791–1815 (assembly block 1796–1802).  Operands, in this
order: [storage] "+m" (storage); [result] "=@ccnz" (res); [argument] "er" (v). -/
def andAndTest : Fn 64 64 (BitVec 64) (Integral.Ret 64) where
  block := {
    prog := [
      andm 64 2 0,                            -- lock; andq %[argument], %[storage]
      setnz 1]                                -- setnz %1
    opnds := [(0, .input), (1, .out), (2, .input)]
    addr := [0]
    results := [1] }
  args a x := (x 2).setWidth 64 = a
  ret _ r := bool8 (r 1) .flag

/-- `or_and_test`, extra_ops_gcc_x86.hpp 1817–1841 (assembly block 1822–1828).  Operands, in this
order: [storage] "+m" (storage); [result] "=@ccnz" (res); [argument] "er" (v). -/
def orAndTest : Fn 64 64 (BitVec 64) (Integral.Ret 64) where
  block := {
    prog := [
      orm 64 2 0,                             -- lock; orq %[argument], %[storage]
      setnz 1]                                -- setnz %1
    opnds := [(0, .input), (1, .out), (2, .input)]
    addr := [0]
    results := [1] }
  args a x := (x 2).setWidth 64 = a
  ret _ r := bool8 (r 1) .flag

/-- `xor_and_test`, extra_ops_gcc_x86.hpp 1843–1867 (assembly block 1848–1854).  Operands, in this
order: [storage] "+m" (storage); [result] "=@ccnz" (res); [argument] "er" (v). -/
def xorAndTest : Fn 64 64 (BitVec 64) (Integral.Ret 64) where
  block := {
    prog := [
      xorm 64 2 0,                            -- lock; xorq %[argument], %[storage]
      setnz 1]                                -- setnz %1
    opnds := [(0, .input), (1, .out), (2, .input)]
    addr := [0]
    results := [1] }
  args a x := (x 2).setWidth 64 = a
  ret _ r := bool8 (r 1) .flag

/-- `bit_test_and_set`, extra_ops_gcc_x86.hpp 1869–1893 (assembly block 1874–1880).  Operands, in
this order: [storage] "+m" (storage); [result] "=@ccc" (res); [bit_number] "Kr"
((std::uint64_t)bit_number). -/
def bitTestAndSet : Fn 64 64 (Fin 64) (Integral.Ret 64) where
  block := {
    prog := [
      bts 64 2 0,                             -- lock; btsq %[bit_number], %[storage]
      setc 1]                                 -- setc %1
    opnds := [(0, .input), (1, .out), (2, .input)]
    addr := [0]
    results := [1] }
  args a x := (x 2).setWidth 64 = BitVec.ofNat 64 a
  ret _ r := bool8 (r 1) .flag

/-- `bit_test_and_reset`, extra_ops_gcc_x86.hpp 1895–1919 (assembly block 1900–1906).  Operands, in
this order: [storage] "+m" (storage); [result] "=@ccc" (res); [bit_number] "Kr"
((std::uint64_t)bit_number). -/
def bitTestAndReset : Fn 64 64 (Fin 64) (Integral.Ret 64) where
  block := {
    prog := [
      btr 64 2 0,                             -- lock; btrq %[bit_number], %[storage]
      setc 1]                                 -- setc %1
    opnds := [(0, .input), (1, .out), (2, .input)]
    addr := [0]
    results := [1] }
  args a x := (x 2).setWidth 64 = BitVec.ofNat 64 a
  ret _ r := bool8 (r 1) .flag

/-- `bit_test_and_complement`, extra_ops_gcc_x86.hpp 1921–1945 (assembly block 1926–1932). 
Operands, in this order: [storage] "+m" (storage); [result] "=@ccc" (res); [bit_number] "Kr"
((std::uint64_t)bit_number). -/
def bitTestAndComplement : Fn 64 64 (Fin 64) (Integral.Ret 64) where
  block := {
    prog := [
      btc 64 2 0,                             -- lock; btcq %[bit_number], %[storage]
      setc 1]                                 -- setc %1
    opnds := [(0, .input), (1, .out), (2, .input)]
    addr := [0]
    results := [1] }
  args a x := (x 2).setWidth 64 = BitVec.ofNat 64 a
  ret _ r := bool8 (r 1) .flag

/-- `compare_exchange_strong`, core_arch_ops_gcc_x86.hpp 845–872 (assembly block 860–867, without
operands that are flags).  Operands, in this order: %0 "+a" (previous); %1 "+m" (storage); %2 "=q"
(success); %3 "r" (desired). -/
def compareExchangeStrongSet : Fn 64 64 (BitVec 64 × BitVec 64) (Integral.Ret 64) where
  block := {
    prog := [
      cmpxchg 64 0 3 1,                       -- lock; cmpxchgq %3, %1
      sete 2]                                 -- sete %2
    opnds := [(0, .inout), (1, .input), (2, .out), (3, .input)]
    fixed := [(0, 0)]
    addr := [1]
    results := [0, 2] }
  args a x := (x 0).setWidth 64 = a.1 ∧ (x 3).setWidth 64 = a.2
  ret _ r := bool8 (r 2) (.cas · ((r 0).setWidth 64))

/-- `add_and_test`, extra_ops_gcc_x86.hpp 1685–1736 (assembly block 1713–1720, without operands that
are flags).  Operands, in this order: [storage] "+m" (storage); [result] "=q" (res). -/
def addAndTestOneSet : Fn 64 64 (Unit) (Integral.Ret 64) where
  block := {
    prog := [
      incm 64 0,                              -- lock; incq %[storage]
      setnz 1]                                -- setnz %[result]
    opnds := [(0, .input), (1, .out)]
    addr := [0]
    results := [1] }
  args _ _ := True
  ret _ r := bool8 (r 1) .flag

/-- `add_and_test`, extra_ops_gcc_x86.hpp 1685–1736 (assembly block 1724–1731, without operands that
are flags).  Operands, in this order: [storage] "+m" (storage); [result] "=q" (res); [argument] "er"
(v). -/
def addAndTestSet : Fn 64 64 (BitVec 64) (Integral.Ret 64) where
  block := {
    prog := [
      addm 64 2 0,                            -- lock; addq %[argument], %[storage]
      setnz 1]                                -- setnz %[result]
    opnds := [(0, .input), (1, .out), (2, .input)]
    addr := [0]
    results := [1] }
  args a x := (x 2).setWidth 64 = a
  ret _ r := bool8 (r 1) .flag

/-- `sub_and_test`, extra_ops_gcc_x86.hpp 1738–1789 (assembly block 1766–1773, without operands that
are flags).  Operands, in this order: [storage] "+m" (storage); [result] "=q" (res). -/
def subAndTestOneSet : Fn 64 64 (Unit) (Integral.Ret 64) where
  block := {
    prog := [
      decm 64 0,                              -- lock; decq %[storage]
      setnz 1]                                -- setnz %[result]
    opnds := [(0, .input), (1, .out)]
    addr := [0]
    results := [1] }
  args _ _ := True
  ret _ r := bool8 (r 1) .flag

/-- `sub_and_test`, extra_ops_gcc_x86.hpp 1738–1789 (assembly block 1777–1784, without operands that
are flags).  Operands, in this order: [storage] "+m" (storage); [result] "=q" (res); [argument] "er"
(v). -/
def subAndTestSet : Fn 64 64 (BitVec 64) (Integral.Ret 64) where
  block := {
    prog := [
      subm 64 2 0,                            -- lock; subq %[argument], %[storage]
      setnz 1]                                -- setnz %[result]
    opnds := [(0, .input), (1, .out), (2, .input)]
    addr := [0]
    results := [1] }
  args a x := (x 2).setWidth 64 = a
  ret _ r := bool8 (r 1) .flag

/-- `and_and_test`, extra_ops_gcc_x86.hpp 1791–1815 (assembly block 1804–1811, without operands that
are flags).  Operands, in this order: [storage] "+m" (storage); [result] "=q" (res); [argument] "er"
(v). -/
def andAndTestSet : Fn 64 64 (BitVec 64) (Integral.Ret 64) where
  block := {
    prog := [
      andm 64 2 0,                            -- lock; andq %[argument], %[storage]
      setnz 1]                                -- setnz %[result]
    opnds := [(0, .input), (1, .out), (2, .input)]
    addr := [0]
    results := [1] }
  args a x := (x 2).setWidth 64 = a
  ret _ r := bool8 (r 1) .flag

/-- `or_and_test`, extra_ops_gcc_x86.hpp 1817–1841 (assembly block 1830–1837, without operands that
are flags).  Operands, in this order: [storage] "+m" (storage); [result] "=q" (res); [argument] "er"
(v). -/
def orAndTestSet : Fn 64 64 (BitVec 64) (Integral.Ret 64) where
  block := {
    prog := [
      orm 64 2 0,                             -- lock; orq %[argument], %[storage]
      setnz 1]                                -- setnz %[result]
    opnds := [(0, .input), (1, .out), (2, .input)]
    addr := [0]
    results := [1] }
  args a x := (x 2).setWidth 64 = a
  ret _ r := bool8 (r 1) .flag

/-- `xor_and_test`, extra_ops_gcc_x86.hpp 1843–1867 (assembly block 1856–1863, without operands that
are flags).  Operands, in this order: [storage] "+m" (storage); [result] "=q" (res); [argument] "er"
(v). -/
def xorAndTestSet : Fn 64 64 (BitVec 64) (Integral.Ret 64) where
  block := {
    prog := [
      xorm 64 2 0,                            -- lock; xorq %[argument], %[storage]
      setnz 1]                                -- setnz %[result]
    opnds := [(0, .input), (1, .out), (2, .input)]
    addr := [0]
    results := [1] }
  args a x := (x 2).setWidth 64 = a
  ret _ r := bool8 (r 1) .flag

/-- `bit_test_and_set`, extra_ops_gcc_x86.hpp 1869–1893 (assembly block 1882–1889, without operands
that are flags).  Operands, in this order: [storage] "+m" (storage); [result] "=q" (res);
[bit_number] "Kr" ((std::uint64_t)bit_number). -/
def bitTestAndSetSet : Fn 64 64 (Fin 64) (Integral.Ret 64) where
  block := {
    prog := [
      bts 64 2 0,                             -- lock; btsq %[bit_number], %[storage]
      setc 1]                                 -- setc %[result]
    opnds := [(0, .input), (1, .out), (2, .input)]
    addr := [0]
    results := [1] }
  args a x := (x 2).setWidth 64 = BitVec.ofNat 64 a
  ret _ r := bool8 (r 1) .flag

/-- `bit_test_and_reset`, extra_ops_gcc_x86.hpp 1895–1919 (assembly block 1908–1915, without
operands that are flags).  Operands, in this order: [storage] "+m" (storage); [result] "=q" (res);
[bit_number] "Kr" ((std::uint64_t)bit_number). -/
def bitTestAndResetSet : Fn 64 64 (Fin 64) (Integral.Ret 64) where
  block := {
    prog := [
      btr 64 2 0,                             -- lock; btrq %[bit_number], %[storage]
      setc 1]                                 -- setc %[result]
    opnds := [(0, .input), (1, .out), (2, .input)]
    addr := [0]
    results := [1] }
  args a x := (x 2).setWidth 64 = BitVec.ofNat 64 a
  ret _ r := bool8 (r 1) .flag

/-- `bit_test_and_complement`, extra_ops_gcc_x86.hpp 1921–1945 (assembly block 1934–1941, without
operands that are flags).  Operands, in this order: [storage] "+m" (storage); [result] "=q" (res);
[bit_number] "Kr" ((std::uint64_t)bit_number). -/
def bitTestAndComplementSet : Fn 64 64 (Fin 64) (Integral.Ret 64) where
  block := {
    prog := [
      btc 64 2 0,                             -- lock; btcq %[bit_number], %[storage]
      setc 1]                                 -- setc %[result]
    opnds := [(0, .input), (1, .out), (2, .input)]
    addr := [0]
    results := [1] }
  args a x := (x 2).setWidth 64 = BitVec.ofNat 64 a
  ret _ r := bool8 (r 1) .flag

end X86x8

end Verif.Asm
