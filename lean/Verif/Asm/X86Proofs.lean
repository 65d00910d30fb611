import Verif.Asm.X86Shape
import Verif.Asm.X86Code

/-
The x86 functions are correct.
Written by tools/asmgen.py.
-/

set_option linter.unusedVariables false

namespace Verif.Asm
open X86

namespace X86x1

theorem fetchAdd_ok {R : Nat} (hR : 32 ≤ R) :
    (fetchAdd R).Implements Integral.spec .fetchAdd := by
  exact xadd_shape (by omega)

theorem exchange_ok {R : Nat} (hR : 32 ≤ R) :
    (exchange R).Implements Integral.spec .exchange := by
  exact xchg_shape (by omega)

theorem compareExchangeStrong_ok {R : Nat} (hR : 32 ≤ R) :
    (compareExchangeStrong R).Implements Integral.spec (fun a => .casStrong a.1 a.2) := by
  exact cmpxchg_shape (by omega) (by omega)

theorem fetchAnd_ok {R : Nat} (hR : 32 ≤ R) :
    (fetchAnd R).Implements Integral.spec .fetchAnd := by
  exact fetch2_shape (by omega) (w := 32) (by decide) hR (fun v m => v &&& m) (fun _ _ _ _ => by simp only [Integral.spec, BitVec.and_comm])

theorem fetchOr_ok {R : Nat} (hR : 32 ≤ R) :
    (fetchOr R).Implements Integral.spec .fetchOr := by
  exact fetch2_shape (by omega) (w := 32) (by decide) hR (fun v m => v ||| m) (fun _ _ _ _ => by simp only [Integral.spec, BitVec.or_comm])

theorem fetchXor_ok {R : Nat} (hR : 32 ≤ R) :
    (fetchXor R).Implements Integral.spec .fetchXor := by
  exact fetch2_shape (by omega) (w := 32) (by decide) hR (fun v m => v ^^^ m) (fun _ _ _ _ => by simp only [Integral.spec, BitVec.xor_comm])

theorem fetchNegate_ok {R : Nat} (hR : 32 ≤ R) :
    (fetchNegate R).Implements Integral.spec (fun _ => .fetchNegate) := by
  exact fetch1_shape (by omega) (- ·) (fun _ _ _ _ => Iff.rfl)

theorem fetchComplement_ok {R : Nat} (hR : 32 ≤ R) :
    (fetchComplement R).Implements Integral.spec (fun _ => .fetchComplement) := by
  exact fetch1_shape (by omega) (~~~ ·) (fun _ _ _ _ => Iff.rfl)

theorem negate_ok {R : Nat} (hR : 32 ≤ R) :
    (negate R).Implements Integral.spec (fun _ => .negate) := by
  exact new1_shape (by omega) (- ·) (fun _ _ _ _ => Iff.rfl)

theorem bitwiseComplement_ok {R : Nat} (hR : 32 ≤ R) :
    (bitwiseComplement R).Implements Integral.spec (fun _ => .bitwiseComplement) := by
  exact new1_shape (by omega) (~~~ ·) (fun _ _ _ _ => Iff.rfl)

theorem bitwiseAnd_ok {R : Nat} (hR : 32 ≤ R) :
    (bitwiseAnd R).Implements Integral.spec .bitwiseAnd := by
  exact new2_shape (by omega) (w := 32) (by decide) hR (fun v m => v &&& m) (fun _ _ _ _ => by simp only [Integral.spec, BitVec.and_comm])

theorem bitwiseOr_ok {R : Nat} (hR : 32 ≤ R) :
    (bitwiseOr R).Implements Integral.spec .bitwiseOr := by
  exact new2_shape (by omega) (w := 32) (by decide) hR (fun v m => v ||| m) (fun _ _ _ _ => by simp only [Integral.spec, BitVec.or_comm])

theorem bitwiseXor_ok {R : Nat} (hR : 32 ≤ R) :
    (bitwiseXor R).Implements Integral.spec .bitwiseXor := by
  exact new2_shape (by omega) (w := 32) (by decide) hR (fun v m => v ^^^ m) (fun _ _ _ _ => by simp only [Integral.spec, BitVec.xor_comm])

theorem opaqueAddOne_ok {R : Nat} (hR : 32 ≤ R) :
    (opaqueAddOne R).Implements Integral.spec (fun _ => .opaqueAdd 1) := by
  exact opaque1_shape (fun m => m + 1#8) (fun _ _ _ _ => Iff.rfl)

theorem opaqueAdd_ok {R : Nat} (hR : 32 ≤ R) :
    (opaqueAdd R).Implements Integral.spec .opaqueAdd := by
  exact opaque2_shape (· + ·) (fun _ _ _ _ => Iff.rfl)

theorem opaqueSubOne_ok {R : Nat} (hR : 32 ≤ R) :
    (opaqueSubOne R).Implements Integral.spec (fun _ => .opaqueSub 1) := by
  exact opaque1_shape (fun m => m - 1#8) (fun _ _ _ _ => Iff.rfl)

theorem opaqueSub_ok {R : Nat} (hR : 32 ≤ R) :
    (opaqueSub R).Implements Integral.spec .opaqueSub := by
  exact opaque2_shape (· - ·) (fun _ _ _ _ => Iff.rfl)

theorem opaqueNegate_ok {R : Nat} (hR : 32 ≤ R) :
    (opaqueNegate R).Implements Integral.spec (fun _ => .opaqueNegate) := by
  exact opaque1_shape (- ·) (fun _ _ _ _ => Iff.rfl)

theorem opaqueAnd_ok {R : Nat} (hR : 32 ≤ R) :
    (opaqueAnd R).Implements Integral.spec .opaqueAnd := by
  exact opaque2_shape (· &&& ·) (fun _ _ _ _ => Iff.rfl)

theorem opaqueOr_ok {R : Nat} (hR : 32 ≤ R) :
    (opaqueOr R).Implements Integral.spec .opaqueOr := by
  exact opaque2_shape (· ||| ·) (fun _ _ _ _ => Iff.rfl)

theorem opaqueXor_ok {R : Nat} (hR : 32 ≤ R) :
    (opaqueXor R).Implements Integral.spec .opaqueXor := by
  exact opaque2_shape (· ^^^ ·) (fun _ _ _ _ => Iff.rfl)

theorem opaqueComplement_ok {R : Nat} (hR : 32 ≤ R) :
    (opaqueComplement R).Implements Integral.spec (fun _ => .opaqueComplement) := by
  exact opaque1_shape (~~~ ·) (fun _ _ _ _ => Iff.rfl)

theorem addAndTestOne_ok {R : Nat} (hR : 32 ≤ R) :
    (addAndTestOne R).Implements Integral.spec (fun _ => .addAndTest 1) := by
  exact test1_shape (by omega) (fun m => m + 1#8) (fun _ _ => rfl) (fun _ _ _ _ => Iff.rfl)

theorem addAndTest_ok {R : Nat} (hR : 32 ≤ R) :
    (addAndTest R).Implements Integral.spec .addAndTest := by
  exact test2_shape (by omega) (· + ·) (fun _ _ _ _ => Iff.rfl)

theorem subAndTestOne_ok {R : Nat} (hR : 32 ≤ R) :
    (subAndTestOne R).Implements Integral.spec (fun _ => .subAndTest 1) := by
  exact test1_shape (by omega) (fun m => m - 1#8) (fun _ _ => rfl) (fun _ _ _ _ => Iff.rfl)

theorem subAndTest_ok {R : Nat} (hR : 32 ≤ R) :
    (subAndTest R).Implements Integral.spec .subAndTest := by
  exact test2_shape (by omega) (· - ·) (fun _ _ _ _ => Iff.rfl)

theorem andAndTest_ok {R : Nat} (hR : 32 ≤ R) :
    (andAndTest R).Implements Integral.spec .andAndTest := by
  exact test2_shape (by omega) (· &&& ·) (fun _ _ _ _ => Iff.rfl)

theorem orAndTest_ok {R : Nat} (hR : 32 ≤ R) :
    (orAndTest R).Implements Integral.spec .orAndTest := by
  exact test2_shape (by omega) (· ||| ·) (fun _ _ _ _ => Iff.rfl)

theorem xorAndTest_ok {R : Nat} (hR : 32 ≤ R) :
    (xorAndTest R).Implements Integral.spec .xorAndTest := by
  exact test2_shape (by omega) (· ^^^ ·) (fun _ _ _ _ => Iff.rfl)

theorem compareExchangeStrongSet_ok {R : Nat} (hR : 32 ≤ R) :
    (compareExchangeStrongSet R).Implements Integral.spec (fun a => .casStrong a.1 a.2) := by
  exact cmpxchg_shape (by omega) (by omega)

theorem addAndTestOneSet_ok {R : Nat} (hR : 32 ≤ R) :
    (addAndTestOneSet R).Implements Integral.spec (fun _ => .addAndTest 1) := by
  exact test1_shape (by omega) (fun m => m + 1#8) (fun _ _ => rfl) (fun _ _ _ _ => Iff.rfl)

theorem addAndTestSet_ok {R : Nat} (hR : 32 ≤ R) :
    (addAndTestSet R).Implements Integral.spec .addAndTest := by
  exact test2_shape (by omega) (· + ·) (fun _ _ _ _ => Iff.rfl)

theorem subAndTestOneSet_ok {R : Nat} (hR : 32 ≤ R) :
    (subAndTestOneSet R).Implements Integral.spec (fun _ => .subAndTest 1) := by
  exact test1_shape (by omega) (fun m => m - 1#8) (fun _ _ => rfl) (fun _ _ _ _ => Iff.rfl)

theorem subAndTestSet_ok {R : Nat} (hR : 32 ≤ R) :
    (subAndTestSet R).Implements Integral.spec .subAndTest := by
  exact test2_shape (by omega) (· - ·) (fun _ _ _ _ => Iff.rfl)

theorem andAndTestSet_ok {R : Nat} (hR : 32 ≤ R) :
    (andAndTestSet R).Implements Integral.spec .andAndTest := by
  exact test2_shape (by omega) (· &&& ·) (fun _ _ _ _ => Iff.rfl)

theorem orAndTestSet_ok {R : Nat} (hR : 32 ≤ R) :
    (orAndTestSet R).Implements Integral.spec .orAndTest := by
  exact test2_shape (by omega) (· ||| ·) (fun _ _ _ _ => Iff.rfl)

theorem xorAndTestSet_ok {R : Nat} (hR : 32 ≤ R) :
    (xorAndTestSet R).Implements Integral.spec .xorAndTest := by
  exact test2_shape (by omega) (· ^^^ ·) (fun _ _ _ _ => Iff.rfl)

end X86x1

namespace X86x2

theorem fetchAdd_ok {R : Nat} (hR : 32 ≤ R) :
    (fetchAdd R).Implements Integral.spec .fetchAdd := by
  exact xadd_shape (by omega)

theorem exchange_ok {R : Nat} (hR : 32 ≤ R) :
    (exchange R).Implements Integral.spec .exchange := by
  exact xchg_shape (by omega)

theorem compareExchangeStrong_ok {R : Nat} (hR : 32 ≤ R) :
    (compareExchangeStrong R).Implements Integral.spec (fun a => .casStrong a.1 a.2) := by
  exact cmpxchg_shape (by omega) (by omega)

theorem fetchAnd_ok {R : Nat} (hR : 32 ≤ R) :
    (fetchAnd R).Implements Integral.spec .fetchAnd := by
  exact fetch2_shape (by omega) (w := 32) (by decide) hR (fun v m => v &&& m) (fun _ _ _ _ => by simp only [Integral.spec, BitVec.and_comm])

theorem fetchOr_ok {R : Nat} (hR : 32 ≤ R) :
    (fetchOr R).Implements Integral.spec .fetchOr := by
  exact fetch2_shape (by omega) (w := 32) (by decide) hR (fun v m => v ||| m) (fun _ _ _ _ => by simp only [Integral.spec, BitVec.or_comm])

theorem fetchXor_ok {R : Nat} (hR : 32 ≤ R) :
    (fetchXor R).Implements Integral.spec .fetchXor := by
  exact fetch2_shape (by omega) (w := 32) (by decide) hR (fun v m => v ^^^ m) (fun _ _ _ _ => by simp only [Integral.spec, BitVec.xor_comm])

theorem fetchNegate_ok {R : Nat} (hR : 32 ≤ R) :
    (fetchNegate R).Implements Integral.spec (fun _ => .fetchNegate) := by
  exact fetch1_shape (by omega) (- ·) (fun _ _ _ _ => Iff.rfl)

theorem fetchComplement_ok {R : Nat} (hR : 32 ≤ R) :
    (fetchComplement R).Implements Integral.spec (fun _ => .fetchComplement) := by
  exact fetch1_shape (by omega) (~~~ ·) (fun _ _ _ _ => Iff.rfl)

theorem negate_ok {R : Nat} (hR : 32 ≤ R) :
    (negate R).Implements Integral.spec (fun _ => .negate) := by
  exact new1_shape (by omega) (- ·) (fun _ _ _ _ => Iff.rfl)

theorem bitwiseComplement_ok {R : Nat} (hR : 32 ≤ R) :
    (bitwiseComplement R).Implements Integral.spec (fun _ => .bitwiseComplement) := by
  exact new1_shape (by omega) (~~~ ·) (fun _ _ _ _ => Iff.rfl)

theorem bitwiseAnd_ok {R : Nat} (hR : 32 ≤ R) :
    (bitwiseAnd R).Implements Integral.spec .bitwiseAnd := by
  exact new2_shape (by omega) (w := 32) (by decide) hR (fun v m => v &&& m) (fun _ _ _ _ => by simp only [Integral.spec, BitVec.and_comm])

theorem bitwiseOr_ok {R : Nat} (hR : 32 ≤ R) :
    (bitwiseOr R).Implements Integral.spec .bitwiseOr := by
  exact new2_shape (by omega) (w := 32) (by decide) hR (fun v m => v ||| m) (fun _ _ _ _ => by simp only [Integral.spec, BitVec.or_comm])

theorem bitwiseXor_ok {R : Nat} (hR : 32 ≤ R) :
    (bitwiseXor R).Implements Integral.spec .bitwiseXor := by
  exact new2_shape (by omega) (w := 32) (by decide) hR (fun v m => v ^^^ m) (fun _ _ _ _ => by simp only [Integral.spec, BitVec.xor_comm])

theorem opaqueAddOne_ok {R : Nat} (hR : 32 ≤ R) :
    (opaqueAddOne R).Implements Integral.spec (fun _ => .opaqueAdd 1) := by
  exact opaque1_shape (fun m => m + 1#16) (fun _ _ _ _ => Iff.rfl)

theorem opaqueAdd_ok {R : Nat} (hR : 32 ≤ R) :
    (opaqueAdd R).Implements Integral.spec .opaqueAdd := by
  exact opaque2_shape (· + ·) (fun _ _ _ _ => Iff.rfl)

theorem opaqueSubOne_ok {R : Nat} (hR : 32 ≤ R) :
    (opaqueSubOne R).Implements Integral.spec (fun _ => .opaqueSub 1) := by
  exact opaque1_shape (fun m => m - 1#16) (fun _ _ _ _ => Iff.rfl)

theorem opaqueSub_ok {R : Nat} (hR : 32 ≤ R) :
    (opaqueSub R).Implements Integral.spec .opaqueSub := by
  exact opaque2_shape (· - ·) (fun _ _ _ _ => Iff.rfl)

theorem opaqueNegate_ok {R : Nat} (hR : 32 ≤ R) :
    (opaqueNegate R).Implements Integral.spec (fun _ => .opaqueNegate) := by
  exact opaque1_shape (- ·) (fun _ _ _ _ => Iff.rfl)

theorem opaqueAnd_ok {R : Nat} (hR : 32 ≤ R) :
    (opaqueAnd R).Implements Integral.spec .opaqueAnd := by
  exact opaque2_shape (· &&& ·) (fun _ _ _ _ => Iff.rfl)

theorem opaqueOr_ok {R : Nat} (hR : 32 ≤ R) :
    (opaqueOr R).Implements Integral.spec .opaqueOr := by
  exact opaque2_shape (· ||| ·) (fun _ _ _ _ => Iff.rfl)

theorem opaqueXor_ok {R : Nat} (hR : 32 ≤ R) :
    (opaqueXor R).Implements Integral.spec .opaqueXor := by
  exact opaque2_shape (· ^^^ ·) (fun _ _ _ _ => Iff.rfl)

theorem opaqueComplement_ok {R : Nat} (hR : 32 ≤ R) :
    (opaqueComplement R).Implements Integral.spec (fun _ => .opaqueComplement) := by
  exact opaque1_shape (~~~ ·) (fun _ _ _ _ => Iff.rfl)

theorem addAndTestOne_ok {R : Nat} (hR : 32 ≤ R) :
    (addAndTestOne R).Implements Integral.spec (fun _ => .addAndTest 1) := by
  exact test1_shape (by omega) (fun m => m + 1#16) (fun _ _ => rfl) (fun _ _ _ _ => Iff.rfl)

theorem addAndTest_ok {R : Nat} (hR : 32 ≤ R) :
    (addAndTest R).Implements Integral.spec .addAndTest := by
  exact test2_shape (by omega) (· + ·) (fun _ _ _ _ => Iff.rfl)

theorem subAndTestOne_ok {R : Nat} (hR : 32 ≤ R) :
    (subAndTestOne R).Implements Integral.spec (fun _ => .subAndTest 1) := by
  exact test1_shape (by omega) (fun m => m - 1#16) (fun _ _ => rfl) (fun _ _ _ _ => Iff.rfl)

theorem subAndTest_ok {R : Nat} (hR : 32 ≤ R) :
    (subAndTest R).Implements Integral.spec .subAndTest := by
  exact test2_shape (by omega) (· - ·) (fun _ _ _ _ => Iff.rfl)

theorem andAndTest_ok {R : Nat} (hR : 32 ≤ R) :
    (andAndTest R).Implements Integral.spec .andAndTest := by
  exact test2_shape (by omega) (· &&& ·) (fun _ _ _ _ => Iff.rfl)

theorem orAndTest_ok {R : Nat} (hR : 32 ≤ R) :
    (orAndTest R).Implements Integral.spec .orAndTest := by
  exact test2_shape (by omega) (· ||| ·) (fun _ _ _ _ => Iff.rfl)

theorem xorAndTest_ok {R : Nat} (hR : 32 ≤ R) :
    (xorAndTest R).Implements Integral.spec .xorAndTest := by
  exact test2_shape (by omega) (· ^^^ ·) (fun _ _ _ _ => Iff.rfl)

theorem bitTestAndSet_ok {R : Nat} (hR : 32 ≤ R) :
    (bitTestAndSet R).Implements Integral.spec .bitTestAndSet := by
  exact bit_shape (by omega) (· ||| ·) (fun m b => ⟨Integral.setsBit_or m b, rfl⟩)

theorem bitTestAndReset_ok {R : Nat} (hR : 32 ≤ R) :
    (bitTestAndReset R).Implements Integral.spec .bitTestAndReset := by
  exact bit_shape (by omega) (fun m k => m &&& ~~~ k) (fun m b => ⟨Integral.setsBit_reset m b, rfl⟩)

theorem bitTestAndComplement_ok {R : Nat} (hR : 32 ≤ R) :
    (bitTestAndComplement R).Implements Integral.spec .bitTestAndComplement := by
  exact bit_shape (by omega) (· ^^^ ·) (fun m b => ⟨Integral.setsBit_xor m b, rfl⟩)

theorem compareExchangeStrongSet_ok {R : Nat} (hR : 32 ≤ R) :
    (compareExchangeStrongSet R).Implements Integral.spec (fun a => .casStrong a.1 a.2) := by
  exact cmpxchg_shape (by omega) (by omega)

theorem addAndTestOneSet_ok {R : Nat} (hR : 32 ≤ R) :
    (addAndTestOneSet R).Implements Integral.spec (fun _ => .addAndTest 1) := by
  exact test1_shape (by omega) (fun m => m + 1#16) (fun _ _ => rfl) (fun _ _ _ _ => Iff.rfl)

theorem addAndTestSet_ok {R : Nat} (hR : 32 ≤ R) :
    (addAndTestSet R).Implements Integral.spec .addAndTest := by
  exact test2_shape (by omega) (· + ·) (fun _ _ _ _ => Iff.rfl)

theorem subAndTestOneSet_ok {R : Nat} (hR : 32 ≤ R) :
    (subAndTestOneSet R).Implements Integral.spec (fun _ => .subAndTest 1) := by
  exact test1_shape (by omega) (fun m => m - 1#16) (fun _ _ => rfl) (fun _ _ _ _ => Iff.rfl)

theorem subAndTestSet_ok {R : Nat} (hR : 32 ≤ R) :
    (subAndTestSet R).Implements Integral.spec .subAndTest := by
  exact test2_shape (by omega) (· - ·) (fun _ _ _ _ => Iff.rfl)

theorem andAndTestSet_ok {R : Nat} (hR : 32 ≤ R) :
    (andAndTestSet R).Implements Integral.spec .andAndTest := by
  exact test2_shape (by omega) (· &&& ·) (fun _ _ _ _ => Iff.rfl)

theorem orAndTestSet_ok {R : Nat} (hR : 32 ≤ R) :
    (orAndTestSet R).Implements Integral.spec .orAndTest := by
  exact test2_shape (by omega) (· ||| ·) (fun _ _ _ _ => Iff.rfl)

theorem xorAndTestSet_ok {R : Nat} (hR : 32 ≤ R) :
    (xorAndTestSet R).Implements Integral.spec .xorAndTest := by
  exact test2_shape (by omega) (· ^^^ ·) (fun _ _ _ _ => Iff.rfl)

theorem bitTestAndSetSet_ok {R : Nat} (hR : 32 ≤ R) :
    (bitTestAndSetSet R).Implements Integral.spec .bitTestAndSet := by
  exact bit_shape (by omega) (· ||| ·) (fun m b => ⟨Integral.setsBit_or m b, rfl⟩)

theorem bitTestAndResetSet_ok {R : Nat} (hR : 32 ≤ R) :
    (bitTestAndResetSet R).Implements Integral.spec .bitTestAndReset := by
  exact bit_shape (by omega) (fun m k => m &&& ~~~ k) (fun m b => ⟨Integral.setsBit_reset m b, rfl⟩)

theorem bitTestAndComplementSet_ok {R : Nat} (hR : 32 ≤ R) :
    (bitTestAndComplementSet R).Implements Integral.spec .bitTestAndComplement := by
  exact bit_shape (by omega) (· ^^^ ·) (fun m b => ⟨Integral.setsBit_xor m b, rfl⟩)

end X86x2

namespace X86x4

theorem fetchAdd_ok {R : Nat} (hR : 32 ≤ R) :
    (fetchAdd R).Implements Integral.spec .fetchAdd := by
  exact xadd_shape (by omega)

theorem exchange_ok {R : Nat} (hR : 32 ≤ R) :
    (exchange R).Implements Integral.spec .exchange := by
  exact xchg_shape (by omega)

theorem compareExchangeStrong_ok {R : Nat} (hR : 32 ≤ R) :
    (compareExchangeStrong R).Implements Integral.spec (fun a => .casStrong a.1 a.2) := by
  exact cmpxchg_shape (by omega) (by omega)

theorem fetchAnd_ok {R : Nat} (hR : 32 ≤ R) :
    (fetchAnd R).Implements Integral.spec .fetchAnd := by
  exact fetch2_shape (by omega) (w := 32) (by decide) hR (fun v m => v &&& m) (fun _ _ _ _ => by simp only [Integral.spec, BitVec.and_comm])

theorem fetchOr_ok {R : Nat} (hR : 32 ≤ R) :
    (fetchOr R).Implements Integral.spec .fetchOr := by
  exact fetch2_shape (by omega) (w := 32) (by decide) hR (fun v m => v ||| m) (fun _ _ _ _ => by simp only [Integral.spec, BitVec.or_comm])

theorem fetchXor_ok {R : Nat} (hR : 32 ≤ R) :
    (fetchXor R).Implements Integral.spec .fetchXor := by
  exact fetch2_shape (by omega) (w := 32) (by decide) hR (fun v m => v ^^^ m) (fun _ _ _ _ => by simp only [Integral.spec, BitVec.xor_comm])

theorem fetchNegate_ok {R : Nat} (hR : 32 ≤ R) :
    (fetchNegate R).Implements Integral.spec (fun _ => .fetchNegate) := by
  exact fetch1_shape (by omega) (- ·) (fun _ _ _ _ => Iff.rfl)

theorem fetchComplement_ok {R : Nat} (hR : 32 ≤ R) :
    (fetchComplement R).Implements Integral.spec (fun _ => .fetchComplement) := by
  exact fetch1_shape (by omega) (~~~ ·) (fun _ _ _ _ => Iff.rfl)

theorem negate_ok {R : Nat} (hR : 32 ≤ R) :
    (negate R).Implements Integral.spec (fun _ => .negate) := by
  exact new1_shape (by omega) (- ·) (fun _ _ _ _ => Iff.rfl)

theorem bitwiseComplement_ok {R : Nat} (hR : 32 ≤ R) :
    (bitwiseComplement R).Implements Integral.spec (fun _ => .bitwiseComplement) := by
  exact new1_shape (by omega) (~~~ ·) (fun _ _ _ _ => Iff.rfl)

theorem bitwiseAnd_ok {R : Nat} (hR : 32 ≤ R) :
    (bitwiseAnd R).Implements Integral.spec .bitwiseAnd := by
  exact new2_shape (by omega) (w := 32) (by decide) hR (fun v m => v &&& m) (fun _ _ _ _ => by simp only [Integral.spec, BitVec.and_comm])

theorem bitwiseOr_ok {R : Nat} (hR : 32 ≤ R) :
    (bitwiseOr R).Implements Integral.spec .bitwiseOr := by
  exact new2_shape (by omega) (w := 32) (by decide) hR (fun v m => v ||| m) (fun _ _ _ _ => by simp only [Integral.spec, BitVec.or_comm])

theorem bitwiseXor_ok {R : Nat} (hR : 32 ≤ R) :
    (bitwiseXor R).Implements Integral.spec .bitwiseXor := by
  exact new2_shape (by omega) (w := 32) (by decide) hR (fun v m => v ^^^ m) (fun _ _ _ _ => by simp only [Integral.spec, BitVec.xor_comm])

theorem opaqueAddOne_ok {R : Nat} (hR : 32 ≤ R) :
    (opaqueAddOne R).Implements Integral.spec (fun _ => .opaqueAdd 1) := by
  exact opaque1_shape (fun m => m + 1#32) (fun _ _ _ _ => Iff.rfl)

theorem opaqueAdd_ok {R : Nat} (hR : 32 ≤ R) :
    (opaqueAdd R).Implements Integral.spec .opaqueAdd := by
  exact opaque2_shape (· + ·) (fun _ _ _ _ => Iff.rfl)

theorem opaqueSubOne_ok {R : Nat} (hR : 32 ≤ R) :
    (opaqueSubOne R).Implements Integral.spec (fun _ => .opaqueSub 1) := by
  exact opaque1_shape (fun m => m - 1#32) (fun _ _ _ _ => Iff.rfl)

theorem opaqueSub_ok {R : Nat} (hR : 32 ≤ R) :
    (opaqueSub R).Implements Integral.spec .opaqueSub := by
  exact opaque2_shape (· - ·) (fun _ _ _ _ => Iff.rfl)

theorem opaqueNegate_ok {R : Nat} (hR : 32 ≤ R) :
    (opaqueNegate R).Implements Integral.spec (fun _ => .opaqueNegate) := by
  exact opaque1_shape (- ·) (fun _ _ _ _ => Iff.rfl)

theorem opaqueAnd_ok {R : Nat} (hR : 32 ≤ R) :
    (opaqueAnd R).Implements Integral.spec .opaqueAnd := by
  exact opaque2_shape (· &&& ·) (fun _ _ _ _ => Iff.rfl)

theorem opaqueOr_ok {R : Nat} (hR : 32 ≤ R) :
    (opaqueOr R).Implements Integral.spec .opaqueOr := by
  exact opaque2_shape (· ||| ·) (fun _ _ _ _ => Iff.rfl)

theorem opaqueXor_ok {R : Nat} (hR : 32 ≤ R) :
    (opaqueXor R).Implements Integral.spec .opaqueXor := by
  exact opaque2_shape (· ^^^ ·) (fun _ _ _ _ => Iff.rfl)

theorem opaqueComplement_ok {R : Nat} (hR : 32 ≤ R) :
    (opaqueComplement R).Implements Integral.spec (fun _ => .opaqueComplement) := by
  exact opaque1_shape (~~~ ·) (fun _ _ _ _ => Iff.rfl)

theorem addAndTestOne_ok {R : Nat} (hR : 32 ≤ R) :
    (addAndTestOne R).Implements Integral.spec (fun _ => .addAndTest 1) := by
  exact test1_shape (by omega) (fun m => m + 1#32) (fun _ _ => rfl) (fun _ _ _ _ => Iff.rfl)

theorem addAndTest_ok {R : Nat} (hR : 32 ≤ R) :
    (addAndTest R).Implements Integral.spec .addAndTest := by
  exact test2_shape (by omega) (· + ·) (fun _ _ _ _ => Iff.rfl)

theorem subAndTestOne_ok {R : Nat} (hR : 32 ≤ R) :
    (subAndTestOne R).Implements Integral.spec (fun _ => .subAndTest 1) := by
  exact test1_shape (by omega) (fun m => m - 1#32) (fun _ _ => rfl) (fun _ _ _ _ => Iff.rfl)

theorem subAndTest_ok {R : Nat} (hR : 32 ≤ R) :
    (subAndTest R).Implements Integral.spec .subAndTest := by
  exact test2_shape (by omega) (· - ·) (fun _ _ _ _ => Iff.rfl)

theorem andAndTest_ok {R : Nat} (hR : 32 ≤ R) :
    (andAndTest R).Implements Integral.spec .andAndTest := by
  exact test2_shape (by omega) (· &&& ·) (fun _ _ _ _ => Iff.rfl)

theorem orAndTest_ok {R : Nat} (hR : 32 ≤ R) :
    (orAndTest R).Implements Integral.spec .orAndTest := by
  exact test2_shape (by omega) (· ||| ·) (fun _ _ _ _ => Iff.rfl)

theorem xorAndTest_ok {R : Nat} (hR : 32 ≤ R) :
    (xorAndTest R).Implements Integral.spec .xorAndTest := by
  exact test2_shape (by omega) (· ^^^ ·) (fun _ _ _ _ => Iff.rfl)

theorem bitTestAndSet_ok {R : Nat} (hR : 32 ≤ R) :
    (bitTestAndSet R).Implements Integral.spec .bitTestAndSet := by
  exact bit_shape (by omega) (· ||| ·) (fun m b => ⟨Integral.setsBit_or m b, rfl⟩)

theorem bitTestAndReset_ok {R : Nat} (hR : 32 ≤ R) :
    (bitTestAndReset R).Implements Integral.spec .bitTestAndReset := by
  exact bit_shape (by omega) (fun m k => m &&& ~~~ k) (fun m b => ⟨Integral.setsBit_reset m b, rfl⟩)

theorem bitTestAndComplement_ok {R : Nat} (hR : 32 ≤ R) :
    (bitTestAndComplement R).Implements Integral.spec .bitTestAndComplement := by
  exact bit_shape (by omega) (· ^^^ ·) (fun m b => ⟨Integral.setsBit_xor m b, rfl⟩)

theorem compareExchangeStrongSet_ok {R : Nat} (hR : 32 ≤ R) :
    (compareExchangeStrongSet R).Implements Integral.spec (fun a => .casStrong a.1 a.2) := by
  exact cmpxchg_shape (by omega) (by omega)

theorem addAndTestOneSet_ok {R : Nat} (hR : 32 ≤ R) :
    (addAndTestOneSet R).Implements Integral.spec (fun _ => .addAndTest 1) := by
  exact test1_shape (by omega) (fun m => m + 1#32) (fun _ _ => rfl) (fun _ _ _ _ => Iff.rfl)

theorem addAndTestSet_ok {R : Nat} (hR : 32 ≤ R) :
    (addAndTestSet R).Implements Integral.spec .addAndTest := by
  exact test2_shape (by omega) (· + ·) (fun _ _ _ _ => Iff.rfl)

theorem subAndTestOneSet_ok {R : Nat} (hR : 32 ≤ R) :
    (subAndTestOneSet R).Implements Integral.spec (fun _ => .subAndTest 1) := by
  exact test1_shape (by omega) (fun m => m - 1#32) (fun _ _ => rfl) (fun _ _ _ _ => Iff.rfl)

theorem subAndTestSet_ok {R : Nat} (hR : 32 ≤ R) :
    (subAndTestSet R).Implements Integral.spec .subAndTest := by
  exact test2_shape (by omega) (· - ·) (fun _ _ _ _ => Iff.rfl)

theorem andAndTestSet_ok {R : Nat} (hR : 32 ≤ R) :
    (andAndTestSet R).Implements Integral.spec .andAndTest := by
  exact test2_shape (by omega) (· &&& ·) (fun _ _ _ _ => Iff.rfl)

theorem orAndTestSet_ok {R : Nat} (hR : 32 ≤ R) :
    (orAndTestSet R).Implements Integral.spec .orAndTest := by
  exact test2_shape (by omega) (· ||| ·) (fun _ _ _ _ => Iff.rfl)

theorem xorAndTestSet_ok {R : Nat} (hR : 32 ≤ R) :
    (xorAndTestSet R).Implements Integral.spec .xorAndTest := by
  exact test2_shape (by omega) (· ^^^ ·) (fun _ _ _ _ => Iff.rfl)

theorem bitTestAndSetSet_ok {R : Nat} (hR : 32 ≤ R) :
    (bitTestAndSetSet R).Implements Integral.spec .bitTestAndSet := by
  exact bit_shape (by omega) (· ||| ·) (fun m b => ⟨Integral.setsBit_or m b, rfl⟩)

theorem bitTestAndResetSet_ok {R : Nat} (hR : 32 ≤ R) :
    (bitTestAndResetSet R).Implements Integral.spec .bitTestAndReset := by
  exact bit_shape (by omega) (fun m k => m &&& ~~~ k) (fun m b => ⟨Integral.setsBit_reset m b, rfl⟩)

theorem bitTestAndComplementSet_ok {R : Nat} (hR : 32 ≤ R) :
    (bitTestAndComplementSet R).Implements Integral.spec .bitTestAndComplement := by
  exact bit_shape (by omega) (· ^^^ ·) (fun m b => ⟨Integral.setsBit_xor m b, rfl⟩)

end X86x4

namespace X86x8

theorem fetchAdd_ok :
    fetchAdd.Implements Integral.spec .fetchAdd := by
  exact xadd_shape (by decide)

theorem exchange_ok :
    exchange.Implements Integral.spec .exchange := by
  exact xchg_shape (by decide)

theorem compareExchangeStrong_ok :
    compareExchangeStrong.Implements Integral.spec (fun a => .casStrong a.1 a.2) := by
  exact cmpxchg_shape (by decide) (by decide)

theorem fetchAnd_ok :
    fetchAnd.Implements Integral.spec .fetchAnd := by
  exact fetch2_shape (by decide) (w := 64) (by decide) (by decide) (fun v m => v &&& m) (fun _ _ _ _ => by simp only [Integral.spec, BitVec.and_comm])

theorem fetchOr_ok :
    fetchOr.Implements Integral.spec .fetchOr := by
  exact fetch2_shape (by decide) (w := 64) (by decide) (by decide) (fun v m => v ||| m) (fun _ _ _ _ => by simp only [Integral.spec, BitVec.or_comm])

theorem fetchXor_ok :
    fetchXor.Implements Integral.spec .fetchXor := by
  exact fetch2_shape (by decide) (w := 64) (by decide) (by decide) (fun v m => v ^^^ m) (fun _ _ _ _ => by simp only [Integral.spec, BitVec.xor_comm])

theorem fetchNegate_ok :
    fetchNegate.Implements Integral.spec (fun _ => .fetchNegate) := by
  exact fetch1_shape (by decide) (- ·) (fun _ _ _ _ => Iff.rfl)

theorem fetchComplement_ok :
    fetchComplement.Implements Integral.spec (fun _ => .fetchComplement) := by
  exact fetch1_shape (by decide) (~~~ ·) (fun _ _ _ _ => Iff.rfl)

theorem negate_ok :
    negate.Implements Integral.spec (fun _ => .negate) := by
  exact new1_shape (by decide) (- ·) (fun _ _ _ _ => Iff.rfl)

theorem bitwiseComplement_ok :
    bitwiseComplement.Implements Integral.spec (fun _ => .bitwiseComplement) := by
  exact new1_shape (by decide) (~~~ ·) (fun _ _ _ _ => Iff.rfl)

theorem bitwiseAnd_ok :
    bitwiseAnd.Implements Integral.spec .bitwiseAnd := by
  exact new2_shape (by decide) (w := 64) (by decide) (by decide) (fun v m => v &&& m) (fun _ _ _ _ => by simp only [Integral.spec, BitVec.and_comm])

theorem bitwiseOr_ok :
    bitwiseOr.Implements Integral.spec .bitwiseOr := by
  exact new2_shape (by decide) (w := 64) (by decide) (by decide) (fun v m => v ||| m) (fun _ _ _ _ => by simp only [Integral.spec, BitVec.or_comm])

theorem bitwiseXor_ok :
    bitwiseXor.Implements Integral.spec .bitwiseXor := by
  exact new2_shape (by decide) (w := 64) (by decide) (by decide) (fun v m => v ^^^ m) (fun _ _ _ _ => by simp only [Integral.spec, BitVec.xor_comm])

theorem opaqueAddOne_ok :
    opaqueAddOne.Implements Integral.spec (fun _ => .opaqueAdd 1) := by
  exact opaque1_shape (fun m => m + 1#64) (fun _ _ _ _ => Iff.rfl)

theorem opaqueAdd_ok :
    opaqueAdd.Implements Integral.spec .opaqueAdd := by
  exact opaque2_shape (· + ·) (fun _ _ _ _ => Iff.rfl)

theorem opaqueSubOne_ok :
    opaqueSubOne.Implements Integral.spec (fun _ => .opaqueSub 1) := by
  exact opaque1_shape (fun m => m - 1#64) (fun _ _ _ _ => Iff.rfl)

theorem opaqueSub_ok :
    opaqueSub.Implements Integral.spec .opaqueSub := by
  exact opaque2_shape (· - ·) (fun _ _ _ _ => Iff.rfl)

theorem opaqueNegate_ok :
    opaqueNegate.Implements Integral.spec (fun _ => .opaqueNegate) := by
  exact opaque1_shape (- ·) (fun _ _ _ _ => Iff.rfl)

theorem opaqueAnd_ok :
    opaqueAnd.Implements Integral.spec .opaqueAnd := by
  exact opaque2_shape (· &&& ·) (fun _ _ _ _ => Iff.rfl)

theorem opaqueOr_ok :
    opaqueOr.Implements Integral.spec .opaqueOr := by
  exact opaque2_shape (· ||| ·) (fun _ _ _ _ => Iff.rfl)

theorem opaqueXor_ok :
    opaqueXor.Implements Integral.spec .opaqueXor := by
  exact opaque2_shape (· ^^^ ·) (fun _ _ _ _ => Iff.rfl)

theorem opaqueComplement_ok :
    opaqueComplement.Implements Integral.spec (fun _ => .opaqueComplement) := by
  exact opaque1_shape (~~~ ·) (fun _ _ _ _ => Iff.rfl)

theorem addAndTestOne_ok :
    addAndTestOne.Implements Integral.spec (fun _ => .addAndTest 1) := by
  exact test1_shape (by decide) (fun m => m + 1#64) (fun _ _ => rfl) (fun _ _ _ _ => Iff.rfl)

theorem addAndTest_ok :
    addAndTest.Implements Integral.spec .addAndTest := by
  exact test2_shape (by decide) (· + ·) (fun _ _ _ _ => Iff.rfl)

theorem subAndTestOne_ok :
    subAndTestOne.Implements Integral.spec (fun _ => .subAndTest 1) := by
  exact test1_shape (by decide) (fun m => m - 1#64) (fun _ _ => rfl) (fun _ _ _ _ => Iff.rfl)

theorem subAndTest_ok :
    subAndTest.Implements Integral.spec .subAndTest := by
  exact test2_shape (by decide) (· - ·) (fun _ _ _ _ => Iff.rfl)

theorem andAndTest_ok :
    andAndTest.Implements Integral.spec .andAndTest := by
  exact test2_shape (by decide) (· &&& ·) (fun _ _ _ _ => Iff.rfl)

theorem orAndTest_ok :
    orAndTest.Implements Integral.spec .orAndTest := by
  exact test2_shape (by decide) (· ||| ·) (fun _ _ _ _ => Iff.rfl)

theorem xorAndTest_ok :
    xorAndTest.Implements Integral.spec .xorAndTest := by
  exact test2_shape (by decide) (· ^^^ ·) (fun _ _ _ _ => Iff.rfl)

theorem bitTestAndSet_ok :
    bitTestAndSet.Implements Integral.spec .bitTestAndSet := by
  exact bit_shape (by decide) (· ||| ·) (fun m b => ⟨Integral.setsBit_or m b, rfl⟩)

theorem bitTestAndReset_ok :
    bitTestAndReset.Implements Integral.spec .bitTestAndReset := by
  exact bit_shape (by decide) (fun m k => m &&& ~~~ k) (fun m b => ⟨Integral.setsBit_reset m b, rfl⟩)

theorem bitTestAndComplement_ok :
    bitTestAndComplement.Implements Integral.spec .bitTestAndComplement := by
  exact bit_shape (by decide) (· ^^^ ·) (fun m b => ⟨Integral.setsBit_xor m b, rfl⟩)

theorem compareExchangeStrongSet_ok :
    compareExchangeStrongSet.Implements Integral.spec (fun a => .casStrong a.1 a.2) := by
  exact cmpxchg_shape (by decide) (by decide)

theorem addAndTestOneSet_ok :
    addAndTestOneSet.Implements Integral.spec (fun _ => .addAndTest 1) := by
  exact test1_shape (by decide) (fun m => m + 1#64) (fun _ _ => rfl) (fun _ _ _ _ => Iff.rfl)

theorem addAndTestSet_ok :
    addAndTestSet.Implements Integral.spec .addAndTest := by
  exact test2_shape (by decide) (· + ·) (fun _ _ _ _ => Iff.rfl)

theorem subAndTestOneSet_ok :
    subAndTestOneSet.Implements Integral.spec (fun _ => .subAndTest 1) := by
  exact test1_shape (by decide) (fun m => m - 1#64) (fun _ _ => rfl) (fun _ _ _ _ => Iff.rfl)

theorem subAndTestSet_ok :
    subAndTestSet.Implements Integral.spec .subAndTest := by
  exact test2_shape (by decide) (· - ·) (fun _ _ _ _ => Iff.rfl)

theorem andAndTestSet_ok :
    andAndTestSet.Implements Integral.spec .andAndTest := by
  exact test2_shape (by decide) (· &&& ·) (fun _ _ _ _ => Iff.rfl)

theorem orAndTestSet_ok :
    orAndTestSet.Implements Integral.spec .orAndTest := by
  exact test2_shape (by decide) (· ||| ·) (fun _ _ _ _ => Iff.rfl)

theorem xorAndTestSet_ok :
    xorAndTestSet.Implements Integral.spec .xorAndTest := by
  exact test2_shape (by decide) (· ^^^ ·) (fun _ _ _ _ => Iff.rfl)

theorem bitTestAndSetSet_ok :
    bitTestAndSetSet.Implements Integral.spec .bitTestAndSet := by
  exact bit_shape (by decide) (· ||| ·) (fun m b => ⟨Integral.setsBit_or m b, rfl⟩)

theorem bitTestAndResetSet_ok :
    bitTestAndResetSet.Implements Integral.spec .bitTestAndReset := by
  exact bit_shape (by decide) (fun m k => m &&& ~~~ k) (fun m b => ⟨Integral.setsBit_reset m b, rfl⟩)

theorem bitTestAndComplementSet_ok :
    bitTestAndComplementSet.Implements Integral.spec .bitTestAndComplement := by
  exact bit_shape (by decide) (· ^^^ ·) (fun m b => ⟨Integral.setsBit_xor m b, rfl⟩)

end X86x8

end Verif.Asm
