import Verif.Asm.PpcShape
import Verif.Asm.PpcCode

/-
The PowerPC functions are correct.
Written by tools/asmgen.py.
-/

set_option linter.unusedSimpArgs false
set_option linter.unusedVariables false

namespace Verif.Asm
open Ppc

namespace Ppc1

theorem store__ok {R : Nat} (hR : 32 ≤ R) :
    (store_ R).Implements Integral.spec .store := by
  exact store_shape

theorem load_1_ok {R : Nat} (hR : 32 ≤ R) :
    (load_1 R).Implements Integral.spec (fun _ => .load) := by
  have hN : 8 ≤ R := by omega
  exact load_acquire_shape (cmp := eqw) hN eqw_self

theorem load_2_ok {R : Nat} (hR : 32 ≤ R) :
    (load_2 R).Implements Integral.spec (fun _ => .load) := by
  have hN : 8 ≤ R := by omega
  exact load_shape hN

theorem exchange_ok {R : Nat} (hR : 32 ≤ R) :
    (exchange R).Implements Integral.spec .exchange := by
  have hN : 8 ≤ R := by omega
  exact exchange_shape hN

theorem compareExchangeWeak_ok {R : Nat} (hR : 32 ≤ R) :
    (compareExchangeWeak R).Implements Integral.spec (fun a => .casWeak a.1 a.2) := by
  have hN : 8 ≤ R := by omega
  exact weak_narrow_shape (cmp := eqw) hN (li_one (by omega)) (eqw_le hR (by decide))

theorem compareExchangeStrong_ok {R : Nat} (hR : 32 ≤ R) :
    ((compareExchangeStrong R).zext 3).Implements Integral.spec (fun a => .casStrong a.1 a.2) := by
  have hN : 8 ≤ R := by omega
  exact zext_assoc (strong_shape (cmp := eqw) hN (li_one (by omega))
    (fun e y => y.setWidth 8 = e ∧ y.setWidth 32 = (y.setWidth 8).setWidth 32) (eqw_narrow hR (by decide)))

theorem fetchAdd_ok {R : Nat} (hR : 32 ≤ R) :
    (fetchAdd R).Implements Integral.spec .fetchAdd := by
  have hN : 8 ≤ R := by omega
  exact fetch2_shape hN (· + ·) (fun _ _ _ _ => Iff.rfl) (by simp [asm_bv, hN])

theorem fetchSub_ok {R : Nat} (hR : 32 ≤ R) :
    (fetchSub R).Implements Integral.spec .fetchSub := by
  have hN : 8 ≤ R := by omega
  exact fetch2_shape hN (· - ·) (fun _ _ _ _ => Iff.rfl) (by simp [asm_bv, hN])

theorem fetchAnd_ok {R : Nat} (hR : 32 ≤ R) :
    (fetchAnd R).Implements Integral.spec .fetchAnd := by
  have hN : 8 ≤ R := by omega
  exact fetch2_shape hN (· &&& ·) (fun _ _ _ _ => Iff.rfl) (by simp [asm_bv, hN])

theorem fetchOr_ok {R : Nat} (hR : 32 ≤ R) :
    (fetchOr R).Implements Integral.spec .fetchOr := by
  have hN : 8 ≤ R := by omega
  exact fetch2_shape hN (· ||| ·) (fun _ _ _ _ => Iff.rfl) (by simp [asm_bv, hN])

theorem fetchXor_ok {R : Nat} (hR : 32 ≤ R) :
    (fetchXor R).Implements Integral.spec .fetchXor := by
  have hN : 8 ≤ R := by omega
  exact fetch2_shape hN (· ^^^ ·) (fun _ _ _ _ => Iff.rfl) (by simp [asm_bv, hN])

theorem fetchNegate_ok {R : Nat} (hR : 32 ≤ R) :
    (fetchNegate R).Implements Integral.spec (fun _ => .fetchNegate) := by
  have hN : 8 ≤ R := by omega
  exact fetch1_shape hN (- ·) (fun _ _ _ => Iff.rfl) (by simp [asm_bv, hN])

theorem negate_ok {R : Nat} (hR : 32 ≤ R) :
    (negate R).Implements Integral.spec (fun _ => .negate) := by
  have hN : 8 ≤ R := by omega
  exact new1_shape hN (- ·) (fun _ _ _ => Iff.rfl) (by simp [asm_bv, hN])

theorem add__ok {R : Nat} (hR : 32 ≤ R) :
    (add_ R).Implements Integral.spec .add := by
  have hN : 8 ≤ R := by omega
  exact new2_shape hN (· + ·) (fun _ _ _ _ => Iff.rfl) (by simp [asm_bv, hN])

theorem sub__ok {R : Nat} (hR : 32 ≤ R) :
    (sub_ R).Implements Integral.spec .sub := by
  have hN : 8 ≤ R := by omega
  exact new2_shape hN (· - ·) (fun _ _ _ _ => Iff.rfl) (by simp [asm_bv, hN])

theorem bitwiseAnd_ok {R : Nat} (hR : 32 ≤ R) :
    (bitwiseAnd R).Implements Integral.spec .bitwiseAnd := by
  have hN : 8 ≤ R := by omega
  exact new2_shape hN (· &&& ·) (fun _ _ _ _ => Iff.rfl) (by simp [asm_bv, hN])

theorem bitwiseOr_ok {R : Nat} (hR : 32 ≤ R) :
    (bitwiseOr R).Implements Integral.spec .bitwiseOr := by
  have hN : 8 ≤ R := by omega
  exact new2_shape hN (· ||| ·) (fun _ _ _ _ => Iff.rfl) (by simp [asm_bv, hN])

theorem bitwiseXor_ok {R : Nat} (hR : 32 ≤ R) :
    (bitwiseXor R).Implements Integral.spec .bitwiseXor := by
  have hN : 8 ≤ R := by omega
  exact new2_shape hN (· ^^^ ·) (fun _ _ _ _ => Iff.rfl) (by simp [asm_bv, hN])

theorem fetchComplement_ok {R : Nat} (hR : 32 ≤ R) :
    (fetchComplement R).Implements Integral.spec (fun _ => .fetchComplement) := by
  have hN : 8 ≤ R := by omega
  exact fetchSelf_shape hN (f := fun x y => ~~~ (x ||| y)) (~~~ ·) (fun _ _ _ => Iff.rfl) (by simp [asm_bv, hN])

theorem bitwiseComplement_ok {R : Nat} (hR : 32 ≤ R) :
    (bitwiseComplement R).Implements Integral.spec (fun _ => .bitwiseComplement) := by
  have hN : 8 ≤ R := by omega
  exact newSelf_shape hN (f := fun x y => ~~~ (x ||| y)) (~~~ ·) (fun _ _ _ => Iff.rfl) (by simp [asm_bv, hN])

end Ppc1

namespace Ppc2

theorem store__ok {R : Nat} (hR : 32 ≤ R) :
    (store_ R).Implements Integral.spec .store := by
  exact store_shape

theorem load_1_ok {R : Nat} (hR : 32 ≤ R) :
    (load_1 R).Implements Integral.spec (fun _ => .load) := by
  have hN : 16 ≤ R := by omega
  exact load_acquire_shape (cmp := eqw) hN eqw_self

theorem load_2_ok {R : Nat} (hR : 32 ≤ R) :
    (load_2 R).Implements Integral.spec (fun _ => .load) := by
  have hN : 16 ≤ R := by omega
  exact load_shape hN

theorem exchange_ok {R : Nat} (hR : 32 ≤ R) :
    (exchange R).Implements Integral.spec .exchange := by
  have hN : 16 ≤ R := by omega
  exact exchange_shape hN

theorem compareExchangeWeak_ok {R : Nat} (hR : 32 ≤ R) :
    (compareExchangeWeak R).Implements Integral.spec (fun a => .casWeak a.1 a.2) := by
  have hN : 16 ≤ R := by omega
  exact weak_narrow_shape (cmp := eqw) hN (li_one (by omega)) (eqw_le hR (by decide))

theorem compareExchangeStrong_ok {R : Nat} (hR : 32 ≤ R) :
    ((compareExchangeStrong R).zext 3).Implements Integral.spec (fun a => .casStrong a.1 a.2) := by
  have hN : 16 ≤ R := by omega
  exact zext_assoc (strong_shape (cmp := eqw) hN (li_one (by omega))
    (fun e y => y.setWidth 16 = e ∧ y.setWidth 32 = (y.setWidth 16).setWidth 32) (eqw_narrow hR (by decide)))

theorem fetchAdd_ok {R : Nat} (hR : 32 ≤ R) :
    (fetchAdd R).Implements Integral.spec .fetchAdd := by
  have hN : 16 ≤ R := by omega
  exact fetch2_shape hN (· + ·) (fun _ _ _ _ => Iff.rfl) (by simp [asm_bv, hN])

theorem fetchSub_ok {R : Nat} (hR : 32 ≤ R) :
    (fetchSub R).Implements Integral.spec .fetchSub := by
  have hN : 16 ≤ R := by omega
  exact fetch2_shape hN (· - ·) (fun _ _ _ _ => Iff.rfl) (by simp [asm_bv, hN])

theorem fetchAnd_ok {R : Nat} (hR : 32 ≤ R) :
    (fetchAnd R).Implements Integral.spec .fetchAnd := by
  have hN : 16 ≤ R := by omega
  exact fetch2_shape hN (· &&& ·) (fun _ _ _ _ => Iff.rfl) (by simp [asm_bv, hN])

theorem fetchOr_ok {R : Nat} (hR : 32 ≤ R) :
    (fetchOr R).Implements Integral.spec .fetchOr := by
  have hN : 16 ≤ R := by omega
  exact fetch2_shape hN (· ||| ·) (fun _ _ _ _ => Iff.rfl) (by simp [asm_bv, hN])

theorem fetchXor_ok {R : Nat} (hR : 32 ≤ R) :
    (fetchXor R).Implements Integral.spec .fetchXor := by
  have hN : 16 ≤ R := by omega
  exact fetch2_shape hN (· ^^^ ·) (fun _ _ _ _ => Iff.rfl) (by simp [asm_bv, hN])

theorem fetchNegate_ok {R : Nat} (hR : 32 ≤ R) :
    (fetchNegate R).Implements Integral.spec (fun _ => .fetchNegate) := by
  have hN : 16 ≤ R := by omega
  exact fetch1_shape hN (- ·) (fun _ _ _ => Iff.rfl) (by simp [asm_bv, hN])

theorem negate_ok {R : Nat} (hR : 32 ≤ R) :
    (negate R).Implements Integral.spec (fun _ => .negate) := by
  have hN : 16 ≤ R := by omega
  exact new1_shape hN (- ·) (fun _ _ _ => Iff.rfl) (by simp [asm_bv, hN])

theorem add__ok {R : Nat} (hR : 32 ≤ R) :
    (add_ R).Implements Integral.spec .add := by
  have hN : 16 ≤ R := by omega
  exact new2_shape hN (· + ·) (fun _ _ _ _ => Iff.rfl) (by simp [asm_bv, hN])

theorem sub__ok {R : Nat} (hR : 32 ≤ R) :
    (sub_ R).Implements Integral.spec .sub := by
  have hN : 16 ≤ R := by omega
  exact new2_shape hN (· - ·) (fun _ _ _ _ => Iff.rfl) (by simp [asm_bv, hN])

theorem bitwiseAnd_ok {R : Nat} (hR : 32 ≤ R) :
    (bitwiseAnd R).Implements Integral.spec .bitwiseAnd := by
  have hN : 16 ≤ R := by omega
  exact new2_shape hN (· &&& ·) (fun _ _ _ _ => Iff.rfl) (by simp [asm_bv, hN])

theorem bitwiseOr_ok {R : Nat} (hR : 32 ≤ R) :
    (bitwiseOr R).Implements Integral.spec .bitwiseOr := by
  have hN : 16 ≤ R := by omega
  exact new2_shape hN (· ||| ·) (fun _ _ _ _ => Iff.rfl) (by simp [asm_bv, hN])

theorem bitwiseXor_ok {R : Nat} (hR : 32 ≤ R) :
    (bitwiseXor R).Implements Integral.spec .bitwiseXor := by
  have hN : 16 ≤ R := by omega
  exact new2_shape hN (· ^^^ ·) (fun _ _ _ _ => Iff.rfl) (by simp [asm_bv, hN])

theorem fetchComplement_ok {R : Nat} (hR : 32 ≤ R) :
    (fetchComplement R).Implements Integral.spec (fun _ => .fetchComplement) := by
  have hN : 16 ≤ R := by omega
  exact fetchSelf_shape hN (f := fun x y => ~~~ (x ||| y)) (~~~ ·) (fun _ _ _ => Iff.rfl) (by simp [asm_bv, hN])

theorem bitwiseComplement_ok {R : Nat} (hR : 32 ≤ R) :
    (bitwiseComplement R).Implements Integral.spec (fun _ => .bitwiseComplement) := by
  have hN : 16 ≤ R := by omega
  exact newSelf_shape hN (f := fun x y => ~~~ (x ||| y)) (~~~ ·) (fun _ _ _ => Iff.rfl) (by simp [asm_bv, hN])

end Ppc2

namespace Ppc4

theorem store__ok {R : Nat} (hR : 32 ≤ R) :
    (store_ R).Implements Integral.spec .store := by
  exact store_shape

theorem load_1_ok {R : Nat} (hR : 32 ≤ R) :
    (load_1 R).Implements Integral.spec (fun _ => .load) := by
  have hN : 32 ≤ R := by omega
  exact load_acquire_shape (cmp := eqw) hN eqw_self

theorem load_2_ok {R : Nat} (hR : 32 ≤ R) :
    (load_2 R).Implements Integral.spec (fun _ => .load) := by
  have hN : 32 ≤ R := by omega
  exact load_shape hN

theorem exchange_ok {R : Nat} (hR : 32 ≤ R) :
    (exchange R).Implements Integral.spec .exchange := by
  have hN : 32 ≤ R := by omega
  exact exchange_shape hN

theorem compareExchangeWeak_ok {R : Nat} (hR : 32 ≤ R) :
    (compareExchangeWeak R).Implements Integral.spec (fun a => .casWeak a.1 a.2) := by
  have hN : 32 ≤ R := by omega
  exact weak_shape (cmp := eqw) hN (li_one (by omega)) (fun e y => y.setWidth 32 = e) (eqw_32 hR)

theorem compareExchangeStrong_ok {R : Nat} (hR : 32 ≤ R) :
    (compareExchangeStrong R).Implements Integral.spec (fun a => .casStrong a.1 a.2) := by
  have hN : 32 ≤ R := by omega
  exact strong_shape (cmp := eqw) hN (li_one (by omega)) (fun e y => y.setWidth 32 = e) (eqw_32 hR)

theorem fetchAdd_ok {R : Nat} (hR : 32 ≤ R) :
    (fetchAdd R).Implements Integral.spec .fetchAdd := by
  have hN : 32 ≤ R := by omega
  exact fetch2_shape hN (· + ·) (fun _ _ _ _ => Iff.rfl) (by simp [asm_bv, hN])

theorem fetchSub_ok {R : Nat} (hR : 32 ≤ R) :
    (fetchSub R).Implements Integral.spec .fetchSub := by
  have hN : 32 ≤ R := by omega
  exact fetch2_shape hN (· - ·) (fun _ _ _ _ => Iff.rfl) (by simp [asm_bv, hN])

theorem fetchAnd_ok {R : Nat} (hR : 32 ≤ R) :
    (fetchAnd R).Implements Integral.spec .fetchAnd := by
  have hN : 32 ≤ R := by omega
  exact fetch2_shape hN (· &&& ·) (fun _ _ _ _ => Iff.rfl) (by simp [asm_bv, hN])

theorem fetchOr_ok {R : Nat} (hR : 32 ≤ R) :
    (fetchOr R).Implements Integral.spec .fetchOr := by
  have hN : 32 ≤ R := by omega
  exact fetch2_shape hN (· ||| ·) (fun _ _ _ _ => Iff.rfl) (by simp [asm_bv, hN])

theorem fetchXor_ok {R : Nat} (hR : 32 ≤ R) :
    (fetchXor R).Implements Integral.spec .fetchXor := by
  have hN : 32 ≤ R := by omega
  exact fetch2_shape hN (· ^^^ ·) (fun _ _ _ _ => Iff.rfl) (by simp [asm_bv, hN])

theorem fetchNegate_ok {R : Nat} (hR : 32 ≤ R) :
    (fetchNegate R).Implements Integral.spec (fun _ => .fetchNegate) := by
  have hN : 32 ≤ R := by omega
  exact fetch1_shape hN (- ·) (fun _ _ _ => Iff.rfl) (by simp [asm_bv, hN])

theorem negate_ok {R : Nat} (hR : 32 ≤ R) :
    (negate R).Implements Integral.spec (fun _ => .negate) := by
  have hN : 32 ≤ R := by omega
  exact new1_shape hN (- ·) (fun _ _ _ => Iff.rfl) (by simp [asm_bv, hN])

theorem add__ok {R : Nat} (hR : 32 ≤ R) :
    (add_ R).Implements Integral.spec .add := by
  have hN : 32 ≤ R := by omega
  exact new2_shape hN (· + ·) (fun _ _ _ _ => Iff.rfl) (by simp [asm_bv, hN])

theorem sub__ok {R : Nat} (hR : 32 ≤ R) :
    (sub_ R).Implements Integral.spec .sub := by
  have hN : 32 ≤ R := by omega
  exact new2_shape hN (· - ·) (fun _ _ _ _ => Iff.rfl) (by simp [asm_bv, hN])

theorem bitwiseAnd_ok {R : Nat} (hR : 32 ≤ R) :
    (bitwiseAnd R).Implements Integral.spec .bitwiseAnd := by
  have hN : 32 ≤ R := by omega
  exact new2_shape hN (· &&& ·) (fun _ _ _ _ => Iff.rfl) (by simp [asm_bv, hN])

theorem bitwiseOr_ok {R : Nat} (hR : 32 ≤ R) :
    (bitwiseOr R).Implements Integral.spec .bitwiseOr := by
  have hN : 32 ≤ R := by omega
  exact new2_shape hN (· ||| ·) (fun _ _ _ _ => Iff.rfl) (by simp [asm_bv, hN])

theorem bitwiseXor_ok {R : Nat} (hR : 32 ≤ R) :
    (bitwiseXor R).Implements Integral.spec .bitwiseXor := by
  have hN : 32 ≤ R := by omega
  exact new2_shape hN (· ^^^ ·) (fun _ _ _ _ => Iff.rfl) (by simp [asm_bv, hN])

theorem fetchComplement_ok {R : Nat} (hR : 32 ≤ R) :
    (fetchComplement R).Implements Integral.spec (fun _ => .fetchComplement) := by
  have hN : 32 ≤ R := by omega
  exact fetchSelf_shape hN (f := fun x y => ~~~ (x ||| y)) (~~~ ·) (fun _ _ _ => Iff.rfl) (by simp [asm_bv, hN])

theorem bitwiseComplement_ok {R : Nat} (hR : 32 ≤ R) :
    (bitwiseComplement R).Implements Integral.spec (fun _ => .bitwiseComplement) := by
  have hN : 32 ≤ R := by omega
  exact newSelf_shape hN (f := fun x y => ~~~ (x ||| y)) (~~~ ·) (fun _ _ _ => Iff.rfl) (by simp [asm_bv, hN])

end Ppc4

namespace Ppc8

theorem store__ok :
    store_.Implements Integral.spec .store := by
  exact store_shape

theorem load_1_ok :
    load_1.Implements Integral.spec (fun _ => .load) := by
  exact load_acquire_shape (cmp := eqd) (by decide) eqd_self

theorem load_2_ok :
    load_2.Implements Integral.spec (fun _ => .load) := by
  exact load_shape (by decide)

theorem exchange_ok :
    exchange.Implements Integral.spec .exchange := by
  exact exchange_shape (by decide)

theorem compareExchangeWeak_ok :
    compareExchangeWeak.Implements Integral.spec (fun a => .casWeak a.1 a.2) := by
  exact weak_shape (cmp := eqd) (by decide) (by decide) (fun e y => y.setWidth 64 = e) eqd_64

theorem compareExchangeStrong_ok :
    compareExchangeStrong.Implements Integral.spec (fun a => .casStrong a.1 a.2) := by
  exact strong_shape (cmp := eqd) (by decide) (by decide) (fun e y => y.setWidth 64 = e) eqd_64

theorem fetchAdd_ok :
    fetchAdd.Implements Integral.spec .fetchAdd := by
  exact fetch2_shape (by decide) (· + ·) (fun _ _ _ _ => Iff.rfl) (by simp [asm_bv])

theorem fetchSub_ok :
    fetchSub.Implements Integral.spec .fetchSub := by
  exact fetch2_shape (by decide) (· - ·) (fun _ _ _ _ => Iff.rfl) (by simp [asm_bv])

theorem fetchAnd_ok :
    fetchAnd.Implements Integral.spec .fetchAnd := by
  exact fetch2_shape (by decide) (· &&& ·) (fun _ _ _ _ => Iff.rfl) (by simp [asm_bv])

theorem fetchOr_ok :
    fetchOr.Implements Integral.spec .fetchOr := by
  exact fetch2_shape (by decide) (· ||| ·) (fun _ _ _ _ => Iff.rfl) (by simp [asm_bv])

theorem fetchXor_ok :
    fetchXor.Implements Integral.spec .fetchXor := by
  exact fetch2_shape (by decide) (· ^^^ ·) (fun _ _ _ _ => Iff.rfl) (by simp [asm_bv])

theorem fetchNegate_ok :
    fetchNegate.Implements Integral.spec (fun _ => .fetchNegate) := by
  exact fetch1_shape (by decide) (- ·) (fun _ _ _ => Iff.rfl) (by simp [asm_bv])

theorem negate_ok :
    negate.Implements Integral.spec (fun _ => .negate) := by
  exact new1_shape (by decide) (- ·) (fun _ _ _ => Iff.rfl) (by simp [asm_bv])

theorem add__ok :
    add_.Implements Integral.spec .add := by
  exact new2_shape (by decide) (· + ·) (fun _ _ _ _ => Iff.rfl) (by simp [asm_bv])

theorem sub__ok :
    sub_.Implements Integral.spec .sub := by
  exact new2_shape (by decide) (· - ·) (fun _ _ _ _ => Iff.rfl) (by simp [asm_bv])

theorem bitwiseAnd_ok :
    bitwiseAnd.Implements Integral.spec .bitwiseAnd := by
  exact new2_shape (by decide) (· &&& ·) (fun _ _ _ _ => Iff.rfl) (by simp [asm_bv])

theorem bitwiseOr_ok :
    bitwiseOr.Implements Integral.spec .bitwiseOr := by
  exact new2_shape (by decide) (· ||| ·) (fun _ _ _ _ => Iff.rfl) (by simp [asm_bv])

theorem bitwiseXor_ok :
    bitwiseXor.Implements Integral.spec .bitwiseXor := by
  exact new2_shape (by decide) (· ^^^ ·) (fun _ _ _ _ => Iff.rfl) (by simp [asm_bv])

theorem fetchComplement_ok :
    fetchComplement.Implements Integral.spec (fun _ => .fetchComplement) := by
  exact fetchSelf_shape (by decide) (f := fun x y => ~~~ (x ||| y)) (~~~ ·) (fun _ _ _ => Iff.rfl) (by simp [asm_bv])

theorem bitwiseComplement_ok :
    bitwiseComplement.Implements Integral.spec (fun _ => .bitwiseComplement) := by
  exact newSelf_shape (by decide) (f := fun x y => ~~~ (x ||| y)) (~~~ ·) (fun _ _ _ => Iff.rfl) (by simp [asm_bv])

end Ppc8

namespace PpcWord

theorem fetchAdd1u_ok {R : Nat} (hR : 32 ≤ R) :
    (fetchAdd1u R).Implements (inWord (BitVec.setWidth 32)) (.fetchAdd (N := 8)) := by
  exact word_shape hR (enc := BitVec.setWidth 32) (fun m y => ((m + y).setWidth 8).setWidth 32)
    (fun a m => inWord_zext_add (by decide) a m) (zext8_add hR)

theorem fetchSub1u_ok {R : Nat} (hR : 32 ≤ R) :
    (fetchSub1u R).Implements (inWord (BitVec.setWidth 32)) (.fetchSub (N := 8)) := by
  exact word_shape hR (enc := BitVec.setWidth 32) (fun m y => ((m - y).setWidth 8).setWidth 32)
    (fun a m => inWord_zext_sub (by decide) a m) (zext8_sub hR)

theorem fetchAdd1s_ok {R : Nat} (hR : 32 ≤ R) :
    (fetchAdd1s R).Implements (inWord (BitVec.signExtend 32)) (.fetchAdd (N := 8)) := by
  exact word_shape hR (enc := BitVec.signExtend 32) (fun m y => ((m + y).setWidth 8).signExtend 32)
    (fun a m => inWord_sext_add (by decide) a m) (sext8_add hR)

theorem fetchSub1s_ok {R : Nat} (hR : 32 ≤ R) :
    (fetchSub1s R).Implements (inWord (BitVec.signExtend 32)) (.fetchSub (N := 8)) := by
  exact word_shape hR (enc := BitVec.signExtend 32) (fun m y => ((m - y).setWidth 8).signExtend 32)
    (fun a m => inWord_sext_sub (by decide) a m) (sext8_sub hR)

theorem fetchAdd2u_ok {R : Nat} (hR : 32 ≤ R) :
    (fetchAdd2u R).Implements (inWord (BitVec.setWidth 32)) (.fetchAdd (N := 16)) := by
  exact word_shape hR (enc := BitVec.setWidth 32) (fun m y => ((m + y).setWidth 16).setWidth 32)
    (fun a m => inWord_zext_add (by decide) a m) (zext16_add hR)

theorem fetchSub2u_ok {R : Nat} (hR : 32 ≤ R) :
    (fetchSub2u R).Implements (inWord (BitVec.setWidth 32)) (.fetchSub (N := 16)) := by
  exact word_shape hR (enc := BitVec.setWidth 32) (fun m y => ((m - y).setWidth 16).setWidth 32)
    (fun a m => inWord_zext_sub (by decide) a m) (zext16_sub hR)

theorem fetchAdd2s_ok {R : Nat} (hR : 32 ≤ R) :
    (fetchAdd2s R).Implements (inWord (BitVec.signExtend 32)) (.fetchAdd (N := 16)) := by
  exact word_shape hR (enc := BitVec.signExtend 32) (fun m y => ((m + y).setWidth 16).signExtend 32)
    (fun a m => inWord_sext_add (by decide) a m) (sext16_add hR)

theorem fetchSub2s_ok {R : Nat} (hR : 32 ≤ R) :
    (fetchSub2s R).Implements (inWord (BitVec.signExtend 32)) (.fetchSub (N := 16)) := by
  exact word_shape hR (enc := BitVec.signExtend 32) (fun m y => ((m - y).setWidth 16).signExtend 32)
    (fun a m => inWord_sext_sub (by decide) a m) (sext16_sub hR)

end PpcWord

end Verif.Asm
