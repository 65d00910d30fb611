import Verif.Asm.A64Shape
import Verif.Asm.A64Shape16
import Verif.Asm.A64Code

/-
The AArch64 functions are correct.
Written by tools/asmgen.py.
-/

set_option linter.unusedSimpArgs false

namespace Verif.Asm
open A64

namespace A64x1

theorem store__ok :
    store_.Implements Integral.spec .store := by
  exact store_shape

theorem load__ok :
    load_.Implements Integral.spec (fun _ => .load) := by
  exact load_shape (by decide)

theorem exchange_ok :
    exchange.Implements Integral.spec .exchange := by
  exact exchange_shape (by decide)

theorem compareExchangeWeak_ok :
    (compareExchangeWeak.writes 4).Implements Integral.spec (fun a => .casWeak a.1 a.2) := by
  exact weak_narrow_shape (by decide)

theorem compareExchangeStrong_ok :
    (compareExchangeStrong.writes 4).Implements Integral.spec (fun a => .casStrong a.1 a.2) := by
  exact strong_narrow_shape (by decide)

theorem fetchAdd_ok :
    fetchAdd.Implements Integral.spec .fetchAdd := by
  exact fetch2_shape (by decide) (· + ·) (fun _ _ _ _ => Iff.rfl) (by simp [w1, w2, asm_bv])

theorem fetchSub_ok :
    fetchSub.Implements Integral.spec .fetchSub := by
  exact fetch2_shape (by decide) (· - ·) (fun _ _ _ _ => Iff.rfl) (by simp [w1, w2, asm_bv])

theorem fetchAnd_ok :
    fetchAnd.Implements Integral.spec .fetchAnd := by
  exact fetch2_shape (by decide) (· &&& ·) (fun _ _ _ _ => Iff.rfl) (by simp [w1, w2, asm_bv])

theorem fetchOr_ok :
    fetchOr.Implements Integral.spec .fetchOr := by
  exact fetch2_shape (by decide) (· ||| ·) (fun _ _ _ _ => Iff.rfl) (by simp [w1, w2, asm_bv])

theorem fetchXor_ok :
    fetchXor.Implements Integral.spec .fetchXor := by
  exact fetch2_shape (by decide) (· ^^^ ·) (fun _ _ _ _ => Iff.rfl) (by simp [w1, w2, asm_bv])

theorem fetchNegate_ok :
    fetchNegate.Implements Integral.spec (fun _ => .fetchNegate) := by
  exact fetch1_shape (by decide) (- ·) (fun _ _ _ => Iff.rfl) (by simp [w1, w2, asm_bv])

theorem negate_ok :
    negate.Implements Integral.spec (fun _ => .negate) := by
  exact new1_shape (by decide) (- ·) (fun _ _ _ => Iff.rfl) (by simp [w1, w2, asm_bv])

theorem add__ok :
    add_.Implements Integral.spec .add := by
  exact new2_shape (by decide) (· + ·) (fun _ _ _ _ => Iff.rfl) (by simp [w1, w2, asm_bv])

theorem sub__ok :
    sub_.Implements Integral.spec .sub := by
  exact new2_shape (by decide) (· - ·) (fun _ _ _ _ => Iff.rfl) (by simp [w1, w2, asm_bv])

theorem bitwiseAnd_ok :
    bitwiseAnd.Implements Integral.spec .bitwiseAnd := by
  exact new2_shape (by decide) (· &&& ·) (fun _ _ _ _ => Iff.rfl) (by simp [w1, w2, asm_bv])

theorem bitwiseOr_ok :
    bitwiseOr.Implements Integral.spec .bitwiseOr := by
  exact new2_shape (by decide) (· ||| ·) (fun _ _ _ _ => Iff.rfl) (by simp [w1, w2, asm_bv])

theorem bitwiseXor_ok :
    bitwiseXor.Implements Integral.spec .bitwiseXor := by
  exact new2_shape (by decide) (· ^^^ ·) (fun _ _ _ _ => Iff.rfl) (by simp [w1, w2, asm_bv])

theorem fetchComplement_ok :
    fetchComplement.Implements Integral.spec (fun _ => .fetchComplement) := by
  exact fetch1_shape (by decide) (~~~ ·) (fun _ _ _ => Iff.rfl) (by simp [w1, w2, asm_bv])

theorem bitwiseComplement_ok :
    bitwiseComplement.Implements Integral.spec (fun _ => .bitwiseComplement) := by
  exact new1_shape (by decide) (~~~ ·) (fun _ _ _ => Iff.rfl) (by simp [w1, w2, asm_bv])

end A64x1

namespace A64Lse1

theorem load_1_ok :
    load_1.Implements Integral.spec (fun _ => .load) := by
  exact load_shape (by decide)

theorem load_2_ok :
    load_2.Implements Integral.spec (fun _ => .load) := by
  exact load_shape (by decide)

theorem exchange_ok :
    exchange.Implements Integral.spec .exchange := by
  exact lse_shape (by decide) (fun _ v => v) (fun _ _ _ _ => Iff.rfl) id (fun _ _ => rfl)

theorem compareExchangeWeak_ok :
    compareExchangeWeak.Implements Integral.spec (fun a => .casWeak a.1 a.2) := by
  exact lse_weak_shape (by decide)

theorem compareExchangeStrong_ok :
    compareExchangeStrong.Implements Integral.spec (fun a => .casStrong a.1 a.2) := by
  exact lse_strong_shape (by decide)

theorem fetchAdd_ok :
    fetchAdd.Implements Integral.spec .fetchAdd := by
  exact lse_shape (by decide) (· + ·) (fun _ _ _ _ => Iff.rfl) id (by simp [BitVec.sub_eq_add_neg])

theorem fetchSub_ok :
    fetchSub.Implements Integral.spec .fetchSub := by
  exact lse_shape (by decide) (· - ·) (fun _ _ _ _ => Iff.rfl) (- ·) (by simp [BitVec.sub_eq_add_neg])

theorem fetchAnd_ok :
    fetchAnd.Implements Integral.spec .fetchAnd := by
  exact lse_shape (by decide) (· &&& ·) (fun _ _ _ _ => Iff.rfl) (~~~ ·) (by simp [BitVec.sub_eq_add_neg])

theorem fetchOr_ok :
    fetchOr.Implements Integral.spec .fetchOr := by
  exact lse_shape (by decide) (· ||| ·) (fun _ _ _ _ => Iff.rfl) id (by simp [BitVec.sub_eq_add_neg])

theorem fetchXor_ok :
    fetchXor.Implements Integral.spec .fetchXor := by
  exact lse_shape (by decide) (· ^^^ ·) (fun _ _ _ _ => Iff.rfl) id (by simp [BitVec.sub_eq_add_neg])

end A64Lse1

namespace A64x2

theorem store__ok :
    store_.Implements Integral.spec .store := by
  exact store_shape

theorem load__ok :
    load_.Implements Integral.spec (fun _ => .load) := by
  exact load_shape (by decide)

theorem exchange_ok :
    exchange.Implements Integral.spec .exchange := by
  exact exchange_shape (by decide)

theorem compareExchangeWeak_ok :
    (compareExchangeWeak.writes 4).Implements Integral.spec (fun a => .casWeak a.1 a.2) := by
  exact weak_narrow_shape (by decide)

theorem compareExchangeStrong_ok :
    (compareExchangeStrong.writes 4).Implements Integral.spec (fun a => .casStrong a.1 a.2) := by
  exact strong_narrow_shape (by decide)

theorem fetchAdd_ok :
    fetchAdd.Implements Integral.spec .fetchAdd := by
  exact fetch2_shape (by decide) (· + ·) (fun _ _ _ _ => Iff.rfl) (by simp [w1, w2, asm_bv])

theorem fetchSub_ok :
    fetchSub.Implements Integral.spec .fetchSub := by
  exact fetch2_shape (by decide) (· - ·) (fun _ _ _ _ => Iff.rfl) (by simp [w1, w2, asm_bv])

theorem fetchAnd_ok :
    fetchAnd.Implements Integral.spec .fetchAnd := by
  exact fetch2_shape (by decide) (· &&& ·) (fun _ _ _ _ => Iff.rfl) (by simp [w1, w2, asm_bv])

theorem fetchOr_ok :
    fetchOr.Implements Integral.spec .fetchOr := by
  exact fetch2_shape (by decide) (· ||| ·) (fun _ _ _ _ => Iff.rfl) (by simp [w1, w2, asm_bv])

theorem fetchXor_ok :
    fetchXor.Implements Integral.spec .fetchXor := by
  exact fetch2_shape (by decide) (· ^^^ ·) (fun _ _ _ _ => Iff.rfl) (by simp [w1, w2, asm_bv])

theorem fetchNegate_ok :
    fetchNegate.Implements Integral.spec (fun _ => .fetchNegate) := by
  exact fetch1_shape (by decide) (- ·) (fun _ _ _ => Iff.rfl) (by simp [w1, w2, asm_bv])

theorem negate_ok :
    negate.Implements Integral.spec (fun _ => .negate) := by
  exact new1_shape (by decide) (- ·) (fun _ _ _ => Iff.rfl) (by simp [w1, w2, asm_bv])

theorem add__ok :
    add_.Implements Integral.spec .add := by
  exact new2_shape (by decide) (· + ·) (fun _ _ _ _ => Iff.rfl) (by simp [w1, w2, asm_bv])

theorem sub__ok :
    sub_.Implements Integral.spec .sub := by
  exact new2_shape (by decide) (· - ·) (fun _ _ _ _ => Iff.rfl) (by simp [w1, w2, asm_bv])

theorem bitwiseAnd_ok :
    bitwiseAnd.Implements Integral.spec .bitwiseAnd := by
  exact new2_shape (by decide) (· &&& ·) (fun _ _ _ _ => Iff.rfl) (by simp [w1, w2, asm_bv])

theorem bitwiseOr_ok :
    bitwiseOr.Implements Integral.spec .bitwiseOr := by
  exact new2_shape (by decide) (· ||| ·) (fun _ _ _ _ => Iff.rfl) (by simp [w1, w2, asm_bv])

theorem bitwiseXor_ok :
    bitwiseXor.Implements Integral.spec .bitwiseXor := by
  exact new2_shape (by decide) (· ^^^ ·) (fun _ _ _ _ => Iff.rfl) (by simp [w1, w2, asm_bv])

theorem fetchComplement_ok :
    fetchComplement.Implements Integral.spec (fun _ => .fetchComplement) := by
  exact fetch1_shape (by decide) (~~~ ·) (fun _ _ _ => Iff.rfl) (by simp [w1, w2, asm_bv])

theorem bitwiseComplement_ok :
    bitwiseComplement.Implements Integral.spec (fun _ => .bitwiseComplement) := by
  exact new1_shape (by decide) (~~~ ·) (fun _ _ _ => Iff.rfl) (by simp [w1, w2, asm_bv])

end A64x2

namespace A64Lse2

theorem load_1_ok :
    load_1.Implements Integral.spec (fun _ => .load) := by
  exact load_shape (by decide)

theorem load_2_ok :
    load_2.Implements Integral.spec (fun _ => .load) := by
  exact load_shape (by decide)

theorem exchange_ok :
    exchange.Implements Integral.spec .exchange := by
  exact lse_shape (by decide) (fun _ v => v) (fun _ _ _ _ => Iff.rfl) id (fun _ _ => rfl)

theorem compareExchangeWeak_ok :
    compareExchangeWeak.Implements Integral.spec (fun a => .casWeak a.1 a.2) := by
  exact lse_weak_shape (by decide)

theorem compareExchangeStrong_ok :
    compareExchangeStrong.Implements Integral.spec (fun a => .casStrong a.1 a.2) := by
  exact lse_strong_shape (by decide)

theorem fetchAdd_ok :
    fetchAdd.Implements Integral.spec .fetchAdd := by
  exact lse_shape (by decide) (· + ·) (fun _ _ _ _ => Iff.rfl) id (by simp [BitVec.sub_eq_add_neg])

theorem fetchSub_ok :
    fetchSub.Implements Integral.spec .fetchSub := by
  exact lse_shape (by decide) (· - ·) (fun _ _ _ _ => Iff.rfl) (- ·) (by simp [BitVec.sub_eq_add_neg])

theorem fetchAnd_ok :
    fetchAnd.Implements Integral.spec .fetchAnd := by
  exact lse_shape (by decide) (· &&& ·) (fun _ _ _ _ => Iff.rfl) (~~~ ·) (by simp [BitVec.sub_eq_add_neg])

theorem fetchOr_ok :
    fetchOr.Implements Integral.spec .fetchOr := by
  exact lse_shape (by decide) (· ||| ·) (fun _ _ _ _ => Iff.rfl) id (by simp [BitVec.sub_eq_add_neg])

theorem fetchXor_ok :
    fetchXor.Implements Integral.spec .fetchXor := by
  exact lse_shape (by decide) (· ^^^ ·) (fun _ _ _ _ => Iff.rfl) id (by simp [BitVec.sub_eq_add_neg])

end A64Lse2

namespace A64x4

theorem store__ok :
    store_.Implements Integral.spec .store := by
  exact store_shape

theorem load__ok :
    load_.Implements Integral.spec (fun _ => .load) := by
  exact load_shape (by decide)

theorem exchange_ok :
    exchange.Implements Integral.spec .exchange := by
  exact exchange_shape (by decide)

theorem compareExchangeWeak_ok :
    compareExchangeWeak.Implements Integral.spec (fun a => .casWeak a.1 a.2) := by
  exact weak_shape (N := 32) (cmp := eq32) (by decide) cmp32

theorem compareExchangeStrong_ok :
    compareExchangeStrong.Implements Integral.spec (fun a => .casStrong a.1 a.2) := by
  exact strong_shape (N := 32) (cmp := eq32) (by decide) cmp32

theorem fetchAdd_ok :
    fetchAdd.Implements Integral.spec .fetchAdd := by
  exact fetch2_shape (by decide) (· + ·) (fun _ _ _ _ => Iff.rfl) (by simp [w1, w2, asm_bv])

theorem fetchSub_ok :
    fetchSub.Implements Integral.spec .fetchSub := by
  exact fetch2_shape (by decide) (· - ·) (fun _ _ _ _ => Iff.rfl) (by simp [w1, w2, asm_bv])

theorem fetchAnd_ok :
    fetchAnd.Implements Integral.spec .fetchAnd := by
  exact fetch2_shape (by decide) (· &&& ·) (fun _ _ _ _ => Iff.rfl) (by simp [w1, w2, asm_bv])

theorem fetchOr_ok :
    fetchOr.Implements Integral.spec .fetchOr := by
  exact fetch2_shape (by decide) (· ||| ·) (fun _ _ _ _ => Iff.rfl) (by simp [w1, w2, asm_bv])

theorem fetchXor_ok :
    fetchXor.Implements Integral.spec .fetchXor := by
  exact fetch2_shape (by decide) (· ^^^ ·) (fun _ _ _ _ => Iff.rfl) (by simp [w1, w2, asm_bv])

theorem fetchNegate_ok :
    fetchNegate.Implements Integral.spec (fun _ => .fetchNegate) := by
  exact fetch1_shape (by decide) (- ·) (fun _ _ _ => Iff.rfl) (by simp [w1, w2, asm_bv])

theorem negate_ok :
    negate.Implements Integral.spec (fun _ => .negate) := by
  exact new1_shape (by decide) (- ·) (fun _ _ _ => Iff.rfl) (by simp [w1, w2, asm_bv])

theorem add__ok :
    add_.Implements Integral.spec .add := by
  exact new2_shape (by decide) (· + ·) (fun _ _ _ _ => Iff.rfl) (by simp [w1, w2, asm_bv])

theorem sub__ok :
    sub_.Implements Integral.spec .sub := by
  exact new2_shape (by decide) (· - ·) (fun _ _ _ _ => Iff.rfl) (by simp [w1, w2, asm_bv])

theorem bitwiseAnd_ok :
    bitwiseAnd.Implements Integral.spec .bitwiseAnd := by
  exact new2_shape (by decide) (· &&& ·) (fun _ _ _ _ => Iff.rfl) (by simp [w1, w2, asm_bv])

theorem bitwiseOr_ok :
    bitwiseOr.Implements Integral.spec .bitwiseOr := by
  exact new2_shape (by decide) (· ||| ·) (fun _ _ _ _ => Iff.rfl) (by simp [w1, w2, asm_bv])

theorem bitwiseXor_ok :
    bitwiseXor.Implements Integral.spec .bitwiseXor := by
  exact new2_shape (by decide) (· ^^^ ·) (fun _ _ _ _ => Iff.rfl) (by simp [w1, w2, asm_bv])

theorem fetchComplement_ok :
    fetchComplement.Implements Integral.spec (fun _ => .fetchComplement) := by
  exact fetch1_shape (by decide) (~~~ ·) (fun _ _ _ => Iff.rfl) (by simp [w1, w2, asm_bv])

theorem bitwiseComplement_ok :
    bitwiseComplement.Implements Integral.spec (fun _ => .bitwiseComplement) := by
  exact new1_shape (by decide) (~~~ ·) (fun _ _ _ => Iff.rfl) (by simp [w1, w2, asm_bv])

end A64x4

namespace A64Lse4

theorem load_1_ok :
    load_1.Implements Integral.spec (fun _ => .load) := by
  exact load_shape (by decide)

theorem load_2_ok :
    load_2.Implements Integral.spec (fun _ => .load) := by
  exact load_shape (by decide)

theorem exchange_ok :
    exchange.Implements Integral.spec .exchange := by
  exact lse_shape (by decide) (fun _ v => v) (fun _ _ _ _ => Iff.rfl) id (fun _ _ => rfl)

theorem compareExchangeWeak_ok :
    compareExchangeWeak.Implements Integral.spec (fun a => .casWeak a.1 a.2) := by
  exact lse_weak_shape (by decide)

theorem compareExchangeStrong_ok :
    compareExchangeStrong.Implements Integral.spec (fun a => .casStrong a.1 a.2) := by
  exact lse_strong_shape (by decide)

theorem fetchAdd_ok :
    fetchAdd.Implements Integral.spec .fetchAdd := by
  exact lse_shape (by decide) (· + ·) (fun _ _ _ _ => Iff.rfl) id (by simp [BitVec.sub_eq_add_neg])

theorem fetchSub_ok :
    fetchSub.Implements Integral.spec .fetchSub := by
  exact lse_shape (by decide) (· - ·) (fun _ _ _ _ => Iff.rfl) (- ·) (by simp [BitVec.sub_eq_add_neg])

theorem fetchAnd_ok :
    fetchAnd.Implements Integral.spec .fetchAnd := by
  exact lse_shape (by decide) (· &&& ·) (fun _ _ _ _ => Iff.rfl) (~~~ ·) (by simp [BitVec.sub_eq_add_neg])

theorem fetchOr_ok :
    fetchOr.Implements Integral.spec .fetchOr := by
  exact lse_shape (by decide) (· ||| ·) (fun _ _ _ _ => Iff.rfl) id (by simp [BitVec.sub_eq_add_neg])

theorem fetchXor_ok :
    fetchXor.Implements Integral.spec .fetchXor := by
  exact lse_shape (by decide) (· ^^^ ·) (fun _ _ _ _ => Iff.rfl) id (by simp [BitVec.sub_eq_add_neg])

end A64Lse4

namespace A64x8

theorem store__ok :
    store_.Implements Integral.spec .store := by
  exact store_shape

theorem load__ok :
    load_.Implements Integral.spec (fun _ => .load) := by
  exact load_shape (by decide)

theorem exchange_ok :
    exchange.Implements Integral.spec .exchange := by
  exact exchange_shape (by decide)

theorem compareExchangeWeak_ok :
    compareExchangeWeak.Implements Integral.spec (fun a => .casWeak a.1 a.2) := by
  exact weak_shape (N := 64) (cmp := eq64) (by decide) cmp64

theorem compareExchangeStrong_ok :
    compareExchangeStrong.Implements Integral.spec (fun a => .casStrong a.1 a.2) := by
  exact strong_shape (N := 64) (cmp := eq64) (by decide) cmp64

theorem fetchAdd_ok :
    fetchAdd.Implements Integral.spec .fetchAdd := by
  exact fetch2_shape (by decide) (· + ·) (fun _ _ _ _ => Iff.rfl) (by simp [w1, w2, asm_bv])

theorem fetchSub_ok :
    fetchSub.Implements Integral.spec .fetchSub := by
  exact fetch2_shape (by decide) (· - ·) (fun _ _ _ _ => Iff.rfl) (by simp [w1, w2, asm_bv])

theorem fetchAnd_ok :
    fetchAnd.Implements Integral.spec .fetchAnd := by
  exact fetch2_shape (by decide) (· &&& ·) (fun _ _ _ _ => Iff.rfl) (by simp [w1, w2, asm_bv])

theorem fetchOr_ok :
    fetchOr.Implements Integral.spec .fetchOr := by
  exact fetch2_shape (by decide) (· ||| ·) (fun _ _ _ _ => Iff.rfl) (by simp [w1, w2, asm_bv])

theorem fetchXor_ok :
    fetchXor.Implements Integral.spec .fetchXor := by
  exact fetch2_shape (by decide) (· ^^^ ·) (fun _ _ _ _ => Iff.rfl) (by simp [w1, w2, asm_bv])

theorem fetchNegate_ok :
    fetchNegate.Implements Integral.spec (fun _ => .fetchNegate) := by
  exact fetch1_shape (by decide) (- ·) (fun _ _ _ => Iff.rfl) (by simp [w1, w2, asm_bv])

theorem negate_ok :
    negate.Implements Integral.spec (fun _ => .negate) := by
  exact new1_shape (by decide) (- ·) (fun _ _ _ => Iff.rfl) (by simp [w1, w2, asm_bv])

theorem add__ok :
    add_.Implements Integral.spec .add := by
  exact new2_shape (by decide) (· + ·) (fun _ _ _ _ => Iff.rfl) (by simp [w1, w2, asm_bv])

theorem sub__ok :
    sub_.Implements Integral.spec .sub := by
  exact new2_shape (by decide) (· - ·) (fun _ _ _ _ => Iff.rfl) (by simp [w1, w2, asm_bv])

theorem bitwiseAnd_ok :
    bitwiseAnd.Implements Integral.spec .bitwiseAnd := by
  exact new2_shape (by decide) (· &&& ·) (fun _ _ _ _ => Iff.rfl) (by simp [w1, w2, asm_bv])

theorem bitwiseOr_ok :
    bitwiseOr.Implements Integral.spec .bitwiseOr := by
  exact new2_shape (by decide) (· ||| ·) (fun _ _ _ _ => Iff.rfl) (by simp [w1, w2, asm_bv])

theorem bitwiseXor_ok :
    bitwiseXor.Implements Integral.spec .bitwiseXor := by
  exact new2_shape (by decide) (· ^^^ ·) (fun _ _ _ _ => Iff.rfl) (by simp [w1, w2, asm_bv])

theorem fetchComplement_ok :
    fetchComplement.Implements Integral.spec (fun _ => .fetchComplement) := by
  exact fetch1_shape (by decide) (~~~ ·) (fun _ _ _ => Iff.rfl) (by simp [w1, w2, asm_bv])

theorem bitwiseComplement_ok :
    bitwiseComplement.Implements Integral.spec (fun _ => .bitwiseComplement) := by
  exact new1_shape (by decide) (~~~ ·) (fun _ _ _ => Iff.rfl) (by simp [w1, w2, asm_bv])

end A64x8

namespace A64Lse8

theorem load_1_ok :
    load_1.Implements Integral.spec (fun _ => .load) := by
  exact load_shape (by decide)

theorem load_2_ok :
    load_2.Implements Integral.spec (fun _ => .load) := by
  exact load_shape (by decide)

theorem exchange_ok :
    exchange.Implements Integral.spec .exchange := by
  exact lse_shape (by decide) (fun _ v => v) (fun _ _ _ _ => Iff.rfl) id (fun _ _ => rfl)

theorem compareExchangeWeak_ok :
    compareExchangeWeak.Implements Integral.spec (fun a => .casWeak a.1 a.2) := by
  exact lse_weak_shape (by decide)

theorem compareExchangeStrong_ok :
    compareExchangeStrong.Implements Integral.spec (fun a => .casStrong a.1 a.2) := by
  exact lse_strong_shape (by decide)

theorem fetchAdd_ok :
    fetchAdd.Implements Integral.spec .fetchAdd := by
  exact lse_shape (by decide) (· + ·) (fun _ _ _ _ => Iff.rfl) id (by simp [BitVec.sub_eq_add_neg])

theorem fetchSub_ok :
    fetchSub.Implements Integral.spec .fetchSub := by
  exact lse_shape (by decide) (· - ·) (fun _ _ _ _ => Iff.rfl) (- ·) (by simp [BitVec.sub_eq_add_neg])

theorem fetchAnd_ok :
    fetchAnd.Implements Integral.spec .fetchAnd := by
  exact lse_shape (by decide) (· &&& ·) (fun _ _ _ _ => Iff.rfl) (~~~ ·) (by simp [BitVec.sub_eq_add_neg])

theorem fetchOr_ok :
    fetchOr.Implements Integral.spec .fetchOr := by
  exact lse_shape (by decide) (· ||| ·) (fun _ _ _ _ => Iff.rfl) id (by simp [BitVec.sub_eq_add_neg])

theorem fetchXor_ok :
    fetchXor.Implements Integral.spec .fetchXor := by
  exact lse_shape (by decide) (· ^^^ ·) (fun _ _ _ _ => Iff.rfl) id (by simp [BitVec.sub_eq_add_neg])

end A64Lse8

namespace A64x16

theorem store_1_ok (be : Bool) :
    (store_1 be).Implements Integral.spec .store := by
  exact store16_shape be

theorem store_2_ok (be : Bool) :
    (store_2 be).Implements Integral.spec .store := by
  exact store16_shape be

theorem load_1_ok (be : Bool) :
    (load_1 be).Implements Integral.spec (fun _ => .load) := by
  exact load16_shape be

theorem load_2_ok (be : Bool) :
    (load_2 be).Implements Integral.spec (fun _ => .load) := by
  exact load16_shape be

theorem exchange_ok (be : Bool) :
    (exchange be).Implements Integral.spec .exchange := by
  exact exchange16_shape be

theorem compareExchangeWeak_ok (be : Bool) :
    (compareExchangeWeak be).Implements looseSpec (fun a => .casWeak a.1 a.2) := by
  exact weak16_shape be

theorem compareExchangeStrong_ok (be : Bool) :
    (compareExchangeStrong be).Implements looseSpec (fun a => .casStrong a.1 a.2) := by
  exact strong16_shape be

theorem fetchAdd_ok (be : Bool) :
    (fetchAdd be).Implements Integral.spec .fetchAdd := by
  cases be
  · exact fetch2_up_shape false (· + ·) (fun _ _ _ _ => Iff.rfl) (by simp [asm, asm_bv, pair, first, second])
  · exact fetch2_down_shape true (· + ·) (fun _ _ _ _ => Iff.rfl) (by simp [asm, asm_bv, pair, first, second])

theorem fetchSub_ok (be : Bool) :
    (fetchSub be).Implements Integral.spec .fetchSub := by
  cases be
  · exact fetch2_up_shape false (· - ·) (fun _ _ _ _ => Iff.rfl) (by simp [asm, asm_bv, pair, first, second])
  · exact fetch2_down_shape true (· - ·) (fun _ _ _ _ => Iff.rfl) (by simp [asm, asm_bv, pair, first, second])

theorem fetchAnd_ok (be : Bool) :
    (fetchAnd be).Implements Integral.spec .fetchAnd := by
  exact fetch2_up_shape be (· &&& ·) (fun _ _ _ _ => Iff.rfl) (by cases be <;> simp [asm, asm_bv, pair, first, second])

theorem fetchOr_ok (be : Bool) :
    (fetchOr be).Implements Integral.spec .fetchOr := by
  exact fetch2_up_shape be (· ||| ·) (fun _ _ _ _ => Iff.rfl) (by cases be <;> simp [asm, asm_bv, pair, first, second])

theorem fetchXor_ok (be : Bool) :
    (fetchXor be).Implements Integral.spec .fetchXor := by
  exact fetch2_up_shape be (· ^^^ ·) (fun _ _ _ _ => Iff.rfl) (by cases be <;> simp [asm, asm_bv, pair, first, second])

theorem fetchNegate_ok (be : Bool) :
    (fetchNegate be).Implements Integral.spec (fun _ => .fetchNegate) := by
  intro a
  cases be <;> asm_exec2 [fetchNegate, first, second, pair] [0] [1] [] 9

theorem negate_ok (be : Bool) :
    (negate be).Implements Integral.spec (fun _ => .negate) := by
  intro a
  cases be <;> asm_exec2 [negate, first, second, pair] [0] [1] [] 9

theorem add__ok (be : Bool) :
    (add_ be).Implements Integral.spec .add := by
  cases be
  · exact new2_up_shape false (· + ·) (fun _ _ _ _ => Iff.rfl) (by simp [asm, asm_bv, pair, first, second])
  · exact new2_down_shape true (· + ·) (fun _ _ _ _ => Iff.rfl) (by simp [asm, asm_bv, pair, first, second])

theorem sub__ok (be : Bool) :
    (sub_ be).Implements Integral.spec .sub := by
  cases be
  · exact new2_up_shape false (· - ·) (fun _ _ _ _ => Iff.rfl) (by simp [asm, asm_bv, pair, first, second])
  · exact new2_down_shape true (· - ·) (fun _ _ _ _ => Iff.rfl) (by simp [asm, asm_bv, pair, first, second])

theorem bitwiseAnd_ok (be : Bool) :
    (bitwiseAnd be).Implements Integral.spec .bitwiseAnd := by
  exact new2_up_shape be (· &&& ·) (fun _ _ _ _ => Iff.rfl) (by cases be <;> simp [asm, asm_bv, pair, first, second])

theorem bitwiseOr_ok (be : Bool) :
    (bitwiseOr be).Implements Integral.spec .bitwiseOr := by
  exact new2_up_shape be (· ||| ·) (fun _ _ _ _ => Iff.rfl) (by cases be <;> simp [asm, asm_bv, pair, first, second])

theorem bitwiseXor_ok (be : Bool) :
    (bitwiseXor be).Implements Integral.spec .bitwiseXor := by
  exact new2_up_shape be (· ^^^ ·) (fun _ _ _ _ => Iff.rfl) (by cases be <;> simp [asm, asm_bv, pair, first, second])

theorem fetchComplement_ok (be : Bool) :
    (fetchComplement be).Implements Integral.spec (fun _ => .fetchComplement) := by
  intro a
  cases be <;> asm_exec2 [fetchComplement, first, second, pair] [0] [1] [] 7

theorem bitwiseComplement_ok (be : Bool) :
    (bitwiseComplement be).Implements Integral.spec (fun _ => .bitwiseComplement) := by
  intro a
  cases be <;> asm_exec2 [bitwiseComplement, first, second, pair] [0] [1] [] 7

end A64x16

end Verif.Asm
