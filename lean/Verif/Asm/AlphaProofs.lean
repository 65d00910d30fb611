import Verif.Asm.AlphaShape
import Verif.Asm.AlphaCode

/-
The Alpha functions are correct.
Written by tools/asmgen.py.
-/

set_option linter.unusedSimpArgs false

namespace Verif.Asm
open Alpha

namespace Alpha4

theorem exchange_ok :
    exchange.Implements Integral.spec .exchange := by
  exact exchange_shape (by decide)

theorem compareExchangeWeak_ok :
    compareExchangeWeak.Implements Integral.spec (fun a => .casWeak a.1 a.2) := by
  exact weak_shape (by decide)

theorem compareExchangeStrong_ok :
    (compareExchangeStrong.sext 0).Implements Integral.spec (fun a => .casStrong a.1 a.2) := by
  exact sext_of (by decide) (strong_shape (by decide))

theorem fetchAdd_ok :
    fetchAdd.Implements Integral.spec .fetchAdd := by
  exact fetch2_shape (by decide) (· + ·) (fun _ _ _ _ => Iff.rfl) (by simp [asm_bv, setWidth_signExtend])

theorem fetchSub_ok :
    fetchSub.Implements Integral.spec .fetchSub := by
  exact fetch2_shape (by decide) (· - ·) (fun _ _ _ _ => Iff.rfl) (by simp [asm_bv, setWidth_signExtend])

theorem fetchAnd_ok :
    fetchAnd.Implements Integral.spec .fetchAnd := by
  exact fetch2_shape (by decide) (· &&& ·) (fun _ _ _ _ => Iff.rfl) (by simp [asm_bv, setWidth_signExtend])

theorem fetchOr_ok :
    fetchOr.Implements Integral.spec .fetchOr := by
  exact fetch2_shape (by decide) (· ||| ·) (fun _ _ _ _ => Iff.rfl) (by simp [asm_bv, setWidth_signExtend])

theorem fetchXor_ok :
    fetchXor.Implements Integral.spec .fetchXor := by
  exact fetch2_shape (by decide) (· ^^^ ·) (fun _ _ _ _ => Iff.rfl) (by simp [asm_bv, setWidth_signExtend])

end Alpha4

namespace Alpha8

theorem exchange_ok :
    exchange.Implements Integral.spec .exchange := by
  exact exchange_shape (by decide)

theorem compareExchangeWeak_ok :
    compareExchangeWeak.Implements Integral.spec (fun a => .casWeak a.1 a.2) := by
  exact weak_shape (by decide)

theorem compareExchangeStrong_ok :
    compareExchangeStrong.Implements Integral.spec (fun a => .casStrong a.1 a.2) := by
  exact sext_64 (strong_shape (by decide))

theorem fetchAdd_ok :
    fetchAdd.Implements Integral.spec .fetchAdd := by
  exact fetch2_shape (by decide) (· + ·) (fun _ _ _ _ => Iff.rfl) (by simp [asm_bv, setWidth_signExtend])

theorem fetchSub_ok :
    fetchSub.Implements Integral.spec .fetchSub := by
  exact fetch2_shape (by decide) (· - ·) (fun _ _ _ _ => Iff.rfl) (by simp [asm_bv, setWidth_signExtend])

theorem fetchAnd_ok :
    fetchAnd.Implements Integral.spec .fetchAnd := by
  exact fetch2_shape (by decide) (· &&& ·) (fun _ _ _ _ => Iff.rfl) (by simp [asm_bv, setWidth_signExtend])

theorem fetchOr_ok :
    fetchOr.Implements Integral.spec .fetchOr := by
  exact fetch2_shape (by decide) (· ||| ·) (fun _ _ _ _ => Iff.rfl) (by simp [asm_bv, setWidth_signExtend])

theorem fetchXor_ok :
    fetchXor.Implements Integral.spec .fetchXor := by
  exact fetch2_shape (by decide) (· ^^^ ·) (fun _ _ _ _ => Iff.rfl) (by simp [asm_bv, setWidth_signExtend])

end Alpha8

namespace AlphaWord

theorem fetchAdd1u_ok :
    fetchAdd1u.Implements (inWord (BitVec.setWidth 32)) (.fetchAdd (N := 8)) := by
  exact word_shape (enc := BitVec.setWidth 32) (fun m y => ((m + y).setWidth 8).setWidth 32)
    (fun a m => inWord_zext_add (by decide) a m) zext8_add

theorem fetchSub1u_ok :
    fetchSub1u.Implements (inWord (BitVec.setWidth 32)) (.fetchSub (N := 8)) := by
  exact word_shape (enc := BitVec.setWidth 32) (fun m y => ((m - y).setWidth 8).setWidth 32)
    (fun a m => inWord_zext_sub (by decide) a m) zext8_sub

theorem fetchAdd1s_ok :
    fetchAdd1s.Implements (inWord (BitVec.signExtend 32)) (.fetchAdd (N := 8)) := by
  exact word_shape (enc := BitVec.signExtend 32) (fun m y => ((m + y).setWidth 8).signExtend 32)
    (fun a m => inWord_sext_add (by decide) a m) sext8_add

theorem fetchSub1s_ok :
    fetchSub1s.Implements (inWord (BitVec.signExtend 32)) (.fetchSub (N := 8)) := by
  exact word_shape (enc := BitVec.signExtend 32) (fun m y => ((m - y).setWidth 8).signExtend 32)
    (fun a m => inWord_sext_sub (by decide) a m) sext8_sub

theorem fetchAdd2u_ok :
    fetchAdd2u.Implements (inWord (BitVec.setWidth 32)) (.fetchAdd (N := 16)) := by
  exact word_shape (enc := BitVec.setWidth 32) (fun m y => ((m + y).setWidth 16).setWidth 32)
    (fun a m => inWord_zext_add (by decide) a m) zext16_add

theorem fetchSub2u_ok :
    fetchSub2u.Implements (inWord (BitVec.setWidth 32)) (.fetchSub (N := 16)) := by
  exact word_shape (enc := BitVec.setWidth 32) (fun m y => ((m - y).setWidth 16).setWidth 32)
    (fun a m => inWord_zext_sub (by decide) a m) zext16_sub

theorem fetchAdd2s_ok :
    fetchAdd2s.Implements (inWord (BitVec.signExtend 32)) (.fetchAdd (N := 16)) := by
  exact word_shape (enc := BitVec.signExtend 32) (fun m y => ((m + y).setWidth 16).signExtend 32)
    (fun a m => inWord_sext_add (by decide) a m) sext16_add

theorem fetchSub2s_ok :
    fetchSub2s.Implements (inWord (BitVec.signExtend 32)) (.fetchSub (N := 16)) := by
  exact word_shape (enc := BitVec.signExtend 32) (fun m y => ((m - y).setWidth 16).signExtend 32)
    (fun a m => inWord_sext_sub (by decide) a m) sext16_sub

end AlphaWord

end Verif.Asm
