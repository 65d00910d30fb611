import Verif.Asm.ArmCode
import Verif.Asm.Word

/-
Proofs for the functions in ArmCode.lean.  Written by tools/asmgen.py.
-/

set_option linter.unusedSimpArgs false
set_option linter.unusedVariables false

namespace Verif.Asm.ArmWord

open Arm

theorem fetchAdd1u_ok (thumb : Bool) : (fetchAdd1u thumb).Implements (inWord (BitVec.setWidth 32)) (.fetchAdd (N := 8)) := by
  intro a
  cases thumb <;> asm_word [fetchAdd1u] [0, 1] [3, 4] 9

theorem fetchSub1u_ok (thumb : Bool) : (fetchSub1u thumb).Implements (inWord (BitVec.setWidth 32)) (.fetchSub (N := 8)) := by
  intro a
  cases thumb <;> asm_word [fetchSub1u] [0, 1] [3, 4] 9

theorem fetchAdd1s_ok (thumb : Bool) : (fetchAdd1s thumb).Implements (inWord (BitVec.signExtend 32)) (.fetchAdd (N := 8)) := by
  intro a
  cases thumb <;> asm_word [fetchAdd1s] [0, 1] [3, 4] 9

theorem fetchSub1s_ok (thumb : Bool) : (fetchSub1s thumb).Implements (inWord (BitVec.signExtend 32)) (.fetchSub (N := 8)) := by
  intro a
  cases thumb <;> asm_word [fetchSub1s] [0, 1] [3, 4] 9

theorem fetchAdd2u_ok (thumb : Bool) : (fetchAdd2u thumb).Implements (inWord (BitVec.setWidth 32)) (.fetchAdd (N := 16)) := by
  intro a
  cases thumb <;> asm_word [fetchAdd2u] [0, 1] [3, 4] 9

theorem fetchSub2u_ok (thumb : Bool) : (fetchSub2u thumb).Implements (inWord (BitVec.setWidth 32)) (.fetchSub (N := 16)) := by
  intro a
  cases thumb <;> asm_word [fetchSub2u] [0, 1] [3, 4] 9

theorem fetchAdd2s_ok (thumb : Bool) : (fetchAdd2s thumb).Implements (inWord (BitVec.signExtend 32)) (.fetchAdd (N := 16)) := by
  intro a
  cases thumb <;> asm_word [fetchAdd2s] [0, 1] [3, 4] 9

theorem fetchSub2s_ok (thumb : Bool) : (fetchSub2s thumb).Implements (inWord (BitVec.signExtend 32)) (.fetchSub (N := 16)) := by
  intro a
  cases thumb <;> asm_word [fetchSub2s] [0, 1] [3, 4] 9

end Verif.Asm.ArmWord
