import Verif.Asm.ArmCode

/-
Proofs for the functions in ArmCode.lean.  Written by tools/asmgen.py.
-/

set_option linter.unusedSimpArgs false
set_option linter.unusedVariables false

namespace Verif.Asm.Arm2

open Arm

theorem exchange_ok (thumb : Bool) : (exchange thumb).Implements Integral.spec .exchange := by
  intro a
  cases thumb <;> asm_exec [exchange] [0, 1] [2, 3] [] 7

theorem compareExchangeWeak_ok (thumb : Bool) :
    (compareExchangeWeak thumb).ImplementsFor (fun a => a.2 ≠ 0) Integral.spec (fun a => .casWeak a.1 a.2) := by
  rintro ⟨e, d⟩ hd
  cases thumb
  all_goals
    refine correct_differ [(1, 3), (1, 5)] ?_ ?_
    · cas_differ [compareExchangeWeak]
    · asm_exec [compareExchangeWeak] [0] [1, 3, 4, 5] [] 7

theorem compareExchangeStrong_ok (thumb : Bool) :
    (compareExchangeStrong thumb).ImplementsFor (fun a => a.2 ≠ 0) Integral.spec (fun a => .casStrong a.1 a.2) := by
  rintro ⟨e, d⟩ hd
  cases thumb
  all_goals
    refine correct_differ [(1, 3), (1, 5)] ?_ ?_
    · cas_differ [compareExchangeStrong]
    · refine correct_share 1 4 ?_ ?_
      · asm_exec [compareExchangeStrong] [0, 1] [1, 3, 4, 5] [] 10
      · refine correct_assume (by rfl) (e = 0) (by cas_zero [compareExchangeStrong]) ?_
        rintro rfl
        cas_merge [compareExchangeStrong]
        asm_exec [rd] [0, 1] [1, 3, 5] [] 10

theorem fetchAdd_ok (thumb : Bool) : (fetchAdd thumb).Implements Integral.spec .fetchAdd := by
  intro a
  cases thumb <;> asm_exec [fetchAdd] [0, 1] [3, 4] [] 8

theorem fetchSub_ok (thumb : Bool) : (fetchSub thumb).Implements Integral.spec .fetchSub := by
  intro a
  cases thumb <;> asm_exec [fetchSub] [0, 1] [3, 4] [] 8

theorem fetchAnd_ok (thumb : Bool) : (fetchAnd thumb).Implements Integral.spec .fetchAnd := by
  intro a
  cases thumb <;> asm_exec [fetchAnd] [0, 1] [3, 4] [] 8

theorem fetchOr_ok (thumb : Bool) : (fetchOr thumb).Implements Integral.spec .fetchOr := by
  intro a
  cases thumb <;> asm_exec [fetchOr] [0, 1] [3, 4] [] 8

theorem fetchXor_ok (thumb : Bool) : (fetchXor thumb).Implements Integral.spec .fetchXor := by
  intro a
  cases thumb <;> asm_exec [fetchXor] [0, 1] [3, 4] [] 8

theorem fetchNegate_ok (thumb : Bool) : (fetchNegate thumb).Implements Integral.spec (fun _ => .fetchNegate) := by
  intro a
  cases thumb <;> asm_exec [fetchNegate] [0, 1] [3] [] 8

theorem negate_ok (thumb : Bool) : (negate thumb).Implements Integral.spec (fun _ => .negate) := by
  intro a
  cases thumb <;> asm_exec [negate] [0, 1] [3] [] 8

theorem add__ok (thumb : Bool) : (add_ thumb).Implements Integral.spec .add := by
  intro a
  cases thumb <;> asm_exec [add_] [0, 1] [3, 4] [] 8

theorem sub__ok (thumb : Bool) : (sub_ thumb).Implements Integral.spec .sub := by
  intro a
  cases thumb <;> asm_exec [sub_] [0, 1] [3, 4] [] 8

theorem bitwiseAnd_ok (thumb : Bool) : (bitwiseAnd thumb).Implements Integral.spec .bitwiseAnd := by
  intro a
  cases thumb <;> asm_exec [bitwiseAnd] [0, 1] [3, 4] [] 8

theorem bitwiseOr_ok (thumb : Bool) : (bitwiseOr thumb).Implements Integral.spec .bitwiseOr := by
  intro a
  cases thumb <;> asm_exec [bitwiseOr] [0, 1] [3, 4] [] 8

theorem bitwiseXor_ok (thumb : Bool) : (bitwiseXor thumb).Implements Integral.spec .bitwiseXor := by
  intro a
  cases thumb <;> asm_exec [bitwiseXor] [0, 1] [3, 4] [] 8

theorem fetchComplement_ok (thumb : Bool) : (fetchComplement thumb).Implements Integral.spec (fun _ => .fetchComplement) := by
  intro a
  cases thumb <;> asm_exec [fetchComplement] [0, 1] [3] [] 8

theorem bitwiseComplement_ok (thumb : Bool) : (bitwiseComplement thumb).Implements Integral.spec (fun _ => .bitwiseComplement) := by
  intro a
  cases thumb <;> asm_exec [bitwiseComplement] [0, 1] [3] [] 8

end Verif.Asm.Arm2
