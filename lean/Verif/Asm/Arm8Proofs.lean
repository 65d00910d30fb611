import Verif.Asm.ArmCode

/-
Proofs for the functions in ArmCode.lean.  Written by tools/asmgen.py.
-/

set_option linter.unusedSimpArgs false
set_option linter.unusedVariables false

namespace Verif.Asm.Arm8

open Arm

theorem loadThumb_ok (thumb : Bool) (be : Bool) : (loadThumb thumb be).Implements Integral.spec (fun _ => .load) := by
  intro a
  cases thumb <;> cases be <;> asm_exec2 [loadThumb] [0] [2] [] 3

theorem exchange_ok (thumb : Bool) (be : Bool) : (exchange thumb be).Implements Integral.spec .exchange := by
  intro a
  cases thumb <;> cases be <;> asm_exec2 [exchange] [0, 1] [2, 3, 23] [] 7

theorem compareExchangeWeak_ok (thumb be : Bool) :
    (compareExchangeWeak thumb be).ImplementsFor (fun a => lower 32 a.2 ≠ 0 ∧ upper 32 a.2 ≠ 0) Integral.spec (fun a => .casWeak a.1 a.2) := by
  rintro ⟨e, d⟩ hd
  cases thumb <;> cases be
  all_goals
    refine correct_differ [(2, 3), (2, 5), (2, 25)] ?_ ?_
    · cas_differ [compareExchangeWeak]
    · asm_exec2 [compareExchangeWeak] [0] [2, 3, 4, 5, 24, 25] [] 10

set_option maxHeartbeats 2000000 in
theorem compareExchangeStrong_ok (thumb be : Bool) :
    (compareExchangeStrong thumb be).ImplementsFor (fun a => lower 32 a.2 ≠ 0 ∧ upper 32 a.2 ≠ 0) Integral.spec (fun a => .casStrong a.1 a.2) := by
  rintro ⟨e, d⟩ hd
  cases thumb <;> cases be
  all_goals
    refine correct_differ [(2, 3), (2, 5), (2, 25)] ?_ ?_
    · cas_differ [compareExchangeStrong]
    · refine correct_share 2 4 ?_ ?_
      · refine correct_share 2 24 ?_ ?_
        · asm_exec2 [compareExchangeStrong] [0, 1] [2, 3, 4, 5, 24, 25] [] 12
        · cas_merge [compareExchangeStrong]
          asm_exec2 [rd] [0, 1] [2, 3, 4, 5, 25] [] 12
      · refine correct_share 2 24 ?_ ?_
        · cas_merge [compareExchangeStrong]
          asm_exec2 [rd] [0, 1] [2, 3, 5, 24, 25] [] 12
        · cas_merge [compareExchangeStrong]
          asm_exec2 [rd] [0, 1] [2, 3, 5, 25] [] 12

theorem fetchAdd_ok (thumb : Bool) (be : Bool) : (fetchAdd thumb be).Implements Integral.spec .fetchAdd := by
  intro a
  cases thumb <;> cases be <;> asm_exec2 [fetchAdd] [0, 1] [3, 4, 24] [] 9

theorem fetchSub_ok (thumb : Bool) (be : Bool) : (fetchSub thumb be).Implements Integral.spec .fetchSub := by
  intro a
  cases thumb <;> cases be <;> asm_exec2 [fetchSub] [0, 1] [3, 4, 24] [] 9

theorem fetchAnd_ok (thumb : Bool) (be : Bool) : (fetchAnd thumb be).Implements Integral.spec .fetchAnd := by
  intro a
  cases thumb <;> cases be <;> asm_exec2 [fetchAnd] [0, 1] [3, 4, 24] [] 9

theorem fetchOr_ok (thumb : Bool) (be : Bool) : (fetchOr thumb be).Implements Integral.spec .fetchOr := by
  intro a
  cases thumb <;> cases be <;> asm_exec2 [fetchOr] [0, 1] [3, 4, 24] [] 9

theorem fetchXor_ok (thumb : Bool) (be : Bool) : (fetchXor thumb be).Implements Integral.spec .fetchXor := by
  intro a
  cases thumb <;> cases be <;> asm_exec2 [fetchXor] [0, 1] [3, 4, 24] [] 9

theorem fetchNegate_ok (thumb : Bool) (be : Bool) : (fetchNegate thumb be).Implements Integral.spec (fun _ => .fetchNegate) := by
  intro a
  cases thumb <;> cases be <;> asm_exec2 [fetchNegate] [0, 1] [3] [] 11

theorem negate_ok (thumb : Bool) (be : Bool) : (negate thumb be).Implements Integral.spec (fun _ => .negate) := by
  intro a
  cases thumb <;> cases be <;> asm_exec2 [negate] [0, 1] [3] [] 11

theorem add__ok (thumb : Bool) (be : Bool) : (add_ thumb be).Implements Integral.spec .add := by
  intro a
  cases thumb <;> cases be <;> asm_exec2 [add_] [0, 1] [3, 4, 24] [] 9

theorem sub__ok (thumb : Bool) (be : Bool) : (sub_ thumb be).Implements Integral.spec .sub := by
  intro a
  cases thumb <;> cases be <;> asm_exec2 [sub_] [0, 1] [3, 4, 24] [] 9

theorem bitwiseAnd_ok (thumb : Bool) (be : Bool) : (bitwiseAnd thumb be).Implements Integral.spec .bitwiseAnd := by
  intro a
  cases thumb <;> cases be <;> asm_exec2 [bitwiseAnd] [0, 1] [3, 4, 24] [] 9

theorem bitwiseOr_ok (thumb : Bool) (be : Bool) : (bitwiseOr thumb be).Implements Integral.spec .bitwiseOr := by
  intro a
  cases thumb <;> cases be <;> asm_exec2 [bitwiseOr] [0, 1] [3, 4, 24] [] 9

theorem bitwiseXor_ok (thumb : Bool) (be : Bool) : (bitwiseXor thumb be).Implements Integral.spec .bitwiseXor := by
  intro a
  cases thumb <;> cases be <;> asm_exec2 [bitwiseXor] [0, 1] [3, 4, 24] [] 9

theorem fetchComplement_ok (thumb : Bool) (be : Bool) : (fetchComplement thumb be).Implements Integral.spec (fun _ => .fetchComplement) := by
  intro a
  cases thumb <;> cases be <;> asm_exec2 [fetchComplement] [0, 1] [3] [] 9

theorem bitwiseComplement_ok (thumb : Bool) (be : Bool) : (bitwiseComplement thumb be).Implements Integral.spec (fun _ => .bitwiseComplement) := by
  intro a
  cases thumb <;> cases be <;> asm_exec2 [bitwiseComplement] [0, 1] [3] [] 9

theorem load__ok (thumb : Bool) (be : Bool) : (load_ thumb be).Implements Integral.spec (fun _ => .load) := by
  intro a
  cases thumb <;> cases be <;> asm_exec2 [load_] [0] [1] [] 1

end Verif.Asm.Arm8
