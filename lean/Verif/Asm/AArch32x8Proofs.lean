import Verif.Asm.AArch32Code

/-
Proofs for the functions in AArch32Code.lean.  Written by tools/asmgen.py.
-/

set_option linter.unusedSimpArgs false
set_option linter.unusedVariables false

namespace Verif.Asm.AArch32x8

open Arm

theorem store_1_ok (be : Bool) : (store_1 be).Implements Integral.spec .store := by
  intro a
  cases be <;> asm_exec2 [store_1] [0] [2, 3, 23] [] 5

theorem store_2_ok (be : Bool) : (store_2 be).Implements Integral.spec .store := by
  intro a
  cases be <;> asm_exec2 [store_2] [0] [2, 3, 23] [] 5

theorem load_1_ok (be : Bool) : (load_1 be).Implements Integral.spec (fun _ => .load) := by
  intro a
  cases be <;> asm_exec2 [load_1] [0] [1] [] 1

theorem load_2_ok (be : Bool) : (load_2 be).Implements Integral.spec (fun _ => .load) := by
  intro a
  cases be <;> asm_exec2 [load_2] [0] [1] [] 1

theorem exchange_ok (be : Bool) : (exchange be).Implements Integral.spec .exchange := by
  intro a
  cases be <;> asm_exec2 [exchange] [0] [2, 3, 23] [] 5

theorem compareExchangeWeak_ok (be : Bool) : (compareExchangeWeak be).Implements Integral.spec (fun a => .casWeak a.1 a.2) := by
  rintro ⟨e, d⟩
  cases be <;> asm_exec2 [compareExchangeWeak] [0] [2, 3, 4, 23, 24] [] 9

theorem compareExchangeStrong_ok (be : Bool) : (compareExchangeStrong be).Implements Integral.spec (fun a => .casStrong a.1 a.2) := by
  rintro ⟨e, d⟩
  cases be <;> asm_inv2 [compareExchangeStrong] [0, 1] (fun pc x r => r 2 = x 2 ∧ r 3 = x 3 ∧ r 4 = x 4 ∧ r 23 = x 23 ∧ r 24 = x 24 ∧ (pc = 1 → r 1 = 0)) [] 11

theorem fetchAdd_ok (be : Bool) : (fetchAdd be).Implements Integral.spec .fetchAdd := by
  intro a
  cases be <;> asm_exec2 [fetchAdd] [0] [2, 4, 24] [] 7

theorem fetchSub_ok (be : Bool) : (fetchSub be).Implements Integral.spec .fetchSub := by
  intro a
  cases be <;> asm_exec2 [fetchSub] [0] [2, 4, 24] [] 7

theorem fetchAnd_ok (be : Bool) : (fetchAnd be).Implements Integral.spec .fetchAnd := by
  intro a
  cases be <;> asm_exec2 [fetchAnd] [0] [2, 4, 24] [] 7

theorem fetchOr_ok (be : Bool) : (fetchOr be).Implements Integral.spec .fetchOr := by
  intro a
  cases be <;> asm_exec2 [fetchOr] [0] [2, 4, 24] [] 7

theorem fetchXor_ok (be : Bool) : (fetchXor be).Implements Integral.spec .fetchXor := by
  intro a
  cases be <;> asm_exec2 [fetchXor] [0] [2, 4, 24] [] 7

theorem fetchNegate_ok (be : Bool) : (fetchNegate be).Implements Integral.spec (fun _ => .fetchNegate) := by
  intro a
  cases be <;> asm_exec2 [fetchNegate] [0] [2] [] 9

theorem negate_ok (be : Bool) : (negate be).Implements Integral.spec (fun _ => .negate) := by
  intro a
  cases be <;> asm_exec2 [negate] [0] [2] [] 9

theorem add__ok (be : Bool) : (add_ be).Implements Integral.spec .add := by
  intro a
  cases be <;> asm_exec2 [add_] [0] [2, 3, 23] [] 7

theorem sub__ok (be : Bool) : (sub_ be).Implements Integral.spec .sub := by
  intro a
  cases be <;> asm_exec2 [sub_] [0] [2, 3, 23] [] 7

theorem bitwiseAnd_ok (be : Bool) : (bitwiseAnd be).Implements Integral.spec .bitwiseAnd := by
  intro a
  cases be <;> asm_exec2 [bitwiseAnd] [0] [2, 3, 23] [] 7

theorem bitwiseOr_ok (be : Bool) : (bitwiseOr be).Implements Integral.spec .bitwiseOr := by
  intro a
  cases be <;> asm_exec2 [bitwiseOr] [0] [2, 3, 23] [] 7

theorem bitwiseXor_ok (be : Bool) : (bitwiseXor be).Implements Integral.spec .bitwiseXor := by
  intro a
  cases be <;> asm_exec2 [bitwiseXor] [0] [2, 3, 23] [] 7

theorem fetchComplement_ok (be : Bool) : (fetchComplement be).Implements Integral.spec (fun _ => .fetchComplement) := by
  intro a
  cases be <;> asm_exec2 [fetchComplement] [0] [2] [] 7

theorem bitwiseComplement_ok (be : Bool) : (bitwiseComplement be).Implements Integral.spec (fun _ => .bitwiseComplement) := by
  intro a
  cases be <;> asm_exec2 [bitwiseComplement] [0] [2] [] 7

end Verif.Asm.AArch32x8
