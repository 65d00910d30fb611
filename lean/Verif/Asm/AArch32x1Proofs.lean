import Verif.Asm.AArch32Code

/-
Proofs for the functions in AArch32Code.lean.  Written by tools/asmgen.py.
-/

set_option linter.unusedSimpArgs false
set_option linter.unusedVariables false

namespace Verif.Asm.AArch32x1

open Arm

theorem store__ok : store_.Implements Integral.spec .store := by
  intro a
  asm_exec [store_] [0] [0, 1] [] 1

theorem load__ok : load_.Implements Integral.spec (fun _ => .load) := by
  intro a
  asm_exec [load_] [0] [1] [] 1

theorem exchange_ok : exchange.Implements Integral.spec .exchange := by
  intro a
  asm_exec [exchange] [0] [2, 3] [] 5

theorem compareExchangeWeak_ok : (compareExchangeWeak.writes 3).Implements Integral.spec (fun a => .casWeak a.1 a.2) := by
  rintro ⟨e, d⟩
  asm_exec [compareExchangeWeak, Fn.writes] [0] [2, 3, 4] [] 8

theorem compareExchangeStrong_ok : (compareExchangeStrong.writes 3).Implements Integral.spec (fun a => .casStrong a.1 a.2) := by
  rintro ⟨e, d⟩
  asm_inv [compareExchangeStrong, Fn.writes] [0, 2] (fun pc x r => r 2 = x 2 ∧ r 4 = x 4 ∧ (pc = 0 → r 3 = x 3) ∧ (pc = 2 → r 1 = 0 ∧ r 3 = ((x 3).setWidth 8).setWidth 32)) [] 10

theorem fetchAdd_ok : fetchAdd.Implements Integral.spec .fetchAdd := by
  intro a
  asm_exec [fetchAdd] [0] [3, 4] [] 6

theorem fetchSub_ok : fetchSub.Implements Integral.spec .fetchSub := by
  intro a
  asm_exec [fetchSub] [0] [3, 4] [] 6

theorem fetchAnd_ok : fetchAnd.Implements Integral.spec .fetchAnd := by
  intro a
  asm_exec [fetchAnd] [0] [3, 4] [] 6

theorem fetchOr_ok : fetchOr.Implements Integral.spec .fetchOr := by
  intro a
  asm_exec [fetchOr] [0] [3, 4] [] 6

theorem fetchXor_ok : fetchXor.Implements Integral.spec .fetchXor := by
  intro a
  asm_exec [fetchXor] [0] [3, 4] [] 6

theorem fetchNegate_ok : fetchNegate.Implements Integral.spec (fun _ => .fetchNegate) := by
  intro a
  asm_exec [fetchNegate] [0] [3] [] 6

theorem negate_ok : negate.Implements Integral.spec (fun _ => .negate) := by
  intro a
  asm_exec [negate] [0] [2] [] 6

theorem add__ok : add_.Implements Integral.spec .add := by
  intro a
  asm_exec [add_] [0] [2, 3] [] 6

theorem sub__ok : sub_.Implements Integral.spec .sub := by
  intro a
  asm_exec [sub_] [0] [2, 3] [] 6

theorem bitwiseAnd_ok : bitwiseAnd.Implements Integral.spec .bitwiseAnd := by
  intro a
  asm_exec [bitwiseAnd] [0] [2, 3] [] 6

theorem bitwiseOr_ok : bitwiseOr.Implements Integral.spec .bitwiseOr := by
  intro a
  asm_exec [bitwiseOr] [0] [2, 3] [] 6

theorem bitwiseXor_ok : bitwiseXor.Implements Integral.spec .bitwiseXor := by
  intro a
  asm_exec [bitwiseXor] [0] [2, 3] [] 6

theorem fetchComplement_ok : fetchComplement.Implements Integral.spec (fun _ => .fetchComplement) := by
  intro a
  asm_exec [fetchComplement] [0] [3] [] 6

theorem bitwiseComplement_ok : bitwiseComplement.Implements Integral.spec (fun _ => .bitwiseComplement) := by
  intro a
  asm_exec [bitwiseComplement] [0] [2] [] 6

end Verif.Asm.AArch32x1
