import Verif.Asm.Spec

/-
Functions under the assumption that the compiler holds an operand extended to the width of a comparison.
-/

namespace Verif.Asm

variable {R M : Nat} {A Ret : Type}

/-- The function with the additional assumption that operand `s`, of which the block compares 32 bits,
is zero-extended. -/
def Fn.zext (f : Fn R M A Ret) (s : Slot) : Fn R M A Ret :=
  { f with args := fun a x => f.args a x ∧ (x s).setWidth 32 = ((x s).setWidth M).setWidth 32 }

/-- The function with the additional assumption that operand `s`, which the block compares as a whole, is
sign-extended. -/
def Fn.sext (f : Fn R M A Ret) (s : Slot) : Fn R M A Ret :=
  { f with args := fun a x => f.args a x ∧ x s = ((x s).setWidth M).signExtend R }

end Verif.Asm
