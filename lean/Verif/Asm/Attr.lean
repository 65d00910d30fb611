import Lean.Meta.Tactic.Simp.RegisterCommand

/-
The set of equations used to execute assembly blocks symbolically: definitions of the instructions.
-/

/-- Definitions of instructions, for the symbolic execution of assembly blocks. -/
register_simp_attr asm

/-- Equations between bit vectors of different widths, to finish proofs about assembly blocks. -/
register_simp_attr asm_bv
