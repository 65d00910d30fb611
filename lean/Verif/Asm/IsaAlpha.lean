import Verif.Asm.IsaArm

/-
The Alpha instructions used by include/boost/atomic/detail/core_arch_ops_gcc_alpha.hpp, after the Alpha
Architecture Reference Manual.  Registers have 64 bits.

The blocks put their jump back to the beginning into another section (`.subsection 2`, `.previous`).  The
model has it after the end of the block, with a jump around it (`skip`) that the code does not have.
-/

namespace Verif.Asm.Alpha

variable {M : Nat}

/-- `mov a, d`. -/
@[asm] def mov (a d : Slot) : Ins 64 M := op1 d a id
/-- `addl a, b, d`: addition of 32 bits, the sum is sign-extended. -/
@[asm] def addl (a b d : Slot) : Ins 64 M := op2 d a b fun x y => ((x + y).setWidth 32).signExtend 64
/-- `subl a, b, d`. -/
@[asm] def subl (a b d : Slot) : Ins 64 M := op2 d a b fun x y => ((x - y).setWidth 32).signExtend 64
/-- `addq a, b, d`. -/
@[asm] def addq (a b d : Slot) : Ins 64 M := op2 d a b (· + ·)
/-- `subq a, b, d`. -/
@[asm] def subq (a b d : Slot) : Ins 64 M := op2 d a b (· - ·)
/-- `and a, b, d`. -/
@[asm] def and (a b d : Slot) : Ins 64 M := op2 d a b (· &&& ·)
/-- `bis a, b, d`. -/
@[asm] def bis (a b d : Slot) : Ins 64 M := op2 d a b (· ||| ·)
/-- `xor a, b, d`. -/
@[asm] def xor (a b d : Slot) : Ins 64 M := op2 d a b (· ^^^ ·)
/-- `cmpeq a, b, d`: 1 if the registers are equal and 0 otherwise. -/
@[asm] def cmpeq (a b d : Slot) : Ins 64 M := op2 d a b fun x y => if x == y then 1 else 0
/-- `zapnot a, 1, d`: the lowest byte. -/
@[asm] def zapnot1 (a d : Slot) : Ins 64 M := op1 d a fun x => (x.setWidth 8).setWidth 64
/-- `zapnot a, 3, d`: the lowest two bytes. -/
@[asm] def zapnot3 (a d : Slot) : Ins 64 M := op1 d a fun x => (x.setWidth 16).setWidth 64
/-- `sextb a, d`. -/
@[asm] def sextb (a d : Slot) : Ins 64 M := op1 d a fun x => (x.setWidth 8).signExtend 64
/-- `sextw a, d`. -/
@[asm] def sextw (a d : Slot) : Ins 64 M := op1 d a fun x => (x.setWidth 16).signExtend 64

/-- `beq s, label`: jumps if the register is 0. -/
@[asm] def beq (s : Slot) (target lab : Nat) (fwd : Bool) : Ins 64 M := .jump [s] (fun v _ => v0 v == 0) target lab fwd none
/-- `br label`. -/
@[asm] def br (target lab : Nat) (fwd : Bool) : Ins 64 M := .jump [] (fun _ _ => true) target lab fwd none
/-- The end of the block, which is followed by code of another section. -/
@[asm] def skip (target : Nat) : Ins 64 M := .jump [] (fun _ _ => true) target 900 true none

/-- A load-locked, sign-extended: `ldl_l`, `ldq_l`. -/
@[asm] def ldx (d a : Slot) : Ins 64 M := .load a .set true [d] fun x => [x.signExtend 64]
/-- A store-conditional: `stl_c`, `stq_c`.  The register with the value to be stored becomes 1 if the
store is performed and 0 otherwise. -/
@[asm] def stx (s a : Slot) : Ins 64 M :=
  .sc a (fun _ => true) [s] [s] [] (fun v => (v0 v).setWidth M) fun ok fl => ([if ok then 1 else 0], fl)

/-- `ldl_l d, a`. -/
@[asm] def ldl_l (d a : Slot) : Ins 64 32 := ldx d a
/-- `ldq_l d, a`. -/
@[asm] def ldq_l (d a : Slot) : Ins 64 64 := ldx d a
/-- `stl_c s, a`. -/
@[asm] def stl_c (s a : Slot) : Ins 64 32 := stx s a
/-- `stq_c s, a`. -/
@[asm] def stq_c (s a : Slot) : Ins 64 64 := stx s a

end Verif.Asm.Alpha
