import Verif.Asm.IsaArm

/-
The PowerPC instructions used by include/boost/atomic/detail/core_arch_ops_gcc_ppc.hpp and
extra_ops_gcc_ppc.hpp, after the Power ISA, book I and II.  Registers have `R` bits: 32 on 32-bit and 64
on 64-bit processors.

Simplifications: of the condition register only the bit EQ of the field CR0 is modelled (no block uses
another).  An address is held in one register (constraint `"Z"` permits a sum of two).
-/

namespace Verif.Asm.Ppc

variable {R M : Nat}

/-- `add d,a,b`. -/
@[asm] def add (d a b : Slot) : Ins R M := op2 d a b (· + ·)
/-- `sub d,a,b`: `a - b` (an extended mnemonic of `subf`). -/
@[asm] def sub (d a b : Slot) : Ins R M := op2 d a b (· - ·)
/-- `and d,a,b`. -/
@[asm] def and (d a b : Slot) : Ins R M := op2 d a b (· &&& ·)
/-- `or d,a,b`. -/
@[asm] def or (d a b : Slot) : Ins R M := op2 d a b (· ||| ·)
/-- `xor d,a,b`. -/
@[asm] def xor (d a b : Slot) : Ins R M := op2 d a b (· ^^^ ·)
/-- `nor d,a,b`. -/
@[asm] def nor (d a b : Slot) : Ins R M := op2 d a b fun x y => ~~~ (x ||| y)
/-- `neg d,a`. -/
@[asm] def neg (d a : Slot) : Ins R M := op1 d a (- ·)
/-- `li d, k`. -/
@[asm] def li (d : Slot) (k : BitVec R) : Ins R M := .comp [] [d] fun _ fl => ([k], fl)
/-- `rlwinm d, a, 0, mask`: the bits of the lower 32 that are in the mask; the others become 0. -/
@[asm] def rlwinm0 (d a : Slot) (mask : BitVec 32) : Ins R M := op1 d a fun x => (x.setWidth 32 &&& mask).setWidth R
/-- `extsb d, a`. -/
@[asm] def extsb (d a : Slot) : Ins R M := op1 d a fun x => (x.setWidth 8).signExtend R
/-- `extsh d, a`. -/
@[asm] def extsh (d a : Slot) : Ins R M := op1 d a fun x => (x.setWidth 16).signExtend R

/-- `cmpw a, b`: compares the lower 32 bits. -/
@[asm] def cmpw (a b : Slot) : Ins R M :=
  .comp [a, b] [] fun v fl => ([], ⟨(v0 v).setWidth 32 == (v1 v).setWidth 32, fl.c⟩)
/-- `cmpd a, b`. -/
@[asm] def cmpd (a b : Slot) : Ins R M := .comp [a, b] [] fun v fl => ([], ⟨v0 v == v1 v, fl.c⟩)

/-- `bne-`: jumps if EQ is clear. -/
@[asm] def bne (target lab : Nat) (fwd : Bool) (off : Int) : Ins R M :=
  .jump [] (fun _ fl => !fl.z) target lab fwd (some off)
/-- `isync`. -/
@[asm] def isync : Ins R M := nop

/-- A load, zero-extended: `lbz`, `lhz`, `lwz`, `ld`. -/
@[asm] def ld (d a : Slot) : Ins R M := .load a .plain true [d] fun x => [x.setWidth R]
/-- A store: `stb`, `sth`, `stw`, `std`. -/
@[asm] def st (s a : Slot) : Ins R M := .store a [s] fun v => (v0 v).setWidth M
/-- A load with reservation, zero-extended: `lbarx`, `lharx`, `lwarx`, `ldarx`. -/
@[asm] def larx (d a : Slot) : Ins R M := .load a .set true [d] fun x => [x.setWidth R]
/-- A store conditional: `stbcx.`, `sthcx.`, `stwcx.`, `stdcx.`.  Sets EQ if the store is performed and
clears it otherwise. -/
@[asm] def stcx (s a : Slot) : Ins R M :=
  .sc a (fun _ => true) [s] [] [] (fun v => (v0 v).setWidth M) fun ok fl => ([], ⟨ok, fl.c⟩)

/-- `lbz d, a`. -/
@[asm] def lbz (d a : Slot) : Ins R 8 := ld d a
/-- `lhz d, a`. -/
@[asm] def lhz (d a : Slot) : Ins R 16 := ld d a
/-- `lwz d, a`. -/
@[asm] def lwz (d a : Slot) : Ins R 32 := ld d a
/-- `ld d, a`. -/
@[asm] def ldd (d a : Slot) : Ins R 64 := ld d a
/-- `stb s, a`. -/
@[asm] def stb (s a : Slot) : Ins R 8 := st s a
/-- `sth s, a`. -/
@[asm] def sth (s a : Slot) : Ins R 16 := st s a
/-- `stw s, a`. -/
@[asm] def stw (s a : Slot) : Ins R 32 := st s a
/-- `std s, a`. -/
@[asm] def std (s a : Slot) : Ins R 64 := st s a
/-- `lbarx d,a`. -/
@[asm] def lbarx (d a : Slot) : Ins R 8 := larx d a
/-- `lharx d,a`. -/
@[asm] def lharx (d a : Slot) : Ins R 16 := larx d a
/-- `lwarx d,a`. -/
@[asm] def lwarx (d a : Slot) : Ins R 32 := larx d a
/-- `ldarx d,a`. -/
@[asm] def ldarx (d a : Slot) : Ins R 64 := larx d a
/-- `stbcx. s,a`. -/
@[asm] def stbcx (s a : Slot) : Ins R 8 := stcx s a
/-- `sthcx. s,a`. -/
@[asm] def sthcx (s a : Slot) : Ins R 16 := stcx s a
/-- `stwcx. s,a`. -/
@[asm] def stwcx (s a : Slot) : Ins R 32 := stcx s a
/-- `stdcx. s,a`. -/
@[asm] def stdcx (s a : Slot) : Ins R 64 := stcx s a

end Verif.Asm.Ppc
