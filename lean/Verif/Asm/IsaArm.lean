import Verif.Asm.Machine
import Verif.Asm.Half

/-
The ARM (A32) instructions used by
include/boost/atomic/detail/core_arch_ops_gcc_arm.hpp, core_arch_ops_gcc_aarch32.hpp,
extra_ops_gcc_arm.hpp and extra_ops_gcc_aarch32.hpp, after the ARM Architecture Reference Manual
(ARMv7-A/R, ARMv8-A).  Registers have 32 bits.

Simplifications: the condition flags N and V are left out (no block uses them).  The variants of the
exclusive and plain accesses with acquire and release semantics (`ldaex`, `stlex`, `lda`, `stl`) do the
same to registers and to the object; the order they impose is the subject of `Verif.Order`.
-/

namespace Verif.Asm

variable {R M : Nat}

/-- First value of a list of operands. -/
abbrev v0 (v : List (BitVec R)) : BitVec R := v.getD 0 0
/-- Second value of a list of operands. -/
abbrev v1 (v : List (BitVec R)) : BitVec R := v.getD 1 0
/-- Third value of a list of operands. -/
abbrev v2 (v : List (BitVec R)) : BitVec R := v.getD 2 0

/-- `d := f a`. -/
@[asm] def op1 (d a : Slot) (f : BitVec R → BitVec R) : Ins R M :=
  .comp [a] [d] fun v fl => ([f (v0 v)], fl)
/-- `d := f a b`. -/
@[asm] def op2 (d a b : Slot) (f : BitVec R → BitVec R → BitVec R) : Ins R M :=
  .comp [a, b] [d] fun v fl => ([f (v0 v) (v1 v)], fl)
/-- An instruction without effect on registers, flags and the object (barriers, `it`, `.align`). -/
@[asm] def nop : Ins R M := .comp [] [] fun _ fl => ([], fl)

namespace Arm

/-- `add d, a, b`, 32 bits. -/
@[asm] def add (d a b : Slot) : Ins 32 M := op2 d a b (· + ·)
/-- `sub d, a, b`. -/
@[asm] def sub (d a b : Slot) : Ins 32 M := op2 d a b (· - ·)
/-- `and d, a, b`. -/
@[asm] def and (d a b : Slot) : Ins 32 M := op2 d a b (· &&& ·)
/-- `orr d, a, b`. -/
@[asm] def orr (d a b : Slot) : Ins 32 M := op2 d a b (· ||| ·)
/-- `eor d, a, b`. -/
@[asm] def eor (d a b : Slot) : Ins 32 M := op2 d a b (· ^^^ ·)
/-- `rsb d, a, #k`: `k - a`. -/
@[asm] def rsbI (d a : Slot) (k : BitVec 32) : Ins 32 M := op1 d a (k - ·)
/-- `mvn d, a`. -/
@[asm] def mvn (d a : Slot) : Ins 32 M := op1 d a (~~~ ·)
/-- `mov d, #k`. -/
@[asm] def movI (d : Slot) (k : BitVec 32) : Ins 32 M := .comp [] [d] fun _ fl => ([k], fl)
/-- `uxtb d, a`. -/
@[asm] def uxtb (d a : Slot) : Ins 32 M := op1 d a fun x => (x.setWidth 8).setWidth 32
/-- `uxth d, a`. -/
@[asm] def uxth (d a : Slot) : Ins 32 M := op1 d a fun x => (x.setWidth 16).setWidth 32
/-- `sxtb d, a`. -/
@[asm] def sxtb (d a : Slot) : Ins 32 M := op1 d a fun x => (x.setWidth 8).signExtend 32
/-- `sxth d, a`. -/
@[asm] def sxth (d a : Slot) : Ins 32 M := op1 d a fun x => (x.setWidth 16).signExtend 32
/-- `eor d, a, #k`. -/
@[asm] def eorI (d a : Slot) (k : BitVec 32) : Ins 32 M := op1 d a (· ^^^ k)
/-- `eors d, a, #k`: also sets Z. -/
@[asm] def eorsI (d a : Slot) (k : BitVec 32) : Ins 32 M :=
  .comp [a] [d] fun v fl => ([v0 v ^^^ k], { fl with z := v0 v ^^^ k == 0 })
/-- `eoreq d, a, #k`: only if Z is set. -/
@[asm] def eoreqI (d a : Slot) (k : BitVec 32) : Ins 32 M :=
  .comp [a, d] [d] fun v fl => ([if fl.z then v0 v ^^^ k else v1 v], fl)
/-- `adds d, a, b`: sets Z and C (carry out). -/
@[asm] def adds (d a b : Slot) : Ins 32 M :=
  .comp [a, b] [d] fun v _ => ([v0 v + v1 v], ⟨v0 v + v1 v == 0, carryOut (v0 v) (v1 v)⟩)
/-- `adds d, a, #k`. -/
@[asm] def addsI (d a : Slot) (k : BitVec 32) : Ins 32 M :=
  .comp [a] [d] fun v _ => ([v0 v + k], ⟨v0 v + k == 0, carryOut (v0 v) k⟩)
/-- `adc d, a, b`: adds the carry. -/
@[asm] def adc (d a b : Slot) : Ins 32 M :=
  .comp [a, b] [d] fun v fl => ([addCarry (v0 v) (v1 v) fl.c], fl)
/-- `adc d, a, #k`. -/
@[asm] def adcI (d a : Slot) (k : BitVec 32) : Ins 32 M :=
  .comp [a] [d] fun v fl => ([addCarry (v0 v) k fl.c], fl)
/-- `subs d, a, b`: sets Z and C (no borrow). -/
@[asm] def subs (d a b : Slot) : Ins 32 M :=
  .comp [a, b] [d] fun v _ => ([v0 v - v1 v], ⟨v0 v - v1 v == 0, noBorrow (v0 v) (v1 v)⟩)
/-- `sbc d, a, b`: subtracts the borrow, too. -/
@[asm] def sbc (d a b : Slot) : Ins 32 M :=
  .comp [a, b] [d] fun v fl => ([subBorrow (v0 v) (v1 v) fl.c], fl)
/-- `teq a, #k`: Z := (a = k). -/
@[asm] def teqI (a : Slot) (k : BitVec 32) : Ins 32 M :=
  .comp [a] [] fun v fl => ([], { fl with z := v0 v == k })
/-- `cmp a, b`: Z := (a = b), C := no borrow. -/
@[asm] def cmp (a b : Slot) : Ins 32 M :=
  .comp [a, b] [] fun v _ => ([], ⟨v0 v == v1 v, noBorrow (v0 v) (v1 v)⟩)
/-- `cmpeq a, b`: only if Z is set; otherwise Z stays clear and C unchanged. -/
@[asm] def cmpeq (a b : Slot) : Ins 32 M :=
  .comp [a, b] [] fun v fl => ([], ⟨fl.z && v0 v == v1 v, if fl.z then noBorrow (v0 v) (v1 v) else fl.c⟩)
/-- `bne`: jumps if Z is clear. -/
@[asm] def bne (target lab : Nat) (fwd : Bool) : Ins 32 M := .jump [] (fun _ fl => !fl.z) target lab fwd none
/-- `beq`: jumps if Z is set. -/
@[asm] def beq (target lab : Nat) (fwd : Bool) : Ins 32 M := .jump [] (fun _ fl => fl.z) target lab fwd none

/-- A load-exclusive of an object of up to 32 bits, zero-extended. -/
@[asm] def ldx (d a : Slot) : Ins 32 M := .load a .set true [d] fun x => [x.setWidth 32]
/-- `ldrexb d, [a]`, `ldaexb d, [a]`. -/
@[asm] def ldrexb (d a : Slot) : Ins 32 8 := ldx d a
/-- `ldrexh d, [a]`, `ldaexh d, [a]`. -/
@[asm] def ldrexh (d a : Slot) : Ins 32 16 := ldx d a
/-- `ldrex d, [a]`, `ldaex d, [a]`. -/
@[asm] def ldrex (d a : Slot) : Ins 32 32 := ldx d a

/-- The words of a 64-bit object in the order of their addresses; `be`: big-endian. -/
@[asm] def words (be : Bool) (x : BitVec 64) : List (BitVec 32) :=
  if be then [upper 32 x, lower 32 x] else [lower 32 x, upper 32 x]
/-- The 64-bit object with the given words, in the order of their addresses. -/
@[asm] def unwords (be : Bool) (a b : BitVec 32) : BitVec 64 := if be then joined 64 a b else joined 64 b a

/-- The operand with the lower half of a pair, BOOST_ATOMIC_DETAIL_ARM_ASM_ARG_LO, gcc_arm_asm_common.hpp
71–77; the other operand of the pair (`%H`) has the number increased by 20. -/
@[asm] def lo (be : Bool) (s : Slot) : Slot := if be then s + 20 else s
/-- The operand with the upper half, BOOST_ATOMIC_DETAIL_ARM_ASM_ARG_HI. -/
@[asm] def hi (be : Bool) (s : Slot) : Slot := if be then s else s + 20

/-- `ldrexd d, d2, [a]`, `ldaexd d, d2, [a]`: indivisible; the word at the lower address goes to `d`. -/
@[asm] def ldrexd (be : Bool) (d d2 a : Slot) : Ins 32 64 := .load a .set true [d, d2] fun x => words be x

/-- A store-exclusive of an object of up to 32 bits, executed if `cond`: leaves 0 in `d` if it
succeeds and 1 if it fails.  Unpredictable if `d` is also the source or the address. -/
@[asm] def stx (cond : Flags → Bool) (d s a : Slot) : Ins 32 M :=
  .sc a cond [s] [d] [(d, s), (d, a)] (fun v => (v0 v).setWidth M) fun ok fl => ([if ok then 0 else 1], fl)
/-- `strexb d, s, [a]`, `stlexb d, s, [a]`. -/
@[asm] def strexb (d s a : Slot) : Ins 32 8 := stx (fun _ => true) d s a
/-- `strexh d, s, [a]`, `stlexh d, s, [a]`. -/
@[asm] def strexh (d s a : Slot) : Ins 32 16 := stx (fun _ => true) d s a
/-- `strex d, s, [a]`, `stlex d, s, [a]`. -/
@[asm] def strex (d s a : Slot) : Ins 32 32 := stx (fun _ => true) d s a
/-- `strexbeq d, s, [a]`. -/
@[asm] def strexbeq (d s a : Slot) : Ins 32 8 := stx (fun fl => fl.z) d s a
/-- `strexheq d, s, [a]`. -/
@[asm] def strexheq (d s a : Slot) : Ins 32 16 := stx (fun fl => fl.z) d s a
/-- `strexeq d, s, [a]`. -/
@[asm] def strexeq (d s a : Slot) : Ins 32 32 := stx (fun fl => fl.z) d s a
/-- `strexd d, s, s2, [a]`, `stlexd d, s, s2, [a]`. -/
@[asm] def strexd (be : Bool) (d s s2 a : Slot) : Ins 32 64 :=
  .sc a (fun _ => true) [s, s2] [d] [(d, s), (d, s2), (d, a)] (fun v => unwords be (v0 v) (v1 v))
    fun ok fl => ([if ok then 0 else 1], fl)

/-- `ldab d, [a]`. -/
@[asm] def ldab (d a : Slot) : Ins 32 8 := .load a .plain true [d] fun x => [x.setWidth 32]
/-- `ldah d, [a]`. -/
@[asm] def ldah (d a : Slot) : Ins 32 16 := .load a .plain true [d] fun x => [x.setWidth 32]
/-- `lda d, [a]`. -/
@[asm] def lda (d a : Slot) : Ins 32 32 := .load a .plain true [d] fun x => [x.setWidth 32]
/-- `stlb s, [a]`. -/
@[asm] def stlb (s a : Slot) : Ins 32 8 := .store a [s] fun v => (v0 v).setWidth 8
/-- `stlh s, [a]`. -/
@[asm] def stlh (s a : Slot) : Ins 32 16 := .store a [s] fun v => (v0 v).setWidth 16
/-- `stl s, [a]`. -/
@[asm] def stl (s a : Slot) : Ins 32 32 := .store a [s] fun v => (v0 v).setWidth 32

/-- The code that enters or leaves ARM state, BOOST_ATOMIC_DETAIL_ARM_ASM_START and
BOOST_ATOMIC_DETAIL_ARM_ASM_END of gcc_arm_asm_common.hpp 59–69: in Thumb mode without Thumb-2
(`thumb`) it leaves an address in `tmp`, otherwise it is empty. -/
@[asm] def mode (thumb : Bool) (tmp : Slot) : Ins 32 M := .havoc (if thumb then [tmp] else [])

end Arm
end Verif.Asm
