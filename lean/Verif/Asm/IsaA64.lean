import Verif.Asm.IsaArm

/-
The AArch64 (A64) instructions used by include/boost/atomic/detail/core_arch_ops_gcc_aarch64.hpp and
extra_ops_gcc_aarch64.hpp, after the Arm Architecture Reference Manual for A-profile.  Registers have
64 bits.  An operand written `%w` is the lower half of a register: the upper half is ignored when it is
read and cleared when it is written.

Simplifications: the condition flags N and V are left out (no block uses them).  The variants of
accesses with acquire and release semantics do the same to registers and to the object; the order they
impose is the subject of `Verif.Order`.  Operands that may be immediate values (constraints `"Ir"`,
`"Kr"`, `"Lr"`) are taken to be registers.
-/

namespace Verif.Asm.A64

variable {M : Nat}

/-- An operation on the lower halves of registers. -/
@[asm] def w1 (f : BitVec 32 → BitVec 32) (x : BitVec 64) : BitVec 64 := (f (x.setWidth 32)).setWidth 64
/-- An operation on the lower halves of two registers. -/
@[asm] def w2 (f : BitVec 32 → BitVec 32 → BitVec 32) (x y : BitVec 64) : BitVec 64 :=
  (f (x.setWidth 32) (y.setWidth 32)).setWidth 64

/-- `add %w, %w, %w`. -/
@[asm] def addw (d a b : Slot) : Ins 64 M := op2 d a b (w2 (· + ·))
/-- `add %x, %x, %x`. -/
@[asm] def addx (d a b : Slot) : Ins 64 M := op2 d a b (· + ·)
/-- `sub %w, %w, %w`. -/
@[asm] def subw (d a b : Slot) : Ins 64 M := op2 d a b (w2 (· - ·))
/-- `sub %x, %x, %x`. -/
@[asm] def subx (d a b : Slot) : Ins 64 M := op2 d a b (· - ·)
/-- `and %w, %w, %w`. -/
@[asm] def andw (d a b : Slot) : Ins 64 M := op2 d a b (w2 (· &&& ·))
/-- `and %x, %x, %x`. -/
@[asm] def andx (d a b : Slot) : Ins 64 M := op2 d a b (· &&& ·)
/-- `orr %w, %w, %w`. -/
@[asm] def orrw (d a b : Slot) : Ins 64 M := op2 d a b (w2 (· ||| ·))
/-- `orr %x, %x, %x`. -/
@[asm] def orrx (d a b : Slot) : Ins 64 M := op2 d a b (· ||| ·)
/-- `eor %w, %w, %w`. -/
@[asm] def eorw (d a b : Slot) : Ins 64 M := op2 d a b (w2 (· ^^^ ·))
/-- `eor %x, %x, %x`. -/
@[asm] def eorx (d a b : Slot) : Ins 64 M := op2 d a b (· ^^^ ·)
/-- `neg %w, %w`. -/
@[asm] def negw (d a : Slot) : Ins 64 M := op1 d a (w1 (- ·))
/-- `neg %x, %x`. -/
@[asm] def negx (d a : Slot) : Ins 64 M := op1 d a (- ·)
/-- `mvn %w, %w`. -/
@[asm] def mvnw (d a : Slot) : Ins 64 M := op1 d a (w1 (~~~ ·))
/-- `mvn %x, %x`. -/
@[asm] def mvnx (d a : Slot) : Ins 64 M := op1 d a (~~~ ·)
/-- `mov %w, #k`. -/
@[asm] def movwI (d : Slot) (k : BitVec 32) : Ins 64 M := .comp [] [d] fun _ fl => ([k.setWidth 64], fl)
/-- `eor %w, %w, #k`. -/
@[asm] def eorwI (d a : Slot) (k : BitVec 32) : Ins 64 M := op1 d a (w1 (· ^^^ k))
/-- `uxtb %w, %w`. -/
@[asm] def uxtbw (d a : Slot) : Ins 64 M := op1 d a fun x => (x.setWidth 8).setWidth 64
/-- `uxth %w, %w`. -/
@[asm] def uxthw (d a : Slot) : Ins 64 M := op1 d a fun x => (x.setWidth 16).setWidth 64
/-- `cset %w, eq`: 1 if Z is set, 0 otherwise. -/
@[asm] def cseteqw (d : Slot) : Ins 64 M := .comp [] [d] fun _ fl => ([if fl.z then 1 else 0], fl)

/-- `cmp %w, %w`: Z := (a = b), C := no borrow. -/
@[asm] def cmpw (a b : Slot) : Ins 64 M :=
  .comp [a, b] [] fun v _ => ([], ⟨(v0 v).setWidth 32 == (v1 v).setWidth 32,
    noBorrow ((v0 v).setWidth 32) ((v1 v).setWidth 32)⟩)
/-- `cmp %x, %x`. -/
@[asm] def cmpx (a b : Slot) : Ins 64 M :=
  .comp [a, b] [] fun v _ => ([], ⟨v0 v == v1 v, noBorrow (v0 v) (v1 v)⟩)
/-- `ccmp %x, %x, #0, eq`: as `cmp` if Z is set; otherwise the flags are set to 0. -/
@[asm] def ccmpxEq0 (a b : Slot) : Ins 64 M :=
  .comp [a, b] [] fun v fl => ([], ⟨fl.z && v0 v == v1 v, fl.z && noBorrow (v0 v) (v1 v)⟩)

/-- `adds %x, %x, %x`: sets Z and C (carry out). -/
@[asm] def addsx (d a b : Slot) : Ins 64 M :=
  .comp [a, b] [d] fun v _ => ([v0 v + v1 v], ⟨v0 v + v1 v == 0, carryOut (v0 v) (v1 v)⟩)
/-- `adds %x, %x, #k`. -/
@[asm] def addsxI (d a : Slot) (k : BitVec 64) : Ins 64 M :=
  .comp [a] [d] fun v _ => ([v0 v + k], ⟨v0 v + k == 0, carryOut (v0 v) k⟩)
/-- `adc %x, %x, %x`: adds the carry. -/
@[asm] def adcx (d a b : Slot) : Ins 64 M :=
  .comp [a, b] [d] fun v fl => ([addCarry (v0 v) (v1 v) fl.c], fl)
/-- `adc %x, %x, xzr`: adds the carry only. -/
@[asm] def adcxZero (d a : Slot) : Ins 64 M :=
  .comp [a] [d] fun v fl => ([addCarry (v0 v) 0 fl.c], fl)
/-- `subs %x, %x, %x`: sets Z and C (no borrow). -/
@[asm] def subsx (d a b : Slot) : Ins 64 M :=
  .comp [a, b] [d] fun v _ => ([v0 v - v1 v], ⟨v0 v - v1 v == 0, noBorrow (v0 v) (v1 v)⟩)
/-- `sbc %x, %x, %x`: subtracts the borrow, too. -/
@[asm] def sbcx (d a b : Slot) : Ins 64 M :=
  .comp [a, b] [d] fun v fl => ([subBorrow (v0 v) (v1 v) fl.c], fl)

/-- `cbnz %w`: jumps if the register is not 0. -/
@[asm] def cbnzw (a : Slot) (target lab : Nat) (fwd : Bool) : Ins 64 M :=
  .jump [a] (fun v _ => (v0 v).setWidth 32 != 0#32) target lab fwd none
/-- `b.ne`: jumps if Z is clear. -/
@[asm] def bne (target lab : Nat) (fwd : Bool) : Ins 64 M := .jump [] (fun _ fl => !fl.z) target lab fwd none

/-- A load of an object of up to 64 bits, zero-extended: `ldar`, `ldapr` and their variants for 8 and
16 bits. -/
@[asm] def ld (d a : Slot) : Ins 64 M := .load a .plain true [d] fun x => [x.setWidth 64]
/-- A store: `stlr`, `stlrb`, `stlrh`. -/
@[asm] def st (s a : Slot) : Ins 64 M := .store a [s] fun v => (v0 v).setWidth M
/-- `ldarb %w, [%]`, `ldaprb %w, [%]`. -/
@[asm] def ldarbw (d a : Slot) : Ins 64 8 := ld d a
/-- `ldarh %w, [%]`, `ldaprh %w, [%]`. -/
@[asm] def ldarhw (d a : Slot) : Ins 64 16 := ld d a
/-- `ldar %w, [%]`, `ldapr %w, [%]`. -/
@[asm] def ldarw (d a : Slot) : Ins 64 32 := ld d a
/-- `ldar %x, [%]`, `ldapr %x, [%]`. -/
@[asm] def ldarx (d a : Slot) : Ins 64 64 := ld d a
/-- `stlrb %w, [%]`. -/
@[asm] def stlrbw (s a : Slot) : Ins 64 8 := st s a
/-- `stlrh %w, [%]`. -/
@[asm] def stlrhw (s a : Slot) : Ins 64 16 := st s a
/-- `stlr %w, [%]`. -/
@[asm] def stlrw (s a : Slot) : Ins 64 32 := st s a
/-- `stlr %x, [%]`. -/
@[asm] def stlrx (s a : Slot) : Ins 64 64 := st s a

/-- A load-exclusive of an object of up to 64 bits, zero-extended. -/
@[asm] def ldx (d a : Slot) : Ins 64 M := .load a .set true [d] fun x => [x.setWidth 64]
/-- `ldxrb %w, [%]`, `ldaxrb %w, [%]`. -/
@[asm] def ldxrbw (d a : Slot) : Ins 64 8 := ldx d a
/-- `ldxrh %w, [%]`, `ldaxrh %w, [%]`. -/
@[asm] def ldxrhw (d a : Slot) : Ins 64 16 := ldx d a
/-- `ldxr %w, [%]`, `ldaxr %w, [%]`. -/
@[asm] def ldxrw (d a : Slot) : Ins 64 32 := ldx d a
/-- `ldxr %x, [%]`, `ldaxr %x, [%]`. -/
@[asm] def ldxrx (d a : Slot) : Ins 64 64 := ldx d a

/-- A store-exclusive of an object of up to 64 bits: leaves 0 in `d` if it succeeds and 1 if it fails.
Unpredictable if `d` is also the source or the address. -/
@[asm] def stx (d s a : Slot) : Ins 64 M :=
  .sc a (fun _ => true) [s] [d] [(d, s), (d, a)] (fun v => (v0 v).setWidth M)
    fun ok fl => ([if ok then 0 else 1], fl)
/-- `stxrb %w, %w, [%]`, `stlxrb %w, %w, [%]`. -/
@[asm] def stxrbw (d s a : Slot) : Ins 64 8 := stx d s a
/-- `stxrh %w, %w, [%]`, `stlxrh %w, %w, [%]`. -/
@[asm] def stxrhw (d s a : Slot) : Ins 64 16 := stx d s a
/-- `stxr %w, %w, [%]`, `stlxr %w, %w, [%]`. -/
@[asm] def stxrw (d s a : Slot) : Ins 64 32 := stx d s a
/-- `stxr %w, %x, [%]`, `stlxr %w, %x, [%]`. -/
@[asm] def stxrx (d s a : Slot) : Ins 64 64 := stx d s a

/-! Pairs of registers.  The first register of a pair is for the element at the lower address. -/

/-- The element of a 128-bit object at the lower address; `be`: big-endian. -/
def first (be : Bool) (x : BitVec 128) : BitVec 64 := if be then upper 64 x else lower 64 x
/-- The element at the higher address. -/
def second (be : Bool) (x : BitVec 128) : BitVec 64 := if be then lower 64 x else upper 64 x
/-- The 128-bit object with the given elements, in the order of their addresses. -/
def pair (be : Bool) (a b : BitVec 64) : BitVec 128 := if be then joined 128 a b else joined 128 b a

/-- The operand with the lower half of a value whose elements are in `s` and `s + 1`,
BOOST_ATOMIC_DETAIL_AARCH64_ASM_ARG_LO, ops_gcc_aarch64_common.hpp 45–51. -/
@[asm] def lo (be : Bool) (s : Slot) : Slot := if be then s + 1 else s
/-- The operand with the upper half, BOOST_ATOMIC_DETAIL_AARCH64_ASM_ARG_HI. -/
@[asm] def hi (be : Bool) (s : Slot) : Slot := if be then s else s + 1

/-- `ldxp %x, %x, [%]`, `ldaxp %x, %x, [%]`, the first register.  The instruction reads the elements
separately (Arm ARM B2.2.1, and the comment in core_arch_ops_gcc_aarch64.hpp 1668–1672): only if a
store-exclusive then succeeds have both been read at one moment.  Here the element at the lower address is
read first. -/
@[asm] def ldxp1 (be : Bool) (d a : Slot) : Ins 64 128 := .load a .set true [d] fun x => [first be x]
/-- `ldxp`, `ldaxp`, the second register. -/
@[asm] def ldxp2 (be : Bool) (d a : Slot) : Ins 64 128 := .load a .keep true [d] fun x => [second be x]
/-- `stxp %w, %x, %x, [%]`, `stlxp %w, %x, %x, [%]`. -/
@[asm] def stxp (be : Bool) (d s s2 a : Slot) : Ins 64 128 :=
  .sc a (fun _ => true) [s, s2] [d] [(d, s), (d, s2), (d, a)] (fun v => pair be (v0 v) (v1 v))
    fun ok fl => ([if ok then 0 else 1], fl)

/-! The atomic instructions of the extension LSE. -/

/-- An atomic instruction that replaces the object `x` by `f x s` and leaves `x`, zero-extended, in `d`. -/
@[asm] def lse (f : BitVec M → BitVec M → BitVec M) (s d a : Slot) : Ins 64 M :=
  .rmw a [s] [d] fun x v fl => (some (f x ((v0 v).setWidth M)), [x.setWidth 64], fl)
/-- `swp`, `swpb`, `swph`. -/
@[asm] def swp (s d a : Slot) : Ins 64 M := lse (fun _ v => v) s d a
/-- `ldadd`, … -/
@[asm] def ldadd (s d a : Slot) : Ins 64 M := lse (· + ·) s d a
/-- `ldclr`, …: clears the bits that are set in `s`. -/
@[asm] def ldclr (s d a : Slot) : Ins 64 M := lse (fun x v => x &&& ~~~ v) s d a
/-- `ldset`, … -/
@[asm] def ldset (s d a : Slot) : Ins 64 M := lse (· ||| ·) s d a
/-- `ldeor`, … -/
@[asm] def ldeor (s d a : Slot) : Ins 64 M := lse (· ^^^ ·) s d a
/-- `cas s, t, [a]`, `casb`, `cash`: stores `t` if the object is `s`; leaves the old value, zero-extended, in `s`. -/
@[asm] def cas (s t a : Slot) : Ins 64 M :=
  .rmw a [s, t] [s] fun x v fl =>
    (if x = (v0 v).setWidth M then some ((v1 v).setWidth M) else none, [x.setWidth 64], fl)

end Verif.Asm.A64
