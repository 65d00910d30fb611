import Verif.Asm.IsaArm

/-
The x86 instructions used by include/boost/atomic/detail/core_arch_ops_gcc_x86.hpp and
extra_ops_gcc_x86.hpp, after the Intel 64 and IA-32 Architectures Software Developer's Manual, volume 2.
Operands are in the order of the source text (AT&T): source first.  Registers have `R` bits: 32 in 32-bit and
64 in 64-bit mode.  The first argument of an instruction is the width of its operands, which the text gives as the
suffix of the mnemonic or by the names of the registers.

Simplifications: of the flags only ZF and CF are modelled (no block uses another).  A memory operand is modelled
as one register that holds the address of the object (the compiler may use a base register, an index and an
offset); an immediate operand as a register of its own.  A register of the SSE unit is modelled as two registers
of `R` bits, which hold its lower half (`R = 32`) or all of it (`R = 64`).
-/

namespace Verif.Asm.X86

variable {R M : Nat}

/-- A register after its lower `w` bits were written: instructions with operands of 8 and 16 bits leave the other
bits as they are, those with operands of 32 bits clear them. -/
def put {w : Nat} (r : BitVec R) (v : BitVec w) : BitVec R :=
  if w < 32 then (r >>> w) <<< w ||| v.setWidth R else v.setWidth R

/-! ### Registers -/

/-- `mov s, d` with operands of 32 or 64 bits. -/
@[asm] def mov (w : Nat) (s d : Slot) : Ins R M := .comp [s] [d] fun v fl => ([((v0 v).setWidth w).setWidth R], fl)
/-- `movz s, d` (`movzbl`, `movzwl`): zero-extends `w` bits to 32. -/
@[asm] def movz (w : Nat) (s d : Slot) : Ins R M := .comp [s] [d] fun v fl => ([((v0 v).setWidth w).setWidth R], fl)
/-- `xchg s, d` between registers. -/
@[asm] def xchgr (s d : Slot) : Ins R M := .comp [s, d] [s, d] fun v fl => ([v1 v, v0 v], fl)

/-- `d := f d s` for a logical instruction, which clears CF. -/
@[asm] def logic (w : Nat) (f : BitVec w → BitVec w → BitVec w) (s d : Slot) : Ins R M := .comp [s, d] [d] fun v _ =>
  ([put (v1 v) (f ((v1 v).setWidth w) ((v0 v).setWidth w))],
    ⟨f ((v1 v).setWidth w) ((v0 v).setWidth w) == 0#w, false⟩)
/-- `and s, d`. -/
@[asm] def and (w : Nat) (s d : Slot) : Ins R M := logic w (· &&& ·) s d
/-- `or s, d`. -/
@[asm] def or (w : Nat) (s d : Slot) : Ins R M := logic w (· ||| ·) s d
/-- `xor s, d`. -/
@[asm] def xor (w : Nat) (s d : Slot) : Ins R M := logic w (· ^^^ ·) s d
/-- `d := f d`; `k` gives the flags after it. -/
@[asm] def unary (w : Nat) (f : BitVec w → BitVec w) (k : BitVec w → Flags → Flags) (d : Slot) : Ins R M :=
  .comp [d] [d] fun v fl => ([put (v0 v) (f ((v0 v).setWidth w))], k ((v0 v).setWidth w) fl)
/-- `neg d`. -/
@[asm] def neg (w : Nat) (d : Slot) : Ins R M := unary w (- ·) (fun x _ => ⟨-x == 0#w, x != 0#w⟩) d
/-- `not d`: leaves the flags as they are. -/
@[asm] def not (w : Nat) (d : Slot) : Ins R M := unary w (~~~ ·) (fun _ fl => fl) d

/-- `jne`. -/
@[asm] def jne (target lab : Nat) (fwd : Bool) : Ins R M := .jump [] (fun _ fl => !fl.z) target lab fwd none

/-- Set the lower 8 bits of `d` to 1 or 0.  The other bits stay as they are; no block uses them, and here they are
cleared. -/
@[asm] def set (c : Flags → Bool) (d : Slot) : Ins R M := .comp [] [d] fun _ fl =>
  ([(if c fl then 1#8 else 0#8 : BitVec 8).setWidth R], fl)
/-- `sete d` (or an operand `"=@ccz"`, for which the compiler uses the flag after the block). -/
@[asm] def sete (d : Slot) : Ins R M := set (·.z) d
/-- `setnz d` (or an operand `"=@ccnz"`). -/
@[asm] def setnz (d : Slot) : Ins R M := set (!·.z) d
/-- `setc d` (or an operand `"=@ccc"`). -/
@[asm] def setc (d : Slot) : Ins R M := set (·.c) d

/-! ### The object -/

/-- `lock; xadd r, (a)`. -/
@[asm] def xadd (M : Nat) (r a : Slot) : Ins R M := .rmw a [r] [r] fun m v _ =>
  (some (m + (v0 v).setWidth M), [put (v0 v) m], ⟨m + (v0 v).setWidth M == 0#M, carryOut m ((v0 v).setWidth M)⟩)
/-- `xchg r, (a)`, which is always locked. -/
@[asm] def xchg (M : Nat) (r a : Slot) : Ins R M := .rmw a [r] [r] fun m v fl =>
  (some ((v0 v).setWidth M), [put (v0 v) m], fl)
/-- `lock; cmpxchg d, (a)`: `e` is the accumulator. -/
@[asm] def cmpxchg (M : Nat) (e d a : Slot) : Ins R M := .rmw a [e, d] [e] fun m v _ =>
  if (v0 v).setWidth M = m then (some ((v1 v).setWidth M), [v0 v], ⟨true, false⟩)
  else (none, [put (v0 v) m], ⟨false, decide ((v0 v).setWidth M < m)⟩)

/-- A locked instruction `f` on the object with an operand. -/
@[asm] def lock2 (f : BitVec M → BitVec M → BitVec M) (c : BitVec M → BitVec M → Bool) (s a : Slot) : Ins R M :=
  .rmw a [s] [] fun m v _ =>
    (some (f m ((v0 v).setWidth M)), [], ⟨f m ((v0 v).setWidth M) == 0#M, c m ((v0 v).setWidth M)⟩)
/-- `lock; add s, (a)`. -/
@[asm] def addm (M : Nat) (s a : Slot) : Ins R M := lock2 (· + ·) carryOut s a
/-- `lock; sub s, (a)`. -/
@[asm] def subm (M : Nat) (s a : Slot) : Ins R M := lock2 (· - ·) (fun m v => decide (m < v)) s a
/-- `lock; and s, (a)`. -/
@[asm] def andm (M : Nat) (s a : Slot) : Ins R M := lock2 (· &&& ·) (fun _ _ => false) s a
/-- `lock; or s, (a)`. -/
@[asm] def orm (M : Nat) (s a : Slot) : Ins R M := lock2 (· ||| ·) (fun _ _ => false) s a
/-- `lock; xor s, (a)`. -/
@[asm] def xorm (M : Nat) (s a : Slot) : Ins R M := lock2 (· ^^^ ·) (fun _ _ => false) s a

/-- A locked instruction `f` on the object; `fl` gives the flags after it. -/
@[asm] def lock1 (f : BitVec M → BitVec M) (k : BitVec M → Flags → Flags) (a : Slot) : Ins R M :=
  .rmw a [] [] fun m _ fl => (some (f m), [], k m fl)
/-- `lock; inc (a)`: leaves CF as it is. -/
@[asm] def incm (M : Nat) (a : Slot) : Ins R M := lock1 (· + 1#M) (fun m fl => ⟨m + 1#M == 0#M, fl.c⟩) a
/-- `lock; dec (a)`: leaves CF as it is. -/
@[asm] def decm (M : Nat) (a : Slot) : Ins R M := lock1 (· - 1#M) (fun m fl => ⟨m - 1#M == 0#M, fl.c⟩) a
/-- `lock; neg (a)`. -/
@[asm] def negm (M : Nat) (a : Slot) : Ins R M := lock1 (- ·) (fun m _ => ⟨-m == 0#M, m != 0#M⟩) a
/-- `lock; not (a)`: leaves the flags as they are. -/
@[asm] def notm (M : Nat) (a : Slot) : Ins R M := lock1 (~~~ ·) (fun _ fl => fl) a

/-- A locked instruction that copies bit `b` of the object to CF and changes the object to `f m (1 << b)`.  If the
bit is outside of the object, the instruction accesses other memory. -/
@[asm] def bitop (f : BitVec M → BitVec M → BitVec M) (b a : Slot) : Ins R M := .rmw a [b] [] fun m v fl =>
  if ((v0 v).setWidth M).toNat < M then
    (some (f m (1#M <<< ((v0 v).setWidth M).toNat)), [], ⟨fl.z, m.getLsbD ((v0 v).setWidth M).toNat⟩)
  else (none, [], fl)
/-- `lock; bts b, (a)`. -/
@[asm] def bts (M : Nat) (b a : Slot) : Ins R M := bitop (· ||| ·) b a
/-- `lock; btr b, (a)`. -/
@[asm] def btr (M : Nat) (b a : Slot) : Ins R M := bitop (fun m k => m &&& ~~~ k) b a
/-- `lock; btc b, (a)`. -/
@[asm] def btc (M : Nat) (b a : Slot) : Ins R M := bitop (· ^^^ ·) b a

/-! ### Objects of two registers -/

/-- `mov (a), d` for the first half of the object. -/
@[asm] def ldlo (a d : Slot) : Ins R M := .load a .plain false [d] fun m => [lower R m]
/-- `mov R/8(a), d` for the second half. -/
@[asm] def ldhi (a d : Slot) : Ins R M := .load a .plain false [d] fun m => [upper R m]
/-- `lock; cmpxchg8b (a)` and `lock; cmpxchg16b (a)`: the expected value is in `hi:lo` (`edx:eax`), the desired one
in `c:b` (`ecx:ebx`). -/
@[asm] def cmpxchg2 (lo hi b c a : Slot) : Ins R M := .rmw a [lo, hi, b, c] [lo, hi] fun m v fl =>
  if lower R m = v0 v ∧ upper R m = v1 v then (some (joined M (v.getD 3 0) (v2 v)), [v0 v, v1 v], ⟨true, fl.c⟩)
  else (none, [lower R m, upper R m], ⟨false, fl.c⟩)
/-- `movq (a), x`, `vmovq (a), x`, `movlps (a), x` (8 bytes), `vmovdqa (a), x` (16 bytes): loads the object at once. -/
@[asm] def ldx (a lo hi : Slot) : Ins R M := .load a .plain true [lo, hi] fun m => [lower R m, upper R m]
/-- `movq x, (a)`, `vmovq x, (a)`, `movlps x, (a)`, `vmovdqa x, (a)`: stores the object at once. -/
@[asm] def stx (lo hi a : Slot) : Ins R M := .store a [lo, hi] fun v => joined M (v1 v) (v0 v)
/-- `xorps x, x`. -/
@[asm] def xorps (lo hi : Slot) : Ins R M := .comp [] [lo, hi] fun _ fl => ([0, 0], fl)
/-- `fildll` of a variable and `fistpll` to one: a register of the floating-point unit holds all integers of 64
bits exactly, so that it is modelled as the pair of halves of the integer. -/
@[asm] def mov2 (lo hi lo' hi' : Slot) : Ins R M := .comp [lo, hi] [lo', hi'] fun v fl => ([v0 v, v1 v], fl)

end Verif.Asm.X86
