import Verif.Target.Model

/-
The orders of calls as the program states them, and the table of the combinations of target, object and call for which
the library's code is weaker than the order demanded (findings of C19, C22 and C51).
-/

namespace Verif.Target

open Verif.Order

/-- The variable a call is on. -/
def Call.loc : Call → Option Nat
  | .user _ l | .load _ l | .store _ l | .exchange _ l | .cas _ _ _ l | .arith _ l | .extra _ l | .fp _ l
  | .testAndSet _ l | .clear _ l => some l
  | .fence _ => none

/-- The order that applies to what the call reads, if it reads. -/
def Call.readOrder : Call → Option MO
  | .load o _ | .exchange o _ | .arith o _ | .extra o _ | .fp o _ | .testAndSet o _ => some o
  | .cas ok s f _ => some (if ok then s else f)
  | .user _ _ | .store _ _ | .clear _ _ | .fence _ => none

/-- The order that applies to what the call writes, if it writes. -/
def Call.writeOrder : Call → Option MO
  | .store o _ | .exchange o _ | .arith o _ | .extra o _ | .fp o _ | .testAndSet o _ | .clear o _ => some o
  | .cas true s _ _ => some s
  | .user _ _ | .load _ _ | .cas false _ _ _ | .fence _ => none

/-- The orders are ones the documentation allows for the operation. -/
def Call.Allowed : Call → Prop
  | .load o _ => o ≠ .release ∧ o ≠ .acqRel
  | .store o _ | .clear o _ => o ≠ .consume ∧ o ≠ .acquire ∧ o ≠ .acqRel
  | .cas _ s f _ => f ≠ .release ∧ f ≠ .acqRel ∧ failureNotStronger s f = true
  | _ => True

/-- The call is a seq_cst operation (a compare-and-exchange that fails: for the failure too). -/
def Call.SeqCst : Call → Prop
  | .load o _ | .store o _ | .exchange o _ | .arith o _ | .extra o _ | .fp o _ | .testAndSet o _ | .clear o _ => o = .seqCst
  | .cas true s _ _ => s = .seqCst
  | .cas false s f _ => s = .seqCst ∧ f = .seqCst
  | .user _ _ | .fence _ => False

/-- The operations on objects of class `core_operations< n >` are inline assembly for the architecture. -/
def Target.asm (t : Target) (n : Nat) : Prop := t.toPlatform.specsFor n = []

/-- The call is on an object whose operations are inline assembly for the architecture. -/
def Target.onAsm (t : Target) (obj : Nat → Obj) : Call → Prop
  | .testAndSet _ _ | .clear _ _ => t.asm 4
  | .user _ l | .load _ l | .store _ l | .exchange _ l | .cas _ _ _ l | .arith _ l | .extra _ l | .fp _ l =>
    ∃ n, t.classOf (obj l) = some n ∧ t.asm n
  | .fence _ => t.core = .none

/-- The compiler has lock-free `__atomic` intrinsics for the object (or fence) of the call. -/
def Target.Intrinsic (t : Target) (obj : Nat → Obj) (c : Call) : Prop := (∃ g, t.core = .gcc_atomic g) ∧ ¬ t.onAsm obj c

/-- Calls whose code does not have the acquire or release meaning of their order. -/
inductive Target.Weak (t : Target) (obj : Nat → Obj) : Call → Prop where
  /-- SPARC, inline assembly: acquire operations -/
  | sparc {c o} : t.arch = .gcc_sparc → t.onAsm obj c → c.readOrder = some o → o.isAcquire = true → o ≠ .seqCst →
      Weak t obj c
  /-- ARMv8, inline assembly: compare-and-exchange with orders release and acquire (or consume), which fails -/
  | armCas {f l} : t.arch = .gcc_aarch64 ∨ t.arch = .gcc_aarch32 → t.onAsm obj (.cas false .release f l) →
      f.isAcquire = true → Weak t obj (.cas false .release f l)
  /-- 32-bit ARMv8, inline assembly: acquire loads of 8 bytes -/
  | armLoad {o l n} : t.arch = .gcc_aarch32 → t.classOf (obj l) = some n → n = 8 → t.asm n → o.isAcquire = true →
      Weak t obj (.load o l)
  /-- the kernel helpers of Linux on ARM: compare-and-exchange that fails -/
  | linuxArm {s f l} : t.core = .linux_arm → f.isAcquire = true → Weak t obj (.cas false s f l)
  /-- x86, inline assembly without intrinsics: consume fences -/
  | x86Fence {d} : t.core = .none → t.arch = .gcc_x86_32 d ∨ t.arch = .gcc_x86_64 d → Weak t obj (.fence .consume)
  /-- Windows on other processors than x86: fences other than seq_cst -/
  | windowsFence {o} : t.core = .windows → t.x86 = false → o ≠ .relaxed → o ≠ .seqCst → Weak t obj (.fence o)

/-- Calls with seq_cst order whose code is too weak for one total order. -/
inductive Target.WeakSeqCst (t : Target) (obj : Nat → Obj) : Call → Prop where
  /-- the `__sync` intrinsics: `exchange`, `test_and_set`, and stores of objects whose storage is wider than a pointer -/
  | exchange {g l} : t.core = .gcc_sync g → WeakSeqCst t obj (.exchange .seqCst l)
  | testAndSet {g l} : t.core = .gcc_sync g → WeakSeqCst t obj (.testAndSet .seqCst l)
  | store {g l n} : t.core = .gcc_sync g → t.classOf (obj l) = some n →
      t.pointer < (t.toPlatform.ops n).sizeofStorage → WeakSeqCst t obj (.store .seqCst l)
  /-- the kernel helpers of Linux on ARM: compare-and-exchange that fails -/
  | linuxArm {l} : t.core = .linux_arm → WeakSeqCst t obj (.cas false .seqCst .seqCst l)

end Verif.Target
