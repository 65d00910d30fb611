import Verif.WaitSel.Model

/-
What the operating systems' blocking primitives do, as far as it decides who is woken: the queue a call refers to, the
bytes it compares, and how many blocked threads a waking call releases.  These are statements about the systems, not
about the library; they belong to the trusted base (DESIGN.md).
-/

namespace Verif.WaitSel.Spec

open Verif.WaitSel

/-- Which memory a process sees: virtual addresses of a process to physical addresses. -/
abbrev Mapping := Nat → Nat → Nat

/-- What identifies a wait queue: an address of one process, or a physical address. -/
inductive Key where
  | inProcess (proc vaddr : Nat)
  | physical (paddr : Nat)
  deriving DecidableEq, Repr

/-- The facility that keeps the queue.  `__ulock` refuses to wake with an operation other than the one the
threads wait with, therefore the operation is part of it. -/
inductive Facility where
  | waitOnAddress
  | futex
  | ulock (op : UlockOp)
  | umtx
  | umtxSleep
  | lockPool
  deriving DecidableEq, Repr

/-- The key of a `__ulock` operation: shared operations are address-free. -/
def ulockKey (M : Mapping) (proc va : Nat) : UlockOp → Key
  | .compare_and_wait => .inProcess proc va
  | .compare_and_wait_shared => .physical (M proc va)
  | .compare_and_wait64 => .inProcess proc va
  | .compare_and_wait64_shared => .physical (M proc va)

/-- The queue that a blocking call made by process `proc` for the address `va` enters. -/
def sleepQueue (M : Mapping) (proc va : Nat) : Sleep → Option (Facility × Key)
  | .waitOnAddress _ => some (.waitOnAddress, .inProcess proc va)
  | .futex priv => some (.futex, if priv then .inProcess proc va else .physical (M proc va))
  | .ulock op => some (.ulock op, ulockKey M proc va op)
  | .umtx .wait => some (.umtx, .physical (M proc va))
  | .umtx .wait_uint => some (.umtx, .physical (M proc va))
  | .umtx .wait_uint_private => some (.umtx, .inProcess proc va)
  | .umtxSleep => some (.umtxSleep, .physical (M proc va))
  | .pool => some (.lockPool, .inProcess proc va)
  | .poll => none
  | .rejected => none

/-- The queue that a waking call made by process `proc` for the address `va` releases threads from. -/
def wakeQueue (M : Mapping) (proc va : Nat) : Wake → Option (Facility × Key)
  | .wakeByAddress _ => some (.waitOnAddress, .inProcess proc va)
  | .futex priv _ => some (.futex, if priv then .inProcess proc va else .physical (M proc va))
  | .ulock op _ => some (.ulock op, ulockKey M proc va op)
  | .umtx .wake _ => some (.umtx, .physical (M proc va))
  | .umtx .wake_private _ => some (.umtx, .inProcess proc va)
  | .umtxWakeup _ => some (.umtxSleep, .physical (M proc va))
  | .pool _ => some (.lockPool, .inProcess proc va)
  | .nothing => none
  | .rejected => none

/-- How many of `n` threads Linux and FreeBSD release for a count, as documented (futex(2), _umtx_op(2): at most as many;
in fact a count of 0 releases one, on which nobody should rely).  The count is converted to a signed 32-bit integer;
for a negative one they stop after the first thread. -/
def counted (n count : Nat) : Nat := if count < 2 ^ 31 then min n count else min n 1

/-- How many of `n` threads in the queue a waking call releases. -/
def released (n : Nat) : Wake → Nat
  | .wakeByAddress all => if all then n else min n 1
  | .futex _ count => counted n count
  | .ulock _ all => if all then n else min n 1
  | .umtx _ count => counted n count
  -- umtx_wakeup(2): a count of 0 wakes all
  | .umtxWakeup count => if count = 0 then n else min n count
  | .pool all => if all then n else min n 1
  | .nothing => 0
  | .rejected => 0

/-- How many bytes at the address the kernel compares with the expected value before it blocks the caller. -/
def comparedBytes (s : Os) : Sleep → Option Nat
  | .waitOnAddress size => some size
  | .futex _ => some 4
  | .ulock .compare_and_wait => some 4
  | .ulock .compare_and_wait_shared => some 4
  | .ulock .compare_and_wait64 => some 8
  | .ulock .compare_and_wait64_shared => some 8
  | .umtx .wait => some s.sizeofLong
  | .umtx .wait_uint => some s.sizeofInt
  | .umtx .wait_uint_private => some s.sizeofInt
  | .umtxSleep => some s.sizeofInt
  | .pool => none
  | .poll => none
  | .rejected => none

/-- The primitive is one of the operating system: neither the library's lock pool nor polling. -/
def OfSystem : Sleep → Prop
  | .pool | .poll | .rejected => False
  | _ => True

instance (x : Sleep) : Decidable (OfSystem x) := by cases x <;> unfold OfSystem <;> infer_instance

end Verif.WaitSel.Spec
