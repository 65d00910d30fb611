import Verif.Locked.Model
import Verif.Wait.Model

/-
What a thread sees after it has waited, on processors that reorder accesses.

The waiting functions load the object several times (`Verif.Wait`).  Here each of these loads is an operation of a program
of `Verif.Mca`: it takes effect when the processor performs it, and finds what the rules of the processor let it find.
All of them are `base_type::load(storage, order)` with the order that the user passed (wait_ops_futex.hpp:117–323,
wait_ops_freebsd_umtx.hpp:86–315, wait_ops_windows.hpp:63–105, wait_ops_darwin_ulock.hpp:84–136,
wait_ops_dragonfly_umtx.hpp:53–93, wait_ops_generic.hpp:65–137, 261–325), or, if the object is not lock-free, accesses
of the thread that holds the mutex of the object (wait_ops_emulated.hpp:57–137).

Simplifications.
* What else a call does – blocking in the kernel, reading clocks, taking and giving back mutexes – may be any operations
  of the thread; nothing is assumed about its effect on the order of accesses.
* Values are those of the storage (`storage_type`), compared as in the code.  An object that is not lock-free is one variable.
-/

namespace Verif.Await

open Verif.Order Verif.Mca Verif.Mca.Run Verif.Locked Verif.Wait Verif.Chrono

/-- The waiting functions for objects that are lock-free. -/
inductive Func where
  /-- `wait` with native support of the system -/
  | native
  /-- `wait_until` with native support, on a clock that the system does not know -/
  | nativeUntil (u : Conv) (lim : Int → Int) (timeout : Int)
  /-- `wait_for` with native support, by `steady_clock` -/
  | nativeFor (u : Conv) (lim : Int → Int) (timeout : Int)
  /-- `wait_until` by a futex, on a clock that the system knows -/
  | futexUntil (clockId : Nat) (ts : Timespec) (u : Conv) (lim : Int → Int) (timeout : Int)
  /-- `wait_until` on FreeBSD, on a clock that the system knows -/
  | freebsdUntil (clockId : Nat) (ts : Timespec)
  /-- `wait_for` by a futex (`nosys`) and on FreeBSD -/
  | absFor (nosys : Bool) (w : Nat) (ut : Conv) (mult : Int) (u : Conv) (lim : Int → Int) (c : Int)
  /-- `wait`, `wait_until` and `wait_for` by conditions of the lock pool -/
  | pool (p : Pool)
  | poolUntil (p : Pool) (u : Conv) (timeout : Int)
  | poolUntilPosix (p : Pool) (clockId : Nat) (ts : Timespec)
  | poolFor (p : Pool) (u : Conv) (timeout : Int)
  /-- `wait`, `wait_until` and `wait_for` of objects that are shared by processes -/
  | process (spins : Nat)
  | processUntil (spins : Nat) (timeout : Int)
  | processFor (spins : Nat) (timeout : Int)

/-- What the function does: the functions of `Verif.Wait`, which cite the code.  `wait` does not time out. -/
def Func.prog (old : Nat) : Func → Prog Nat (Timed Nat)
  | .native => do return (← nativeWait old, false)
  | .nativeUntil u lim timeout => relWaitUntil u lim old timeout
  | .nativeFor u lim timeout => relWaitFor u lim old timeout
  | .futexUntil c ts u lim timeout => futexAbs c ts u lim old timeout
  | .freebsdUntil c ts => freebsdAbs c ts old
  | .absFor nosys w ut mult u lim c => absWaitFor nosys w ut mult u lim old c
  | .pool p => do return (← genericWait p old, false)
  | .poolUntil p u timeout => poolWaitUntil p u old timeout
  | .poolUntilPosix p c ts => poolAbsUntil p c ts old
  | .poolFor p u timeout => poolWaitFor p u old timeout
  | .process spins => do return (← ipcWait spins old, false)
  | .processUntil spins timeout => ipcWaitUntil spins old timeout
  | .processFor spins timeout => ipcWaitFor spins old timeout

/-- The functions for objects that are not lock-free, wait_ops_emulated.hpp:57–212. -/
inductive PoolFunc where
  | wait (p : Pool)
  | waitUntil (p : Pool) (u : Conv) (timeout : Int)
  | waitUntilPosix (p : Pool) (clockId : Nat) (ts : Timespec)
  | waitFor (p : Pool) (u : Conv) (timeout : Int)

def PoolFunc.prog (old : Nat) : PoolFunc → Prog Nat (Timed Nat)
  | .wait p => do return (← emulatedWait p old, false)
  | .waitUntil p u timeout => poolWaitUntil p u old timeout
  | .waitUntilPosix p c ts => poolAbsUntil p c ts old
  | .waitFor p u timeout => poolWaitFor p u old timeout

/-- The values that were loaded, in the order of the program. -/
def loaded {V : Type} (tr : List (Wait.Ev V)) : List V :=
  tr.filterMap fun
    | .load _ v => some v
    | _ => none

/-- A call: the thread, the numbers of its first operation and of the first one after it, and the result. -/
structure Call where
  thread : Nat
  first : Nat
  after : Nat
  value : Nat
  timedOut : Bool

variable {cpu : Cpu}

/-- The operation `k` of the thread loads the object `x` with order `o` and finds the value `u`. -/
def Loads (R : Mca.Run cpu) (rf : Pos → Option Pos → Prop) (V : Values) (x : Nat) (o : MO) (t k u : Nat) : Prop :=
  (∃ b n, (R.prog t)[k]? = some (.op b .load o n x)) ∧ ∃ r s, R.Ret (t, k) r ∧ rf r s ∧ V.of x s = u

/-- The call is one of `f` for the object `x`, with the old value `old` and the order `o`: some of its operations are loads
of the object with this order, and for the values that they find the function has this result. -/
def Performs (R : Mca.Run cpu) (rf : Pos → Option Pos → Prop) (V : Values) (x : Nat) (o : MO) (old : Nat) (f : Func)
    (C : Call) : Prop :=
  C.after ≤ (R.prog C.thread).length ∧
  ∃ ks : List (Nat × Nat), (ks.map Prod.fst).Pairwise (· < ·) ∧
    (∀ k u, (k, u) ∈ ks → C.first ≤ k ∧ k < C.after ∧ Loads R rf V x o C.thread k u) ∧
    ∃ W i j tr, Runs W (f.prog old) i j tr (C.value, C.timedOut) ∧ loaded tr = ks.map Prod.snd

/-- The access `r` of a section of the mutex of `x` reads the object `x` and finds `u`. -/
def LoadsInside (R : Mca.Run cpu) (rf : Pos → Option Pos → Prop) (V : Values) {Sec : Type} (mutex : Sec → Nat)
    (take give : Sec → OpId) (m x t : Nat) (r : Pos) (u : Nat) : Prop :=
  (∃ S, mutex S = m ∧ (take S).1 = t ∧ Inside R (take S) (give S) r) ∧ R.Has r .rd ∧ (∃ y, R.Is r y ∧ y.loc = x) ∧
    ∃ s, rf r s ∧ V.of x s = u

/-- The same for an object that is not lock-free and has the mutex `m`. -/
def PerformsInside (R : Mca.Run cpu) (rf : Pos → Option Pos → Prop) (V : Values) {Sec : Type} (mutex : Sec → Nat)
    (take give : Sec → OpId) (m x old : Nat) (f : PoolFunc) (C : Call) : Prop :=
  C.after ≤ (R.prog C.thread).length ∧
  ∃ rs : List (Pos × Nat), (rs.map Prod.fst).Pairwise Before ∧
    (∀ r u, (r, u) ∈ rs → (∃ id it, R.Within r id it ∧ id.1 = C.thread ∧ C.first ≤ id.2 ∧ id.2 < C.after) ∧
      LoadsInside R rf V mutex take give m x C.thread r u) ∧
    ∃ W i j tr, Runs W (f.prog old) i j tr (C.value, C.timedOut) ∧ loaded tr = rs.map Prod.snd

/-- `f` is an access of the thread after the call. -/
def Call.Then (C : Call) (R : Mca.Run cpu) (f : Pos) : Prop :=
  ∃ id it, R.Within f id it ∧ id.1 = C.thread ∧ C.after ≤ id.2

/-- Between the call and `f` the thread executes a fence with an acquire order. -/
def Call.FenceThen (C : Call) (R : Mca.Run cpu) (f : Pos) : Prop :=
  ∃ k b o id it, (R.prog C.thread)[k]? = some (.fence b o) ∧ o.isAcquire = true ∧ C.after ≤ k ∧
    R.Within f id it ∧ id.1 = C.thread ∧ k < id.2

/-- `w` modifies the object `x`.  (A load that is made by an instruction which writes back what it read does not.) -/
def Modifies (R : Mca.Run cpu) (w : Pos) (x : Nat) : Prop := R.Has w .wr ∧ ¬ R.Copy w ∧ ∃ y, R.Is w y ∧ y.loc = x

/-- Every modification of `x` to a value that satisfies `p` is made by other threads than `t`, and is a release operation, or
belongs to the release sequence (`sequence`) of one, which comes after `e` – or after a release fence after `e`. -/
def Published (R : Mca.Run cpu) (sequence : Pos → Pos → Prop) (V : Values) (x : Nat) (p : Nat → Prop) (t : Nat) (e : Pos) :
    Prop :=
  ∀ w, Modifies R w x → p (V.val w) → ∃ u, u.1 ≠ t ∧ R.Has u .wr ∧ R.Released e u ∧ sequence u w

/-- The same for an object that is not lock-free, whatever the order of the operations: before the end of the section which
makes the modification, the thread makes the access `e`, or one that `e` happens before. -/
def PublishedInside (R : Mca.Run cpu) (hb : Pos → Pos → Prop) (V : Values) {Sec : Type} (mutex : Sec → Nat)
    (take give : Sec → OpId) (m x : Nat) (p : Nat → Prop) (t : Nat) (e : Pos) : Prop :=
  ∀ w, Modifies R w x → p (V.val w) → ∃ N id it e', mutex N = m ∧ (take N).1 ≠ t ∧ Inside R (take N) (give N) w ∧
    R.Within e' id it ∧ id.1 = (take N).1 ∧ id.2 < (give N).2 ∧ (e = e' ∨ hb e e')

end Verif.Await
