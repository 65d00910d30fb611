import Verif.Mca.Sc

/-
Executions on processors on which a write becomes visible to one thread after another (PowerPC; ARMv7 by its
architecture manual).

Programs, instructions and the order of the accesses of one thread are those of `Verif.Mca`.  In addition a `Run` says
in which order the writes of each variable take effect, when each write arrives at each thread, if ever, and when each
barrier does.  The rules are those of the storage subsystem of Sarkar, Sewell, Alglave, Maranget and Williams,
"Understanding POWER multiprocessors" (PLDI 2011): writes of one variable arrive at a thread in their order, and one that
is late is dropped; a barrier arrives at a thread after all writes that had arrived at its own thread before it, or
later writes of the same variables; a write arrives at a thread after all barriers that had arrived at the thread that
made it; the heavy barrier (`sync`, `dmb`, `mb`) waits until it has arrived at all threads.

The back ends are the ones that order accesses by barriers: PowerPC, ARM up to version 7, Alpha, and the kernel helpers of
Linux on ARM.
-/

namespace Verif.Pow

open Verif.Order Verif.Mca Verif.Mca.Run

/-- The barrier separates reads and writes before it from writes after it: `lwsync` and heavier ones. -/
def cumulative (x : Instr) : Bool := x.clob && x.ls && x.ss

/-- The barrier separates everything before it from everything after it: `sync`, `dmb`, `mb`. -/
def heavy (x : Instr) : Bool := x.clob && x.ll && x.ls && x.sl && x.ss

/-- The processors of this file. -/
def barriers : List Cpu := [.power, .arm, .alpha]

/-- An execution. -/
structure Run (cpu : Cpu) extends Mca.Run cpu where
  /-- the order of the writes of each variable -/
  Co : Pos → Pos → Prop
  /-- the moment at which a write arrives at a thread, if it does -/
  prop : Pos → Nat → Option Nat
  /-- the moment at which a barrier arrives at a thread, if it does -/
  bar : Pos → Nat → Option Nat

namespace Run

variable {cpu : Cpu} (R : Run cpu)

/-- The write `w` has arrived at the thread before the moment `T`. -/
def Arrived (w : Pos) (t T : Nat) : Prop := ∃ m, R.prop w t = some m ∧ m < T

/-- The write `w` or a later one of the same variable has arrived at the thread before the moment `T`. -/
def Past (w : Pos) (t T : Nat) : Prop := ∃ v, (v = w ∨ R.Co w v) ∧ R.Arrived v t T

/-- The write `w` can be seen by the read `r`: it has arrived at the thread, or the thread made it before. -/
def Visible (r w : Pos) : Prop :=
  R.Has w .wr ∧ R.SameLoc r w ∧ (R.Arrived w r.1 (R.time r .rd) ∨ Before w r)

/-- What `r` reads: the last write that it can see. -/
def ReadsFrom (r : Pos) : Option Pos → Prop
  | none => ∀ w, ¬ R.Visible r w
  | some w => R.Visible r w ∧ ∀ w', R.Visible r w' → w' = w ∨ R.Co w' w

/-- `b` is a barrier. -/
def IsBarrier (kind : Instr → Bool) (b : Pos) : Prop := ∃ z, R.Is b z ∧ kind z.ins = true

/-- The rules of the machine. -/
structure Valid : Prop where
  /-- the accesses of one thread -/
  inThread : R.toRun.Local
  /-- the writes of one variable take effect in one order -/
  co_writes : ∀ w v, R.Co w v → R.Has w .wr ∧ R.Has v .wr ∧ R.SameLoc w v
  co_irrefl : ∀ w, ¬ R.Co w w
  co_trans : ∀ u v w, R.Co u v → R.Co v w → R.Co u w
  co_total : ∀ w v, R.Has w .wr → R.Has v .wr → R.SameLoc w v → w ≠ v → R.Co w v ∨ R.Co v w
  /-- a write is performed when it arrives at its own thread -/
  own : ∀ w, R.Has w .wr → R.prop w w.1 = some (R.time w .wr)
  /-- and not earlier at the others -/
  others : ∀ w t m, R.Has w .wr → R.prop w t = some m → R.time w .wr ≤ m
  /-- writes of one variable arrive at a thread in their order -/
  arrive : ∀ w v t m n, R.Co w v → R.prop w t = some m → R.prop v t = some n → m < n
  /-- no write of the variable comes between the two parts of an atomic read and write -/
  atomic : ∀ r w v, R.Paired r w → R.Has w .wr → R.Has v .wr → R.SameLoc v w → v ≠ w →
    (∃ u, R.Visible r u ∧ (v = u ∨ R.Co v u)) ∨ R.Co w v
  /-- a barrier is executed after the accesses before it and before the writes after it -/
  execute : ∀ b, R.IsBarrier cumulative b → ∃ m, R.bar b b.1 = some m ∧
    (∀ e p, Before e b → R.Has e p → R.time e p < m) ∧ ∀ v, Before b v → R.Has v .wr → m ≤ R.time v .wr
  /-- what has arrived at the thread that executes a barrier is past at other threads when the barrier arrives there -/
  cumul : ∀ b w t m n, R.IsBarrier cumulative b → R.Has w .wr → R.bar b b.1 = some m → R.Arrived w b.1 m →
    R.bar b t = some n → R.Past w t n
  /-- barriers that arrived at a thread before it wrote arrive at other threads before this write does -/
  follow : ∀ b v t m n, R.IsBarrier cumulative b → R.Has v .wr → R.bar b v.1 = some m → m ≤ R.time v .wr →
    R.prop v t = some n → ∃ k, R.bar b t = some k ∧ k ≤ n
  /-- the heavy barrier waits until it has arrived at all threads -/
  waits : ∀ b e p, R.IsBarrier heavy b → Before b e → R.Has e p → ∀ t, ∃ n, R.bar b t = some n ∧ n ≤ R.time e p
  /-- later barriers of the thread wait too -/
  waitsBarrier : ∀ b c, R.IsBarrier heavy b → R.IsBarrier cumulative c → Before b c → ∀ m, R.bar c c.1 = some m →
    ∀ t, ∃ n, R.bar b t = some n ∧ n ≤ m

/-! ### The synchronisation the program asks for: as in `Verif.Mca` -/

/-- The release sequence of `w`: `w` and the read-modify-writes that read it or each other. -/
inductive ReleaseSequence (w : Pos) : Pos → Prop where
  | head : ReleaseSequence w w
  | rmw {v r v' : Pos} : ReleaseSequence w v → R.ReadsFrom r (some v) → R.Has r .rd → R.Has v' .wr →
      R.Paired r v' → ReleaseSequence w v'

/-- `e` synchronises with `f`: it is released by a write of which, or of whose release sequence, another thread reads
with a read that covers `f`. -/
def Synchronizes (e f : Pos) : Prop :=
  ∃ w v r, R.Released e w ∧ R.Has w .wr ∧ R.ReleaseSequence w v ∧ R.ReadsFrom r (some v) ∧ R.Has r .rd ∧
    r.1 ≠ w.1 ∧ R.Acquired r f

/-- Happens-before. -/
inductive HappensBefore : Pos → Pos → Prop where
  | before {e f} : Before e f → HappensBefore e f
  | sync {e f} : R.Synchronizes e f → HappensBefore e f
  | trans {e f g} : HappensBefore e f → HappensBefore f g → HappensBefore e g

/-- The execution as the C++ standard describes it. -/
def actions : Actions where
  Act := Pos
  loc e := (((R.code e.1)[e.2]?).map Ev.loc).getD 0
  read e := R.Has e .rd
  write e := R.Has e .wr
  rf := R.ReadsFrom
  mo := R.Co
  hb := R.HappensBefore
  rmw := R.Rmw

/-- What the program observes of its operations on the objects `A`. -/
def observations (V : Values) (A : Nat → Prop) : Observations where
  Op := { id : OpId // ∃ it, (R.prog id.1)[id.2]? = some it ∧ A it.loc ∧ it.isFence = false }
  earlier a b := a.1.1 = b.1.1 ∧ a.1.2 < b.1.2
  obj a := (((R.prog a.1.1)[a.1.2]?).map Item.loc).getD 0
  result a v := ∃ r it s, (R.prog a.1.1)[a.1.2]? = some it ∧ R.Ret a.1 r ∧ R.ReadsFrom r s ∧ v = V.of it.loc s
  stored a v := ∃ w, R.Pub a.1 w ∧ v = V.val w
  init := V.init

end Run
end Verif.Pow
