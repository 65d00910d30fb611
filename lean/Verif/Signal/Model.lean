import Verif.Mca.Model

/-
A thread and the signal handlers that interrupt it.

A handler runs in the thread it interrupts: the processor executes the instructions of both one after the other, and
each sees what the other has done so far.  What can come between them is the compiler, which moves accesses across each
other unless a compiler barrier keeps it from doing so (`Order.CompKeeps`).  The code of the operations and fences is
that of `Verif.Order` and `Verif.Mca`; `atomic_signal_fence` is added.

An execution has any number of flows: the thread itself, and the runs of handlers, which may interrupt each other.

Simplifications.
* As in `Verif.Mca`: accesses are to whole variables, and two accesses of one flow to one variable are in order.
* Accesses of other threads are left out (for them: `Verif.Mca`, `Verif.Pow`).
-/

namespace Verif.Signal

open Verif.Order Verif.Mca

/-- What a flow executes. -/
inductive Step where
  /-- an operation, a thread fence or an access of the program itself -/
  | item (it : Item)
  /-- `atomic_signal_fence(o)`, fences.hpp:43–46 -/
  | signalFence (b : Backend) (o : MO)

/-- The code of a step: `Order.signalFence` with the lines cited there, as instructions that access nothing. -/
def Step.items : Step → List Item
  | .item it => [it]
  | .signalFence b o => (Order.signalFence b o).map fun x => .user x 0

/-- The instructions of a list of steps. -/
def events (p : List Step) : List Ev := Mca.events (p.flatMap Step.items)

/-- The order of a fence of either kind. -/
def Step.fenceOrder : Step → Option MO
  | .item (.fence _ o) => some o
  | .signalFence _ o => some o
  | _ => none

/-- An execution. -/
structure Run (cpu : Cpu) where
  /-- what each flow executes: the thread, and every run of a handler -/
  prog : Nat → List Step
  /-- the moment at which a part of an instruction of a flow takes effect -/
  time : Pos → Part → Nat

namespace Run

variable {cpu : Cpu} (R : Run cpu)

/-- The items and moments without regard to what is a fence. -/
def flat : Mca.Run cpu := ⟨fun t => (R.prog t).flatMap Step.items, R.time⟩

/-- The rules for a thread and its handlers. -/
structure Valid : Prop where
  /-- the program is made of code for this processor -/
  fits : ∀ t, ∀ it ∈ R.flat.prog t, it.Fits cpu
  /-- what the compiler keeps in order takes place in order -/
  keeps : ∀ t a x b y c p q, R.flat.code t = a ++ x :: (b ++ y :: c) → x.ins.has p = true → y.ins.has q = true →
    CompKeeps x.ins (b.map Ev.ins) y.ins → R.time (t, a.length) p < R.time (t, a.length + 1 + b.length) q
  /-- accesses of one flow to one variable take place in order -/
  sameLoc : ∀ e f p q, Mca.Run.Before e f → R.flat.SameLoc e f → R.flat.Has e p → R.flat.Has f q →
    R.time e p < R.time f q
  /-- an instruction that reads and writes reads first -/
  readFirst : ∀ e, R.flat.Has e .rd → R.flat.Has e .wr → R.time e .rd < R.time e .wr
  /-- effects happen one at a time -/
  distinct : ∀ e p f q, R.flat.Has e p → R.flat.Has f q → R.time e p = R.time f q → e = f ∧ p = q
  /-- an instruction is not interrupted, and a store-conditional fails if a handler has written the variable -/
  atomic : ∀ r w v, R.flat.Paired r w → R.flat.Has v .wr → R.flat.SameLoc v w → v ≠ w →
    R.time v .wr < R.time r .rd ∨ R.time w .wr < R.time v .wr

/-- Flow `s` does nothing between the first and the last effect of flow `t`. -/
def Stops (s t : Nat) : Prop :=
  ∀ e f e' p q p', e.1 = t → f.1 = s → e'.1 = t → R.flat.Has e p → R.flat.Has f q → R.flat.Has e' p' →
    ¬ (R.time e p < R.time f q ∧ R.time f q < R.time e' p')

/-- Of two flows one is stopped while the other one runs.  Handlers run like this; the theorems do not need it, since
they hold for every way in which the flows take turns. -/
def Nested : Prop := ∀ s t, s ≠ t → R.Stops s t ∨ R.Stops t s

/-- The write `w` can be seen by the read `r`. -/
def Visible (r w : Pos) : Prop := R.flat.Has w .wr ∧ R.flat.SameLoc r w ∧ R.time w .wr < R.time r .rd

/-- What `r` reads: the last write before it. -/
def ReadsFrom (r : Pos) : Option Pos → Prop
  | none => ∀ w, ¬ R.Visible r w
  | some w => R.Visible r w ∧ ∀ w', R.Visible r w' → R.time w' .wr ≤ R.time w .wr

/-! ### The synchronisation the program asks for -/

/-- Between `e` and `f` their flow executes a fence, of threads or for signals, with an order of the given kind. -/
def FenceBetween (kind : MO → Bool) (e f : Pos) : Prop :=
  e.1 = f.1 ∧ ∃ pre s o post, R.prog e.1 = pre ++ s :: post ∧ s.fenceOrder = some o ∧ kind o = true ∧
    e.2 < (events pre).length ∧ (events (pre ++ [s])).length ≤ f.2

/-- The release sequence of `w`: `w` and the read-modify-writes that read it or each other. -/
inductive ReleaseSequence (w : Pos) : Pos → Prop where
  | head : ReleaseSequence w w
  | rmw {v r v' : Pos} : ReleaseSequence w v → R.ReadsFrom r (some v) → R.flat.Has r .rd → R.flat.Has v' .wr →
      R.flat.Paired r v' → ReleaseSequence w v'

/-- `e` is released by the write `w`: `w` is a release operation and `e` is `w` or comes before it, or there is a
release fence between the two. -/
def Released (e w : Pos) : Prop :=
  (R.flat.ReleaseWrite w ∧ (e = w ∨ Mca.Run.Before e w)) ∨ R.FenceBetween MO.isRelease e w

/-- `f` is covered by the read `r`: `r` is an acquire operation and `f` is `r` or comes after it, or there is an
acquire fence between the two. -/
def Acquired (r f : Pos) : Prop :=
  (R.flat.AcquireRead r ∧ (f = r ∨ Mca.Run.Before r f)) ∨ R.FenceBetween MO.isAcquire r f

/-- `e` synchronises with `f` ([atomics.order], [atomics.fences]: signal fences are like thread fences between a thread
and a handler executed in it): it is released by a write of which, or of whose release sequence, another flow reads with
a read that covers `f`. -/
def Synchronizes (e f : Pos) : Prop :=
  ∃ w v r, R.Released e w ∧ R.flat.Has w .wr ∧ R.ReleaseSequence w v ∧ R.ReadsFrom r (some v) ∧ R.flat.Has r .rd ∧
    r.1 ≠ w.1 ∧ R.Acquired r f

/-- Happens-before. -/
inductive HappensBefore : Pos → Pos → Prop where
  | before {e f} : Mca.Run.Before e f → HappensBefore e f
  | sync {e f} : R.Synchronizes e f → HappensBefore e f
  | trans {e f g} : HappensBefore e f → HappensBefore f g → HappensBefore e g

/-- The execution as the C++ standard describes it. -/
def actions : Actions where
  Act := Pos
  loc e := (((R.flat.code e.1)[e.2]?).map Ev.loc).getD 0
  read e := R.flat.Has e .rd
  write e := R.flat.Has e .wr
  rf := R.ReadsFrom
  mo w v := R.time w .wr < R.time v .wr
  hb := R.HappensBefore
  rmw := R.flat.Rmw

end Run

/-- The cases in which the compiler may move an access across the code although the order forbids it: the 8-byte load
of AArch32, whose block has no "memory" clobber (core_arch_ops_gcc_aarch32.hpp:959–982), the failed compare-exchange of
core_ops_linux_arm.hpp:128–142, and the consume fence of threads on x86 (fence_arch_ops_gcc_x86.hpp:32–52). -/
def movable : Step → Bool
  | .item (.op b k o _ _) => (k.readOrder o).isAcquire && match b, k with
    | .aarch32 wide, .load => wide
    | .linuxArm, .casFail _ => true
    | _, _ => false
  | .item (.fence b o) => match b, o with
    | .gccX86, .consume | .x86Wide false _, .consume => true
    | _, _ => false
  | _ => false

/-- The orders are ones the API accepts. -/
def Step.accepts : Step → Bool
  | .item it => it.accepts
  | .signalFence _ _ => true

end Verif.Signal
