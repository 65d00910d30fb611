import Verif.Mca.Spec
import Verif.Order.Model

/-
Programs that use the library's operations, executed by processors that reorder memory accesses.

A thread is a list of items: operations on atomic objects and fences, which are the instruction sequences of
`Verif.Order` (with the files and lines they model), and accesses to other variables.  A `Run` gives every access of
every instruction the moment at which it takes effect in the one shared memory.  Only those pairs of accesses of one
thread are performed in program order that compiler and processor keep in order according to `Order.CompKeeps` and
`Order.HwKeeps`, and accesses to one variable; a read may take its value from an earlier write of the same thread
before this write is performed (store buffers).

Simplifications.
* There is one shared memory: a write becomes visible to all other threads at once.  The processors of all back ends
  but PowerPC are of this kind (x86-TSO, ARMv8, SPARC, Alpha; ARMv7 as implemented).  `Verif.Pow` does without this.
* Two reads of one variable by one thread are performed in order.  SPARC in RMO mode does not promise this.
* Accesses are to whole variables.
-/

namespace Verif.Mca

open Verif.Order

/-- What a thread executes. -/
inductive Item where
  /-- an access to a variable by the program itself -/
  | user (x : Instr) (l : Nat)
  /-- an operation on the atomic object `l` with order `o`, by the code of back end `b`, whose retry loop took `n`
  unsuccessful rounds -/
  | op (b : Backend) (k : Kind) (o : MO) (n : Nat) (l : Nat)
  /-- `exchange` and `test_and_set` -/
  | exchange (b : Backend) (o : MO) (n : Nat) (l : Nat)
  /-- `clear` -/
  | clear (b : Backend) (o : MO) (l : Nat)
  /-- `atomic_thread_fence` -/
  | fence (b : Backend) (o : MO)

/-- The back end of an item. -/
def Item.backend : Item → Option Backend
  | .user _ _ => none
  | .op b _ _ _ _ | .exchange b _ _ _ | .clear b _ _ | .fence b _ => some b

/-- The instructions of an item: `Order.trace` with the lines cited there; `exchange`, `test_and_set` and `clear` have
functions of their own in core_ops_gcc_sync.hpp:128–136, 176–188, and are a read-modify-write and a store elsewhere. -/
def Item.code : Item → List Instr
  | .user x _ => [x]
  | .op b k o n _ => trace b k o n
  | .exchange b o n _ => if b.isSync then gccSyncExchange o else trace b .rmw o n
  | .clear b o _ => if b.isSync then gccSyncClear o else trace b .store o 0
  | .fence b o => threadFence b o

/-- The variable of an item. -/
def Item.loc : Item → Nat
  | .user _ l | .op _ _ _ _ l | .exchange _ _ _ l | .clear _ _ l => l
  | .fence _ _ => 0

/-- The operation reads the object and writes it depending on what it read. -/
def Item.isRmw : Item → Bool
  | .op _ .rmw _ _ _ | .op _ (.casOk _) _ _ _ | .op _ .loop _ _ _ | .exchange _ _ _ _ => true
  | _ => false

/-- The order that applies to the write of an item. -/
def Item.writeOrder : Item → Option MO
  | .op _ _ o _ _ | .exchange _ o _ _ | .clear _ o _ => some o
  | _ => none

/-- The order that applies to the read of an item. -/
def Item.readOrder : Item → Option MO
  | .op _ k o _ _ => some (k.readOrder o)
  | .exchange _ o _ _ => some o
  | _ => none

/-- The orders are ones the API accepts for the operation. -/
def Item.accepts : Item → Bool
  | .op _ k o _ _ => k.accepts o
  | .clear _ o _ => storeAsserts o
  | _ => true

/-- The cases in which the code is weaker than the order demanded (findings, see C19 and C22). -/
def Item.broken : Item → Bool
  | .op b k o _ _ => (k.readOrder o).isAcquire && acquireBroken b k o
  | .exchange b o _ _ => !b.isSync && o.isAcquire && acquireBroken b .rmw o
  | .fence b o => fenceBroken b o
  | _ => false

/-- One executed instruction. -/
structure Ev where
  ins : Instr
  loc : Nat
  /-- how many instructions before its write the read was made with which this write is atomic: 0 for a single
  instruction that reads and writes, 1 for a store-conditional after its load, none for a plain store.  A `store` that
  is a loop of load and store-conditional, which discards what it loads, counts as a plain store -/
  pair : Option Nat

/-- How the write of an instruction of an item is paired with a read. -/
def Item.pairOf (it : Item) (x : Instr) : Option Nat :=
  match it with
  | .user _ _ => none
  | _ => if x.wr then if x.rd then some 0 else if it.isRmw || !x.pub then some 1 else none else none

/-- The instructions of an item as they are executed. -/
def Item.events (it : Item) : List Ev :=
  (it.code).map fun x => ⟨x, it.loc, it.pairOf x⟩

/-- The item is code for this processor. -/
def Item.Fits (cpu : Cpu) (it : Item) : Prop := ∀ b, it.backend = some b → cpu.runs b = true

/-- The instructions of a list of items. -/
def events (p : List Item) : List Ev := p.flatMap Item.events

/-- An instruction executed by a thread: the thread and the number of the instruction. -/
abbrev Pos := Nat × Nat

/-- An execution. -/
structure Run (cpu : Cpu) where
  /-- what each thread executes -/
  prog : Nat → List Item
  /-- the moment at which a part of an instruction of a thread takes effect -/
  time : Pos → Part → Nat

namespace Run

variable {cpu : Cpu} (R : Run cpu)

/-- The instructions of a thread. -/
def code (t : Nat) : List Ev := events (R.prog t)

/-- Instruction `e` is `x`. -/
def Is (e : Pos) (x : Ev) : Prop := (R.code e.1)[e.2]? = some x

/-- Instruction `e` has this effect. -/
def Has (e : Pos) (p : Part) : Prop := ∃ x, R.Is e x ∧ x.ins.has p = true

/-- Two instructions access one variable. -/
def SameLoc (e f : Pos) : Prop := ∃ x y, R.Is e x ∧ R.Is f y ∧ x.loc = y.loc

/-- Earlier in the same thread. -/
def Before (e f : Pos) : Prop := e.1 = f.1 ∧ e.2 < f.2

/-- The write of `w` is atomic with the read of `r`. -/
def Paired (r w : Pos) : Prop :=
  R.SameLoc r w ∧ ∃ x d, R.Is w x ∧ x.pair = some d ∧ r.1 = w.1 ∧ r.2 + d = w.2

/-- The write `w` can be seen by the read `r`: it has been performed, or the same thread made it before. -/
def Visible (r w : Pos) : Prop :=
  R.Has w .wr ∧ R.SameLoc r w ∧ (R.time w .wr < R.time r .rd ∨ Before w r)

/-- What `r` reads: the last write that it can see. -/
def ReadsFrom (r : Pos) : Option Pos → Prop
  | none => ∀ w, ¬ R.Visible r w
  | some w => R.Visible r w ∧ ∀ w', R.Visible r w' → R.time w' .wr ≤ R.time w .wr

/-- The rules for the accesses of one thread. -/
structure Local : Prop where
  /-- the program is made of code for this processor -/
  fits : ∀ t, ∀ it ∈ R.prog t, it.Fits cpu
  /-- what compiler and processor both keep in order is performed in order -/
  keeps : ∀ t a x b y c p q, R.code t = a ++ x :: (b ++ y :: c) → x.ins.has p = true → y.ins.has q = true →
    CompKeeps x.ins (b.map Ev.ins) y.ins → HwKeeps cpu.hw x.ins p (b.map Ev.ins) y.ins q →
    R.time (t, a.length) p < R.time (t, a.length + 1 + b.length) q
  /-- accesses of one thread to one variable are performed in order, but for a read after a write -/
  sameLoc : ∀ e f p q, Before e f → R.SameLoc e f → R.Has e p → R.Has f q → ¬ (p = .wr ∧ q = .rd) →
    R.time e p < R.time f q
  /-- an instruction that reads and writes reads first -/
  readFirst : ∀ e, R.Has e .rd → R.Has e .wr → R.time e .rd < R.time e .wr

/-- The rules of the machine. -/
structure Valid : Prop extends R.Local where
  /-- effects happen one at a time -/
  distinct : ∀ e p f q, R.Has e p → R.Has f q → R.time e p = R.time f q → e = f ∧ p = q
  /-- nobody writes the variable between the two parts of an atomic read and write -/
  atomic : ∀ r w v, R.Paired r w → R.Has v .wr → R.SameLoc v w → v ≠ w →
    R.time v .wr < R.time r .rd ∨ R.time w .wr < R.time v .wr

/-- All code of the program is of back end `b`. -/
def Only (b : Backend) : Prop := ∀ t, ∀ it ∈ R.prog t, ∀ b', it.backend = some b' → b' = b

/-! ### The synchronisation the program asks for -/

/-- Instruction `e` belongs to item `it` of its thread, which is at `pre` in the program. -/
def InItem (e : Pos) (pre : List Item) (it : Item) : Prop :=
  (∃ post, R.prog e.1 = pre ++ it :: post) ∧
  (events pre).length ≤ e.2 ∧ e.2 < (events pre).length + (it.events).length

/-- `e` is the write of an operation with a release order. -/
def ReleaseWrite (e : Pos) : Prop :=
  ∃ pre it o x, R.InItem e pre it ∧ R.Is e x ∧ x.ins.pub = true ∧ it.writeOrder = some o ∧ o.isRelease = true

/-- `e` is the read of an operation with an acquire order. -/
def AcquireRead (e : Pos) : Prop :=
  ∃ pre it o x, R.InItem e pre it ∧ R.Is e x ∧ x.ins.ret = true ∧ it.readOrder = some o ∧ o.isAcquire = true

/-- Between `e` and `f` the thread executes a fence with an order of the given kind. -/
def FenceBetween (kind : MO → Bool) (e f : Pos) : Prop :=
  e.1 = f.1 ∧ ∃ pre b o post, R.prog e.1 = pre ++ .fence b o :: post ∧ kind o = true ∧
    e.2 < (events pre).length ∧ (events (pre ++ [.fence b o])).length ≤ f.2

/-- The release sequence of `w`: `w` and the read-modify-writes that read it or each other. -/
inductive ReleaseSequence (w : Pos) : Pos → Prop where
  | head : ReleaseSequence w w
  | rmw {v r v' : Pos} : ReleaseSequence w v → R.ReadsFrom r (some v) → R.Has r .rd → R.Has v' .wr →
      R.Paired r v' → ReleaseSequence w v'

/-- `e` is released by the write `w`: `w` is a release operation and `e` is `w` or comes before it, or there is a
release fence between the two. -/
def Released (e w : Pos) : Prop :=
  (R.ReleaseWrite w ∧ (e = w ∨ Before e w)) ∨ R.FenceBetween MO.isRelease e w

/-- `f` is covered by the read `r`: `r` is an acquire operation and `f` is `r` or comes after it, or there is an
acquire fence between the two. -/
def Acquired (r f : Pos) : Prop :=
  (R.AcquireRead r ∧ (f = r ∨ Before r f)) ∨ R.FenceBetween MO.isAcquire r f

/-- `e` synchronises with `f`: it is released by a write of which, or of whose release sequence, another thread reads
with a read that covers `f`. -/
def Synchronizes (e f : Pos) : Prop :=
  ∃ w v r, R.Released e w ∧ R.Has w .wr ∧ R.ReleaseSequence w v ∧ R.ReadsFrom r (some v) ∧ R.Has r .rd ∧
    r.1 ≠ w.1 ∧ R.Acquired r f

/-- Happens-before. -/
inductive HappensBefore : Pos → Pos → Prop where
  | before {e f} : Before e f → HappensBefore e f
  | sync {e f} : R.Synchronizes e f → HappensBefore e f
  | trans {e f g} : HappensBefore e f → HappensBefore f g → HappensBefore e g

/-- An operation: a thread and the number of an item of it. -/
abbrev OpId := Nat × Nat

/-- Instruction `e` belongs to operation `id`, which is `it`. -/
def Within (e : Pos) (id : OpId) (it : Item) : Prop :=
  ∃ pre, pre.length = id.2 ∧ e.1 = id.1 ∧ R.InItem e pre it

/-- `e` is the instruction that delivers the result of the operation. -/
def Ret (id : OpId) (e : Pos) : Prop := ∃ it x, R.Within e id it ∧ R.Is e x ∧ x.ins.ret = true

/-- `e` is the instruction that makes the modification of the operation. -/
def Pub (id : OpId) (e : Pos) : Prop := ∃ it x, R.Within e id it ∧ R.Is e x ∧ x.ins.pub = true

/-- `r` and `w` are the read and the write of one read-modify-write operation. -/
def Rmw (r w : Pos) : Prop := ∃ id it, (R.prog id.1)[id.2]? = some it ∧ it.isRmw = true ∧ R.Ret id r ∧ R.Pub id w

/-- The execution as the C++ standard describes it. -/
def actions : Actions where
  Act := Pos
  loc e := (((R.code e.1)[e.2]?).map Ev.loc).getD 0
  read e := R.Has e .rd
  write e := R.Has e .wr
  rf := R.ReadsFrom
  mo w v := R.time w .wr < R.time v .wr
  hb := R.HappensBefore
  rmw := R.Rmw

end Run
end Verif.Mca
