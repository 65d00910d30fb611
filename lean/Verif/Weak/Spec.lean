import Verif.Common.Lin
import Verif.Order.Spec

/-
The memory model of C++ as an abstract machine (views and timestamps), independent of the library.

Every location has a modification order: messages at increasing positions.  A thread may read any message
that is not older than what it already knows about (so different threads can disagree about the current
value for as long as they do not synchronise), and may write at any free position after what it knows.
A read-modify-write takes the position right after the message it reads.  A message carries a view; reading
it with acquire order (or reading it relaxed and executing an acquire fence later) makes everything in that
view happen before the rest of the thread.  Release sequences: a read-modify-write passes on the view of the
message it replaces, a plain store does not (C++20).

Simplifications: `seq_cst` is treated as `acq_rel`, i.e. more behaviours than C++ allows; `consume` as
`acquire` (the library promotes it); reads of values from the future (load buffering) are not possible.
-/

namespace Verif.Weak

open Verif (upd)
open Verif.Order (MO)

/-- What is known to have happened: for every location the oldest position that may still be read, for every
thread the number of its actions that happened before (a read-modify-write counts as two). -/
structure View (T X : Type) where
  seen : X → Nat
  clk : T → Nat

variable {T X V : Type} [DecidableEq T] [DecidableEq X]

/-- Nothing. -/
def View.bot : View T X := ⟨fun _ => 0, fun _ => 0⟩

/-- Both. -/
def View.join (a b : View T X) : View T X := ⟨fun x => max (a.seen x) (b.seen x), fun t => max (a.clk t) (b.clk t)⟩

/-- `b` knows all that `a` knows. -/
def View.Le (a b : View T X) : Prop := (∀ x, a.seen x ≤ b.seen x) ∧ ∀ t, a.clk t ≤ b.clk t

/-- Having seen the message at position `i` of `x`. -/
def View.see (v : View T X) (x : X) (i : Nat) : View T X := ⟨upd v.seen x (max (v.seen x) i), v.clk⟩

/-- Thread `t` makes one more action. -/
def View.tick (v : View T X) (t : T) : View T X := ⟨v.seen, upd v.clk t (v.clk t + 1)⟩

/-- A message: value and what happened before it, as far as its reader may rely on it. -/
structure Msg (T X V : Type) where
  val : V
  view : View T X

/-- The memory and the views of the threads. -/
structure Mach (T X V : Type) where
  mem : X → Nat → Option (Msg T X V)
  /-- what happened before the next action of the thread -/
  cur : T → View T X
  /-- what an acquire fence would add -/
  acq : T → View T X
  /-- what happened before the last release fence of the thread -/
  rel : T → View T X

/-- Initially every location holds one message. -/
def Mach.init (v₀ : X → V) : Mach T X V :=
  ⟨fun x i => if i = 0 then some ⟨v₀ x, .bot⟩ else none, fun _ => .bot, fun _ => .bot, fun _ => .bot⟩

/-- What a thread does to memory in one action. -/
inductive Act (X V : Type) where
  /-- nothing (local computation, kernel call) -/
  | tau
  /-- atomic load that returned `v` -/
  | read (x : X) (o : MO) (v : V)
  /-- atomic store of `v` -/
  | write (x : X) (o : MO) (v : V)
  /-- atomic read-modify-write that found `v` and wrote `v'` -/
  | rmw (x : X) (o : MO) (v v' : V)
  /-- thread fence -/
  | fence (o : MO)
  /-- access to an ordinary (non-atomic) variable -/
  | naRead (x : X) (v : V)
  | naWrite (x : X) (v : V)

/-- The location an action accesses. -/
def Act.loc : Act X V → Option X
  | .tau | .fence _ => none
  | .read x _ _ | .write x _ _ | .rmw x _ _ _ | .naRead x _ | .naWrite x _ => some x

/-- The action modifies its location. -/
def Act.Writes : Act X V → Prop
  | .write _ _ _ | .rmw _ _ _ _ | .naWrite _ _ => True
  | _ => False

/-- The action is an ordinary access. -/
def Act.Plain : Act X V → Prop
  | .naRead _ _ | .naWrite _ _ => True
  | _ => False

/-- The thread's views after reading message `m` at position `i` of `x` with order `o`. -/
def Mach.seeRead (M : Mach T X V) (t : T) (x : X) (o : MO) (i : Nat) (m : Msg T X V) : Mach T X V :=
  { M with
    cur := upd M.cur t
      ((((M.cur t).see x i).join (if o.isAcquire then m.view else .bot)).tick t)
    acq := upd M.acq t ((((M.acq t).see x i).join m.view).tick t) }

/-- The thread's views after writing at position `i` of `x`. -/
def Mach.seeWrite (M : Mach T X V) (t : T) (x : X) (i : Nat) : Mach T X V :=
  { M with
    cur := upd M.cur t (((M.cur t).see x i).tick t)
    acq := upd M.acq t (((M.acq t).see x i).tick t) }

/-- What a write by `t` with order `o` hands over to those that acquire it. -/
def Mach.handed (M : Mach T X V) (t : T) (o : MO) : View T X := if o.isRelease then M.cur t else M.rel t

/-- A new message. -/
def Mach.put (M : Mach T X V) (x : X) (i : Nat) (m : Msg T X V) : Mach T X V :=
  { M with mem := upd M.mem x (upd (M.mem x) i (some m)) }

/-- One action of thread `t`; the number is the position of the message that is read or written. -/
inductive MStep : Mach T X V → T → Act X V → Nat → Mach T X V → Prop where
  | tau {M t} : MStep M t .tau 0
      { M with cur := upd M.cur t ((M.cur t).tick t), acq := upd M.acq t ((M.acq t).tick t) }
  | read {M t x o i m} : M.mem x i = some m → (M.cur t).seen x ≤ i →
      MStep M t (.read x o m.val) i (M.seeRead t x o i m)
  | write {M t x o i v} : M.mem x i = none → (M.cur t).seen x < i →
      MStep M t (.write x o v) i
        ((M.seeWrite t x i).put x i ⟨v, ((M.seeWrite t x i).handed t o).see x i⟩)
  | rmw {M t x o i m v'} : M.mem x i = some m → M.mem x (i + 1) = none → (M.cur t).seen x ≤ i →
      MStep M t (.rmw x o m.val v') (i + 1)
        (((M.seeRead t x o i m).seeWrite t x (i + 1)).put x (i + 1)
          ⟨v', (m.view.join (((M.seeRead t x o i m).seeWrite t x (i + 1)).handed t o)).see x (i + 1)⟩)
  | fence {M t o} :
      MStep M t (.fence o) 0
        (let c := if o.isAcquire then (M.acq t).join (M.cur t) else M.cur t
         { M with
           cur := upd M.cur t (c.tick t)
           acq := upd M.acq t ((M.acq t).tick t)
           rel := if o.isRelease then upd M.rel t (c.tick t) else M.rel })
  | naRead {M t x i m} : M.mem x i = some m → (M.cur t).seen x ≤ i →
      MStep M t (.naRead x m.val) i (M.seeRead t x .relaxed i m)
  | naWrite {M t x i v} : M.mem x i = none → (M.cur t).seen x < i →
      MStep M t (.naWrite x v) i ((M.seeWrite t x i).put x i ⟨v, View.bot.see x i⟩)

/-- One action in the past: which thread, its number among that thread's actions, what, and the position of
the message in the location's modification order. -/
structure Ev (T X V : Type) where
  thr : T
  no : Nat
  act : Act X V
  pos : Nat

/-- The state of a program: memory, what each thread does next, and all actions so far (oldest first). -/
structure Sys (T X V P : Type) where
  m : Mach T X V
  pc : T → P
  log : List (Ev T X V)

/-- One step: some thread makes an action its program allows and memory agrees. -/
inductive Step {P : Type} (prog : P → Act X V → P → Prop) : Sys T X V P → Ev T X V → Sys T X V P → Prop where
  | mk {s : Sys T X V P} {t a i p' M'} : prog (s.pc t) a p' → MStep s.m t a i M' →
      Step prog s ⟨t, (M'.cur t).clk t, a, i⟩ ⟨M', upd s.pc t p', s.log ++ [⟨t, (M'.cur t).clk t, a, i⟩]⟩

/-- States reachable by any number of steps of any threads. -/
inductive Reach {P : Type} (prog : P → Act X V → P → Prop) (v₀ : X → V) (p₀ : P) : Sys T X V P → Prop where
  | init : Reach prog v₀ p₀ ⟨.init v₀, fun _ => p₀, []⟩
  | step {s e s'} : Reach prog v₀ p₀ s → Step prog s e s' → Reach prog v₀ p₀ s'

/-- Any number of steps. -/
inductive Steps {P : Type} (prog : P → Act X V → P → Prop) : Sys T X V P → Sys T X V P → Prop where
  | refl {s} : Steps prog s s
  | step {s s' e s''} : Steps prog s s' → Step prog s' e s'' → Steps prog s s''

/-- The past action `e` happens before whatever thread `t` does next. -/
def HappensBefore {P : Type} (s : Sys T X V P) (e : Ev T X V) (t : T) : Prop := e.no ≤ (s.m.cur t).clk e.thr

/-- Two accesses to one location that need ordering: one of them writes, one of them is not atomic. -/
def Conflict (a b : Act X V) : Prop :=
  ∃ x, a.loc = some x ∧ b.loc = some x ∧ (a.Writes ∨ b.Writes) ∧ (a.Plain ∨ b.Plain)

/-- The value most recently written to ordinary variable `x` (in the order in which the writes were made),
`v₀` if it was never written. -/
def lastWritten (x : X) (v₀ : V) : List (Ev T X V) → V
  | [] => v₀
  | e :: es => lastWritten x (match e.act with | .naWrite y v => if y = x then v else v₀ | _ => v₀) es

end Verif.Weak
