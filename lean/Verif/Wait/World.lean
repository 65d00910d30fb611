import Verif.Chrono.Model

/-!
Programs that load an atomic object, read clocks and block in the kernel, and the world they run in.

The world is arbitrary: the value of the object at every time (so every behaviour of concurrent writers) and
the reading of every clock at every time (so clocks may jump in both directions).  The kernel may let a blocked thread
return at any time for any reason, with one restriction: it reports that an absolute deadline has passed only when
it has.
-/

namespace Verif.Wait

open Verif.Chrono

/-- Clocks read with `Clock::now()`: the clock given by the user and `std::chrono::steady_clock`. -/
inductive Clk where
  | user | steady
deriving DecidableEq

/-- The world of one call: value of the object, clocks in ticks, POSIX clocks (by clock id), at every time. -/
structure World (V : Type) where
  val : Nat → V
  clk : Clk → Nat → Int
  posix : Nat → Nat → Timespec
  /-- `clock_gettime` returns a normalised `timespec`; the clocks are not negative. -/
  posix_ok : ∀ c t, (posix c t).Normal ∧ 0 ≤ (posix c t).sec

/-- Limit of a blocking kernel call. -/
inductive Limit where
  | none
  /-- relative, in units of the kernel interface -/
  | rel (units : Int)
  /-- absolute deadline on a POSIX clock -/
  | abs (c : Nat) (d : Timespec)

/-- Result of a blocking kernel call: 0 or success, EINTR, ETIMEDOUT, ENOSYS, anything else (EAGAIN, …). -/
inductive KRes where
  | ok | intr | timedOut | noSys | other
deriving DecidableEq

/-- Programs. -/
inductive Prog (V : Type) : Type → Type 1 where
  | ret {α} (a : α) : Prog V α
  | bind {α β} (p : Prog V α) (f : α → Prog V β) : Prog V β
  /-- load the object -/
  | load : Prog V V
  /-- `Clock::now()` -/
  | now (c : Clk) : Prog V Int
  /-- `clock_gettime`; `none` is failure -/
  | gettime (c : Nat) : Prog V (Option Timespec)
  /-- block in the kernel -/
  | kwait (l : Limit) : Prog V KRes
  /-- `thread_pause`, `wait_some`, lock and unlock: time passes -/
  | pause : Prog V Unit
  /-- a test of state that is not modelled here: either outcome is possible -/
  | env : Prog V Bool
  /-- repeat the body, passing a state (`.inl`), until it yields a result (`.inr`) -/
  | loop {σ α} (body : σ → Prog V (σ ⊕ α)) (s : σ) : Prog V α

instance {V : Type} : Monad (Prog V) where
  pure := .ret
  bind := .bind

/-- One step of a program, with the time at which it was completed (of a blocking call: begun). -/
inductive Ev (V : Type) where
  | load (t : Nat) (v : V)
  | now (c : Clk) (t : Nat)
  | gettime (c : Nat) (t : Nat)
  | block (l : Limit) (t : Nat)
  | pause (t : Nat)
  | env (t : Nat)

def Ev.time {V : Type} : Ev V → Nat
  | .load t _ | .now _ t | .gettime _ t | .block _ t | .pause t | .env t => t

variable {V : Type}

/-- Complete runs of a loop, given the runs of its body. -/
inductive LoopRuns {σ α : Type} (R : σ → Nat → Nat → List (Ev V) → σ ⊕ α → Prop) :
    σ → Nat → Nat → List (Ev V) → α → Prop where
  | done {s i j tr a} : R s i j tr (.inr a) → LoopRuns R s i j tr a
  | next {s s' i j k tr tr' a} : R s i j tr (.inl s') → LoopRuns R s' j k tr' a → LoopRuns R s i k (tr ++ tr') a

/-- `Runs W p i j tr a`: in world `W` program `p`, started at time `i`, ends at time `j` with result `a`, having done
the steps `tr`. -/
def Runs (W : World V) : {α : Type} → Prog V α → Nat → Nat → List (Ev V) → α → Prop
  | _, .ret a, i, j, tr, b => j = i ∧ tr = [] ∧ b = a
  | _, .bind p f, i, k, tr, b =>
      ∃ a j tr1 tr2, Runs W p i j tr1 a ∧ Runs W (f a) j k tr2 b ∧ tr = tr1 ++ tr2
  | _, .load, i, t, tr, v => i ≤ t ∧ tr = [.load t (W.val t)] ∧ v = W.val t
  | _, .now c, i, t, tr, x => i ≤ t ∧ tr = [.now c t] ∧ x = W.clk c t
  | _, .gettime c, i, t, tr, x => i ≤ t ∧ tr = [.gettime c t] ∧ (x = some (W.posix c t) ∨ x = none)
  -- any result at any time, except that the kernel does not report that a deadline has passed when it has not
  | _, .kwait l, i, t, tr, r =>
      i ≤ t ∧ tr = [.block l i] ∧ (r = .timedOut → ∀ c d, l = .abs c d → d.ns ≤ (W.posix c t).ns)
  | _, .pause, i, t, tr, _ => i ≤ t ∧ tr = [.pause t]
  | _, .env, i, t, tr, _ => i ≤ t ∧ tr = [.env t]
  | _, .loop body s, i, j, tr, a => LoopRuns (fun s i j tr r => Runs W (body s) i j tr r) s i j tr a

/-- Incomplete runs of a loop, given the complete and incomplete runs of its body. -/
inductive LoopPartial {σ α : Type} (R : σ → Nat → Nat → List (Ev V) → σ ⊕ α → Prop)
    (P : σ → Nat → List (Ev V) → Prop) : σ → Nat → List (Ev V) → Prop where
  | inside {s i tr} : P s i tr → LoopPartial R P s i tr
  | next {s s' i j tr tr'} : R s i j tr (.inl s') → LoopPartial R P s' j tr' → LoopPartial R P s i (tr ++ tr')

/-- `Partial W p i tr`: program `p`, started at time `i`, has done the steps `tr` so far.  It may be about to do another
step, be blocked in the last one, or have finished. -/
def Partial (W : World V) : {α : Type} → Prog V α → Nat → List (Ev V) → Prop
  | _, .ret _, _, tr => tr = []
  | _, .bind p f, i, tr => Partial W p i tr ∨ ∃ a j tr1 tr2, Runs W p i j tr1 a ∧ Partial W (f a) j tr2 ∧ tr = tr1 ++ tr2
  | _, .load, i, tr => tr = [] ∨ ∃ t, i ≤ t ∧ tr = [.load t (W.val t)]
  | _, .now c, i, tr => tr = [] ∨ ∃ t, i ≤ t ∧ tr = [.now c t]
  | _, .gettime c, i, tr => tr = [] ∨ ∃ t, i ≤ t ∧ tr = [.gettime c t]
  | _, .kwait l, i, tr => tr = [] ∨ tr = [.block l i]
  | _, .pause, i, tr => tr = [] ∨ ∃ t, i ≤ t ∧ tr = [.pause t]
  | _, .env, i, tr => tr = [] ∨ ∃ t, i ≤ t ∧ tr = [.env t]
  | _, .loop body s, i, tr =>
      LoopPartial (fun s i j tr r => Runs W (body s) i j tr r) (fun s i tr => Partial W (body s) i tr) s i tr

end Verif.Wait
