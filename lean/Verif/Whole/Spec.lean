/-
What a program may rely on as a whole: the threads take turns, one operation at a time, on a memory that holds one value
for each variable.  Independent of instructions, processors, orders and locks.
-/

namespace Verif.Whole

/-- What a thread asks for. -/
inductive Request where
  | load
  | store (d : Nat)
  | exchange (d : Nat)
  /-- `compare_exchange_weak` or `_strong` with the expected and the desired value -/
  | cas (weak : Bool) (expected desired : Nat)
  /-- `fetch_add` and so on: replace the value by a function of it -/
  | modify (f : Nat → Nat)

/-- What it gets to know. -/
inductive Reply where
  | done
  | value (v : Nat)
  /-- `compare_exchange` returned `true` -/
  | swapped
  /-- it returned `false`, with the value in `expected` -/
  | kept (v : Nat)

/-- An operation on a variable with value `v`, its reply, and the value after it. -/
inductive Exec : Request → Nat → Reply → Nat → Prop where
  | load {v} : Exec .load v (.value v) v
  | store {v d} : Exec (.store d) v .done d
  | exchange {v d} : Exec (.exchange d) v (.value v) d
  | swapped {w e d} : Exec (.cas w e d) e .swapped d
  | differs {w e d v} : v ≠ e → Exec (.cas w e d) v (.kept v) v
  /-- `compare_exchange_weak` may fail although the value is the expected one -/
  | spurious {e d v} : Exec (.cas true e d) v (.kept v) v
  | modify {f v} : Exec (.modify f) v (.value v) (f v)

/-- An operation as the program sees it. -/
structure Event where
  var : Nat
  req : Request
  reply : Reply

/-- These operations, one after the other, on this memory. -/
inductive Interleaved : (Nat → Nat) → List Event → Prop where
  | nil {mem} : Interleaved mem []
  | cons {mem e v' es} : Exec e.req (mem e.var) e.reply v' →
      Interleaved (fun x => if x = e.var then v' else mem x) es → Interleaved mem (e :: es)

/-- What is observed of an execution: the operations, by thread and number, and what the variables contain at the
beginning. -/
structure Observed where
  event : Nat × Nat → Option Event
  init : Nat → Nat

/-- The threads take turns: all operations can be put into one sequence, in which the operations of each thread are in
their order, and which is a possible execution of one operation after the other. -/
def Observed.Interleaving (O : Observed) : Prop :=
  ∃ l : List (Nat × Nat), l.Nodup ∧ (∀ p, p ∈ l ↔ (O.event p).isSome = true) ∧
    l.Pairwise (fun p q => ¬ (p.1 = q.1 ∧ q.2 < p.2)) ∧ Interleaved O.init (l.filterMap O.event)

/-- Two increments of two threads: one of them returns 0, the other 1. -/
example : Interleaved (fun _ => 0) [⟨7, .modify (· + 1), .value 0⟩, ⟨7, .modify (· + 1), .value 1⟩, ⟨7, .load, .value 2⟩] :=
  .cons .modify (.cons .modify (.cons .load .nil))

/-- They do not both return 0. -/
example : ¬ (∃ O : Observed, O.init = (fun _ => 0) ∧ O.Interleaving ∧
    O.event (0, 0) = some ⟨7, .modify (· + 1), .value 0⟩ ∧ O.event (1, 0) = some ⟨7, .modify (· + 1), .value 0⟩ ∧
    ∀ p, p ≠ (0, 0) → p ≠ (1, 0) → O.event p = none) := by
  rintro ⟨O, hi, ⟨l, hn, hm, -, h⟩, h0, h1, hr⟩
  have m0 : (0, 0) ∈ l := (hm _).2 (by rw [h0]; rfl)
  have m1 : (1, 0) ∈ l := (hm _).2 (by rw [h1]; rfl)
  have sub : ∀ p ∈ l, p = (0, 0) ∨ p = (1, 0) := by
    intro p hp
    by_cases h0 : p = (0, 0)
    · exact .inl h0
    · by_cases h1 : p = (1, 0)
      · exact .inr h1
      · have := (hm p).1 hp
        rw [hr p h0 h1] at this; cases this
  have ev : ∀ p ∈ l, O.event p = some ⟨7, .modify (· + 1), .value 0⟩ := by
    intro p hp; rcases sub p hp with rfl | rfl
    · exact h0
    · exact h1
  match l, hn, m0, m1, ev, h with
  | [a], _, m0, m1, _, _ =>
    simp only [List.mem_singleton] at m0 m1
    rw [← m0] at m1; cases m1
  | a :: b :: l, _, _, _, ev, h =>
    rw [List.filterMap_cons, ev a (by simp), List.filterMap_cons, ev b (by simp), hi] at h
    cases h with
    | cons k1 k2 =>
      cases k1
      cases k2 with
      | cons k3 k4 => cases k3

end Verif.Whole
