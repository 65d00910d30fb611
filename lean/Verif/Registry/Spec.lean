import Verif.Registry.Model

/-
Specification vocabulary for the registry of waiters (C28, C38): what is registered for an
address, seen through the waiting operations in progress rather than through the tables.
-/

namespace Verif.Registry

/-- Some waiting operation in progress on the object at `a` holds the wait state `id`. -/
def WaitsOn {w : Nat} (s : Pool w) (a : BitVec w) (id : Id) : Prop :=
  ∃ x ∈ s.waiters, x.addr = a ∧ x.handle = some id

/-- The number of waiting operations in progress that hold the wait state `id`. -/
def holders {w : Nat} (ws : List (Waiter w)) (id : Id) : Nat :=
  ws.countP (fun x => decide (x.handle = some id))

/-- The table of the lock of `a` has an entry that pairs `a` with the wait state `id`. -/
def Entry {w : Nat} (c : Cfg w) (s : Pool w) (a : BitVec w) (id : Id) : Prop :=
  ∃ b i, (s.lists (c.lockOf a)).hdr = some b ∧ i < b.size ∧ b.addrs i = a ∧ b.states i = some id

/-- Wait state memory that is allocated but not held by any waiting operation is spare. -/
def Spare {w : Nat} (s : Pool w) (id : Id) : Prop := s.heap id ≠ none ∧ holders s.waiters id = 0

/-- `s'` is reached from `s` by any number of calls. -/
inductive Runs {w : Nat} (c : Cfg w) : Pool w → Pool w → Prop where
  | refl (s : Pool w) : Runs c s s
  | step {s s' s'' : Pool w} {op : Op w} {o : Obs} :
      Runs c s s' → op.Allowed s' → step c s' op = some (s'', o) → Runs c s s''

/-- The cleanup function has visited lock `k` in some execution leading to `s`. -/
inductive Visited {w : Nat} (c : Cfg w) (k : Nat) : Pool w → Prop where
  | intro {s₀ s₁ s : Pool w} {o : Obs} :
      Reach c s₀ → step c s₀ (.cleanup k) = some (s₁, o) → Runs c s₁ s → Visited c k s

/-- What the platform must provide: an address search that answers correctly on every table
whose capacity is a multiple of the initial one (C29), and pointers for which a buffer of
initial capacity fits in memory. -/
structure Cfg.Good {w : Nat} (c : Cfg w) : Prop where
  search_ok : ∀ (addr : BitVec w) (A : Find.Arr w) (size : Nat), size ≤ A.cap →
    A.cap % c.initialCapacity = 0 →
    ∃ p, c.search addr A size = some p ∧
      (p < size → A.get p = addr) ∧ (size ≤ p → ∀ j, j < size → A.get j ≠ addr)
  initial_fits : c.bufferBytes c.initialCapacity < 2 ^ (w - 1)
  width_pos : 0 < w

end Verif.Registry
