import Verif.Tso.Spec
import Verif.Order.Model

/-
x86 with store buffers (x86-TSO, Sewell et al.): every thread has a FIFO buffer of pending stores.
The operations are compiled as in core_arch_ops_gcc_x86.hpp.  Any number of threads and locations.

Simplifications: an object is one memory location (its size is at most the atomic width); compiler
reordering is treated in `Verif.Order` (theorems C19_*), here instructions execute in program order.
Values of stores are arbitrary, so every program (with any control flow and data flow) is covered.
-/

namespace Verif.Tso

open Verif.Order (MO)

variable {T L V : Type} [DecidableEq T] [DecidableEq L]

/-- A write instruction that was executed; `id` is its position in the order of execution. -/
structure Write (T L V : Type) where
  id : Nat
  tid : T
  loc : L
  val : V

/-- State of the machine: committed writes (newest first), pending stores of each thread (oldest
first), and a counter. -/
structure State (T L V : Type) where
  log : List (Write T L V)
  buf : T → List (Write T L V)
  next : Nat

/-- What thread `t` sees, oldest first: the committed writes, then its own pending stores. -/
def State.view (s : State T L V) (t : T) : List (Write T L V) := s.log.reverse ++ s.buf t

/-- The newest write to `l` in a list ordered oldest first. -/
def newest (l : L) (ws : List (Write T L V)) : Option (Write T L V) :=
  ws.reverse.find? (fun w => w.loc = l)

/-- The write a load of `l` by `t` reads from: the newest own pending store to `l`, else the newest
committed one; `none`: the initial value. -/
def State.read (s : State T L V) (t : T) (l : L) : Option (Write T L V) :=
  match newest l (s.buf t) with
  | some w => some w
  | none => newest l s.log.reverse

/-- Value of a read. -/
def valOf (init : L → V) (l : L) : Option (Write T L V) → V
  | some w => w.val
  | none => init l

def setBuf (f : T → List (Write T L V)) (t : T) (b : List (Write T L V)) : T → List (Write T L V) :=
  fun t' => if t' = t then b else f t'

/-- API-level operations and what they are on x86. -/
inductive Op (V : Type) where
  /-- `load(order)`: a plain `mov`, core_arch_ops_gcc_x86.hpp:85–91 -/
  | load (o : MO)
  /-- `store(v, order)`: a plain `mov`, or `xchg` when the order is seq_cst,
  core_arch_ops_gcc_x86.hpp:70–83 -/
  | store (o : MO) (v : V)
  /-- `exchange`, `fetch_*`: `lock`-prefixed instruction, :123–151 and following;
  compare-exchange: `lock cmpxchg`, :153–180, which writes only if it succeeds (`f v = some v'`) -/
  | rmw (o : MO) (f : V → Option V)

/-- One step: thread `t` executes an operation on `l` reading from `r`, or executes a fence, or a
pending store of some thread reaches memory. -/
inductive Label (T L V : Type) where
  | op (t : T) (l : L) (op : Op V) (r : Option (Write T L V)) (w : Option (Write T L V))
  | fence (t : T) (o : MO)
  | flush (t : T)

/-- The machine. -/
inductive Step (init : L → V) : State T L V → Label T L V → State T L V → Prop where
  | load {s t l o} : Step init s (.op t l (.load o) (s.read t l) none) s
  /-- a store that is not seq_cst enters the store buffer -/
  | store {s t l o v} : o ≠ .seqCst →
      Step init s (.op t l (.store o v) none (some ⟨s.next, t, l, v⟩))
        { s with buf := setBuf s.buf t (s.buf t ++ [⟨s.next, t, l, v⟩]), next := s.next + 1 }
  /-- `xchg`: the buffer must be empty and the write is immediately visible -/
  | storeSc {s t l v} : s.buf t = [] →
      Step init s (.op t l (.store .seqCst v) none (some ⟨s.next, t, l, v⟩))
        { s with log := ⟨s.next, t, l, v⟩ :: s.log, next := s.next + 1 }
  | rmw {s t l o f v'} : s.buf t = [] → f (valOf init l (s.read t l)) = some v' →
      Step init s (.op t l (.rmw o f) (s.read t l) (some ⟨s.next, t, l, v'⟩))
        { s with log := ⟨s.next, t, l, v'⟩ :: s.log, next := s.next + 1 }
  | rmwFail {s t l o f} : s.buf t = [] → f (valOf init l (s.read t l)) = none →
      Step init s (.op t l (.rmw o f) (s.read t l) none) s
  /-- `atomic_thread_fence`: for seq_cst a dummy `lock` instruction, which waits for the buffer to
  drain; nothing otherwise (fence_arch_ops_gcc_x86.hpp:32–52) -/
  | fence {s t o} : (o = .seqCst → s.buf t = []) → Step init s (.fence t o) s
  | flush {s t w b} : s.buf t = w :: b →
      Step init s (.flush t) { s with log := w :: s.log, buf := setBuf s.buf t b }

/-- Executions. -/
inductive Run (init : L → V) : State T L V → List (Label T L V) → State T L V → Prop where
  | nil {s} : Run init s [] s
  | cons {s e s' es s''} : Step init s e s' → Run init s' es s'' → Run init s (e :: es) s''

/-- Nothing executed yet. -/
def State.start : State T L V := ⟨[], fun _ => [], 0⟩

/-- The observation belonging to a step. -/
def Label.obs (init : L → V) : Label T L V → Option (Obs T L V)
  | .op t l (.load _) r _ => some (.load t l (valOf init l r))
  | .op t l (.store _ v) _ _ => some (.store t l v)
  | .op t l (.rmw _ _) r (some w) => some (.rmw t l (valOf init l r) w.val)
  | .op t l (.rmw _ _) r none => some (.load t l (valOf init l r))
  | .fence _ _ | .flush _ => none

end Verif.Tso
