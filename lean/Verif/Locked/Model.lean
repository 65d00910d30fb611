import Verif.Locked.Spec
import Verif.Mca.Mixed

/-
Programs that use objects that are not lock-free, on processors that reorder accesses.

An operation on such an object takes a mutex of the lock pool, accesses the storage of the object with plain accesses,
and gives the mutex back (core_operations_emulated.hpp:69–173, lock_pool.hpp:94–116).  The order argument is ignored.  The
mutex is that of src/lock_pool.cpp:556–637 (`BOOST_ATOMIC_USE_FUTEX`), whose word is itself an object of the library: the
operations on it are items of `Verif.Mca`, with the instructions of the back end.

Simplifications.
* Failed attempts, waiting and waking are any number of loads, failed compare-and-exchange operations and changes of the
  bit `contended`, in any order: more than the code can do.  The kernel's futex operations do not access the word as far
  as other threads can see.
* Every section that is entered is left.
* The storage of an object is one or more whole variables; which mutex guards them is a parameter (`guard`; C17 proves
  that one object always uses one mutex).
* The mutexes of POSIX and Windows (src/lock_pool.cpp:316–505, 830–911) are modelled by what their systems promise,
  `Whole.SystemCode`.
-/

namespace Verif.Locked

open Verif.Order Verif.Mca Verif.Mca.Run

/-! ### The mutex -/

/-- `mutex_bits::locked`, src/lock_pool.cpp:520. -/
def locked : Nat := 1
/-- `mutex_bits::contended`, src/lock_pool.cpp:522. -/
def contended : Nat := 2
/-- `mutex_bits::counter_one`, src/lock_pool.cpp:524. -/
def counterOne : Nat := 4

/-- Bitwise complement in the 32 bits of the word. -/
def compl32 (x : Nat) : Nat := 2 ^ 32 - 1 - x

/-- The new word when the mutex is taken, src/lock_pool.cpp:579, 598. -/
def takenWord (v : Nat) : Nat := v ||| locked
/-- The new word when the mutex is given back, src/lock_pool.cpp:621. -/
def givenWord (v : Nat) : Nat := ((v &&& compl32 locked) + counterOne) % 2 ^ 32
/-- The new word when a thread is about to wait or was moved to the mutex, src/lock_pool.cpp:604, 813, 826. -/
def markedWord (v : Nat) : Nat := v ||| contended
/-- The new word when nobody was waiting, src/lock_pool.cpp:632. -/
def unmarkedWord (v : Nat) : Nat := v &&& compl32 contended

/-- Looking at the word: the relaxed loads (src/lock_pool.cpp:576, 593, 608, 617) and the compare-and-exchange operations
that fail (src/lock_pool.cpp:580, 599, 605, 622, 633, all with `memory_order_relaxed` for the failure). -/
def Watch (m : Nat) (it : Item) : Prop :=
  ∃ b n, it = .op b .load .relaxed n m ∨ ∃ o ∈ [MO.acquire, .release, .relaxed], it = .op b (.casFail .relaxed) o n m

/-- Setting or clearing `contended`: the relaxed compare-and-exchange operations that succeed
(src/lock_pool.cpp:605, 633) and `opaque_or` (src/lock_pool.cpp:813, 826). -/
def Mark (m : Nat) (it : Item) : Prop :=
  ∃ b n, ∃ k ∈ [Kind.casOk .relaxed, .rmw, .loop], it = .op b k .relaxed n m

/-- One critical section. -/
structure Section where
  mutex : Nat
  /-- the unsuccessful part of `long_lock` and `lock_slow_path`, src/lock_pool.cpp:572–612 -/
  spin : List Item
  /-- the compare-and-exchange that takes the mutex, src/lock_pool.cpp:580, 599 -/
  take : Item
  body : List Item
  /-- the unsuccessful part of `unlock`, src/lock_pool.cpp:617–622 -/
  leave : List Item
  /-- the compare-and-exchange that gives it back, src/lock_pool.cpp:622 -/
  give : Item
  /-- waking, src/lock_pool.cpp:626–635 -/
  wake : List Item

def Section.items (s : Section) : List Item :=
  s.spin ++ s.take :: (s.body ++ (s.leave ++ s.give :: s.wake))

/-- The items are those of the code. -/
structure Section.Lawful (s : Section) : Prop where
  spin : ∀ it ∈ s.spin, Watch s.mutex it ∨ Mark s.mutex it
  take : ∃ b n, s.take = .op b (.casOk .relaxed) .acquire n s.mutex
  leave : ∀ it ∈ s.leave, Watch s.mutex it
  give : ∃ b n, s.give = .op b (.casOk .relaxed) .release n s.mutex
  wake : ∀ it ∈ s.wake, Watch s.mutex it ∨ Mark s.mutex it

/-! ### Programs -/

/-- A thread executes sections, and operations, fences and accesses outside of them. -/
inductive Piece where
  | plain (it : Item)
  | locked (s : Section)

def Piece.items : Piece → List Item
  | .plain it => [it]
  | .locked s => s.items

def code (p : List Piece) : List Item := p.flatMap Piece.items

/-- `m` is the word of a mutex. -/
def IsMutex (P : Nat → List Piece) (m : Nat) : Prop := ∃ t s, Piece.locked s ∈ P t ∧ s.mutex = m

/-- The program accesses the words of mutexes by the code of the mutex only, and the variables that a mutex guards
(`guard`) while it holds this mutex only. -/
structure Lawful (P : Nat → List Piece) (guard : Nat → Option Nat) : Prop where
  sections : ∀ t s, Piece.locked s ∈ P t → s.Lawful
  plain : ∀ t it, Piece.plain it ∈ P t → it.isFence = true ∨ (¬ IsMutex P it.loc ∧ guard it.loc = none)
  body : ∀ t s it, Piece.locked s ∈ P t → it ∈ s.body → it.isFence = true ∨ Mark s.mutex it ∨
    (¬ IsMutex P it.loc ∧ ∀ m, guard it.loc = some m → m = s.mutex)
  words : ∀ m, IsMutex P m → guard m = none

/-- A section of a program: thread, number of the piece, and the section. -/
def Sec (P : Nat → List Piece) : Type :=
  { p : (Nat × Nat) × Section // (P p.1.1)[p.1.2]? = some (.locked p.2) }

namespace Sec

variable {P : Nat → List Piece} (S : Sec P)

def thread : Nat := S.1.1.1
def sec : Section := S.1.2
/-- the number of items before it in the thread -/
def start : Nat := (code ((P S.1.1.1).take S.1.1.2)).length
/-- the operation that takes the mutex -/
def take : OpId := (S.thread, S.start + S.sec.spin.length)
/-- the operation that gives it back -/
def give : OpId := (S.thread, S.start + S.sec.spin.length + 1 + S.sec.body.length + S.sec.leave.length)

end Sec

variable {cpu : Cpu}

/-- The operation read a value of the variable and wrote `f` of it. -/
def Did (R : Mca.Run cpu) (rf : Pos → Option Pos → Prop) (V : Values) (id : OpId) (m : Nat) (P : Nat → Nat → Prop) : Prop :=
  ∀ r w, R.Ret id r → R.Pub id w → ∃ s, rf r s ∧ P (V.of m s) (V.val w)

/-- The values of the words of mutexes are those the code computes. -/
structure Follows (R : Mca.Run cpu) (rf : Pos → Option Pos → Prop) (V : Values) (P : Nat → List Piece) : Prop where
  /-- src/lock_pool.cpp:577–580, 596–599 -/
  take : ∀ S : Sec P, Did R rf V S.take S.sec.mutex fun v v' => v &&& locked = 0 ∧ v' = takenWord v
  /-- src/lock_pool.cpp:621–622 -/
  give : ∀ S : Sec P, Did R rf V S.give S.sec.mutex fun v v' => v' = givenWord v
  /-- src/lock_pool.cpp:604–605, 632–633, 813, 826 -/
  mark : ∀ id it m, (R.prog id.1)[id.2]? = some it → IsMutex P m → Mark m it →
    Did R rf V id m fun v v' => v' = markedWord v ∨ v' = unmarkedWord v
  /-- a write that is not the modification of an operation writes what was read (`Mca.Run.Copies`) -/
  copies : ∀ r c x, R.CopyOf r c → R.Is c x → ∃ s, rf r s ∧ V.val c = V.of x.loc s
  /-- `BOOST_ATOMIC_LOCK_STATE_INIT`, src/lock_pool.cpp:639–643 -/
  init : ∀ m, IsMutex P m → V.init m = 0

/-! ### What the program observes -/

/-- `e` is an access between the operations `a` and `b` of a thread. -/
def Inside (R : Mca.Run cpu) (a b : OpId) (e : Pos) : Prop :=
  ∃ id it, R.Within e id it ∧ id.1 = a.1 ∧ a.2 < id.2 ∧ id.2 < b.2

/-- What a section found in a variable: what it read before it wrote it itself. -/
def SectionFound (R : Mca.Run cpu) (rf : Pos → Option Pos → Prop) (V : Values) (a b : OpId) (x v : Nat) : Prop :=
  ∃ r s y, Inside R a b r ∧ R.Has r .rd ∧ R.Is r y ∧ y.loc = x ∧ rf r s ∧ v = V.of x s ∧
    ∀ w z, Inside R a b w → R.Has w .wr → R.Is w z → z.loc = x → ¬ Before w r

/-- What a section left in a variable: what it wrote last. -/
def SectionLeft (R : Mca.Run cpu) (V : Values) (a b : OpId) (x v : Nat) : Prop :=
  ∃ w y, Inside R a b w ∧ R.Has w .wr ∧ R.Is w y ∧ y.loc = x ∧ v = V.val w ∧
    ∀ w' z, Inside R a b w' → R.Has w' .wr → R.Is w' z → z.loc = x → ¬ Before w w'

/-- An operation on one of the objects `A`. -/
def FreeOp (R : Mca.Run cpu) (A : Nat → Prop) (a : OpId) : Prop :=
  ∃ it, (R.prog a.1)[a.2]? = some it ∧ A it.loc ∧ it.isFence = false

/-- What it found. -/
def FreeFound (R : Mca.Run cpu) (rf : Pos → Option Pos → Prop) (V : Values) (a : OpId) (x v : Nat) : Prop :=
  ∃ it r s, (R.prog a.1)[a.2]? = some it ∧ it.loc = x ∧ R.Ret a r ∧ rf r s ∧ v = V.of x s

/-- What it left. -/
def FreeLeft (R : Mca.Run cpu) (V : Values) (a : OpId) (x v : Nat) : Prop :=
  ∃ it w, (R.prog a.1)[a.2]? = some it ∧ it.loc = x ∧ R.Pub a w ∧ v = V.val w

/-- What a program observes of its operations on the objects `A` and of its critical sections. -/
def historyOf (R : Mca.Run cpu) (rf : Pos → Option Pos → Prop) (V : Values) (A : Nat → Prop) (guard : Nat → Option Nat)
    {Sec : Type} (mutex : Sec → Nat) (take give : Sec → OpId) : History where
  Op := { a // FreeOp R A a } ⊕ Sec
  earlier
    | .inl a, .inl b => a.1.1 = b.1.1 ∧ a.1.2 < b.1.2
    | .inl a, .inr S => a.1.1 = (take S).1 ∧ a.1.2 < (take S).2
    | .inr S, .inl b => (give S).1 = b.1.1 ∧ (give S).2 < b.1.2
    | .inr S, .inr S' => (give S).1 = (take S').1 ∧ (give S).2 < (take S').2
  found
    | .inl a, x, v => FreeFound R rf V a.1 x v
    | .inr S, x, v => guard x = some (mutex S) ∧ SectionFound R rf V (take S) (give S) x v
  left
    | .inl a, x, v => FreeLeft R V a.1 x v
    | .inr S, x, v => guard x = some (mutex S) ∧ SectionLeft R V (take S) (give S) x v
  init := V.init

/-- The history of a program made of pieces. -/
def history (R : Mca.Run cpu) (rf : Pos → Option Pos → Prop) (V : Values) (A : Nat → Prop) (guard : Nat → Option Nat)
    (P : Nat → List Piece) : History :=
  historyOf R rf V A guard (fun S : Sec P => S.sec.mutex) Sec.take Sec.give

end Verif.Locked
