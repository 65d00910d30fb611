import Verif.Locked.Model
import Verif.Order.Props
import Verif.Target.Spec
import Verif.Whole.Spec

/-
Whole programs as they are written: threads that call the API on objects that are lock-free and on objects that are not,
with the values they pass and get, compiled for a target.  This joins `Verif.Target` (which instructions a call consists
of) with `Verif.Locked` (critical sections of the lock pool).

Paths are relative to /repo/include/boost/atomic/detail.

Simplifications.
* The storage of an object that is not lock-free consists of any number of words, each of which is read or written by one
  instruction.
* A waiting operation of such an object counts as one `load` for each time it takes the mutex (wait_ops_emulated.hpp:58–71).
* A mutex of the system counts as a lock word that is taken with acquire and returned with release by correct code for the
  processor (`SystemCode`).
* A thread executes a list of calls that is given: which call comes next may depend on earlier replies in any way.
* The simplifications of `Verif.Target` and `Verif.Locked`.
-/

namespace Verif.Whole

open Verif.Order Verif.Mca Verif.Mca.Run Verif.Target Verif.Locked

/-! ### Accesses by the program itself -/

variable {cpu : Cpu}

/-- No data race on the variables `D`: of two accesses to one of them, at least one of which is a write, one happens
before the other. -/
def RaceFree (R : Mca.Run cpu) (hb : Pos → Pos → Prop) (D : Nat → Prop) : Prop :=
  ∀ e f p q, e ≠ f → R.SameLoc e f → R.Has e p → R.Has f q → p = .wr ∨ q = .wr → (∀ x, R.Is e x → D x.loc) →
    hb e f ∨ hb f e

/-- An access by the program itself to one of the variables `D`. -/
def OwnOp (R : Mca.Run cpu) (D : Nat → Prop) (a : OpId) : Prop :=
  ∃ x l, (R.prog a.1)[a.2]? = some (.user x l) ∧ D l

/-- What it found. -/
def OwnFound (R : Mca.Run cpu) (rf : Pos → Option Pos → Prop) (V : Values) (a : OpId) (x v : Nat) : Prop :=
  ∃ it e s, R.Within e a it ∧ it.loc = x ∧ R.Has e .rd ∧ rf e s ∧ v = V.of x s

/-- What it left. -/
def OwnLeft (R : Mca.Run cpu) (V : Values) (a : OpId) (x v : Nat) : Prop :=
  ∃ it e, R.Within e a it ∧ it.loc = x ∧ R.Has e .wr ∧ v = V.val e

/-! ### Programs -/

/-- What an operation replies and leaves, given what it found.  Nothing is found if the operation does not read, and
nothing left if it does not write. -/
inductive Request.Computes : Request → Reply → Option Nat → Option Nat → Prop where
  | load {v} : Computes .load (.value v) (some v) none
  | store {f d} : Computes (.store d) .done f (some d)
  | exchange {v d} : Computes (.exchange d) (.value v) (some v) (some d)
  | swapped {w e d} : Computes (.cas w e d) .swapped (some e) (some d)
  | kept {w e d v} : w = true ∨ v ≠ e → Computes (.cas w e d) (.kept v) (some v) none
  | modify {f v} : Computes (.modify f) (.value v) (some v) (some (f v))

/-- How the program uses a variable. -/
inductive Role where
  /-- only by accesses of its own -/
  | own
  /-- a lock-free object that is used with seq_cst operations only -/
  | seqCst
  /-- a lock-free object that is used with any orders -/
  | atomic
  /-- an object that is not lock-free and is guarded by this mutex of the lock pool (lock_pool.hpp:94–116); also its first
  word -/
  | pooled (m : Nat)
  /-- a further word of such an object -/
  | part (m : Nat)
  /-- the word of a mutex of the lock pool (src/lock_pool.cpp:561) -/
  | mutex

/-- The calls that are made on such a variable.  A flag is always lock-free, as are the mutexes
(src/lock_pool.cpp:511–514, atomic_flag_impl.hpp:51). -/
def Role.Admits : Role → Call → Prop
  | .own, c => ∃ x l, c = .user x l
  | .seqCst, c => c.SeqCst
  | .atomic, c => ∀ x l, c ≠ .user x l
  | .pooled _, c => (∀ x l, c ≠ .user x l) ∧ (∀ o l, c ≠ .testAndSet o l) ∧ ∀ o l, c ≠ .clear o l
  | .part _, _ | .mutex, _ => False

/-- The mutex. -/
def Role.guard : Role → Option Nat
  | .pooled m | .part m => some m
  | _ => none

/-- Whether the variable is one of those the theorem speaks about. -/
def Role.seen : Role → Bool
  | .own | .seqCst | .pooled _ => true
  | .atomic | .part _ | .mutex => false

/-- A step of a thread: a call with what the program passes and gets. -/
structure Step where
  call : Call
  req : Request
  reply : Reply

/-- What the call asks for.  `Call.arith`, `extra` and `fp` replace the value by a function of it; what they return is
computed from the old value. -/
def Asks : Call → Request → Prop
  | .user x _, .load => x = userLoad
  | .user x _, .store _ => x = userStore
  | .load _ _, .load | .store _ _, .store _ | .exchange _ _, .exchange _ | .cas _ _ _ _, .cas _ _ _
  | .arith _ _, .modify _ | .extra _ _, .modify _ | .fp _ _, .modify _ => True
  -- core_ops_gcc_atomic.hpp:147–155 and so on
  | .testAndSet _ _, .exchange d => d = 1
  | .clear _ _, .store d => d = 0
  | .fence _, _ => True
  | _, _ => False

/-- How the objects that are not lock-free are stored: the words after the first one, and the value the words stand for. -/
structure Layout where
  rest : Nat → List Nat
  join : Nat → List Nat → Nat

/-- The words of an object. -/
def Layout.words (L : Layout) (l : Nat) : List Nat := l :: L.rest l

/-- The code reads the storage of an object that is not lock-free: core_operations_emulated.hpp:69–173,
extra_ops_emulated.hpp:41–134, fp_ops_emulated.hpp:42–62, extra_fp_ops_emulated.hpp:42–84. -/
def reads : Call → Bool
  | .load _ _ | .cas _ _ _ _ | .exchange _ _ | .arith _ _ | .extra _ _ | .fp _ _ => true
  | .store _ _ | .user _ _ | .testAndSet _ _ | .clear _ _ | .fence _ => false

/-- It writes the storage: the same lines.  A failing `compare_exchange` does not (core_operations_emulated.hpp:109–113,
127–131). -/
def writes : Call → Bool
  | .store _ _ | .cas true _ _ _ | .exchange _ _ | .arith _ _ | .extra _ _ | .fp _ _ => true
  | .load _ _ | .cas false _ _ _ | .user _ _ | .testAndSet _ _ | .clear _ _ | .fence _ => false

/-- What is done to the words of the storage while the mutex is held.  The order argument is ignored. -/
def stored (c : Call) (ws : List Nat) : List Item :=
  (if reads c then ws.map (.user userLoad) else []) ++ (if writes c then ws.map (.user userStore) else [])

/-- The code of `Locked.Watch` on this target. -/
def WatchCode (t : Target) (obj : Nat → Obj) (m : Nat) (it : Item) : Prop :=
  t.Emits obj (.load .relaxed m) it ∨ ∃ o ∈ [MO.acquire, .release, .relaxed], t.Emits obj (.cas false o .relaxed m) it

/-- The code of `Locked.Mark` on this target. -/
def MarkCode (t : Target) (obj : Nat → Obj) (m : Nat) (it : Item) : Prop :=
  t.Emits obj (.cas true .relaxed .relaxed m) it ∨ t.Emits obj (.extra .relaxed m) it

/-- A critical section as the target's code executes it: the calls of src/lock_pool.cpp:572–636 on the mutex. -/
structure SectionCode (t : Target) (obj : Nat → Obj) (s : Section) : Prop where
  spin : ∀ it ∈ s.spin, WatchCode t obj s.mutex it ∨ MarkCode t obj s.mutex it
  take : t.Emits obj (.cas true .acquire .relaxed s.mutex) s.take
  leave : ∀ it ∈ s.leave, WatchCode t obj s.mutex it
  give : t.Emits obj (.cas true .release .relaxed s.mutex) s.give
  wake : ∀ it ∈ s.wake, WatchCode t obj s.mutex it ∨ MarkCode t obj s.mutex it

/-- A critical section of a mutex of the system, src/lock_pool.cpp:403–436, 863–888: what is assumed of its code. -/
structure SystemCode (s : Section) : Prop where
  lawful : s.Lawful
  fine : ∀ it ∈ s.spin ++ s.take :: (s.leave ++ s.give :: s.wake),
    it.accepts = true ∧ it.broken = false ∧ it.asksSeqCst = false

/-- The mutexes of the lock pool: those of src/lock_pool.cpp:558–637 or those of the system. -/
inductive Pool where
  | futex
  | system

/-- The code of a critical section. -/
def Pool.Code (t : Target) (obj : Nat → Obj) : Pool → Section → Prop
  | .futex => SectionCode t obj
  | .system => SystemCode

/-- The code of a call. -/
inductive Makes (t : Target) (pool : Pool) (L : Layout) (obj : Nat → Obj) (role : Nat → Role) : Call → Piece → Prop where
  | free {c it} : t.Emits obj c it → Makes t pool L obj role c (.plain it)
  | pooled {c s l} : c.loc = some l → role l = .pooled s.mutex → pool.Code t obj s → s.body = stored c (L.words l) →
      Makes t pool L obj role c (.locked s)

/-- The first item of a piece of the program. -/
def opAt (P : Nat → List Piece) (p : Nat × Nat) : OpId := (p.1, (code ((P p.1).take p.2)).length)

variable {cpu : Cpu}

/-- What the call found in the variable or object. -/
inductive FoundAt (L : Layout) (R : Mca.Run cpu) (rf : Pos → Option Pos → Prop) (V : Values) (P : Nat → List Piece)
    (p : Nat × Nat) (x v : Nat) : Prop where
  | own {y l} : (P p.1)[p.2]? = some (.plain (.user y l)) → OwnFound R rf V (opAt P p) x v → FoundAt L R rf V P p x v
  | free {it} : (P p.1)[p.2]? = some (.plain it) → (∀ y l, it ≠ .user y l) → FreeFound R rf V (opAt P p) x v →
      FoundAt L R rf V P p x v
  | pooled {s} {g : Nat → Nat} (h : (P p.1)[p.2]? = some (.locked s)) :
      (∀ w ∈ L.words x, SectionFound R rf V (Sec.take ⟨(p, s), h⟩) (Sec.give ⟨(p, s), h⟩) w (g w)) →
      v = L.join x ((L.words x).map g) → FoundAt L R rf V P p x v

/-- What the call left in the variable or object. -/
inductive LeftAt (L : Layout) (R : Mca.Run cpu) (V : Values) (P : Nat → List Piece) (p : Nat × Nat) (x v : Nat) : Prop where
  | own {y l} : (P p.1)[p.2]? = some (.plain (.user y l)) → OwnLeft R V (opAt P p) x v → LeftAt L R V P p x v
  | free {it} : (P p.1)[p.2]? = some (.plain it) → (∀ y l, it ≠ .user y l) → FreeLeft R V (opAt P p) x v →
      LeftAt L R V P p x v
  | pooled {s} {g : Nat → Nat} (h : (P p.1)[p.2]? = some (.locked s)) :
      (∀ w ∈ L.words x, SectionLeft R V (Sec.take ⟨(p, s), h⟩) (Sec.give ⟨(p, s), h⟩) w (g w)) →
      v = L.join x ((L.words x).map g) → LeftAt L R V P p x v

/-- The run is an execution of the program. -/
structure Executes (t : Target) (pool : Pool) (L : Layout) (obj : Nat → Obj) (role : Nat → Role)
    (prog : Nat → List Step) (P : Nat → List Piece) (R : Mca.Run cpu) (rf : Pos → Option Pos → Prop) (V : Values) : Prop where
  /-- finitely many threads -/
  threads : ∃ n, ∀ i, n ≤ i → prog i = []
  /-- the calls are used as `role` says, with orders the documentation allows -/
  admits : ∀ i, ∀ st ∈ prog i, ∀ l, st.call.loc = some l → (role l).Admits st.call
  allowed : ∀ i, ∀ st ∈ prog i, st.call.Allowed
  asks : ∀ i, ∀ st ∈ prog i, Asks st.call st.req
  /-- the objects of the lock pool are those that have no lock-free code; each has its own words, and the mutexes are
  words of 4 bytes (src/lock_pool.cpp:511–514) -/
  pooled : ∀ l m, role l = .pooled m → role m = .mutex ∧ ∀ n, t.classOf (obj l) = some n → t.backend n = none
  parts : ∀ l m, role l = .pooled m → (L.rest l).Nodup ∧ ∀ w ∈ L.rest l, role w = .part m ∧
    ∀ l' m', role l' = .pooled m' → w ∈ L.rest l' → l' = l
  word : pool = .futex → ∀ m, role m = .mutex → obj m = ⟨4, false⟩
  /-- the run executes the code of the calls -/
  made : ∀ i, (prog i).length = (P i).length ∧
    ∀ (j : Nat) st q, (prog i)[j]? = some st → (P i)[j]? = some q → Makes t pool L obj role st.call q
  code : ∀ i, R.prog i = code (P i)
  /-- what the code of a call computes from the value it finds (for the single operations: C01–C07) -/
  computes : ∀ (i j : Nat) st l, (prog i)[j]? = some st → st.call.loc = some l → (role l).seen = true →
    ∀ f g, (∀ v, FoundAt L R rf V P (i, j) l v ↔ f = some v) → (∀ v, LeftAt L R V P (i, j) l v ↔ g = some v) →
      st.req.Computes st.reply f g
  /-- what the code of the mutexes computes -/
  follows : Follows R rf V P

/-- What is observed of the program. -/
def observed (L : Layout) (role : Nat → Role) (prog : Nat → List Step) (V : Values) : Observed where
  event p := ((prog p.1)[p.2]?).bind fun st => st.call.loc.bind fun l =>
    if (role l).seen then some ⟨l, st.req, st.reply⟩ else none
  init l := match role l with
    | .pooled _ => L.join l ((L.words l).map V.init)
    | _ => V.init l

end Verif.Whole
