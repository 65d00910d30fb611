import Verif.Notify.Model

/-
Blocking and waking in the lock pool on processors that reorder accesses (`BOOST_ATOMIC_USE_FUTEX`, src/lock_pool.cpp:511–828):
the mutex, the condition of a wait state and the kernel's queues.

`Verif.Futex` has the same code with one access at a time; here the accesses are items of `Verif.Mca` and `Verif.Pow`.  A
critical section may contain others: a call of the kernel is a section of the lock of the kernel's queue, and
`notify_all` makes one while it holds the mutex of the pool.

Simplifications.
* The kernel: the threads that wait at an address are one variable, `queue a`, a set of waits (wait number `k` is in it if
  bit `k` is set), guarded by a lock of the kernel, `bucket a`.  `FUTEX_WAIT` takes the lock, compares the word with the
  argument and adds the wait to the set.  `FUTEX_WAKE` and `FUTEX_REQUEUE` take it, and remove waits.  The lock is a word
  that is taken with acquire and returned with release; its lowest bit says whether it is taken.
* Every section that is entered is left.
* One object that is waited for has one entry in the list of wait states.  The entry is one variable, `entry x`, that the
  mutex guards: `users` of its value is the set of waits that are counted in `m_waiter_count`, and `cond` the address of
  `m_cond`.
* Nothing is said about timed waits, except that waits may end by themselves (`Syscall.quit`).
-/

namespace Verif.Sleep

open Verif.Order Verif.Mca Verif.Mca.Run Verif.Locked

variable {cpu : Cpu}

/-! ### Sections -/

/-- The critical sections of a program: the mutex, the operation that takes it and the operation that gives it back. -/
structure Sections where
  Sec : Type
  mutex : Sec → Nat
  take : Sec → OpId
  give : Sec → OpId

/-- The operation `id` is one of the section `S`. -/
def Sections.Contains (Z : Sections) (S : Z.Sec) (id : OpId) : Prop :=
  id.1 = (Z.take S).1 ∧ (Z.take S).2 < id.2 ∧ id.2 < (Z.give S).2

/-- The operation `id` is executed by the thread of `S`, after the section. -/
def Sections.Follows (Z : Sections) (S : Z.Sec) (id : OpId) : Prop :=
  id.1 = (Z.give S).1 ∧ (Z.give S).2 < id.2

/-- The program accesses the words of mutexes by the code of the mutexes only (src/lock_pool.cpp:572–636), and the variables
that a mutex guards (`guard`) while it holds this mutex only. -/
structure Sections.Lawful (Z : Sections) (prog : Nat → List Item) (guard : Nat → Option Nat) : Prop where
  order : ∀ S, (Z.take S).1 = (Z.give S).1 ∧ (Z.take S).2 < (Z.give S).2
  once : ∀ S S', Z.take S = Z.take S' → S = S'
  /-- src/lock_pool.cpp:580, 599 -/
  take : ∀ S, ∃ b n, (prog (Z.take S).1)[(Z.take S).2]? = some (.op b (.casOk .relaxed) .acquire n (Z.mutex S))
  /-- src/lock_pool.cpp:622 -/
  give : ∀ S, ∃ b n, (prog (Z.give S).1)[(Z.give S).2]? = some (.op b (.casOk .relaxed) .release n (Z.mutex S))
  /-- everything else that is done to the word -/
  words : ∀ (id : OpId) it S, (prog id.1)[id.2]? = some it → it.isFence = false → it.loc = Z.mutex S →
    (∃ S', id = Z.take S') ∨ (∃ S', id = Z.give S') ∨ Watch it.loc it ∨ Mark it.loc it
  guarded : ∀ (id : OpId) it m, (prog id.1)[id.2]? = some it → it.isFence = false → guard it.loc = some m →
    ∃ S, Z.mutex S = m ∧ Z.Contains S id

/-- The lowest bit of a word says whether the mutex is taken. -/
structure Sections.Holds (Z : Sections) (R : Mca.Run cpu) (rf : Pos → Option Pos → Prop) (V : Values) : Prop where
  take : ∀ S, Did R rf V (Z.take S) (Z.mutex S) fun v v' => v % 2 = 0 ∧ v' % 2 = 1
  give : ∀ S, Did R rf V (Z.give S) (Z.mutex S) fun _ v' => v' % 2 = 0
  mark : ∀ (id : OpId) it S, (R.prog id.1)[id.2]? = some it → Mark (Z.mutex S) it →
    Did R rf V id (Z.mutex S) fun v v' => v' % 2 = v % 2
  /-- a write that is not the modification of an operation writes what was read (`Mca.Run.Copies`) -/
  copies : ∀ r c x, R.CopyOf r c → R.Is c x → ∃ s, rf r s ∧ V.val c = V.of x.loc s
  init : ∀ S, V.init (Z.mutex S) % 2 = 0

/-- The section, of the lock that guards the variable `q`, removes the wait `k` from the set in it. -/
def Removes (R : Mca.Run cpu) (rf : Pos → Option Pos → Prop) (V : Values) (guard : Nat → Option Nat) (Z : Sections)
    (K : Z.Sec) (q k : Nat) : Prop :=
  guard q = some (Z.mutex K) ∧ ∃ v v', SectionFound R rf V (Z.take K) (Z.give K) q v ∧ SectionLeft R V (Z.take K) (Z.give K) q v' ∧
    v.testBit k = true ∧ v'.testBit k = false

/-- It adds the wait. -/
def Adds (R : Mca.Run cpu) (rf : Pos → Option Pos → Prop) (V : Values) (guard : Nat → Option Nat) (Z : Sections)
    (K : Z.Sec) (q k : Nat) : Prop :=
  guard q = some (Z.mutex K) ∧ ∃ v v', SectionFound R rf V (Z.take K) (Z.give K) q v ∧ SectionLeft R V (Z.take K) (Z.give K) q v' ∧
    v.testBit k = false ∧ v'.testBit k = true

/-! ### Waiting for the mutex -/

/-- What a call of the kernel does with the queue of a mutex. -/
inductive Syscall (Sec : Type) where
  /-- `futex_wait` of `lock_slow_path`: wait number `k`, after the operation `mark`; src/lock_pool.cpp:604–607 -/
  | park (k : Nat) (mark : OpId)
  /-- the part of `futex_requeue` that adds threads to the queue, in the section `N`, before the operation `mark`;
  src/lock_pool.cpp:812–813, 825–826 -/
  | requeue (N : Sec) (mark : OpId)
  /-- `futex_signal` of `unlock`, after the section `S`; src/lock_pool.cpp:626–628 -/
  | signal (S : Sec)
  /-- a wait ends by itself: a signal, a timeout -/
  | quit (k : Nat)

/-- The operation `id` set the bit `contended`: it found a word with `P` and wrote `w`. -/
def Marks (R : Mca.Run cpu) (rf : Pos → Option Pos → Prop) (V : Values) (m : Nat) (id : OpId) (P : Nat → Prop) (w : Pos) :
    Prop :=
  (∃ it, (R.prog id.1)[id.2]? = some it ∧ Mark m it) ∧
    ∃ r s, R.Ret id r ∧ R.Pub id w ∧ rf r s ∧ P (V.of m s) ∧ V.val w = markedWord (V.of m s)

/-- The words of the mutex `m` and the calls of the kernel are those of the code.  `does K` says what call of the kernel the
section `K` is, if it is one for this mutex. -/
structure Waits (R : Mca.Run cpu) (rf : Pos → Option Pos → Prop) (hb : Pos → Pos → Prop) (V : Values)
    (guard : Nat → Option Nat) (Z : Sections) (m bucket queue : Nat) (does : Z.Sec → Option (Syscall Z.Sec)) : Prop where
  /-- src/lock_pool.cpp:577–580, 596–599 -/
  take : ∀ S, Z.mutex S = m → Did R rf V (Z.take S) m fun v v' => v' = takenWord v
  /-- src/lock_pool.cpp:621–622 -/
  give : ∀ S, Z.mutex S = m → Did R rf V (Z.give S) m fun v v' => v' = givenWord v
  /-- src/lock_pool.cpp:604–605, 813, 826: the bit is set; 628–634: it is cleared by a thread that has found nobody to wake,
  if the word is still the one the thread wrote when it gave the mutex back -/
  mark : ∀ (id : OpId) it r w s, (R.prog id.1)[id.2]? = some it → Mark m it → R.Ret id r → R.Pub id w → rf r s →
    V.val w = markedWord (V.of m s) ∨
    (V.val w = unmarkedWord (V.of m s) ∧ ∃ S K u, does K = some (.signal S) ∧
      SectionFound R rf V (Z.take K) (Z.give K) queue 0 ∧ Z.Follows K id ∧ R.Pub (Z.give S) u ∧ V.of m s = V.val u)
  guarded : guard queue = some bucket
  kernel : ∀ K c, does K = some c → Z.mutex K = bucket
  reads : ∀ K v, Z.mutex K = bucket → SectionLeft R V (Z.take K) (Z.give K) queue v → ∃ u, SectionFound R rf V (Z.take K) (Z.give K) queue u
  /-- nothing else changes the queue -/
  changes : ∀ K v, Z.mutex K = bucket → SectionLeft R V (Z.take K) (Z.give K) queue v → does K ≠ none
  /-- src/lock_pool.cpp:593–610: the word was taken and is still the one that the thread wrote -/
  park : ∀ K k a, does K = some (.park k a) → a.1 = (Z.take K).1 ∧ a.2 < (Z.take K).2 ∧
    (∃ w r s y, Marks R rf V m a (fun v => v &&& Locked.locked ≠ 0) w ∧ Inside R (Z.take K) (Z.give K) r ∧ R.Has r .rd ∧
      R.Is r y ∧ y.loc = m ∧ rf r s ∧ V.of m s = V.val w) ∧
    ∃ v v', SectionFound R rf V (Z.take K) (Z.give K) queue v ∧ SectionLeft R V (Z.take K) (Z.give K) queue v' ∧
      ∀ i, v'.testBit i = (v.testBit i || decide (i = k))
  /-- src/lock_pool.cpp:812–813, 825–826 -/
  requeue : ∀ K N a, does K = some (.requeue N a) → Z.mutex N = m ∧ (Z.take K).1 = (Z.take N).1 ∧
    (Z.take N).2 < (Z.take K).2 ∧ Z.Follows K a ∧ Z.Contains N a ∧ (∃ w, Marks R rf V m a (fun _ => True) w) ∧
    ∃ v v', SectionFound R rf V (Z.take K) (Z.give K) queue v ∧ SectionLeft R V (Z.take K) (Z.give K) queue v' ∧
      ∀ i, v.testBit i = true → v'.testBit i = true
  /-- `FUTEX_WAKE` with one thread, futex.hpp:213–216 -/
  signal : ∀ K S, does K = some (.signal S) → Z.mutex S = m ∧ Z.Follows S (Z.take K) ∧
    ∃ v, SectionFound R rf V (Z.take K) (Z.give K) queue v ∧
      ((v = 0 ∧ ∀ v', ¬ SectionLeft R V (Z.take K) (Z.give K) queue v') ∨
        ∃ j v', v.testBit j = true ∧ SectionLeft R V (Z.take K) (Z.give K) queue v' ∧
          ∀ i, v'.testBit i = (v.testBit i && decide (i ≠ j)))
  quit : ∀ K k, does K = some (.quit k) → ∀ v v', SectionFound R rf V (Z.take K) (Z.give K) queue v →
    SectionLeft R V (Z.take K) (Z.give K) queue v' → ∀ i, v'.testBit i = (v.testBit i && decide (i ≠ k))
  /-- src/lock_pool.cpp:626–628 -/
  unlock : ∀ S, Z.mutex S = m → ∀ r s, R.Ret (Z.give S) r → rf r s → V.of m s &&& contended ≠ 0 →
    ∃ K, does K = some (.signal S)
  /-- a thread that is woken goes on after that: it takes the mutex or is going to wait again; src/lock_pool.cpp:591–612,
  668.  A thread that a notification has moved does so because `m_cond` is not what it was (line 666); that the counter in
  `m_cond` has made a full turn is excluded -/
  resumed : ∀ K S j, does K = some (.signal S) → Removes R rf V guard Z K queue j →
    ∃ id, (∀ e f it, Inside R (Z.take K) (Z.give K) e → R.Within f id it → hb e f) ∧
      ((∃ T, Z.mutex T = m ∧ Z.take T = id) ∨ ∃ K' k, does K' = some (.park k id))

/-- No value of the word comes back after the mutex has been given back in between: the counter in the upper 30 bits does
not make a full turn (src/lock_pool.cpp:523–524).  `later` is the order of the modifications. -/
def NoTurn (R : Mca.Run cpu) (V : Values) (later : Pos → Pos → Prop) (Z : Sections) (m : Nat) : Prop :=
  ∀ w s u y z S, R.Is w y → y.loc = m → R.Has w .wr → R.Is s z → z.loc = m → R.Has s .wr →
    Z.mutex S = m → R.Pub (Z.give S) u → later w u → (u = s ∨ later u s) → V.val w ≠ V.val s

/-! ### Waiting for an object -/

/-- What a section of the mutex does for an object. -/
inductive Use where
  /-- the wait number `k` finds the value `old`, the wait state with the condition `c` and its value `p`, and is going to
  block; `ended` is the wait of the same call that has just ended, if it is not the first one -/
  | enter (ended : Option Nat) (k old c p : Nat)
  /-- the wait number `k` has woken up -/
  | leave (k : Nat)
  | notifyOne
  | notifyAll
  deriving DecidableEq

/-- The wait number `k` ends. -/
def Use.Ends : Option Use → Nat → Prop
  | some (.enter (some j) _ _ _ _), k | some (.leave j), k => j = k
  | _, _ => False

/-- The sections of the mutexes do what the code does.  `uses S x` says what the section does for the object `x`, and
`does K c` what call of the kernel for the address `c` the section `K` is. -/
structure Conditions (R : Mca.Run cpu) (rf : Pos → Option Pos → Prop) (V : Values) (guard : Nat → Option Nat)
    (Z : Sections) (entry users cond : Nat → Nat) (uses : Z.Sec → Nat → Option Use)
    (does : Z.Sec → Nat → Option Notify.Call) : Prop where
  /-- lock_pool.hpp:101–108 -/
  guarded : ∀ S x u, uses S x = some u → guard (entry x) = some (Z.mutex S)
  reads : ∀ S x v, guard (entry x) = some (Z.mutex S) → SectionLeft R V (Z.take S) (Z.give S) (entry x) v →
    ∃ u, SectionFound R rf V (Z.take S) (Z.give S) (entry x) u
  /-- nothing else changes the entry, except that it may be given up when nobody uses it, and created; src/lock_pool.cpp:983–1063 -/
  changes : ∀ S x v v', guard (entry x) = some (Z.mutex S) → SectionFound R rf V (Z.take S) (Z.give S) (entry x) v →
    SectionLeft R V (Z.take S) (Z.give S) (entry x) v' → (∀ j k old c p, uses S x ≠ some (.enter j k old c p)) →
    (∀ k, uses S x ≠ some (.leave k)) → users v' = users v ∧ (users v ≠ 0 → cond v' = cond v)
  /-- wait_ops_generic.hpp:68–73, wait_ops_emulated.hpp:61–67, src/lock_pool.cpp:1187–1204, 648–649 -/
  enter : ∀ S x j k old c p, uses S x = some (.enter j k old c p) →
    (∃ v v', SectionFound R rf V (Z.take S) (Z.give S) (entry x) v ∧ SectionLeft R V (Z.take S) (Z.give S) (entry x) v' ∧
      (∀ i, (users v').testBit i = ((users v).testBit i && decide (some i ≠ j) || decide (i = k))) ∧ cond v' = c ∧ (users v ≠ 0 → cond v = c)) ∧
    (∃ r s y, Inside R (Z.take S) (Z.give S) r ∧ R.Has r .rd ∧ R.Is r y ∧ y.loc = x ∧ rf r s ∧ V.of x s = old) ∧
    ∃ r s y, Inside R (Z.take S) (Z.give S) r ∧ R.Has r .rd ∧ R.Is r y ∧ y.loc = c ∧ rf r s ∧ V.of c s = p
  /-- src/lock_pool.cpp:668–670 -/
  leave : ∀ S x k, uses S x = some (.leave k) → ∀ v v', SectionFound R rf V (Z.take S) (Z.give S) (entry x) v →
    SectionLeft R V (Z.take S) (Z.give S) (entry x) v' →
    (∀ i, (users v').testBit i = ((users v).testBit i && decide (i ≠ k))) ∧ (users v' ≠ 0 → cond v' = cond v)
  /-- src/lock_pool.cpp:1252–1270, 804–828: if there are waiters, the condition is incremented and the kernel is called -/
  notify : ∀ S x, uses S x = some .notifyOne ∨ uses S x = some .notifyAll →
    ∃ v, SectionFound R rf V (Z.take S) (Z.give S) (entry x) v ∧ (users v ≠ 0 →
      ∃ (a : OpId) (K : Z.Sec) (r w : Pos) (s : Option Pos) (y : Ev),
        Z.Contains S a ∧ R.Ret a r ∧ R.Pub a w ∧ R.Has w .wr ∧ R.Is w y ∧ y.loc = cond v ∧ rf r s ∧
        V.val w = (V.of (cond v) s + 1) % 2 ^ 32 ∧
        a.1 = (Z.take K).1 ∧ a.2 < (Z.take K).2 ∧ Z.Contains S (Z.give K) ∧
        does K (cond v) = some (if uses S x = some .notifyAll then .notifyAll else .notifyOne))

/-- After `r` has read the condition `c`, it does not get the value `p` again: the counter does not make a full turn. -/
def Passes (R : Mca.Run cpu) (rf : Pos → Option Pos → Prop) (V : Values) (later : Pos → Pos → Prop) (c p : Nat) : Prop :=
  ∀ r s w y z, R.Is r y → y.loc = c → R.Has r .rd → rf r s → V.of c s = p → R.Is w z → z.loc = c → R.Has w .wr →
    (∀ u, s = some u → later u w) → V.val w ≠ p

/-- A call of `wait` for the object `x`, wait number `k`, blocks in the kernel (the section `K`) after the section `S`, and
neither is it removed from the queue of the condition nor does it end. -/
structure LeftBlocked (R : Mca.Run cpu) (rf : Pos → Option Pos → Prop) (V : Values) (guard : Nat → Option Nat)
    (Z : Sections) (queue : Nat → Nat) (uses : Z.Sec → Nat → Option Use) (does : Z.Sec → Nat → Option Notify.Call)
    (S K : Z.Sec) (x k old c p : Nat) : Prop where
  entered : ∃ j, uses S x = some (.enter j k old c p)
  blocked : does K c = some (.wait k p) ∧ Z.Follows S (Z.take K)
  kept : ∀ B, ¬ Removes R rf V guard Z B (queue c) k
  inside : ∀ D, ¬ Use.Ends (uses D x) k

/-- Such a call, and it stays in the kernel forever: it is taken from the queue of the condition only to be moved to the
queue of the mutex (src/lock_pool.cpp:812, 825), and it is not taken from there. -/
structure NeverWoken (R : Mca.Run cpu) (rf : Pos → Option Pos → Prop) (V : Values) (guard : Nat → Option Nat)
    (Z : Sections) (queue : Nat → Nat) (target : Nat) (uses : Z.Sec → Nat → Option Use) (does : Z.Sec → Nat → Option Notify.Call) (S K : Z.Sec)
    (x k old c p : Nat) : Prop where
  entered : ∃ j, uses S x = some (.enter j k old c p)
  blocked : does K c = some (.wait k p) ∧ Z.Follows S (Z.take K)
  moved : ∀ B, Removes R rf V guard Z B (queue c) k → ∃ E, Adds R rf V guard Z E target k
  kept : ∀ B, ¬ Removes R rf V guard Z B target k
  inside : ∀ D, ¬ Use.Ends (uses D x) k

end Verif.Sleep
