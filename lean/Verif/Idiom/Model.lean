import Verif.Mca.Mixed

/-
The examples of the documentation, doc/examples.qbk, as programs that use the library's operations (`Verif.Mca`).

Every example is a structure that says which operations of the threads are those of the example, in what order a call makes
them, which values they leave, and how the program uses the example.  Which of the possible values an operation finds is
decided by the machine.
-/

namespace Verif.Idiom

open Verif.Order Verif.Mca Verif.Mca.Run

variable {cpu : Cpu}

/-- The operation `id` is `it`. -/
def At (R : Mca.Run cpu) (id : OpId) (it : Item) : Prop := (R.prog id.1)[id.2]? = some it

/-- The operation `id` finds `v` in `x`. -/
def Finds (R : Mca.Run cpu) (rf : Pos → Option Pos → Prop) (V : Values) (id : OpId) (x v : Nat) : Prop :=
  ∃ r s, R.Ret id r ∧ rf r s ∧ V.of x s = v

/-- The operation `id`, which is a modification, leaves `v`. -/
def Leaves (R : Mca.Run cpu) (V : Values) (id : OpId) (v : Nat) : Prop := ∀ w, R.Pub id w → V.val w = v

/-- `e` is an access of the operations of thread `t` with the numbers from `i` on. -/
def From (R : Mca.Run cpu) (t i : Nat) (e : Pos) : Prop := ∃ id it, R.Within e id it ∧ id.1 = t ∧ i ≤ id.2

/-- `e` is an access of the operations of thread `t` with the numbers below `i`. -/
def Until (R : Mca.Run cpu) (t i : Nat) (e : Pos) : Prop := ∃ id it, R.Within e id it ∧ id.1 = t ∧ id.2 < i

/-- The operation is a load of `x` or a `compare_exchange` of it that fails. -/
def Peek (x : Nat) (it : Item) : Prop := ∃ b k o n, (k = .load ∨ ∃ f, k = .casFail f) ∧ it = .op b k o n x

/-! ### Spinlock, doc/examples.qbk:76–155 -/

/-- `typedef enum {Locked, Unlocked} LockState`, doc/examples.qbk:92. -/
def Locked : Nat := 0
def Unlocked : Nat := 1

/-- A section: from the end of a call of `lock` to a call of `unlock`, doc/examples.qbk:98–107, 118–120. -/
structure Holding where
  thread : Nat
  /-- the number of the exchange that ended the loop -/
  lock : Nat
  /-- the number of the last operation of `lock` -/
  locked : Nat
  /-- the number of the store of `unlock`; none if the thread has not called it -/
  unlock : Option Nat

/-- `e` is an access of the section. -/
def Holding.Inside (S : Holding) (R : Mca.Run cpu) (e : Pos) : Prop :=
  From R S.thread (S.locked + 1) e ∧ ∀ u, S.unlock = some u → Until R S.thread u e

/-- The program uses the object `x` as a spinlock, and `Secs` are its sections. -/
structure Spinlock (R : Mca.Run cpu) (rf : Pos → Option Pos → Prop) (V : Values) (x : Nat) (Secs : Holding → Prop) : Prop where
  /-- doc/examples.qbk:96 -/
  init : V.init x = Unlocked
  /-- the exchange that ends the loop finds that the lock is not locked, doc/examples.qbk:100 and 138 -/
  found : ∀ S, Secs S → ∃ v, v ≠ Locked ∧ Finds R rf V (S.thread, S.lock) x v
  /-- doc/examples.qbk:98–103, and the version with a fence, 136–142 -/
  lock : ∀ S, Secs S → (∃ b n, At R (S.thread, S.lock) (.exchange b .acquire n x) ∧ S.locked = S.lock) ∨
    ∃ b n b', At R (S.thread, S.lock) (.exchange b .relaxed n x) ∧ At R (S.thread, S.locked) (.fence b' .acquire) ∧
      S.lock < S.locked
  /-- doc/examples.qbk:104–107 -/
  unlock : ∀ S u, Secs S → S.unlock = some u → S.locked < u ∧ ∃ b n, At R (S.thread, u) (.op b .store .release n x)
  /-- a thread unlocks before it locks again -/
  apart : ∀ S S', Secs S → Secs S' → S.thread = S'.thread →
    S = S' ∨ (∃ u, S.unlock = some u ∧ u < S'.lock) ∨ ∃ u, S'.unlock = some u ∧ u < S.lock
  /-- `x` is otherwise used by the exchanges of the busy-wait loop only, and possibly by loads (and `compare_exchange` that fails) -/
  others : ∀ id it, At R id it → it.isFence = false → it.loc = x → (∃ b o n, it = .exchange b o n x) ∨
    (∃ S u, Secs S ∧ S.unlock = some u ∧ id = (S.thread, u)) ∨ Peek x it
  /-- `exchange(Locked)` -/
  locks : ∀ id b o n, At R id (.exchange b o n x) → Leaves R V id Locked
  /-- `store(Unlocked)` -/
  unlocks : ∀ S u, Secs S → S.unlock = some u → Leaves R V (S.thread, u) Unlocked

/-! ### Reference counting, doc/examples.qbk:8–74 -/

/-- `fetch_add`, `fetch_sub` of the object `x` with order `o`. -/
def Arith (R : Mca.Run cpu) (id : OpId) (o : MO) (x : Nat) : Prop :=
  ∃ b k n, (k = .rmw ∨ k = .loop) ∧ At R id (.op b k o n x)

/-- All of the operation `a` happens before all of the operation `b`. -/
def OpHb (R : Mca.Run cpu) (hb : Pos → Pos → Prop) (a b : OpId) : Prop :=
  ∀ e f it it', R.Within e a it → R.Within f b it' → hb e f

/-- The references (pointers) to an object: by which call of `intrusive_ptr_add_ref` each was made and by which call of
`intrusive_ptr_release` it was dropped, if it was. -/
structure Refs where
  Ref : Type
  add : Ref → OpId
  release : Ref → Option OpId
  /-- the pointer that is made when the object is created, doc/examples.qbk:47 -/
  root : Ref
  /-- the pointer of which another one is a copy -/
  origin : Ref → Ref

/-- The program counts its references in the object `x`, which has `bits` bits. -/
structure RefCount (R : Mca.Run cpu) (rf : Pos → Option Pos → Prop) (hb : Pos → Pos → Prop) (V : Values) (x bits : Nat)
    (P : Refs) : Prop where
  /-- doc/examples.qbk:24 -/
  init : V.init x = 0
  /-- doc/examples.qbk:30 -/
  add : ∀ p, Arith R (P.add p) .relaxed x
  /-- doc/examples.qbk:34 -/
  release : ∀ p d, P.release p = some d → Arith R d .release x
  /-- one is added; the counter does not overflow -/
  added : ∀ p, ∃ v, Finds R rf V (P.add p) x v ∧ v + 1 < 2 ^ bits ∧ Leaves R V (P.add p) (v + 1)
  /-- one is subtracted, modulo 2^bits -/
  subtracted : ∀ p d, P.release p = some d → ∃ v, Finds R rf V d x v ∧ Leaves R V d ((v + (2 ^ bits - 1)) % 2 ^ bits)
  /-- every call makes one reference, or drops one -/
  add_inj : ∀ p q, P.add p = P.add q → p = q
  release_inj : ∀ p q d, P.release p = some d → P.release q = some d → p = q
  disjoint : ∀ p q, P.release q ≠ some (P.add p)
  /-- `x` is otherwise at most read -/
  others : ∀ id it, At R id it → it.isFence = false → it.loc = x → (∃ p, id = P.add p) ∨ (∃ p, P.release p = some id) ∨
    Peek x it
  /-- a reference is dropped after it was made: "passing an existing reference from one thread to another must already
  provide any required synchronization" (doc/examples.qbk:55–57) -/
  order : ∀ p d, P.release p = some d → OpHb R hb (P.add p) d
  /-- "New references to an object can only be formed from an existing reference" (doc/examples.qbk:54–55) -/
  copied : ∀ p, p ≠ P.root → OpHb R hb (P.add (P.origin p)) (P.add p) ∧
    ∀ d, P.release (P.origin p) = some d → OpHb R hb (P.add p) d

/-- The call `d` of `intrusive_ptr_release` finds that it has dropped the last reference and executes the fence `k`,
doc/examples.qbk:34–35; `delete x` is what follows. -/
structure Deletes (R : Mca.Run cpu) (rf : Pos → Option Pos → Prop) (V : Values) (x : Nat) (P : Refs) (p : P.Ref) (d : OpId)
    (k : Nat) : Prop where
  release : P.release p = some d
  found : Finds R rf V d x 1
  fence : ∃ b, At R (d.1, k) (.fence b .acquire)
  after : d.2 < k

/-! ### Wait-free ring buffer, doc/examples.qbk:222–306 -/

/-- A call of `push` or `pop` that succeeds: the numbers of its load of the index it owns, its load of the other index, its
access of the element and its store. -/
structure RingCall where
  own : Nat
  other : Nat
  access : Nat
  store : Nat

/-- The program uses a ring buffer: `head` and `tail` are the indices, `cell` the elements, `producer` and `consumer` the two
threads; `push i` and `pop j` are the calls that succeed, of which there are `pushes` and `pops`.  (Calls that fail only load;
calls that a thread has not finished are not included.) -/
structure Ring (R : Mca.Run cpu) (rf : Pos → Option Pos → Prop) (V : Values) (size head tail : Nat) (cell : Nat → Nat)
    (producer consumer pushes pops : Nat) (push pop : Nat → RingCall) : Prop where
  threads : producer ≠ consumer
  /-- `T ring_[Size]`: different elements; they and the indices are different variables -/
  cell_inj : ∀ i j, i < size → j < size → cell i = cell j → i = j
  vars : head ≠ tail ∧ ∀ i, i < size → cell i ≠ head ∧ cell i ≠ tail
  size_pos : 0 < size
  /-- doc/examples.qbk:240 -/
  init : V.init head = 0 ∧ V.init tail = 0
  /-- doc/examples.qbk:242–251, `next` 262–265 -/
  pushOk : ∀ i, i < pushes → ∃ h t, ((push i).own < (push i).other ∧ (push i).other < (push i).access ∧
      (push i).access < (push i).store) ∧
    (∃ b n, At R (producer, (push i).own) (.op b .load .relaxed n head)) ∧ Finds R rf V (producer, (push i).own) head h ∧
    (∃ b n, At R (producer, (push i).other) (.op b .load .acquire n tail)) ∧ Finds R rf V (producer, (push i).other) tail t ∧
    (h + 1) % size ≠ t ∧
    (∃ y, At R (producer, (push i).access) (.user y (cell h)) ∧ y.wr = true ∧ y.rd = false) ∧
    (∃ b n, At R (producer, (push i).store) (.op b .store .release n head)) ∧
    Leaves R V (producer, (push i).store) ((h + 1) % size)
  /-- doc/examples.qbk:252–260 -/
  popOk : ∀ j, j < pops → ∃ t h, ((pop j).own < (pop j).other ∧ (pop j).other < (pop j).access ∧
      (pop j).access < (pop j).store) ∧
    (∃ b n, At R (consumer, (pop j).own) (.op b .load .relaxed n tail)) ∧ Finds R rf V (consumer, (pop j).own) tail t ∧
    (∃ b n, At R (consumer, (pop j).other) (.op b .load .acquire n head)) ∧ Finds R rf V (consumer, (pop j).other) head h ∧
    t ≠ h ∧
    (∃ y, At R (consumer, (pop j).access) (.user y (cell t)) ∧ y.rd = true ∧ y.wr = false) ∧
    (∃ b n, At R (consumer, (pop j).store) (.op b .store .release n tail)) ∧
    Leaves R V (consumer, (pop j).store) ((t + 1) % size)
  /-- one call after the other -/
  pushed : ∀ i, i + 1 < pushes → (push i).store < (push (i + 1)).own
  popped : ∀ j, j + 1 < pops → (pop j).store < (pop (j + 1)).own
  /-- nothing else writes the indices or accesses the elements -/
  heads : ∀ id it, At R id it → it.isFence = false → it.loc = head →
    (∃ i, i < pushes ∧ id = (producer, (push i).store)) ∨ Peek head it
  tails : ∀ id it, At R id it → it.isFence = false → it.loc = tail →
    (∃ j, j < pops ∧ id = (consumer, (pop j).store)) ∨ Peek tail it
  cells : ∀ id it c, At R id it → it.isFence = false → c < size → it.loc = cell c →
    (∃ i, i < pushes ∧ id = (producer, (push i).access)) ∨ ∃ j, j < pops ∧ id = (consumer, (pop j).access)

/-- A call of `push` that fails, after `i` calls that have succeeded, with the numbers of its loads; doc/examples.qbk:242–247. -/
structure PushFails (R : Mca.Run cpu) (rf : Pos → Option Pos → Prop) (V : Values) (size head tail producer pushes : Nat)
    (push : Nat → RingCall) (i own other : Nat) : Prop where
  count : i ≤ pushes
  before : ∀ k, k < i → (push k).store < own
  order : own < other
  after : ∀ k, i ≤ k → k < pushes → other < (push k).own
  fails : ∃ h, (∃ b n, At R (producer, own) (.op b .load .relaxed n head)) ∧ Finds R rf V (producer, own) head h ∧
    (∃ b n, At R (producer, other) (.op b .load .acquire n tail)) ∧ Finds R rf V (producer, other) tail ((h + 1) % size)

/-- A call of `pop` that fails, after `j` calls that have succeeded; doc/examples.qbk:252–256. -/
structure PopFails (R : Mca.Run cpu) (rf : Pos → Option Pos → Prop) (V : Values) (head tail consumer pops : Nat)
    (pop : Nat → RingCall) (j own other : Nat) : Prop where
  count : j ≤ pops
  before : ∀ k, k < j → (pop k).store < own
  order : own < other
  after : ∀ k, j ≤ k → k < pops → other < (pop k).own
  fails : ∃ t, (∃ b n, At R (consumer, own) (.op b .load .relaxed n tail)) ∧ Finds R rf V (consumer, own) tail t ∧
    (∃ b n, At R (consumer, other) (.op b .load .acquire n head)) ∧ Finds R rf V (consumer, other) head t

/-! ### Lock-free multi-producer queue, doc/examples.qbk:308–399 -/

/-- Operation `a` modifies its object before `b` does. -/
def OpMo (R : Mca.Run cpu) (mo : Pos → Pos → Prop) (a b : OpId) : Prop := ∀ w v, R.Pub a w → R.Pub b v → mo w v

/-- The operation `id` reads `v` in the variable `x`, which is not atomic. -/
def UserReads (R : Mca.Run cpu) (rf : Pos → Option Pos → Prop) (V : Values) (id : OpId) (x v : Nat) : Prop :=
  ∃ y r s, At R id (.user y x) ∧ y.rd = true ∧ y.wr = false ∧ R.Within r id (.user y x) ∧ rf r s ∧ V.of x s = v

/-- The operation `id` writes `v` to the variable `x`, which is not atomic. -/
def UserWrites (R : Mca.Run cpu) (V : Values) (id : OpId) (x v : Nat) : Prop :=
  ∃ y w, At R id (.user y x) ∧ y.wr = true ∧ R.Within w id (.user y x) ∧ V.val w = v

/-- A call of `push`: the thread, the last `n->next = stale_head`, the `compare_exchange_weak` that succeeds, and the node. -/
structure PushCall where
  thread : Nat
  next : Nat
  cas : Nat
  node : Nat

/-- Where the exchange of a call of `push` is. -/
def PushCall.op (p : PushCall) : OpId := (p.thread, p.cas)

/-- One pass of the loop of `pop_all`, doc/examples.qbk:338–343: `tmp`, the read `last = last->next` and what it finds, and the
write `tmp->next = first`. -/
structure RevStep where
  node : Nat
  read : Nat
  found : Nat
  write : Nat

/-- A call of `pop_all` or `pop_all_reverse`. -/
structure PopCall where
  /-- the number of the exchange -/
  exchange : Nat
  /-- is it `pop_all`? -/
  forward : Bool
  /-- the passes of the loop -/
  steps : List RevStep
  /-- the number of the last operation of the call -/
  last : Nat
  /-- what the call returns, if it has come to its end -/
  result : Option Nat

/-- The loop of `pop_all` in the thread `t`, after its operation `k`, with the values `last` and `first` of the variables:
doc/examples.qbk:337–345. -/
def Reverses (R : Mca.Run cpu) (rf : Pos → Option Pos → Prop) (V : Values) (next : Nat → Nat) (t : Nat) (res : Option Nat) :
    Nat → Nat → Nat → List RevStep → Prop
  | _, last, first, [] => ∀ x, res = some x → last = 0 ∧ x = first
  | k, last, first, s :: l => last ≠ 0 ∧ s.node = last ∧ k < s.read ∧ s.read < s.write ∧
      UserReads R rf V (t, s.read) (next s.node) s.found ∧ UserWrites R V (t, s.write) (next s.node) first ∧
      Reverses R rf V next t res s.write s.found last l

/-- The program uses the queue `head`.  `next a` is the member of the node with the address `a`; `Pushes` are the calls of
`push`, `Pops` the calls of `pop_all` and `pop_all_reverse`, all in the thread `t`.  The memory of a node is not used for
another node.  (`n->data` is one of the accesses before the exchange of `push`.) -/
structure Queue (R : Mca.Run cpu) (rf : Pos → Option Pos → Prop) (V : Values) (head : Nat) (next : Nat → Nat) (t : Nat)
    (Pushes : PushCall → Prop) (Pops : PopCall → Prop) : Prop where
  /-- doc/examples.qbk:347 -/
  init : V.init head = 0
  /-- doc/examples.qbk:325–333: what is stored in `next` before is what the exchange finds -/
  push : ∀ p, Pushes p → p.next < p.cas ∧
    (∃ b f n, At R p.op (.op b (.casOk f) .release n head)) ∧ Leaves R V p.op p.node ∧
    ∃ v, UserWrites R V (p.thread, p.next) (next p.node) v ∧ Finds R rf V p.op head v
  /-- doc/examples.qbk:350–353 and 335–345 -/
  pop : ∀ c, Pops c → c.exchange ≤ c.last ∧ (∃ b n, At R (t, c.exchange) (.exchange b .consume n head)) ∧
    Leaves R V (t, c.exchange) 0 ∧ (∀ s, s ∈ c.steps → s.write ≤ c.last) ∧
    ∃ v, Finds R rf V (t, c.exchange) head v ∧
      (c.forward = true → Reverses R rf V next t c.result c.exchange v 0 c.steps) ∧
      (c.forward = false → c.steps = [] ∧ c.result = some v)
  /-- `head_` is otherwise only loaded, or compared -/
  heads : ∀ id it, At R id it → it.isFence = false → it.loc = head → (∃ p, Pushes p ∧ id = p.op) ∨
    (∃ c, Pops c ∧ id = (t, c.exchange)) ∨ Peek head it
  /-- `new node` -/
  nodes : ∀ p, Pushes p → p.node ≠ 0
  fresh : ∀ p q, Pushes p → Pushes q → p.node = q.node → p = q
  pushes : ∀ p q, Pushes p → Pushes q → p.op = q.op → p = q
  pops : ∀ c c', Pops c → Pops c' → c.exchange = c'.exchange → c = c'
  /-- `next` is written by `push`, the last time before the exchange that succeeds, and by `pop_all` -/
  nexts : ∀ p, Pushes p → ∀ id it, At R id it → it.isFence = false → it.loc = next p.node →
    (id.1 = p.thread ∧ id.2 ≤ p.next ∧ ∃ y, it = .user y (next p.node)) ∨ (∃ c s, Pops c ∧ s ∈ c.steps ∧ s.node = p.node ∧ id = (t, s.write)) ∨
    ∃ y, it = .user y (next p.node) ∧ y.wr = false

/-- The thread `t` goes along a list, after its operation `k`, from the address `a` on: it passes the nodes `l` and is then at
`b`; doc/examples.qbk:371–377. -/
inductive Walk (R : Mca.Run cpu) (rf : Pos → Option Pos → Prop) (V : Values) (next : Nat → Nat) (t : Nat) :
    Nat → Nat → List Nat → Nat → Prop where
  | stop {k a} : Walk R rf V next t k a [] a
  | node {k a i b l c} : a ≠ 0 → k < i → UserReads R rf V (t, i) (next a) b → Walk R rf V next t i b l c →
      Walk R rf V next t k a (a :: l) c

/-- What a call takes out: the objects that have been put in since the call before it, in this order. -/
structure Taken (R : Mca.Run cpu) (mo : Pos → Pos → Prop) (t : Nat) (Pushes : PushCall → Prop) (Pops : PopCall → Prop)
    (c : PopCall) (L : List PushCall) : Prop where
  mem : ∀ p, p ∈ L ↔ Pushes p ∧ OpMo R mo p.op (t, c.exchange) ∧
    ∀ c', Pops c' → ¬ (OpMo R mo p.op (t, c'.exchange) ∧ OpMo R mo (t, c'.exchange) (t, c.exchange))
  order : L.Pairwise fun p q => OpMo R mo p.op q.op

/-! ### Singleton with double-checked locking, doc/examples.qbk:157–220 -/

/-- A call of `instance`: the numbers of the first load; of the second one, if the mutex was locked; and of the store, if the
object was created. -/
structure InstanceCall where
  thread : Nat
  first : Nat
  second : Option Nat
  store : Option Nat
  /-- the number of the first operation after the call -/
  after : Nat
  result : Nat

/-- `Calls` are the calls of `instance` that have returned or have stored the address of the object they created. -/
structure Instances (R : Mca.Run cpu) (rf : Pos → Option Pos → Prop) (V : Values) (x : Nat)
    (Calls : InstanceCall → Prop) : Prop where
  /-- doc/examples.qbk:191 -/
  init : V.init x = 0
  /-- doc/examples.qbk:175 -/
  first : ∀ c, Calls c → c.first < c.after ∧ (∃ b n, At R (c.thread, c.first) (.op b .load .consume n x)) ∧
    ∃ v, Finds R rf V (c.thread, c.first) x v ∧ (c.second = none ↔ v ≠ 0) ∧ (c.second = none → c.result = v)
  /-- doc/examples.qbk:176–178 -/
  second : ∀ c k, Calls c → c.second = some k → c.first < k ∧ k < c.after ∧
    (∃ b n, At R (c.thread, k) (.op b .load .consume n x)) ∧
    ∃ v, Finds R rf V (c.thread, k) x v ∧ (c.store = none ↔ v ≠ 0) ∧ (c.store = none → c.result = v)
  /-- doc/examples.qbk:179–182: what `new X` returns is not null -/
  store : ∀ c s, Calls c → c.store = some s → ∃ k, c.second = some k ∧ k < s ∧ s < c.after ∧
    (∃ b n, At R (c.thread, s) (.op b .store .release n x)) ∧ Leaves R V (c.thread, s) c.result ∧ c.result ≠ 0
  /-- nothing else writes `instance_` -/
  others : ∀ id it, At R id it → it.isFence = false → it.loc = x →
    (∃ c s, Calls c ∧ c.store = some s ∧ id = (c.thread, s)) ∨ Peek x it

/-- The same with a mutex of which one knows that it excludes. -/
structure Singleton (R : Mca.Run cpu) (rf : Pos → Option Pos → Prop) (hb : Pos → Pos → Prop) (V : Values) (x : Nat)
    (Calls : InstanceCall → Prop) : Prop extends Instances R rf V x Calls where
  /-- `instantiation_mutex`: what is between lock and unlock in one call happens before or after what is there in
  another one -/
  mutex : ∀ c c' k k', Calls c → Calls c' → c ≠ c' → c.second = some k → c'.second = some k' →
    (∀ s, c.store = some s → OpHb R hb (c.thread, s) (c'.thread, k')) ∨
    (∀ s, c'.store = some s → OpHb R hb (c'.thread, s) (c.thread, k))

/-- The mutex is the spinlock of doc/examples.qbk:90–120, with the sections `Secs`: every call that locks it has a section of
its own, in which are the second load and the store; doc/examples.qbk:177–182. -/
def Guarded (Calls : InstanceCall → Prop) (Secs : Holding → Prop) (sec : InstanceCall → Holding) : Prop :=
  (∀ c k, Calls c → c.second = some k → Secs (sec c) ∧ (sec c).thread = c.thread ∧ (sec c).locked < k ∧
    ∀ u, (sec c).unlock = some u → k < u ∧ ∀ s, c.store = some s → s < u) ∧
  ∀ c c', Calls c → Calls c' → c.second ≠ none → c'.second ≠ none → sec c = sec c' → c = c'

end Verif.Idiom
