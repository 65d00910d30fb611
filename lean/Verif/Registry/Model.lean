import Verif.Common.Lin
import Verif.Find.Model

/-
Model of the registry of waiters of the lock pool (C28, C38): `wait_state_list` with its
buffer of addresses and wait states, reference counts, growth, swap-removal, memory pooling
and the process-exit cleanup.

* `src/lock_pool.cpp` 198-310 (`wait_state_base`, `wait_state_list`), 961-971
  (`cleanup_lock_pool`), 983-1130 (`find_or_create`, `erase`, `allocate_buffer`,
  `free_spare`), 1155-1185 (`allocate_wait_state`, `free_wait_state`), 1252-1270 (notify).

Each function below runs while the lock of the list is held (C23 proves mutual exclusion of
the lock), so calls on one list are atomic with respect to each other; calls on lists of
different locks touch disjoint memory, which is part of what is proved (`Inv`).

Memory: a `wait_state` object is an identity (its address) with an entry in `Heap`; it is in
`Heap` exactly while it is allocated.  A null dereference, a use of a freed object, a double
`delete`, an access outside of an array, or a failing `BOOST_ASSERT` is the outcome `none`
("fault"), distinct from every normal result.  Allocations may fail at any time: whether they
do is an input of the operation.

Simplifications: `std::size_t` counters are natural numbers except for the buffer size, where
wrapping would matter (`allocate_buffer`); the platform-specific parts of a wait state
(condition variables, futex words) are not part of the state here (see `Verif/Futex`).
-/

namespace Verif.Registry

open Verif.Find (Arr)

/-- The address of a `wait_state` object. -/
abbrev Id := Nat

/-- `wait_state_base` (src/lock_pool.cpp:202-217): the data members. -/
structure WState where
  refCount : Nat
  index : Nat
  deriving DecidableEq, Repr

/-- The allocated `wait_state` objects. -/
abbrev Heap := Id → Option WState

/-- A list buffer (src/lock_pool.cpp:223-241): header `size`, `capacity` and the two arrays of
`capacity` elements.  A null `wait_state*` is `none`, a null address is `0`. -/
structure Buf (w : Nat) where
  size : Nat
  capacity : Nat
  addrs : Nat → BitVec w
  states : Nat → Option Id

/-- `wait_state_list` (src/lock_pool.cpp:220-243). -/
structure WList (w : Nat) where
  hdr : Option (Buf w)
  freeMemory : Bool

/-- `BOOST_ATOMIC_WAIT_STATE_LIST_INIT` (src/lock_pool.cpp:312). -/
def WList.init (w : Nat) : WList w := ⟨none, false⟩

/-- The platform: pointers of `w` bits, `sizeof(void*)`, the address search selected for it and
the lock (pool index) an address belongs to (`hash_ptr`, `get_lock_index`: modelled in
`Verif/Select`; here an arbitrary function, i.e. any collision pattern). -/
structure Cfg (w : Nat) where
  ptrSize : Nat
  search : BitVec w → Arr w → Nat → Option Nat
  lockOf : BitVec w → Nat

/-- `initial_capacity` (src/lock_pool.cpp:252). -/
def Cfg.initialCapacity {w : Nat} (c : Cfg w) : Nat := if 16 / c.ptrSize < 2 then 2 else 16 / c.ptrSize

/-- `entries_offset` (src/lock_pool.cpp:250), with `sizeof(header) = 2 * sizeof(std::size_t)`
and `entries_alignment = 16`. -/
def Cfg.entriesOffset {w : Nat} (c : Cfg w) : Nat := (2 * c.ptrSize + 15) / 16 * 16

/-- `entries_offset + new_capacity * sizeof(void*) * 2u` (src/lock_pool.cpp:1074), not reduced. -/
def Cfg.bufferBytes {w : Nat} (c : Cfg w) (cap : Nat) : Nat := c.entriesOffset + cap * c.ptrSize * 2

/-- `wait_state_list::find` (src/lock_pool.cpp:286-299).  Outer `none`: fault; inner `none`:
null pointer. -/
def find {w : Nat} (c : Cfg w) (L : WList w) (addr : BitVec w) : Option (Option Id) :=
  match L.hdr with
  | none => some none
  | some b =>
    match c.search addr ⟨b.capacity, b.addrs⟩ b.size with
    | none => none
    | some pos =>
      if pos < b.size then
        if pos < b.capacity then some (b.states pos) else none
      else some none

/-- `allocate_buffer` (src/lock_pool.cpp:1066-1106) without the registration of the cleanup
(see `Once` below).  `ok` says whether the allocator has memory.  The size is computed in
`std::size_t`, i.e. modulo `2^w`; no allocator returns a block of `2^(w-1)` bytes or more
(PTRDIFF_MAX), and writing the arrays into a block that is too small is a fault. -/
def allocate_buffer {w : Nat} (c : Cfg w) (newCap : Nat) (old : Option (Buf w)) (ok : Bool) :
    Option (Option (Buf w)) :=
  let bytes := c.bufferBytes newCap % 2 ^ w
  if ok = false ∨ 2 ^ (w - 1) ≤ bytes then some none
  else if bytes ≠ c.bufferBytes newCap then none
  else
    match old with
    | some o =>
      if newCap < o.capacity then none
      else some (some {
        size := o.size
        capacity := newCap
        addrs := fun i => if i < o.size then o.addrs i else 0
        states := fun i => if i < o.capacity then o.states i else none })
    | none => some (some { size := 0, capacity := newCap, addrs := fun _ => 0, states := fun _ => none })

/-- The first half of `find_or_create` (src/lock_pool.cpp:985-1005): either an early return
(`.inl`, with the list unchanged) or a buffer to put the new entry in. -/
def getRoom {w : Nat} (c : Cfg w) (L : WList w) (addr : BitVec w) (bufOk : Bool) :
    Option (Option Id ⊕ Buf w) :=
  match L.hdr with
  | none =>
    match allocate_buffer c c.initialCapacity none bufOk with
    | none => none
    | some none => some (.inl none)
    | some (some b) => some (.inr b)
  | some b =>
    match find c L addr with
    | none => none
    | some (some ws) => some (.inl (some ws))
    | some none =>
      if b.size = b.capacity then
        match allocate_buffer c (b.capacity * 2) (some b) bufOk with
        | none => none
        | some none => some (.inl none)
        | some (some b') => some (.inr b')
      else some (.inr b)

/-- `get_atomic_pointers()[index] = addr; ++m_header->size;` (src/lock_pool.cpp:1020-1022). -/
def Buf.push {w : Nat} (b : Buf w) (addr : BitVec w) : Buf w :=
  { b with addrs := upd b.addrs b.size addr, size := b.size + 1 }

/-- `find_or_create` (src/lock_pool.cpp:983-1025).  `ws` is the outcome of
`new (std::nothrow) wait_state(index)`: the address of the new object, or `none`. -/
def find_or_create {w : Nat} (c : Cfg w) (L : WList w) (heap : Heap) (addr : BitVec w) (bufOk : Bool)
    (ws : Option Id) : Option (WList w × Heap × Option Id) :=
  match getRoom c L addr bufOk with
  | none => none
  | some (.inl r) => some (L, heap, r)
  | some (.inr b) =>
    if b.capacity ≤ b.size then none
    else
      match b.states b.size with
      | some id => some ({ L with hdr := some (b.push addr) }, heap, some id)
      | none =>
        match ws with
        | none => some ({ L with hdr := some b }, heap, none)
        | some id =>
          some ({ L with hdr := some (Buf.push { b with states := upd b.states b.size (some id) } addr) },
            upd heap id (some ⟨0, b.size⟩), some id)

/-- The loop of `free_spare` (src/lock_pool.cpp:1114-1122), from index `i` on, `n` the
capacity. -/
def freeLoop (n : Nat) (i : Nat) (states : Nat → Option Id) (heap : Heap) :
    Option ((Nat → Option Id) × Heap) :=
  if _h : i < n then
    match states i with
    | none => some (states, heap)
    | some id =>
      match heap id with
      | none => none
      | some _ => freeLoop n (i + 1) (upd states i none) (upd heap id none)
  else some (states, heap)
termination_by n - i

/-- `free_spare` (src/lock_pool.cpp:1109-1130). -/
def free_spare {w : Nat} (L : WList w) (heap : Heap) : Option (WList w × Heap) :=
  match L.hdr with
  | none => some (L, heap)
  | some b =>
    match freeLoop b.capacity b.size b.states heap with
    | none => none
    | some (states, heap) =>
      if b.size = 0 then some ({ L with hdr := none }, heap)
      else some ({ L with hdr := some { b with states := states } }, heap)

/-- `w->m_index = i` through a pointer that may be null or dangling. -/
def setIndex (heap : Heap) (p : Option Id) (i : Nat) : Option Heap :=
  match p with
  | none => none
  | some id =>
    match heap id with
    | none => none
    | some x => some (upd heap id (some { x with index := i }))

/-- The end of `erase`: `if (m_free_memory) free_spare();` (src/lock_pool.cpp:1061-1062). -/
def eraseTail {w : Nat} (L : WList w) (heap : Heap) : Option (WList w × Heap) :=
  if L.freeMemory then free_spare L heap else some (L, heap)

/-- `erase` (src/lock_pool.cpp:1028-1063). -/
def erase {w : Nat} (L : WList w) (heap : Heap) (id : Id) : Option (WList w × Heap) :=
  match L.hdr, heap id with
  | some b, some x =>
    let index := x.index
    if ¬ index < b.size then none
    else if b.states index ≠ some id then none
    else
      let last := b.size - 1
      if index ≠ last then
        let addrs := upd (upd b.addrs index (b.addrs last)) last 0
        let lastW := b.states last
        let states := upd (upd b.states index lastW) last (some id)
        match setIndex heap lastW index with
        | none => none
        | some heap₁ =>
          match setIndex heap₁ (some id) last with
          | none => none
          | some heap₂ =>
            eraseTail { L with hdr := some { b with addrs := addrs, states := states, size := b.size - 1 } } heap₂
      else
        eraseTail { L with hdr := some { b with addrs := upd b.addrs index 0, size := b.size - 1 } } heap
  | _, _ => none

/-- `allocate_wait_state` (src/lock_pool.cpp:1155-1170). -/
def allocate_wait_state {w : Nat} (c : Cfg w) (L : WList w) (heap : Heap) (addr : BitVec w) (bufOk : Bool)
    (ws : Option Id) : Option (WList w × Heap × Option Id) :=
  match find_or_create c L heap addr bufOk ws with
  | none => none
  | some (L, heap, none) => some (L, heap, none)
  | some (L, heap, some id) =>
    match heap id with
    | none => none
    | some x => some (L, upd heap id (some { x with refCount := x.refCount + 1 }), some id)

/-- `free_wait_state` (src/lock_pool.cpp:1172-1185).  Decrementing a zero count (which would
wrap around) is a fault. -/
def free_wait_state {w : Nat} (L : WList w) (heap : Heap) (ws : Option Id) : Option (WList w × Heap) :=
  match ws with
  | none => some (L, heap)
  | some id =>
    match heap id with
    | none => none
    | some x =>
      if x.refCount = 0 then none
      else
        let heap := upd heap id (some { x with refCount := x.refCount - 1 })
        if x.refCount - 1 = 0 then erase L heap id else some (L, heap)

/-- One iteration of `cleanup_lock_pool` (src/lock_pool.cpp:965-969). -/
def cleanup_one {w : Nat} (L : WList w) (heap : Heap) : Option (WList w × Heap) :=
  free_spare { L with freeMemory := true } heap

/-! ### The whole pool and its clients -/

/-- A waiting operation in progress: it has constructed its `scoped_wait_state`
(lock_pool.hpp:124-162) for the object at `addr` and got the pointer `handle` (null if memory
was exhausted); `tid` tells waiters apart. -/
structure Waiter (w : Nat) where
  tid : Nat
  addr : BitVec w
  handle : Option Id
  deriving DecidableEq

/-- The pool: one list per lock, the allocated wait states, and the waiting operations in
progress. -/
structure Pool (w : Nat) where
  lists : Nat → WList w
  heap : Heap
  waiters : List (Waiter w)

/-- The pool at program start (src/lock_pool.cpp:946-958). -/
def Pool.init (w : Nat) : Pool w := ⟨fun _ => WList.init w, fun _ => none, []⟩

/-- Calls made on the pool, each under the lock of the address (or of list `k`). -/
inductive Op (w : Nat) where
  /-- a waiting operation starts: `scoped_wait_state(addr)`; the outcomes of the two possible
  allocations are given -/
  | register (tid : Nat) (addr : BitVec w) (bufOk : Bool) (ws : Option Id)
  /-- a waiting operation ends: `~scoped_wait_state` -/
  | unregister (x : Waiter w)
  /-- a waiting operation uses its wait state (`lock_pool::wait` and its timed versions) -/
  | use (x : Waiter w)
  /-- `notify_one` or `notify_all` on the object at `addr` -/
  | notify (addr : BitVec w)
  /-- the cleanup function reaches lock `k` -/
  | cleanup (k : Nat)

/-- What a call lets its caller observe: the handle obtained, or the wait state signalled. -/
inductive Obs where
  | unit
  | handle (h : Option Id)
  | signalled (h : Option Id)
  deriving DecidableEq

/-- When a call can be made: memory for a new object does not overlap objects that exist;
a waiter that is still waiting cannot start another wait; only waiters in progress use or
release their wait state. -/
def Op.Allowed {w : Nat} (s : Pool w) : Op w → Prop
  | .register tid _ _ ws => (∀ x ∈ s.waiters, x.tid ≠ tid) ∧ ∀ id, ws = some id → s.heap id = none
  | .unregister x => x ∈ s.waiters
  | .use x => x ∈ s.waiters
  | .notify _ => True
  | .cleanup _ => True

/-- The effect of a call; `none` is a fault. -/
def step {w : Nat} (c : Cfg w) (s : Pool w) : Op w → Option (Pool w × Obs)
  | .register tid addr bufOk ws =>
    match allocate_wait_state c (s.lists (c.lockOf addr)) s.heap addr bufOk ws with
    | none => none
    | some (L, heap, h) =>
      some (⟨upd s.lists (c.lockOf addr) L, heap, ⟨tid, addr, h⟩ :: s.waiters⟩, .handle h)
  | .unregister x =>
    match free_wait_state (s.lists (c.lockOf x.addr)) s.heap x.handle with
    | none => none
    | some (L, heap) =>
      some (⟨upd s.lists (c.lockOf x.addr) L, heap, s.waiters.erase x⟩, .unit)
  | .use x =>
    match x.handle with
    | none => some (s, .unit)
    | some id =>
      match s.heap id with
      | none => none
      | some _ => some (s, .unit)
  | .notify addr =>
    match find c (s.lists (c.lockOf addr)) addr with
    | none => none
    | some none => some (s, .signalled none)
    | some (some id) =>
      match s.heap id with
      | none => none
      | some _ => some (s, .signalled (some id))
  | .cleanup k =>
    match cleanup_one (s.lists k) s.heap with
    | none => none
    | some (L, heap) => some (⟨upd s.lists k L, heap, s.waiters⟩, .unit)

/-- The states of the pool that some sequence of calls leads to. -/
inductive Reach {w : Nat} (c : Cfg w) : Pool w → Prop where
  | init : Reach c (Pool.init w)
  | step {s s' : Pool w} {op : Op w} {o : Obs} :
      Reach c s → op.Allowed s → step c s op = some (s', o) → Reach c s'

/-! ### Registration of the cleanup (src/lock_pool.cpp:1068-1072, once_flag.hpp)

`allocate_buffer` runs under the lock of one list, but the flag is shared by all lists, so the
load and the exchange of different threads interleave. -/

/-- Where a thread is in the prologue of `allocate_buffer`. -/
inductive OncePc where
  | start
  | sawZero
  | register
  | done
  deriving DecidableEq

/-- The flag, the number of times `std::atexit(&cleanup_lock_pool)` was called, and the threads. -/
structure OnceState where
  flag : BitVec 8
  registered : Nat
  pc : Nat → OncePc

/-- One atomic step of thread `t`. -/
inductive OnceStep : OnceState → OnceState → Prop where
  /-- `once_flag_operations::load(...) == 0u` (line 1068) holds -/
  | loadZero {s : OnceState} (t : Nat) : s.pc t = .start → s.flag = 0 →
      OnceStep s { s with pc := upd s.pc t .sawZero }
  /-- it does not hold: skip the block -/
  | loadSet {s : OnceState} (t : Nat) : s.pc t = .start → s.flag ≠ 0 →
      OnceStep s { s with pc := upd s.pc t .done }
  /-- `once_flag_operations::exchange(..., 1u, ...)` (line 1070) -/
  | exchange {s : OnceState} (t : Nat) : s.pc t = .sawZero →
      OnceStep s ⟨1, s.registered, upd s.pc t (if s.flag = 0 then .register else .done)⟩
  /-- `std::atexit(&cleanup_lock_pool)` (line 1071) -/
  | atexit {s : OnceState} (t : Nat) : s.pc t = .register →
      OnceStep s ⟨s.flag, s.registered + 1, upd s.pc t .done⟩
  /-- the thread calls `allocate_buffer` again later -/
  | again {s : OnceState} (t : Nat) : s.pc t = .done →
      OnceStep s { s with pc := upd s.pc t .start }

/-- `static once_flag g_pool_cleanup_registered = {};` (src/lock_pool.cpp:974). -/
def OnceState.init : OnceState := ⟨0, 0, fun _ => .start⟩

/-- States reachable by any interleaving of any number of threads. -/
inductive OnceReach : OnceState → Prop where
  | init : OnceReach OnceState.init
  | step {s s' : OnceState} : OnceReach s → OnceStep s s' → OnceReach s'

end Verif.Registry
