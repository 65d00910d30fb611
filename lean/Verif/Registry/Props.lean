import Verif.Registry.Inv
import Verif.Find.Props

/-
C28: the registry of waiters.  C38: its memory and the process-exit cleanup.

All theorems are about every state of the pool reachable by any sequence of calls, with any
number of waiters and addresses, any assignment of addresses to locks, and memory allocation
failing at arbitrary points.
-/

namespace Verif.Registry

variable {w : Nat}

/-! ### Supported platforms -/

/-- 64-bit pointers with any of the search functions. -/
def cfg64 (impl : Find.Impl) (lockOf : BitVec 64 → Nat) : Cfg 64 := ⟨8, Find.runImpl64 impl, lockOf⟩

/-- 32-bit pointers with the generic or the SSE2 search function. -/
def cfg32 (sse2 : Bool) (lockOf : BitVec 32 → Nat) : Cfg 32 :=
  ⟨4, Find.runImpl32 (if sse2 then .sse2 else .generic), lockOf⟩

theorem good_of_answer {w : Nat} {c : Cfg w} (hw : 0 < w) (hf : c.bufferBytes c.initialCapacity < 2 ^ (w - 1))
    (h : ∀ (addr : BitVec w) (A : Find.Arr w) (size : Nat), size ≤ A.cap → A.cap % c.initialCapacity = 0 →
      ∃ p, c.search addr A size = some p ∧ Find.Answer A.get size addr p) : c.Good := by
  refine ⟨fun addr A size h1 h2 => ?_, hf, hw⟩
  obtain ⟨p, e, ha⟩ := h addr A size h1 h2
  exact ⟨p, e, fun hp => (ha.1 hp).1, fun hp j hj => ha.2 hp j hj⟩

/-- The requirements of the theorems below hold on 64-bit platforms, whichever search function
is selected at run time. -/
theorem C28_platform_64 (impl : Find.Impl) (lockOf : BitVec 64 → Nat) : (cfg64 impl lockOf).Good := by
  have hi : (cfg64 impl lockOf).initialCapacity = 2 := by simp [cfg64, Cfg.initialCapacity]
  refine good_of_answer (by decide) (by rw [hi]; simp [cfg64, Cfg.bufferBytes, Cfg.entriesOffset]) ?_
  intro addr A size hs hc
  rw [hi] at hc
  cases impl with
  | generic =>
    obtain ⟨p, e, _, ha⟩ := Find.C29_generic addr A size hs
    exact ⟨p, e, ha⟩
  | sse2 => exact Find.C29_sse2_64 addr A size hs hc
  | sse41 => exact Find.C29_sse41 addr A size hs hc

/-- The requirements of the theorems below hold on 32-bit platforms. -/
theorem C28_platform_32 (sse2 : Bool) (lockOf : BitVec 32 → Nat) : (cfg32 sse2 lockOf).Good := by
  have hi : (cfg32 sse2 lockOf).initialCapacity = 4 := by simp [cfg32, Cfg.initialCapacity]
  refine good_of_answer (by decide) (by rw [hi]; simp [cfg32, Cfg.bufferBytes, Cfg.entriesOffset]) ?_
  intro addr A size hs hc
  rw [hi] at hc
  cases sse2 with
  | false =>
    obtain ⟨p, e, _, ha⟩ := Find.C29_generic addr A size hs
    exact ⟨p, e, ha⟩
  | true => exact Find.C29_sse2_32 addr A size hs hc

/-! ### C28 -/

/-- No call ever faults: no null or dangling pointer is followed, no assertion fails, no array
is accessed out of bounds. -/
theorem C28_no_fault {c : Cfg w} (hg : c.Good) {s : Pool w} (hr : Reach c s) {op : Op w} (ha : op.Allowed s) :
    ∃ s' o, step c s op = some (s', o) ∧ Reach c s' := by
  obtain ⟨s', o, e, _⟩ := inv_step hg (inv_reach hg hr) ha
  exact ⟨s', o, e, .step hr ha e⟩

/-- An entry of a table pairs an address with a wait state exactly if a waiting operation on
that address holds that wait state: no stale and no missing entries. -/
theorem C28_entry_iff_waiter {c : Cfg w} (hg : c.Good) {s : Pool w} (hr : Reach c s) (a : BitVec w) (id : Id) :
    Entry c s a id ↔ WaitsOn s a id := by
  obtain ⟨tops, owner, h⟩ := inv_reach hg hr
  constructor
  · intro ⟨b, i, hb, hi, ha, hs⟩
    have hv := view_some hb
    have hsl := (h.shape (c.lockOf a)).b.size_le
    obtain ⟨ho, _, hp⟩ := h.refs (c.lockOf a) i id (by rw [hv] at hsl; omega) (by rw [hv]; exact hs)
    obtain ⟨x, hx, hxh⟩ := holders_pos.1 (hp.1 (by rw [hv]; exact hi))
    refine ⟨x, hx, ?_, hxh⟩
    obtain ⟨j, h1, h2, h3⟩ := h.wait x hx id hxh
    have hsl' := (h.shape (c.lockOf x.addr)).b.size_le
    have hk : c.lockOf x.addr = c.lockOf a := by
      rw [← ho]; exact (h.refs _ j id (by omega) h3).1.symm
    rw [hk] at h1 h2 h3 hsl'
    have : j = i := (h.shape _).b.id_unique (by omega) (by rw [hv] at hsl; omega) h3 (by rw [hv]; exact hs)
    subst this
    rw [hv] at h2
    rw [← h2, ha]
  · intro ⟨x, hx, hxa, hxh⟩
    obtain ⟨j, h1, h2, h3⟩ := h.wait x hx id hxh
    rw [hxa] at h1 h2 h3
    cases hb : (s.lists (c.lockOf a)).hdr with
    | none => rw [view_none hb] at h1; exact absurd h1 (by simp [emptyBuf])
    | some b =>
      rw [view_some hb] at h1 h2 h3
      exact ⟨b, j, hb, h1, h2, h3⟩

/-- An address has at most one entry. -/
theorem C28_entry_unique {c : Cfg w} (hg : c.Good) {s : Pool w} (hr : Reach c s) (k : Nat) (b : Buf w)
    (hb : (s.lists k).hdr = some b) (i j : Nat) (hi : i < b.size) (hj : j < b.size)
    (he : b.addrs i = b.addrs j) : i = j := by
  obtain ⟨tops, owner, h⟩ := inv_reach hg hr
  have := (h.shape k).b.inj i j
  rw [view_some hb] at this
  exact this hi hj he

/-- Two waiting operations share a wait state exactly if they wait on the same object. -/
theorem C28_same_state_iff_same_object {c : Cfg w} (hg : c.Good) {s : Pool w} (hr : Reach c s)
    {x y : Waiter w} (hx : x ∈ s.waiters) (hy : y ∈ s.waiters) {i j : Id}
    (hxi : x.handle = some i) (hyj : y.handle = some j) : i = j ↔ x.addr = y.addr := by
  have ex := (C28_entry_iff_waiter hg hr x.addr i).2 ⟨x, hx, rfl, hxi⟩
  have ey := (C28_entry_iff_waiter hg hr y.addr j).2 ⟨y, hy, rfl, hyj⟩
  obtain ⟨tops, owner, h⟩ := inv_reach hg hr
  constructor
  · intro e
    subst e
    obtain ⟨p, p1, p2, p3⟩ := h.wait x hx i hxi
    obtain ⟨q, q1, q2, q3⟩ := h.wait y hy i hyj
    have s1 := (h.shape (c.lockOf x.addr)).b.size_le
    have s2 := (h.shape (c.lockOf y.addr)).b.size_le
    have hk : c.lockOf y.addr = c.lockOf x.addr := by
      rw [← (h.refs _ p i (by omega) p3).1]; exact (h.refs _ q i (by omega) q3).1.symm
    rw [hk] at q1 q2 q3 s2
    have : p = q := (h.shape _).b.id_unique (by omega) (by omega) p3 q3
    subst this
    rw [← p2, q2]
  · intro e
    rw [← e] at ey
    obtain ⟨b, p, b1, p1, p2, p3⟩ := ex
    obtain ⟨b', q, b2, q1, q2, q3⟩ := ey
    rw [b1] at b2; cases b2
    have := C28_entry_unique hg hr _ b b1 p q p1 q1 (by rw [p2, q2])
    subst this
    rw [p3] at q3; cases q3; rfl

/-- A notification on an object signals exactly the wait state held by the waiting operations
on that object, and nothing if there is none; it does not change the registry. -/
theorem C28_notify_exact {c : Cfg w} (hg : c.Good) {s : Pool w} (hr : Reach c s) (a : BitVec w) :
    ∃ r, step c s (.notify a) = some (s, .signalled r) ∧ ∀ id, r = some id ↔ WaitsOn s a id := by
  have hent := C28_entry_iff_waiter hg hr a
  obtain ⟨tops, owner, h⟩ := inv_reach hg hr
  obtain ⟨r, e, hiff⟩ := notify_step hg h a
  refine ⟨r, e, fun id => ?_⟩
  rw [hiff, ← hent]
  constructor
  · intro ⟨j, h1, h2, h3⟩
    cases hb : (s.lists (c.lockOf a)).hdr with
    | none => rw [view_none hb] at h1; exact absurd h1 (by simp [emptyBuf])
    | some b =>
      rw [view_some hb] at h1 h2 h3
      exact ⟨b, j, hb, h1, h2, h3⟩
  · intro ⟨b, j, hb, h1, h2, h3⟩
    rw [view_some hb]
    exact ⟨j, h1, h2, h3⟩

/-- Every waiting operation with a wait state is reached by the notifications on its object,
and only by those. -/
theorem C28_waiter_signalled_iff {c : Cfg w} (hg : c.Good) {s : Pool w} (hr : Reach c s) {x : Waiter w}
    (hx : x ∈ s.waiters) {id : Id} (hid : x.handle = some id) (a : BitVec w) :
    step c s (.notify a) = some (s, .signalled (some id)) ↔ a = x.addr := by
  obtain ⟨r, e, hiff⟩ := C28_notify_exact hg hr a
  rw [e]
  constructor
  · intro h
    cases h
    obtain ⟨y, hy, hya, hyh⟩ := (hiff id).1 rfl
    rw [← hya]
    exact ((C28_same_state_iff_same_object hg hr hy hx hyh hid).1 rfl)
  · intro h
    subst h
    rw [(hiff id).2 ⟨x, hx, rfl, hid⟩]

/-- The reference count of every allocated wait state is the number of waiting operations
that hold it. -/
theorem C28_refcount {c : Cfg w} (hg : c.Good) {s : Pool w} (hr : Reach c s) {id : Id} {st : WState}
    (hst : s.heap id = some st) : st.refCount = holders s.waiters id := by
  obtain ⟨tops, owner, h⟩ := inv_reach hg hr
  obtain ⟨k, i, hi, he⟩ := h.cover id (by rw [hst]; simp)
  obtain ⟨_, ⟨y, e1, e2⟩, _⟩ := h.refs k i id hi he
  rw [hst] at e1; cases e1; exact e2

/-- Registering: if the object already has waiters, their wait state is returned whatever the
allocator does.  Otherwise the result is a wait state that nobody holds, or null when memory
is exhausted, in which case no one's registration changes. -/
theorem C28_register {c : Cfg w} (hg : c.Good) {s s' : Pool w} (hr : Reach c s) {tid : Nat} {a : BitVec w}
    {bufOk : Bool} {ws : Option Id} (ha : (Op.register tid a bufOk ws).Allowed s) {o : Obs}
    (he : step c s (.register tid a bufOk ws) = some (s', o)) :
    ∃ r, o = .handle r ∧ s'.waiters = ⟨tid, a, r⟩ :: s.waiters ∧
      (∀ id, WaitsOn s a id → r = some id) ∧
      ((∀ id, ¬ WaitsOn s a id) → ∀ id, r = some id → holders s.waiters id = 0) ∧
      (r = none → bufOk = false ∨ ws = none ∨
        ∃ b, (s.lists (c.lockOf a)).hdr = some b ∧ 2 ^ (w - 1) ≤ c.bufferBytes (b.capacity * 2)) := by
  have hent := C28_entry_iff_waiter hg hr a
  obtain ⟨tops, owner, h⟩ := inv_reach hg hr
  obtain ⟨L', heap', r, e, _, heap₁, hf⟩ := register_step hg h tid a bufOk ws ha.2
  rw [he] at e
  cases e
  have hwaits : ∀ id, WaitsOn s a id → ∃ j, j < (s.lists (c.lockOf a)).view.size ∧
      (s.lists (c.lockOf a)).view.addrs j = a ∧ (s.lists (c.lockOf a)).view.states j = some id := by
    intro id hw
    obtain ⟨x, hx, hxa, hxh⟩ := hw
    have := h.wait x hx id hxh
    rw [hxa] at this; exact this
  have hno : (∀ id, ¬ WaitsOn s a id) → ∀ j, j < (s.lists (c.lockOf a)).view.size →
      (s.lists (c.lockOf a)).view.addrs j ≠ a := by
    intro hn j hj hja
    obtain ⟨id, x, e1, _⟩ := (h.shape (c.lockOf a)).b.st j (by have := (h.shape (c.lockOf a)).b.size_le; omega)
    cases hb : (s.lists (c.lockOf a)).hdr with
    | none => rw [view_none hb] at hj; exact absurd hj (by simp [emptyBuf])
    | some b =>
      rw [view_some hb] at hj hja e1
      exact hn id ((hent id).1 ⟨b, j, hb, hj, hja, e1⟩)
  have hmem : NoMemory c (s.lists (c.lockOf a)) bufOk ws → bufOk = false ∨ ws = none ∨
        ∃ b, (s.lists (c.lockOf a)).hdr = some b ∧ 2 ^ (w - 1) ≤ c.bufferBytes (b.capacity * 2) := by
    intro hm
    rcases hm with hm | hm | hm
    · exact Or.inl hm
    · exact Or.inr (Or.inl hm)
    · refine Or.inr (Or.inr ?_)
      cases hb : (s.lists (c.lockOf a)).hdr with
      | none =>
        exfalso
        rw [view_none hb] at hm
        have := hg.initial_fits
        simp [emptyBuf, Cfg.bufferBytes] at hm this
        omega
      | some b => rw [view_some hb] at hm; exact ⟨b, rfl, hm⟩
  refine ⟨r, rfl, rfl, ?_, ?_, ?_⟩
  · intro id hw
    obtain ⟨j, h1, h2, h3⟩ := hwaits id hw
    cases hf with
    | failed _ hn => exact absurd h2 (hn j h1)
    | found g1 g2 g3 =>
      have := (h.shape _).b.inj _ _ h1 g1 (by rw [h2, g2])
      subst this
      rw [← g3]; exact h3
    | reused _ _ hn => exact absurd h2 (hn j h1)
    | created _ _ hn => exact absurd h2 (hn j h1)
  · intro hn id hid
    have hn' := hno hn
    subst hid
    cases hf with
    | found g1 g2 g3 => exact absurd g2 (hn' _ g1)
    | reused g1 g2 =>
      have := (h.refs _ _ _ g1 g2).2.2
      have : ¬ 0 < holders s.waiters id := fun hp => Nat.lt_irrefl _ (this.2 hp)
      omega
    | created g1 g2 =>
      apply Nat.eq_zero_of_not_pos
      intro hp
      obtain ⟨y, hy, hyh⟩ := holders_pos.1 hp
      obtain ⟨st, e, _⟩ := h.heap_of_handle hy hyh
      rw [ha.2 id g2] at e; cases e
  · intro hn
    subst hn
    cases hf with
    | failed hm => exact hmem hm

/-- A waiting operation that ends leaves the registration of the others alone, and the wait
state of its object stays registered exactly as long as somebody else holds it. -/
theorem C28_unregister {c : Cfg w} (hg : c.Good) {s s' : Pool w} (hr : Reach c s) {x : Waiter w}
    (hx : x ∈ s.waiters) {o : Obs} (he : step c s (.unregister x) = some (s', o)) (a : BitVec w) (id : Id) :
    s'.waiters = s.waiters.erase x ∧ (Entry c s' a id ↔ ∃ y ∈ s.waiters.erase x, y.addr = a ∧ y.handle = some id) := by
  have hr' : Reach c s' := .step (op := .unregister x) hr hx he
  obtain ⟨tops, owner, h⟩ := inv_reach hg hr
  obtain ⟨L', heap', e, _⟩ := unregister_step h hx
  rw [he] at e
  cases e
  exact ⟨rfl, C28_entry_iff_waiter hg hr' a id⟩

/-- The tables: entries never exceed the capacity, capacities are the initial one doubled some
number of times (so the vector searches stay within the arrays, C29), and unused entries hold
null addresses. -/
theorem C28_table_shape {c : Cfg w} (hg : c.Good) {s : Pool w} (hr : Reach c s) (k : Nat) (b : Buf w)
    (hb : (s.lists k).hdr = some b) :
    b.size ≤ b.capacity ∧ (∃ e, b.capacity = c.initialCapacity * 2 ^ e) ∧
    c.bufferBytes b.capacity < 2 ^ (w - 1) ∧ (∀ i, b.size ≤ i → i < b.capacity → b.addrs i = 0) := by
  obtain ⟨tops, owner, h⟩ := inv_reach hg hr
  have hB := (h.shape k).b
  rw [view_some hb] at hB
  have h1 := hB.size_le
  have h2 := hB.top_le
  exact ⟨by omega, ((h.shape k).cap b hb).1, ((h.shape k).cap b hb).2, hB.spare⟩

/-! ### C38 -/

/-- The wait state of a waiting operation is allocated for as long as the operation is in
progress, including during and after the process-exit cleanup. -/
theorem C38_alive_while_waiting {c : Cfg w} (hg : c.Good) {s : Pool w} (hr : Reach c s) {x : Waiter w}
    (hx : x ∈ s.waiters) {id : Id} (hid : x.handle = some id) :
    s.heap id ≠ none ∧ step c s (.use x) = some (s, .unit) := by
  obtain ⟨tops, owner, h⟩ := inv_reach hg hr
  obtain ⟨st, e, _⟩ := h.heap_of_handle hx hid
  exact ⟨by rw [e]; simp, use_step h hx⟩

/-- A call never releases memory that a waiting operation still in progress holds. -/
theorem C38_never_released_in_use {c : Cfg w} (hg : c.Good) {s s' : Pool w} (hr : Reach c s) {op : Op w}
    (ha : op.Allowed s) {o : Obs} (he : step c s op = some (s', o)) {id : Id} (hu : 0 < holders s'.waiters id) :
    s'.heap id ≠ none := by
  obtain ⟨x, hx, hxh⟩ := holders_pos.1 hu
  exact (C38_alive_while_waiting hg (.step hr ha he) hx hxh).1

/-- Memory of a wait state is not lost: every allocated wait state is in the table of exactly
one lock, where a later registration or the cleanup finds it. -/
theorem C38_not_leaked {c : Cfg w} (hg : c.Good) {s : Pool w} (hr : Reach c s) {id : Id}
    (hid : s.heap id ≠ none) :
    ∃ k b i, (s.lists k).hdr = some b ∧ i < b.capacity ∧ b.states i = some id ∧
      ∀ k' b' i', (s.lists k').hdr = some b' → i' < b'.capacity → b'.states i' = some id → k' = k ∧ i' = i := by
  obtain ⟨tops, owner, h⟩ := inv_reach hg hr
  obtain ⟨k, i, hi, he⟩ := h.cover id hid
  have hB := (h.shape k).b
  cases hb : (s.lists k).hdr with
  | none =>
    have := hB.top_le
    rw [view_none hb] at this
    simp [emptyBuf] at this
    omega
  | some b =>
    have hv := view_some hb
    have htl := hB.top_le
    rw [hv] at he htl
    refine ⟨k, b, i, hb, by omega, he, ?_⟩
    intro k' b' i' hb' hi' he'
    have hv' := view_some hb'
    have ht' : i' < tops k' := (h.shape k').b.lt_top (by rw [hv']; exact hi') (by rw [hv']; exact he')
    have ho := (h.refs k i id hi (by rw [hv]; exact he)).1
    have ho' := (h.refs k' i' id ht' (by rw [hv']; exact he')).1
    have hk : k' = k := by rw [← ho, ← ho']
    subst hk
    rw [hb] at hb'; cases hb'
    exact ⟨rfl, hB.id_unique ht' hi (by rw [hv]; exact he') (by rw [hv]; exact he)⟩

theorem freeMemory_step {c : Cfg w} (hg : c.Good) {s s' : Pool w} (hi : Inv c s) {op : Op w}
    (ha : op.Allowed s) {o : Obs} (he : step c s op = some (s', o)) (k : Nat)
    (hf : (s.lists k).freeMemory = true) : (s'.lists k).freeMemory = true := by
  obtain ⟨tops, owner, h⟩ := hi
  have key : ∀ k₀ (L' : WList w), ((s.lists k₀).freeMemory = true → L'.freeMemory = true) →
      (upd s.lists k₀ L' k).freeMemory = true := by
    intro k₀ L' hL
    by_cases hk : k = k₀
    · subst hk; rw [upd_same]; exact hL hf
    · rw [upd_other _ _ hk]; exact hf
  cases op with
  | register tid addr bufOk ws =>
    obtain ⟨L', heap', r, e, _, heap₁, hr⟩ := register_step hg h tid addr bufOk ws ha.2
    rw [he] at e; cases e
    apply key
    intro hf'
    cases hr with
    | failed _ _ hfm => rw [hfm]; exact hf'
    | found => exact hf'
    | reused _ _ _ hfm => rw [hfm]; exact hf'
    | created _ _ _ hfm => rw [hfm]; exact hf'
  | unregister x =>
    obtain ⟨L', heap', e, _, _, hfm⟩ := unregister_step h (x := x) ha
    rw [he] at e; cases e
    apply key
    intro hf'; rw [hfm]; exact hf'
  | use x =>
    rw [use_step h (x := x) ha] at he; cases he; exact hf
  | notify a =>
    obtain ⟨r, e, _⟩ := notify_step hg h a
    rw [he] at e; cases e; exact hf
  | cleanup k' =>
    obtain ⟨L', heap', e, _, hfm, _⟩ := cleanup_step h k'
    rw [he] at e; cases e
    apply key
    intro _; exact hfm

theorem runs_reach {c : Cfg w} {s s' : Pool w} (hr : Reach c s) (h : Runs c s s') : Reach c s' := by
  induction h with
  | refl => exact hr
  | step _ ha he ih => exact .step ih ha he

theorem visited_reach {c : Cfg w} {k : Nat} {s : Pool w} (h : Visited c k s) : Reach c s := by
  obtain ⟨hr, he, hrun⟩ := h
  exact runs_reach (.step (op := .cleanup k) hr trivial he) hrun

theorem visited_freeMemory {c : Cfg w} (hg : c.Good) {k : Nat} {s : Pool w} (h : Visited c k s) :
    (s.lists k).freeMemory = true := by
  obtain ⟨hr, he, hrun⟩ := h
  rename_i s₀ s₁ o
  have hr₁ : Reach c s₁ := .step (op := .cleanup k) hr trivial he
  induction hrun with
  | refl =>
    obtain ⟨tops, owner, h⟩ := inv_reach hg hr
    obtain ⟨L', heap', e, _, hfm, _⟩ := cleanup_step h k
    rw [he] at e; cases e
    show (upd s₀.lists k L' k).freeMemory = true
    rw [upd_same]; exact hfm
  | step hrun' ha he' ih =>
    exact freeMemory_step hg (inv_reach hg (runs_reach hr₁ hrun')) ha he' k ih

/-- After the cleanup has visited every lock, no wait state is kept spare: whatever is still
allocated, at any later time, is held by a waiting operation in progress, and it is released
when the last such operation ends. -/
theorem C38_cleanup_leaves_no_spare {c : Cfg w} (hg : c.Good) {s : Pool w}
    (hv : ∀ a, Visited c (c.lockOf a) s) (id : Id) : ¬ Spare s id := by
  intro ⟨hid, hz⟩
  obtain ⟨tops, owner, h⟩ := inv_reach hg (visited_reach (hv 0))
  obtain ⟨k, i, hi, he⟩ := h.cover id hid
  obtain ⟨a, ha⟩ := h.used k (by omega)
  have hf := visited_freeMemory hg (hv a)
  rw [ha] at hf
  have := h.fm k hf
  have hp := (h.refs k i id hi he).2.2.1 (by omega)
  omega

/-- In particular, nothing remains allocated when no waiting operation is in progress. -/
theorem C38_all_released {c : Cfg w} (hg : c.Good) {s : Pool w}
    (hv : ∀ a, Visited c (c.lockOf a) s) (hw : s.waiters = []) (id : Id) : s.heap id = none := by
  cases hh : s.heap id with
  | none => rfl
  | some st =>
    refine absurd ⟨by rw [hh]; simp, ?_⟩ (C38_cleanup_leaves_no_spare hg hv id)
    rw [hw]; rfl

/-- The cleanup of a lock without waiters releases its table as well. -/
theorem C38_cleanup_releases_table {c : Cfg w} (hg : c.Good) {s s' : Pool w} (hr : Reach c s) (k : Nat) {o : Obs}
    (he : step c s (.cleanup k) = some (s', o)) (hw : ∀ x ∈ s.waiters, c.lockOf x.addr = k → x.handle = none) :
    (s'.lists k).hdr = none := by
  have hr' : Reach c s' := .step (op := .cleanup k) hr trivial he
  have hent : ∀ a id, Entry c s' a id → WaitsOn s' a id := fun a id => (C28_entry_iff_waiter hg hr' a id).1
  obtain ⟨tops, owner, h⟩ := inv_reach hg hr
  obtain ⟨L', heap', e, hi, _, hnone⟩ := cleanup_step h k
  rw [he] at e; cases e
  obtain ⟨tops', owner', h'⟩ := hi
  show (upd s.lists k L' k).hdr = none
  rw [upd_same]
  apply hnone
  have hSh := h'.shape k
  apply Nat.eq_zero_of_not_pos
  intro hpos
  have hL : (upd s.lists k L' k) = L' := upd_same _ _ _
  have hSh' : Shape c heap' k L' (tops' k) := by
    have := hSh
    simp only [hL] at this; exact this
  have hsl := hSh'.b.size_le
  obtain ⟨id, x, e1, e2, _⟩ := hSh'.b.st 0 (by omega)
  have hlock := hSh'.b.lock 0 hpos
  cases hb : L'.hdr with
  | none => rw [view_none hb] at hpos; exact absurd hpos (by simp [emptyBuf])
  | some b =>
    rw [view_some hb] at hpos e1 hlock
    have hE : Entry c ⟨upd s.lists k L', heap', s.waiters⟩ (b.addrs 0) id := by
      refine ⟨b, 0, ?_, hpos, rfl, e1⟩
      show (upd s.lists k L' (c.lockOf (b.addrs 0))).hdr = some b
      rw [hlock, hL]; exact hb
    obtain ⟨y, hy, hya, hyh⟩ := hent _ _ hE
    have := hw y hy (by rw [hya]; exact hlock)
    rw [this] at hyh; cases hyh

/-- Waiting keeps working after the cleanup: a registration succeeds whenever memory is
available. -/
theorem C38_usable_after_cleanup {c : Cfg w} (hg : c.Good) {s : Pool w} (hr : Reach c s) (tid : Nat) (a : BitVec w)
    (id : Id) (htid : ∀ x ∈ s.waiters, x.tid ≠ tid) (hid : s.heap id = none)
    (hroom : ∀ b, (s.lists (c.lockOf a)).hdr = some b → c.bufferBytes (b.capacity * 2) < 2 ^ (w - 1)) :
    ∃ s' h, step c s (.register tid a true (some id)) = some (s', .handle (some h)) ∧
      step c s' (.notify a) = some (s', .signalled (some h)) := by
  have ha : (Op.register tid a true (some id)).Allowed s := ⟨htid, fun i e => by cases e; exact hid⟩
  obtain ⟨s', o, e, hr'⟩ := C28_no_fault hg hr ha
  obtain ⟨r, ho, hws, _, _, hnone⟩ := C28_register hg hr ha e
  cases r with
  | none =>
    rcases hnone rfl with h | h | ⟨b, hb, h⟩
    · cases h
    · cases h
    · have := hroom b hb; omega
  | some h =>
    subst ho
    refine ⟨s', h, e, ?_⟩
    exact (C28_waiter_signalled_iff hg hr' (x := ⟨tid, a, some h⟩) (by rw [hws]; exact List.mem_cons_self)
      rfl a).2 rfl

/-! ### C38: the cleanup is registered once -/

/-- What holds in every interleaving of the registration code. -/
structure OnceInv (s : OnceState) : Prop where
  zero : s.flag = 0 → s.registered = 0 ∧ ∀ t, s.pc t ≠ .register ∧ s.pc t ≠ .done
  one : s.flag ≠ 0 → (s.registered = 1 ∧ ∀ t, s.pc t ≠ .register) ∨
    (s.registered = 0 ∧ ∃ t, s.pc t = .register ∧ ∀ t', s.pc t' = .register → t' = t)

theorem once_inv {s : OnceState} (h : OnceReach s) : OnceInv s := by
  induction h with
  | init => exact ⟨fun _ => ⟨rfl, fun t => ⟨by simp [OnceState.init], by simp [OnceState.init]⟩⟩, fun h => absurd rfl h⟩
  | @step s s' _ hst ih =>
    have keep : ∀ (t : Nat) (p : OncePc), s.pc t ≠ .register → p ≠ .register → s.flag ≠ 0 →
        OnceInv { s with pc := upd s.pc t p } := by
      intro t p h1 h2 hf
      refine ⟨fun h => absurd h hf, fun _ => ?_⟩
      rcases ih.one hf with ⟨a, b⟩ | ⟨a, u, hu, huq⟩
      · refine Or.inl ⟨a, fun t' => ?_⟩
        show upd s.pc t p t' ≠ _
        by_cases e : t' = t
        · subst e; rw [upd_same]; exact h2
        · rw [upd_other _ _ e]; exact b t'
      · refine Or.inr ⟨a, u, ?_, fun t' => ?_⟩
        · show upd s.pc t p u = _
          have : u ≠ t := fun e => by subst e; exact h1 hu
          rw [upd_other _ _ this]; exact hu
        · show upd s.pc t p t' = _ → _
          by_cases e : t' = t
          · subst e; rw [upd_same]; exact fun e => absurd e h2
          · rw [upd_other _ _ e]; exact huq t'
    cases hst with
    | loadZero t hp hf =>
      refine ⟨fun h => ⟨(ih.zero h).1, fun t' => ?_⟩, fun h => absurd hf h⟩
      show upd s.pc t .sawZero t' ≠ _ ∧ upd s.pc t .sawZero t' ≠ _
      by_cases e : t' = t
      · subst e; rw [upd_same]; exact ⟨by simp, by simp⟩
      · rw [upd_other _ _ e]; exact (ih.zero h).2 t'
    | loadSet t hp hf => exact keep t .done (by rw [hp]; simp) (by simp) hf
    | again t hp =>
      have hf : s.flag ≠ 0 := fun h => ((ih.zero h).2 t).2 hp
      exact keep t .start (by rw [hp]; simp) (by simp) hf
    | exchange t hp =>
      by_cases hf : s.flag = 0
      · rw [if_pos hf]
        refine ⟨fun h => absurd h (show ¬ (1 : BitVec 8) = 0 by decide), fun _ => Or.inr ⟨(ih.zero hf).1, t, upd_same _ _ _, fun t' => ?_⟩⟩
        show upd s.pc t .register t' = _ → _
        by_cases e : t' = t
        · exact fun _ => e
        · rw [upd_other _ _ e]; exact fun h => absurd h ((ih.zero hf).2 t').1
      · rw [if_neg hf]
        have := keep t .done (by rw [hp]; simp) (by simp) hf
        exact ⟨fun h => absurd h (show ¬ (1 : BitVec 8) = 0 by decide), fun _ => this.one hf⟩
    | atexit t hp =>
      have hf : s.flag ≠ 0 := fun h => ((ih.zero h).2 t).1 hp
      rcases ih.one hf with ⟨_, b⟩ | ⟨a, u, hu, huq⟩
      · exact absurd hp (b t)
      · refine ⟨fun h => absurd h hf, fun _ => Or.inl ⟨by show s.registered + 1 = 1; omega, fun t' => ?_⟩⟩
        show upd s.pc t .done t' ≠ _
        by_cases e : t' = t
        · subst e; rw [upd_same]; simp
        · rw [upd_other _ _ e]
          intro h
          have e1 := huq t' h
          have e2 := huq t hp
          omega

/-- However many threads allocate tables concurrently, the cleanup is registered at most once,
and once any of them is past the registration code it has been registered or the thread that
does it is about to. -/
theorem C38_registered_once {s : OnceState} (h : OnceReach s) :
    s.registered ≤ 1 ∧
    ((∃ t, s.pc t = .done) → s.registered = 1 ∨ ∃ t, s.pc t = .register) ∧
    ((∃ t, s.pc t = .done) → (∀ t, s.pc t ≠ .register) → s.registered = 1) := by
  have hi := once_inv h
  by_cases hf : s.flag = 0
  · obtain ⟨h1, h2⟩ := hi.zero hf
    exact ⟨by omega, fun ⟨t, ht⟩ => absurd ht (h2 t).2, fun ⟨t, ht⟩ => absurd ht (h2 t).2⟩
  · rcases hi.one hf with ⟨h1, h2⟩ | ⟨h1, t, ht, _⟩
    · exact ⟨by omega, fun _ => Or.inl h1, fun _ _ => h1⟩
    · exact ⟨by omega, fun _ => Or.inr ⟨t, ht⟩, fun _ hn => absurd ht (hn t)⟩

/-! ### Concrete executions

The hypotheses of the theorems above are met by the executions below. -/

/-- `Op.Allowed` as a computation. -/
def allowedB (s : Pool w) : Op w → Bool
  | .register tid _ _ ws => s.waiters.all (fun x => x.tid != tid) &&
      (match ws with | none => true | some id => (s.heap id).isNone)
  | .unregister x => decide (x ∈ s.waiters)
  | .use x => decide (x ∈ s.waiters)
  | .notify _ => true
  | .cleanup _ => true

theorem allowedB_sound {s : Pool w} {op : Op w} (h : allowedB s op = true) : op.Allowed s := by
  cases op with
  | register tid a b ws =>
    simp only [allowedB, Bool.and_eq_true, List.all_eq_true, bne_iff_ne] at h
    refine ⟨h.1, fun id e => ?_⟩
    subst e
    simpa using h.2
  | unregister x => exact of_decide_eq_true (p := x ∈ s.waiters) h
  | use x => exact of_decide_eq_true (p := x ∈ s.waiters) h
  | notify a => trivial
  | cleanup k => trivial

/-- A sequence of calls. -/
def runAll (c : Cfg w) (s : Pool w) : List (Op w) → Option (Pool w × List Obs)
  | [] => some (s, [])
  | op :: ops =>
    if allowedB s op then
      match step c s op with
      | none => none
      | some (s', o) =>
        match runAll c s' ops with
        | none => none
        | some (s'', os) => some (s'', o :: os)
    else none

theorem runAll_runs {c : Cfg w} {s₀ : Pool w} (ops : List (Op w)) : ∀ {s s' : Pool w} {os : List Obs},
    Runs c s₀ s → runAll c s ops = some (s', os) → Runs c s₀ s' := by
  induction ops with
  | nil => intro s s' os h e; cases e; exact h
  | cons op ops ih =>
    intro s s' os h e
    simp only [runAll] at e
    by_cases ha : allowedB s op = true
    · rw [if_pos ha] at e
      cases hs : step c s op with
      | none => rw [hs] at e; cases e
      | some p =>
        obtain ⟨s₁, o⟩ := p
        rw [hs] at e
        simp only at e
        cases hr : runAll c s₁ ops with
        | none => rw [hr] at e; cases e
        | some q =>
          obtain ⟨s₂, os'⟩ := q
          rw [hr] at e
          cases e
          exact ih (.step h (allowedB_sound ha) hs) hr
    · rw [if_neg ha] at e; cases e

/-- All objects on one lock, so that tables grow quickly. -/
abbrev oneLock : Cfg 64 := cfg64 .sse2 (fun _ => 0)

/-- Two waiters on one object, others on three more objects of the same lock: the table grows
from 2 to 4 entries, notifications find the right wait state, and removing the first entry moves
the last one into its place. -/
example : (runAll oneLock (Pool.init 64)
    [.register 1 0x1000 true (some 7), .register 2 0x1000 true none, .register 3 0x2000 true (some 8),
     .register 4 0x3000 true (some 9), .notify 0x1000, .notify 0x4000,
     .unregister ⟨1, 0x1000, some 7⟩, .notify 0x1000, .unregister ⟨2, 0x1000, some 7⟩, .notify 0x1000,
     .notify 0x3000, .register 5 0x4000 false none, .notify 0x4000, .use ⟨5, 0x4000, some 7⟩]).map
      (fun r => (r.2, r.1.waiters.length)) =
    some ([.handle (some 7), .handle (some 7), .handle (some 8), .handle (some 9), .signalled (some 7),
      .signalled none, .unit, .signalled (some 7), .unit, .signalled none, .signalled (some 9),
      .handle (some 7), .signalled (some 7), .unit], 3) := by decide +kernel

/-- Memory exhausted: the waiting operation gets no wait state, the others are unaffected. -/
example : (runAll oneLock (Pool.init 64)
    [.register 1 0x1000 true (some 7), .register 2 0x2000 true (some 8), .register 3 0x3000 false (some 9),
     .notify 0x3000, .notify 0x2000]).map (·.2) =
    some [.handle (some 7), .handle (some 8), .handle none, .signalled none, .signalled (some 8)] := by
  decide +kernel

/-- The cleanup with a waiter in progress and a spare wait state: the spare one is released, the
one in use is not until its waiter ends. -/
example : (runAll oneLock (Pool.init 64)
    [.register 1 0x1000 true (some 7), .register 2 0x2000 true (some 8), .unregister ⟨1, 0x1000, some 7⟩,
     .cleanup 0, .use ⟨2, 0x2000, some 8⟩, .notify 0x2000]).map
      (fun r => (r.2, r.1.heap 7, (r.1.heap 8).isSome)) =
    some ([.handle (some 7), .handle (some 8), .unit, .unit, .unit, .signalled (some 8)], none, true) := by
  decide +kernel

/-- Two threads race to register the cleanup; one of them does. -/
example : ∃ s, OnceReach s ∧ s.pc 0 = .done ∧ s.pc 1 = .done ∧ s.registered = 1 := by
  have r0 := OnceReach.init
  have r1 := OnceReach.step r0 (.loadZero 0 rfl rfl)
  have r2 := OnceReach.step r1 (.loadZero 1 rfl rfl)
  have r3 := OnceReach.step r2 (.exchange 1 rfl)
  have r4 := OnceReach.step r3 (.exchange 0 rfl)
  have r5 := OnceReach.step r4 (.atexit 1 rfl)
  exact ⟨_, r5, rfl, rfl, rfl⟩

/-- Finding F22.  "Once the cleanup has run and no waiting operation is in progress, all memory of
the registry is released" is false for the tables: if, after the cleanup, the table of a lock can
be allocated but the wait state cannot, the empty table stays allocated for good (lines 987-1022 of
src/lock_pool.cpp allocate the table first and do not release it on the failure path).  The theorem
`C38_all_released` covers the wait states. -/
theorem C38_table_after_cleanup_violated :
    ∃ s : Pool 64, (∀ a, Visited oneLock (oneLock.lockOf a) s) ∧ s.waiters = [] ∧ (s.lists 0).hdr ≠ none := by
  obtain ⟨s₁, o, e⟩ : ∃ s₁ o, step oneLock (Pool.init 64) (.cleanup 0) = some (s₁, o) := ⟨_, _, rfl⟩
  have hs : (runAll oneLock s₁ [.register 1 0x1000 true none, .unregister ⟨1, 0x1000, none⟩]).map
      (fun r => (r.1.waiters, (r.1.lists 0).hdr.isSome)) = some ([], true) := by
    cases e
    decide +kernel
  cases hr : runAll oneLock s₁ [.register 1 0x1000 true none, .unregister ⟨1, 0x1000, none⟩] with
  | none => rw [hr] at hs; cases hs
  | some p =>
    obtain ⟨s, os⟩ := p
    rw [hr] at hs
    simp only [Option.map_some, Option.some.injEq, Prod.mk.injEq] at hs
    refine ⟨s, fun a => .intro .init e (runAll_runs _ (.refl _) hr), hs.1, ?_⟩
    intro h
    rw [h] at hs
    cases hs.2

end Verif.Registry
