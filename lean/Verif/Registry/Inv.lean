import Verif.Registry.Lemmas

/-
The invariant of the pool and its preservation by every call.
-/

namespace Verif.Registry

variable {w : Nat}

/-! ### Counting holders -/

theorem holders_cons (x : Waiter w) (ws : List (Waiter w)) (id : Id) :
    holders (x :: ws) id = holders ws id + (if x.handle = some id then 1 else 0) := by
  unfold holders
  rw [List.countP_cons]
  by_cases h : x.handle = some id <;> simp [h]

theorem holders_erase {x : Waiter w} {ws : List (Waiter w)} (h : x ∈ ws) (id : Id) :
    holders ws id = holders (ws.erase x) id + (if x.handle = some id then 1 else 0) := by
  rw [← holders_cons]
  exact (List.perm_cons_erase h).countP_eq _

theorem holders_pos {ws : List (Waiter w)} {id : Id} :
    0 < holders ws id ↔ ∃ x ∈ ws, x.handle = some id := by
  unfold holders
  rw [List.countP_pos_iff]
  simp

/-! ### The invariant -/

/-- The invariant of the pool; `tops k` is the number of wait states allocated for list `k`,
`owner` tells which list an allocated wait state belongs to. -/
structure InvAt (c : Cfg w) (s : Pool w) (tops : Nat → Nat) (owner : Id → Nat) : Prop where
  shape : ∀ k, Shape c s.heap k (s.lists k) (tops k)
  refs : ∀ k i id, i < tops k → (s.lists k).view.states i = some id →
    owner id = k ∧ (∃ x, s.heap id = some x ∧ x.refCount = holders s.waiters id) ∧
    (i < (s.lists k).view.size ↔ 0 < holders s.waiters id)
  fm : ∀ k, (s.lists k).freeMemory = true → tops k = (s.lists k).view.size
  cover : ∀ id, s.heap id ≠ none → ∃ k i, i < tops k ∧ (s.lists k).view.states i = some id
  wait : ∀ x ∈ s.waiters, ∀ id, x.handle = some id →
    ∃ j, j < (s.lists (c.lockOf x.addr)).view.size ∧ (s.lists (c.lockOf x.addr)).view.addrs j = x.addr ∧
      (s.lists (c.lockOf x.addr)).view.states j = some id
  used : ∀ k, 0 < tops k → ∃ a, c.lockOf a = k

/-- The invariant. -/
def Inv (c : Cfg w) (s : Pool w) : Prop := ∃ tops owner, InvAt c s tops owner

theorem inv_init (c : Cfg w) : Inv c (Pool.init w) := by
  refine ⟨fun _ => 0, fun _ => 0, fun k => shape_init c _ k, ?_, ?_, ?_, ?_, ?_⟩
  · intro k i id hi; omega
  · intro k h; cases h
  · intro id h; exact absurd rfl h
  · intro x hx; cases hx
  · intro k hk; exact absurd hk (Nat.lt_irrefl 0)

theorem InvAt.heap_of_handle {c : Cfg w} {s : Pool w} {tops : Nat → Nat} {owner : Id → Nat}
    (h : InvAt c s tops owner) {x : Waiter w} (hx : x ∈ s.waiters) {id : Id} (hid : x.handle = some id) :
    ∃ st, s.heap id = some st ∧ st.refCount = holders s.waiters id ∧ owner id = c.lockOf x.addr := by
  obtain ⟨j, h1, _, h3⟩ := h.wait x hx id hid
  have := (h.shape (c.lockOf x.addr)).b.size_le
  obtain ⟨ho, ⟨st, e1, e2⟩, _⟩ := h.refs _ j id (by omega) h3
  exact ⟨st, e1, e2, ho⟩

/-- Calls touch one list, its wait states and the waiters of its addresses. -/
theorem InvAt.update {c : Cfg w} {s : Pool w} {tops : Nat → Nat} {owner : Id → Nat}
    (h : InvAt c s tops owner) {k : Nat} {L' : WList w} {heap' : Heap} {ws' : List (Waiter w)} {top' : Nat}
    {owner' : Id → Nat}
    (hSh : Shape c heap' k L' top')
    (hframe : ∀ id, s.heap id ≠ none → owner id ≠ k →
      heap' id = s.heap id ∧ holders ws' id = holders s.waiters id ∧ owner' id = owner id)
    (hrefs : ∀ i id, i < top' → L'.view.states i = some id →
      owner' id = k ∧ (∃ x, heap' id = some x ∧ x.refCount = holders ws' id) ∧
      (i < L'.view.size ↔ 0 < holders ws' id))
    (hfm : L'.freeMemory = true → top' = L'.view.size)
    (hcov : ∀ id, heap' id ≠ none → (∃ i, i < top' ∧ L'.view.states i = some id) ∨
      (s.heap id ≠ none ∧ owner id ≠ k))
    (hwait : ∀ x ∈ ws', ∀ id, x.handle = some id →
      (c.lockOf x.addr = k → ∃ j, j < L'.view.size ∧ L'.view.addrs j = x.addr ∧ L'.view.states j = some id) ∧
      (c.lockOf x.addr ≠ k → x ∈ s.waiters))
    (hused : 0 < top' → ∃ a, c.lockOf a = k) :
    InvAt c ⟨upd s.lists k L', heap', ws'⟩ (upd tops k top') owner' := by
  -- the wait states of the other lists
  have hother : ∀ k' i id, k' ≠ k → i < tops k' → (s.lists k').view.states i = some id →
      heap' id = s.heap id ∧ holders ws' id = holders s.waiters id ∧ owner' id = owner id := by
    intro k' i id hk hi hid
    obtain ⟨ho, ⟨x, e, _⟩, _⟩ := h.refs k' i id hi hid
    exact hframe id (by rw [e]; simp) (by rw [ho]; exact hk)
  refine ⟨?_, ?_, ?_, ?_, ?_, ?_⟩
  · intro k'
    show Shape c heap' k' (upd s.lists k L' k') (upd tops k top' k')
    by_cases hk : k' = k
    · subst hk; rw [upd_same, upd_same]; exact hSh
    · rw [upd_other _ _ hk, upd_other _ _ hk]
      refine ⟨(h.shape k').b.frame ?_, (h.shape k').cap⟩
      intro i id x hi hid hx hx2
      refine ⟨x, ?_, hx2⟩
      rw [(hother k' i id hk hi hid).1]; exact hx
  · intro k' i id
    show i < upd tops k top' k' → (upd s.lists k L' k').view.states i = some id →
      owner' id = k' ∧ (∃ x, heap' id = some x ∧ x.refCount = holders ws' id) ∧
      (i < (upd s.lists k L' k').view.size ↔ 0 < holders ws' id)
    by_cases hk : k' = k
    · subst hk; rw [upd_same, upd_same]; exact hrefs i id
    · rw [upd_other _ _ hk, upd_other _ _ hk]
      intro hi hid
      obtain ⟨e1, e2, e3⟩ := hother k' i id hk hi hid
      rw [e1, e2, e3]
      exact h.refs k' i id hi hid
  · intro k'
    show (upd s.lists k L' k').freeMemory = true → upd tops k top' k' = (upd s.lists k L' k').view.size
    by_cases hk : k' = k
    · subst hk; rw [upd_same, upd_same]; exact hfm
    · rw [upd_other _ _ hk, upd_other _ _ hk]; exact h.fm k'
  · intro id hid
    rcases hcov id hid with ⟨i, h1, h2⟩ | ⟨h1, h2⟩
    · refine ⟨k, i, ?_, ?_⟩
      · show i < upd tops k top' k; rw [upd_same]; exact h1
      · show (upd s.lists k L' k).view.states i = some id; rw [upd_same]; exact h2
    · obtain ⟨k', i, h3, h4⟩ := h.cover id h1
      have hk : k' ≠ k := by
        intro hh
        rw [hh] at h3 h4
        exact h2 (h.refs k i id h3 h4).1
      refine ⟨k', i, ?_, ?_⟩
      · show i < upd tops k top' k'; rw [upd_other _ _ hk]; exact h3
      · show (upd s.lists k L' k').view.states i = some id; rw [upd_other _ _ hk]; exact h4
  · intro x hx id hid
    show ∃ j, j < (upd s.lists k L' (c.lockOf x.addr)).view.size ∧
      (upd s.lists k L' (c.lockOf x.addr)).view.addrs j = x.addr ∧
      (upd s.lists k L' (c.lockOf x.addr)).view.states j = some id
    obtain ⟨h1, h2⟩ := hwait x hx id hid
    by_cases hk : c.lockOf x.addr = k
    · rw [hk, upd_same]; exact h1 hk
    · rw [upd_other _ _ hk]; exact h.wait x (h2 hk) id hid
  · intro k'
    show 0 < upd tops k top' k' → ∃ a, c.lockOf a = k'
    by_cases hk : k' = k
    · subst hk; rw [upd_same]; exact hused
    · rw [upd_other _ _ hk]; exact h.used k'

/-! ### Registering -/

/-- After `find_or_create` returned the wait state `id` at position `j` of `L'`, the count is
incremented and the waiter is recorded. -/
theorem InvAt.bump {c : Cfg w} {s : Pool w} {tops : Nat → Nat} {owner : Id → Nat}
    (h : InvAt c s tops owner) (tid : Nat) (addr : BitVec w) {L' : WList w} {heap₁ : Heap} {top₁ : Nat}
    {owner' : Id → Nat} {id : Id} {x : WState} {j : Nat}
    (hSh : Shape c heap₁ (c.lockOf addr) L' top₁) (hx : heap₁ id = some x)
    (hj : j < L'.view.size) (hja : L'.view.addrs j = addr) (hjs : L'.view.states j = some id)
    (hxr : x.refCount = holders s.waiters id)
    (howner : ∀ id', s.heap id' ≠ none → owner' id' = owner id') (hown : owner' id = c.lockOf addr)
    (hheap : ∀ id', id' ≠ id → heap₁ id' = s.heap id')
    (hnew : s.heap id = none ∨ owner id = c.lockOf addr)
    (hP : ∀ i id', i < top₁ → L'.view.states i = some id' → id' ≠ id →
      owner' id' = c.lockOf addr ∧ (∃ y, heap₁ id' = some y ∧ y.refCount = holders s.waiters id') ∧
      (i < L'.view.size ↔ 0 < holders s.waiters id'))
    (hfm : L'.freeMemory = true → top₁ = L'.view.size)
    (hcov : ∀ id', s.heap id' ≠ none → owner id' = c.lockOf addr → ∃ i, i < top₁ ∧ L'.view.states i = some id')
    (hent : ∀ j₀, j₀ < (s.lists (c.lockOf addr)).view.size → ∃ i, i < L'.view.size ∧
      L'.view.addrs i = (s.lists (c.lockOf addr)).view.addrs j₀ ∧
      L'.view.states i = (s.lists (c.lockOf addr)).view.states j₀) :
    InvAt c ⟨upd s.lists (c.lockOf addr) L', upd heap₁ id (some { x with refCount := x.refCount + 1 }),
      ⟨tid, addr, some id⟩ :: s.waiters⟩ (upd tops (c.lockOf addr) top₁) owner' := by
  have hsl := hSh.b.size_le
  have hidx : x.index = j := by
    obtain ⟨id0, x0, e1, e2, e3⟩ := hSh.b.st j (by omega)
    rw [hjs] at e1; cases e1
    rw [hx] at e2; cases e2; exact e3
  have hold : ∀ id', id' ≠ id → holders (⟨tid, addr, some id⟩ :: s.waiters) id' = holders s.waiters id' := by
    intro id' hne
    rw [holders_cons, if_neg]
    · rfl
    · intro hh; cases hh; exact hne rfl
  have hold1 : holders (⟨tid, addr, some id⟩ :: s.waiters) id = holders s.waiters id + 1 := by
    rw [holders_cons, if_pos rfl]
  apply h.update
  · refine ⟨hSh.b.frame ?_, hSh.cap⟩
    intro i id' y hi hid' hy hyi
    by_cases hne : id' = id
    · subst hne
      rw [hx] at hy; cases hy
      exact ⟨_, upd_same _ _ _, hyi⟩
    · exact ⟨y, by rw [upd_other _ _ hne]; exact hy, hyi⟩
  · intro id' h1 h2
    have hne : id' ≠ id := by
      intro hh; subst hh
      rcases hnew with h3 | h3
      · exact h1 h3
      · exact h2 h3
    rw [upd_other _ _ hne, hold id' hne]
    exact ⟨hheap id' hne, rfl, howner id' h1⟩
  · intro i id' hi hid'
    by_cases hne : id' = id
    · subst hne
      refine ⟨hown, ⟨_, upd_same _ _ _, ?_⟩, ?_⟩
      · rw [hold1, ← hxr]
      · rw [hold1]
        have : i = j := hSh.b.id_unique hi (by omega) hid' hjs
        omega
    · rw [upd_other _ _ hne, hold id' hne]
      exact hP i id' hi hid' hne
  · exact hfm
  · intro id' hne
    by_cases hid : id' = id
    · subst hid; left; exact ⟨j, by omega, hjs⟩
    · rw [upd_other _ _ hid, hheap id' hid] at hne
      by_cases ho : owner id' = c.lockOf addr
      · left; exact hcov id' hne ho
      · right; exact ⟨hne, ho⟩
  · intro y hy id' hid'
    rcases List.mem_cons.1 hy with hy | hy
    · subst hy
      cases hid'
      refine ⟨fun _ => ⟨j, hj, hja, hjs⟩, fun hh => absurd rfl hh⟩
    · refine ⟨fun hk => ?_, fun _ => hy⟩
      obtain ⟨j₀, h1, h2, h3⟩ := h.wait y hy id' hid'
      rw [hk] at h1 h2 h3
      obtain ⟨i, h4, h5, h6⟩ := hent j₀ h1
      exact ⟨i, h4, by rw [h5]; exact h2, by rw [h6]; exact h3⟩
  · exact fun _ => ⟨addr, rfl⟩

/-- Everything about a `register` call. -/
theorem register_step {c : Cfg w} (hg : c.Good) {s : Pool w} {tops : Nat → Nat} {owner : Id → Nat}
    (h : InvAt c s tops owner) (tid : Nat) (addr : BitVec w) (bufOk : Bool) (ws : Option Id)
    (hfresh : ∀ id, ws = some id → s.heap id = none) :
    ∃ L' heap' r, step c s (.register tid addr bufOk ws) =
        some (⟨upd s.lists (c.lockOf addr) L', heap', ⟨tid, addr, r⟩ :: s.waiters⟩, .handle r) ∧
      Inv c ⟨upd s.lists (c.lockOf addr) L', heap', ⟨tid, addr, r⟩ :: s.waiters⟩ ∧
      ∃ heap₁, FocResult c (s.lists (c.lockOf addr)) s.heap (c.lockOf addr) (tops (c.lockOf addr)) addr bufOk ws
        L' heap₁ r := by
  have hS := h.shape (c.lockOf addr)
  have hsl := hS.b.size_le
  obtain ⟨L', heap₁, r, he, hr⟩ := foc_spec hg hS addr rfl bufOk ws hfresh
  simp only [step, allocate_wait_state, he]
  cases hr with
  | failed hmem hno hfm hsame hSh =>
    refine ⟨L', s.heap, none, rfl, ?_, s.heap, .failed hmem hno hfm hsame hSh⟩
    have hold : ∀ id', holders (⟨tid, addr, none⟩ :: s.waiters) id' = holders s.waiters id' := by
      intro id'; rw [holders_cons, if_neg (by simp)]; rfl
    refine ⟨_, owner, h.update (top' := tops (c.lockOf addr)) hSh ?_ ?_ ?_ ?_ ?_ (fun _ => ⟨addr, rfl⟩)⟩
    · intro id' _ _; exact ⟨rfl, hold id', rfl⟩
    · intro i id' hi hid'
      rw [hsame.states i hi] at hid'
      rw [hold, hsame.size]
      exact h.refs _ i id' hi hid'
    · intro hh; rw [hsame.size]; rw [hfm] at hh; exact h.fm _ hh
    · intro id' hne
      by_cases ho : owner id' = c.lockOf addr
      · left
        obtain ⟨k', i, h3, h4⟩ := h.cover id' hne
        have : k' = c.lockOf addr := by rw [← ho]; exact (h.refs k' i id' h3 h4).1.symm
        rw [this] at h3 h4
        exact ⟨i, h3, by rw [hsame.states i h3]; exact h4⟩
      · right; exact ⟨hne, ho⟩
    · intro y hy id' hid'
      rcases List.mem_cons.1 hy with hy | hy
      · subst hy; cases hid'
      · refine ⟨fun hk => ?_, fun _ => hy⟩
        obtain ⟨j₀, h1, h2, h3⟩ := h.wait y hy id' hid'
        rw [hk] at h1 h2 h3
        refine ⟨j₀, by rw [hsame.size]; exact h1, by rw [hsame.addrs j₀ h1]; exact h2, ?_⟩
        rw [hsame.states j₀ (by omega)]; exact h3
  | @found id j hj hja hjs =>
    obtain ⟨ho, ⟨x, hx, hxr⟩, _⟩ := h.refs _ j id (by omega) hjs
    simp only [hx]
    refine ⟨_, _, some id, rfl, ⟨_, owner, h.bump (owner' := owner) tid addr hS hx hj hja hjs hxr
      (fun _ _ => rfl) ho (fun _ _ => rfl) (Or.inr ho) ?_ (h.fm _) ?_ ?_⟩, s.heap, .found hj hja hjs⟩
    · intro i id' hi hid' _
      exact h.refs _ i id' hi hid'
    · intro id' hne ho'
      obtain ⟨k', i, h3, h4⟩ := h.cover id' hne
      have : k' = c.lockOf addr := by rw [← ho']; exact (h.refs k' i id' h3 h4).1.symm
      rw [this] at h3 h4
      exact ⟨i, h3, h4⟩
    · intro j₀ hj₀
      exact ⟨j₀, hj₀, rfl, rfl⟩
  | @reused _ id hlt hst hno hfm happ hSh =>
    obtain ⟨ho, ⟨x, hx, hxr⟩, _⟩ := h.refs _ _ id hlt hst
    simp only [hx]
    refine ⟨_, _, some id, rfl, ⟨_, owner, h.bump (owner' := owner) (j := (s.lists (c.lockOf addr)).view.size)
      tid addr hSh hx ?_ happ.new_addr happ.new_state hxr
      (fun _ _ => rfl) ho (fun _ _ => rfl) (Or.inr ho) ?_ ?_ ?_ ?_⟩, s.heap, .reused hlt hst hno hfm happ hSh⟩
    · rw [happ.size]; omega
    · intro i id' hi hid' hne
      rw [happ.states i hi] at hid'
      obtain ⟨o1, o2, o3⟩ := h.refs _ i id' hi hid'
      refine ⟨o1, o2, ?_⟩
      rw [← o3, happ.size]
      have : i ≠ (s.lists (c.lockOf addr)).view.size := by
        intro hh; subst hh
        rw [hst] at hid'; cases hid'; exact hne rfl
      omega
    · intro hh
      rw [hfm] at hh
      have := h.fm _ hh
      omega
    · intro id' hne ho'
      obtain ⟨k', i, h3, h4⟩ := h.cover id' hne
      have : k' = c.lockOf addr := by rw [← ho']; exact (h.refs k' i id' h3 h4).1.symm
      rw [this] at h3 h4
      exact ⟨i, h3, by rw [happ.states i h3]; exact h4⟩
    · intro j₀ hj₀
      exact ⟨j₀, by rw [happ.size]; omega, happ.addrs j₀ hj₀, happ.states j₀ (by omega)⟩
  | @created _ id htop hws hno hfm happ hSh =>
    have hnone := hfresh id hws
    have hz : holders s.waiters id = 0 := by
      apply Nat.eq_zero_of_not_pos
      intro hpos
      obtain ⟨y, hy, hyh⟩ := holders_pos.1 hpos
      obtain ⟨st, e, _⟩ := h.heap_of_handle hy hyh
      rw [hnone] at e; cases e
    simp only [upd_same]
    refine ⟨_, _, some id, rfl, ⟨_, upd owner id (c.lockOf addr), h.bump (owner' := upd owner id (c.lockOf addr))
      (j := (s.lists (c.lockOf addr)).view.size)
      tid addr hSh (upd_same _ _ _) ?_ happ.new_addr happ.new_state (by rw [hz])
      ?_ (upd_same _ _ _) ?_ (Or.inl hnone) ?_ ?_ ?_ ?_⟩, _, .created htop hws hno hfm happ hSh⟩
    · rw [happ.size]; omega
    · intro id' hne
      rw [upd_other]
      intro hh; subst hh; exact hne hnone
    · intro id' hne; rw [upd_other _ _ hne]
    · intro i id' hi hid' hne
      have hi2 : i ≠ tops (c.lockOf addr) := by
        intro hh; subst hh
        have := happ.new_state
        rw [htop] at this
        rw [this] at hid'; cases hid'; exact hne rfl
      have hi3 : i < tops (c.lockOf addr) := by omega
      rw [happ.states i hi3] at hid'
      obtain ⟨o1, ⟨y, o2, o2'⟩, o3⟩ := h.refs _ i id' hi3 hid'
      refine ⟨by rw [upd_other _ _ hne]; exact o1, ⟨y, by rw [upd_other _ _ hne]; exact o2, o2'⟩, ?_⟩
      rw [← o3, happ.size]; omega
    · intro hh
      rw [happ.size, htop]
    · intro id' hne ho'
      obtain ⟨k', i, h3, h4⟩ := h.cover id' hne
      have : k' = c.lockOf addr := by rw [← ho']; exact (h.refs k' i id' h3 h4).1.symm
      rw [this] at h3 h4
      exact ⟨i, by omega, by rw [happ.states i h3]; exact h4⟩
    · intro j₀ hj₀
      exact ⟨j₀, by rw [happ.size]; omega, happ.addrs j₀ hj₀, happ.states j₀ (by omega)⟩

/-! ### Unregistering -/

theorem unregister_step {c : Cfg w} {s : Pool w} {tops : Nat → Nat} {owner : Id → Nat}
    (h : InvAt c s tops owner) {x : Waiter w} (hx : x ∈ s.waiters) :
    ∃ L' heap', step c s (.unregister x) =
        some (⟨upd s.lists (c.lockOf x.addr) L', heap', s.waiters.erase x⟩, .unit) ∧
      Inv c ⟨upd s.lists (c.lockOf x.addr) L', heap', s.waiters.erase x⟩ ∧
      (∀ id, x.handle = some id → holders (s.waiters.erase x) id = 0 →
        (s.lists (c.lockOf x.addr)).freeMemory = true → heap' id = none) ∧
      L'.freeMemory = (s.lists (c.lockOf x.addr)).freeMemory := by
  have hS := h.shape (c.lockOf x.addr)
  have hsl := hS.b.size_le
  simp only [step, free_wait_state]
  cases hh : x.handle with
  | none =>
    refine ⟨_, _, rfl, ⟨_, owner, h.update (top' := tops (c.lockOf x.addr)) hS ?_ ?_ (h.fm _) ?_ ?_ (fun _ => ⟨x.addr, rfl⟩)⟩, ?_, rfl⟩
    · intro id' _ _
      refine ⟨rfl, ?_, rfl⟩
      rw [holders_erase hx id', if_neg (by rw [hh]; simp)]; rfl
    · intro i id' hi hid'
      have e : holders (s.waiters.erase x) id' = holders s.waiters id' := by
        rw [holders_erase hx id', if_neg (by rw [hh]; simp)]; rfl
      rw [e]
      exact h.refs _ i id' hi hid'
    · intro id' hne
      by_cases ho : owner id' = c.lockOf x.addr
      · left
        obtain ⟨k', i, h3, h4⟩ := h.cover id' hne
        have : k' = c.lockOf x.addr := by rw [← ho]; exact (h.refs k' i id' h3 h4).1.symm
        rw [this] at h3 h4
        exact ⟨i, h3, h4⟩
      · right; exact ⟨hne, ho⟩
    · intro y hy id' hid'
      have hy' := List.mem_of_mem_erase hy
      refine ⟨fun hk => ?_, fun _ => hy'⟩
      have := h.wait y hy' id' hid'
      rw [hk] at this; exact this
    · intro id' h'; cases h'
  | some id =>
    obtain ⟨j, hj, hja, hjs⟩ := h.wait x hx id hh
    obtain ⟨ho, ⟨st, hst, hstr⟩, hpos⟩ := h.refs _ j id (by omega) hjs
    have hcount := holders_erase hx id
    rw [if_pos hh] at hcount
    have hold : ∀ id', id' ≠ id → holders (s.waiters.erase x) id' = holders s.waiters id' := by
      intro id' hne
      have := holders_erase hx id'
      rw [if_neg (by rw [hh]; intro e; cases e; exact hne rfl)] at this
      omega
    simp only [hst]
    rw [if_neg (by omega)]
    -- the heap after the decrement
    have hS1 : Shape c (upd s.heap id (some { st with refCount := st.refCount - 1 })) (c.lockOf x.addr)
        (s.lists (c.lockOf x.addr)) (tops (c.lockOf x.addr)) := by
      refine ⟨hS.b.frame ?_, hS.cap⟩
      intro i id' y hi hid' hy hyi
      by_cases hne : id' = id
      · subst hne
        rw [hst] at hy; cases hy
        exact ⟨_, upd_same _ _ _, hyi⟩
      · exact ⟨y, by rw [upd_other _ _ hne]; exact hy, hyi⟩
    by_cases hlast : st.refCount - 1 = 0
    · simp only [hlast, if_true]
      rw [hlast] at hS1
      obtain ⟨L', heap', top', he, hfm, hSh, hfmt, E1, E2, E3, E4, E5⟩ := erase_spec hS1 hj hjs
      rw [he]
      have hz : holders (s.waiters.erase x) id = 0 := by omega
      refine ⟨L', heap', rfl, ⟨_, owner, h.update hSh ?_ ?_ hfmt ?_ ?_ (fun _ => ⟨x.addr, rfl⟩)⟩, ?_, hfm⟩
      · intro id' h1 h2
        have hne : id' ≠ id := fun e => by subst e; exact h2 ho
        refine ⟨?_, hold id' hne, rfl⟩
        rw [E3 id' ?_, upd_other _ _ hne]
        intro i hi hid'
        exact h2 (h.refs _ i id' hi hid').1
      · intro i id' hi hid'
        obtain ⟨i₀, h1, h2, h3, h4⟩ := E1 i hi
        rw [hid'] at h2
        obtain ⟨o1, ⟨z, o2, o2'⟩, o3⟩ := h.refs _ i₀ id' h1 h2.symm
        obtain ⟨a, b', e1, e2, e3⟩ := E4 i id' hi hid'
        refine ⟨o1, ⟨b', e2, ?_⟩, ?_⟩
        · rw [e3]
          by_cases hne : id' = id
          · subst hne
            rw [upd_same] at e1; cases e1
            rw [hz]
          · rw [upd_other _ _ hne, o2] at e1; cases e1
            rw [hold id' hne]; exact o2'
        · rw [h3]
          by_cases hne : id' = id
          · subst hne
            rw [hz]
            have : i₀ = j := hS.b.id_unique h1 (by omega) h2.symm hjs
            omega
          · rw [hold id' hne, ← o3]
            have : i₀ ≠ j := by
              intro e; subst e
              rw [hjs] at h2; cases h2; exact hne rfl
            omega
      · intro id' hne
        by_cases ho' : owner id' = c.lockOf x.addr
        · left
          by_cases hin : ∃ i, i < tops (c.lockOf x.addr) ∧ (s.lists (c.lockOf x.addr)).view.states i = some id'
          · exact E5 id' hne hin
          · exfalso
            have hno : ∀ i, i < tops (c.lockOf x.addr) → (s.lists (c.lockOf x.addr)).view.states i ≠ some id' :=
              fun i hi e => hin ⟨i, hi, e⟩
            have hne2 : id' ≠ id := fun e => by subst e; exact hno j (by omega) hjs
            rw [E3 id' hno, upd_other _ _ hne2] at hne
            obtain ⟨k', i, h3, h4⟩ := h.cover id' hne
            have : k' = c.lockOf x.addr := by rw [← ho']; exact (h.refs k' i id' h3 h4).1.symm
            rw [this] at h3 h4
            exact hno i h3 h4
        · right
          refine ⟨?_, ho'⟩
          have hno : ∀ i, i < tops (c.lockOf x.addr) → (s.lists (c.lockOf x.addr)).view.states i ≠ some id' :=
            fun i hi e => ho' (h.refs _ i id' hi e).1
          have hne2 : id' ≠ id := fun e => by subst e; exact ho' ho
          rw [E3 id' hno, upd_other _ _ hne2] at hne
          exact hne
      · intro y hy id' hid'
        have hy' := List.mem_of_mem_erase hy
        refine ⟨fun hk => ?_, fun _ => hy'⟩
        obtain ⟨j₀, h1, h2, h3⟩ := h.wait y hy' id' hid'
        rw [hk] at h1 h2 h3
        have hne : j₀ ≠ j := by
          intro e; subst e
          rw [hjs] at h3; cases h3
          have : 0 < holders (s.waiters.erase x) id := holders_pos.2 ⟨y, hy, hid'⟩
          omega
        obtain ⟨i, h4, h5, h6⟩ := E2 j₀ h1 hne
        exact ⟨i, h4, by rw [h5]; exact h2, by rw [h6]; exact h3⟩
      · intro id' e _ hfree
        cases e
        have hfree' : L'.freeMemory = true := by rw [hfm]; exact hfree
        cases hcase : heap' id with
        | none => rfl
        | some y =>
          exfalso
          obtain ⟨i, h1, h2⟩ := E5 id (by rw [hcase]; simp) ⟨j, by omega, hjs⟩
          rw [hfmt hfree'] at h1
          obtain ⟨i₀, g1, g2, g3, _⟩ := E1 i (by rw [hfmt hfree']; exact h1)
          rw [h2] at g2
          have : i₀ = j := hS.b.id_unique g1 (by omega) g2.symm hjs
          exact (g3.1 h1).2 this
    · simp only [hlast, if_false]
      refine ⟨_, _, rfl, ⟨_, owner, h.update (top' := tops (c.lockOf x.addr)) hS1 ?_ ?_ (h.fm _) ?_ ?_ (fun _ => ⟨x.addr, rfl⟩)⟩, ?_, rfl⟩
      · intro id' h1 h2
        have hne : id' ≠ id := fun e => by subst e; exact h2 ho
        exact ⟨by rw [upd_other _ _ hne], hold id' hne, rfl⟩
      · intro i id' hi hid'
        obtain ⟨o1, ⟨z, o2, o2'⟩, o3⟩ := h.refs _ i id' hi hid'
        by_cases hne : id' = id
        · subst hne
          refine ⟨o1, ⟨_, upd_same _ _ _, ?_⟩, ?_⟩
          · show st.refCount - 1 = _; omega
          · rw [o3]; omega
        · rw [upd_other _ _ hne, hold id' hne]
          exact ⟨o1, ⟨z, o2, o2'⟩, o3⟩
      · intro id' hne
        have hne' : s.heap id' ≠ none := by
          by_cases e : id' = id
          · subst e; rw [hst]; simp
          · rw [upd_other _ _ e] at hne; exact hne
        by_cases ho : owner id' = c.lockOf x.addr
        · left
          obtain ⟨k', i, h3, h4⟩ := h.cover id' hne'
          have : k' = c.lockOf x.addr := by rw [← ho]; exact (h.refs k' i id' h3 h4).1.symm
          rw [this] at h3 h4
          exact ⟨i, h3, h4⟩
        · right; exact ⟨hne', ho⟩
      · intro y hy id' hid'
        have hy' := List.mem_of_mem_erase hy
        refine ⟨fun hk => ?_, fun _ => hy'⟩
        have := h.wait y hy' id' hid'
        rw [hk] at this; exact this
      · intro id' e hz _
        cases e
        exfalso; omega

/-! ### Cleanup -/

theorem cleanup_step {c : Cfg w} {s : Pool w} {tops : Nat → Nat} {owner : Id → Nat}
    (h : InvAt c s tops owner) (k : Nat) :
    ∃ L' heap', step c s (.cleanup k) = some (⟨upd s.lists k L', heap', s.waiters⟩, .unit) ∧
      Inv c ⟨upd s.lists k L', heap', s.waiters⟩ ∧ L'.freeMemory = true ∧
      (L'.view.size = 0 → L'.hdr = none) := by
  have hS : Shape c s.heap k { s.lists k with freeMemory := true } (tops k) :=
    ⟨(h.shape k).b, (h.shape k).cap⟩
  obtain ⟨L', heap', he, hfm, hSh, hsame, hfree, hkeep, hnone⟩ := free_spare_spec hS
  simp only [step, cleanup_one, he]
  have hv : ({ s.lists k with freeMemory := true } : WList w).view = (s.lists k).view := rfl
  rw [hv] at hSh hsame hfree hkeep hnone
  have hsl := (h.shape k).b.size_le
  refine ⟨L', heap', rfl, ⟨_, owner, h.update hSh ?_ ?_ ?_ ?_ ?_ (fun e => h.used k (by omega))⟩, hfm, fun e => hnone (by rw [← hsame.size]; exact e)⟩
  · intro id' h1 h2
    refine ⟨hkeep id' ?_, rfl, rfl⟩
    intro j _ h4 h5
    exact h2 (h.refs k j id' h4 h5).1
  · intro i id' hi hid'
    rw [hsame.states i hi] at hid'
    obtain ⟨o1, ⟨z, o2, o2'⟩, o3⟩ := h.refs k i id' (by omega) hid'
    refine ⟨o1, ⟨z, ?_, o2'⟩, by rw [hsame.size]; exact o3⟩
    rw [hkeep id' ?_]; exact o2
    intro j h3 h4 h5
    have := (h.shape k).b.id_unique (by omega) h4 hid' h5
    omega
  · intro _; exact hsame.size.symm
  · intro id' hne
    by_cases hsp : ∃ j, (s.lists k).view.size ≤ j ∧ j < tops k ∧ (s.lists k).view.states j = some id'
    · exact absurd (hfree id' hsp) hne
    · have hsp' : ∀ j, (s.lists k).view.size ≤ j → j < tops k → (s.lists k).view.states j ≠ some id' :=
        fun j h1 h2 h3 => hsp ⟨j, h1, h2, h3⟩
      rw [hkeep id' hsp'] at hne
      by_cases ho : owner id' = k
      · left
        obtain ⟨k', i, h3, h4⟩ := h.cover id' hne
        have : k' = k := by rw [← ho]; exact (h.refs k' i id' h3 h4).1.symm
        rw [this] at h3 h4
        have hi : i < (s.lists k).view.size := by
          by_cases hi : i < (s.lists k).view.size
          · exact hi
          · exact absurd h4 (hsp' i (by omega) h3)
        exact ⟨i, hi, by rw [hsame.states i hi]; exact h4⟩
      · right; exact ⟨hne, ho⟩
  · intro y hy id' hid'
    refine ⟨fun hk => ?_, fun _ => hy⟩
    obtain ⟨j₀, h1, h2, h3⟩ := h.wait y hy id' hid'
    rw [hk] at h1 h2 h3
    exact ⟨j₀, by rw [hsame.size]; exact h1, by rw [hsame.addrs j₀ h1]; exact h2,
      by rw [hsame.states j₀ h1]; exact h3⟩

/-! ### Notifying and using -/

theorem notify_step {c : Cfg w} (hg : c.Good) {s : Pool w} {tops : Nat → Nat} {owner : Id → Nat}
    (h : InvAt c s tops owner) (a : BitVec w) :
    ∃ r, step c s (.notify a) = some (s, .signalled r) ∧
      (∀ id, r = some id ↔ ∃ j, j < (s.lists (c.lockOf a)).view.size ∧
        (s.lists (c.lockOf a)).view.addrs j = a ∧ (s.lists (c.lockOf a)).view.states j = some id) := by
  have hS := h.shape (c.lockOf a)
  have hsl := hS.b.size_le
  obtain ⟨r, hr, hsome, hnone⟩ := find_spec hg hS a
  cases r with
  | none =>
    refine ⟨none, by simp only [step, hr], ?_⟩
    intro id
    refine ⟨fun e => (by cases e), fun ⟨j, h1, h2, _⟩ => absurd h2 (hnone rfl j h1)⟩
  | some id =>
    obtain ⟨j, h1, h2, h3⟩ := hsome id rfl
    obtain ⟨_, ⟨st, hst, _⟩, _⟩ := h.refs _ j id (by omega) h3
    refine ⟨some id, by simp only [step, hr, hst], ?_⟩
    intro id'
    constructor
    · intro e; cases e; exact ⟨j, h1, h2, h3⟩
    · intro ⟨j', g1, g2, g3⟩
      have : j = j' := hS.b.inj j j' h1 g1 (by rw [h2, g2])
      subst this
      rw [h3] at g3; exact g3

theorem use_step {c : Cfg w} {s : Pool w} {tops : Nat → Nat} {owner : Id → Nat}
    (h : InvAt c s tops owner) {x : Waiter w} (hx : x ∈ s.waiters) :
    step c s (.use x) = some (s, .unit) := by
  cases hh : x.handle with
  | none => simp only [step, hh]
  | some id =>
    obtain ⟨st, e, _⟩ := h.heap_of_handle hx hh
    simp only [step, hh, e]

/-! ### All calls -/

theorem inv_step {c : Cfg w} (hg : c.Good) {s : Pool w} (h : Inv c s) {op : Op w} (ha : op.Allowed s) :
    ∃ s' o, step c s op = some (s', o) ∧ Inv c s' := by
  obtain ⟨tops, owner, h'⟩ := h
  cases op with
  | register tid addr bufOk ws =>
    obtain ⟨L', heap', r, e, hi, _⟩ := register_step hg h' tid addr bufOk ws ha.2
    exact ⟨_, _, e, hi⟩
  | unregister x =>
    obtain ⟨L', heap', e, hi, _⟩ := unregister_step h' (x := x) ha
    exact ⟨_, _, e, hi⟩
  | use x => exact ⟨_, _, use_step h' (x := x) ha, tops, owner, h'⟩
  | notify a =>
    obtain ⟨r, e, _⟩ := notify_step hg h' a
    exact ⟨_, _, e, tops, owner, h'⟩
  | cleanup k =>
    obtain ⟨L', heap', e, hi, _⟩ := cleanup_step h' k
    exact ⟨_, _, e, hi⟩

theorem inv_reach {c : Cfg w} (hg : c.Good) {s : Pool w} (h : Reach c s) : Inv c s := by
  induction h with
  | init => exact inv_init c
  | step _ ha he ih =>
    obtain ⟨s', o, e, hi⟩ := inv_step hg ih ha
    rw [he] at e
    cases e
    exact hi

end Verif.Registry
