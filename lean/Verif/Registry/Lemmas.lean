import Verif.Registry.Spec

/-
Helper lemmas for the registry of waiters: the shape of one list and what each function of
`wait_state_list` does to it.
-/

namespace Verif.Registry

variable {w : Nat}

/-- The buffer of a list without one. -/
def emptyBuf (w : Nat) : Buf w := ⟨0, 0, fun _ => 0, fun _ => none⟩

/-- The buffer of a list. -/
def WList.view (L : WList w) : Buf w := L.hdr.getD (emptyBuf w)

/-- The shape of a buffer: `top` wait states are allocated, the first `size` of them in use. -/
structure BShape (c : Cfg w) (heap : Heap) (k : Nat) (b : Buf w) (top : Nat) : Prop where
  size_le : b.size ≤ top
  top_le : top ≤ b.capacity
  st : ∀ i, i < top → ∃ id x, b.states i = some id ∧ heap id = some x ∧ x.index = i
  nul : ∀ i, top ≤ i → i < b.capacity → b.states i = none
  lock : ∀ i, i < b.size → c.lockOf (b.addrs i) = k
  inj : ∀ i j, i < b.size → j < b.size → b.addrs i = b.addrs j → i = j
  spare : ∀ i, b.size ≤ i → i < b.capacity → b.addrs i = 0

/-- The capacities that occur. -/
def CapOk (c : Cfg w) (b : Buf w) : Prop :=
  (∃ e, b.capacity = c.initialCapacity * 2 ^ e) ∧ c.bufferBytes b.capacity < 2 ^ (w - 1)

/-- The shape of a list. -/
structure Shape (c : Cfg w) (heap : Heap) (k : Nat) (L : WList w) (top : Nat) : Prop where
  b : BShape c heap k L.view top
  cap : ∀ b, L.hdr = some b → CapOk c b

theorem bshape_empty (c : Cfg w) (heap : Heap) (k : Nat) : BShape c heap k (emptyBuf w) 0 := by
  refine ⟨Nat.le_refl _, Nat.le_refl _, ?_, ?_, ?_, ?_, ?_⟩ <;> intro i <;> intros <;>
    simp [emptyBuf] at * <;> omega

theorem shape_init (c : Cfg w) (heap : Heap) (k : Nat) : Shape c heap k (WList.init w) 0 :=
  ⟨bshape_empty c heap k, fun b h => by cases h⟩

theorem view_some {L : WList w} {b : Buf w} (h : L.hdr = some b) : L.view = b := by
  simp [WList.view, h]

theorem view_none {L : WList w} (h : L.hdr = none) : L.view = emptyBuf w := by
  simp [WList.view, h]

theorem initialCapacity_pos (c : Cfg w) : 2 ≤ c.initialCapacity := by
  unfold Cfg.initialCapacity
  split <;> omega

theorem CapOk.mod {c : Cfg w} {b : Buf w} (h : CapOk c b) : b.capacity % c.initialCapacity = 0 := by
  obtain ⟨⟨e, he⟩, _⟩ := h
  rw [he, Nat.mul_mod_right]

theorem BShape.id_unique {c : Cfg w} {heap : Heap} {k : Nat} {b : Buf w} {top : Nat}
    (h : BShape c heap k b top) {i j : Nat} {id : Id} (hi : i < top) (hj : j < top)
    (ei : b.states i = some id) (ej : b.states j = some id) : i = j := by
  obtain ⟨id1, x1, a1, b1, c1⟩ := h.st i hi
  obtain ⟨id2, x2, a2, b2, c2⟩ := h.st j hj
  rw [ei] at a1; rw [ej] at a2
  cases a1; cases a2
  rw [b1] at b2
  cases b2
  rw [← c1, ← c2]

theorem BShape.lt_top {c : Cfg w} {heap : Heap} {k : Nat} {b : Buf w} {top : Nat}
    (h : BShape c heap k b top) {i : Nat} {id : Id} (hi : i < b.capacity) (e : b.states i = some id) :
    i < top := by
  by_cases h1 : i < top
  · exact h1
  · have := h.nul i (by omega) hi
    rw [e] at this; cases this

/-- The shape depends on the heap only through the objects of the list. -/
theorem BShape.frame {c : Cfg w} {heap heap' : Heap} {k : Nat} {b : Buf w} {top : Nat}
    (h : BShape c heap k b top)
    (hf : ∀ i id x, i < top → b.states i = some id → heap id = some x → x.index = i →
      ∃ y, heap' id = some y ∧ y.index = i) :
    BShape c heap' k b top := by
  refine ⟨h.size_le, h.top_le, ?_, h.nul, h.lock, h.inj, h.spare⟩
  intro i hi
  obtain ⟨id, x, e1, e2, e3⟩ := h.st i hi
  obtain ⟨y, hy, hy2⟩ := hf i id x hi e1 e2 e3
  exact ⟨id, y, e1, hy, hy2⟩

/-! ### find -/

theorem find_spec {c : Cfg w} (hg : c.Good) {heap : Heap} {k : Nat} {L : WList w} {top : Nat}
    (h : Shape c heap k L top) (addr : BitVec w) :
    ∃ r, find c L addr = some r ∧
      (∀ id, r = some id → ∃ j, j < L.view.size ∧ L.view.addrs j = addr ∧ L.view.states j = some id) ∧
      (r = none → ∀ j, j < L.view.size → L.view.addrs j ≠ addr) := by
  unfold find
  cases hb : L.hdr with
  | none =>
    refine ⟨none, rfl, ?_, ?_⟩
    · intro id h; cases h
    · intro _ j hj; rw [view_none hb] at hj; simp [emptyBuf] at hj
  | some b =>
    have hv := view_some hb
    have hB := h.b
    rw [hv] at hB
    have hsc : b.size ≤ b.capacity := Nat.le_trans hB.size_le hB.top_le
    obtain ⟨p, hp, hlt, hge⟩ := hg.search_ok addr ⟨b.capacity, b.addrs⟩ b.size hsc (h.cap b hb).mod
    simp only [hp, hv]
    by_cases h1 : p < b.size
    · have h2 : p < b.capacity := by omega
      simp only [h1, h2, if_true]
      refine ⟨_, rfl, ?_, ?_⟩
      · intro id hid; exact ⟨p, h1, hlt h1, hid⟩
      · intro hnone
        obtain ⟨id, x, e1, _⟩ := hB.st p (by have := hB.size_le; omega)
        rw [e1] at hnone; cases hnone
    · simp only [h1, if_false]
      refine ⟨none, rfl, ?_, ?_⟩
      · intro id h; cases h
      · intro _ j hj; exact hge (by show b.size ≤ p; omega) j hj

/-! ### Buffers -/

theorem allocate_initial {c : Cfg w} (hg : c.Good) (ok : Bool) :
    allocate_buffer c c.initialCapacity none ok = some none ∧ ok = false ∨
    ∃ b, allocate_buffer c c.initialCapacity none ok = some (some b) ∧ ok = true ∧ b.size = 0 ∧
      b.capacity = c.initialCapacity ∧ (∀ i, b.states i = none) ∧ (∀ i, b.addrs i = 0) := by
  have h1 : (2 : Nat) ^ (w - 1) < 2 ^ w := Nat.pow_lt_pow_right (by decide) (by have := hg.width_pos; omega)
  have h2 := hg.initial_fits
  have h3 : c.bufferBytes c.initialCapacity % 2 ^ w = c.bufferBytes c.initialCapacity :=
    Nat.mod_eq_of_lt (by omega)
  cases ok with
  | false => left; simp [allocate_buffer]
  | true =>
    right
    refine ⟨_, by simp [allocate_buffer, h3, Nat.not_le.2 h2]; rfl, rfl, rfl, rfl, fun _ => rfl, fun _ => rfl⟩

/-- The size of a buffer of twice the capacity does not wrap. -/
theorem bufferBytes_double {c : Cfg w} (hg : c.Good) {b : Buf w} (h : CapOk c b) :
    c.bufferBytes (b.capacity * 2) < 2 ^ w := by
  have h1 : (2 : Nat) ^ w = 2 ^ (w - 1) * 2 := by
    rw [← Nat.pow_succ]; congr 1; have := hg.width_pos; omega
  have h2 := h.2
  unfold Cfg.bufferBytes at *
  have h3 : b.capacity * 2 * c.ptrSize * 2 = 2 * (b.capacity * c.ptrSize * 2) := by
    rw [Nat.mul_assoc b.capacity 2, Nat.mul_comm 2 c.ptrSize, ← Nat.mul_assoc, Nat.mul_comm 2]
  rw [h3, h1]
  omega

theorem allocate_grow {c : Cfg w} (hg : c.Good) {b : Buf w} (h : CapOk c b) (ok : Bool) :
    (allocate_buffer c (b.capacity * 2) (some b) ok = some none ∧
      (ok = false ∨ 2 ^ (w - 1) ≤ c.bufferBytes (b.capacity * 2))) ∨
    ∃ b', allocate_buffer c (b.capacity * 2) (some b) ok = some (some b') ∧ b'.size = b.size ∧
      b'.capacity = b.capacity * 2 ∧
      c.bufferBytes b'.capacity < 2 ^ (w - 1) ∧
      (∀ i, b'.states i = if i < b.capacity then b.states i else none) ∧
      (∀ i, b'.addrs i = if i < b.size then b.addrs i else 0) := by
  have h3 : c.bufferBytes (b.capacity * 2) % 2 ^ w = c.bufferBytes (b.capacity * 2) :=
    Nat.mod_eq_of_lt (bufferBytes_double hg h)
  unfold allocate_buffer
  simp only [h3]
  by_cases hbad : ok = false ∨ 2 ^ (w - 1) ≤ c.bufferBytes (b.capacity * 2)
  · left
    rw [if_pos hbad]; exact ⟨rfl, hbad⟩
  · right
    rw [if_neg hbad]
    have h4 : ¬ b.capacity * 2 < b.capacity := by omega
    simp only [ne_eq, not_true_eq_false, if_false, h4]
    refine ⟨_, rfl, rfl, rfl, ?_, fun _ => rfl, fun _ => rfl⟩
    show c.bufferBytes (b.capacity * 2) < _
    have : ¬ 2 ^ (w - 1) ≤ c.bufferBytes (b.capacity * 2) := fun h => hbad (Or.inr h)
    omega

/-- When an allocation that is needed fails. -/
def NoMemory (c : Cfg w) (L : WList w) (bufOk : Bool) (ws : Option Id) : Prop :=
  bufOk = false ∨ ws = none ∨ 2 ^ (w - 1) ≤ c.bufferBytes (L.view.capacity * 2)

/-- The buffer `b'` holds the same entries and wait states as `b`. -/
structure SameEntries (b b' : Buf w) (top : Nat) : Prop where
  size : b'.size = b.size
  addrs : ∀ i, i < b.size → b'.addrs i = b.addrs i
  states : ∀ i, i < top → b'.states i = b.states i

theorem SameEntries.refl (b : Buf w) (top : Nat) : SameEntries b b top :=
  ⟨rfl, fun _ _ => rfl, fun _ _ => rfl⟩

theorem getRoom_spec {c : Cfg w} (hg : c.Good) {heap : Heap} {k : Nat} {L : WList w} {top : Nat}
    (h : Shape c heap k L top) (addr : BitVec w) (bufOk : Bool) :
    (getRoom c L addr bufOk = some (.inl none) ∧
      (bufOk = false ∨ 2 ^ (w - 1) ≤ c.bufferBytes (L.view.capacity * 2)) ∧
      ∀ j, j < L.view.size → L.view.addrs j ≠ addr) ∨
    (∃ id j, getRoom c L addr bufOk = some (.inl (some id)) ∧ j < L.view.size ∧
      L.view.addrs j = addr ∧ L.view.states j = some id) ∨
    (∃ b', getRoom c L addr bufOk = some (.inr b') ∧ SameEntries L.view b' top ∧
      BShape c heap k b' top ∧ CapOk c b' ∧ b'.size < b'.capacity ∧
      ∀ j, j < L.view.size → L.view.addrs j ≠ addr) := by
  unfold getRoom
  cases hb : L.hdr with
  | none =>
    have hv := view_none hb
    have hB := h.b
    rw [hv] at hB
    have ht : top = 0 := by have := hB.top_le; simp [emptyBuf] at this; exact this
    subst ht
    rcases allocate_initial hg bufOk with ⟨ha, ho⟩ | ⟨b, ha, _, hs, hc, hst, had⟩
    · left
      simp only [ha]
      exact ⟨trivial, Or.inl ho, fun j hj => by rw [hv] at hj; simp [emptyBuf] at hj⟩
    · right; right
      simp only [ha]
      refine ⟨b, rfl, ?_, ?_, ?_, ?_, fun j hj => by rw [hv] at hj; simp [emptyBuf] at hj⟩
      · rw [hv]
        refine ⟨hs, fun i hi => by simp [emptyBuf] at hi, fun i hi => by omega⟩
      · refine ⟨by omega, by omega, fun i hi => by omega, fun i _ _ => hst i, fun i hi => by omega,
          fun i j hi => by omega, fun i _ _ => had i⟩
      · refine ⟨⟨0, by rw [hc]; simp⟩, by rw [hc]; exact hg.initial_fits⟩
      · have := initialCapacity_pos c; omega
  | some b =>
    have hv := view_some hb
    have hB := h.b
    rw [hv] at hB
    obtain ⟨r, hr, hsome, hnone⟩ := find_spec hg h addr
    simp only [hr]
    cases r with
    | some id =>
      right; left
      obtain ⟨j, h1, h2, h3⟩ := hsome id rfl
      exact ⟨id, j, rfl, h1, h2, h3⟩
    | none =>
      have hno := hnone rfl
      by_cases hfull : b.size = b.capacity
      · simp only [hfull, if_true]
        have hc := h.cap b hb
        rcases allocate_grow hg hc bufOk with ⟨ha, ho⟩ | ⟨b', ha, hs, hcap, hbytes, hst, had⟩
        · left
          simp only [ha]
          refine ⟨trivial, ?_, hno⟩
          rw [hv]; exact ho
        · right; right
          simp only [ha]
          have htop : top = b.capacity := by have := hB.size_le; have := hB.top_le; omega
          have hcp : 0 < b.capacity := by
            obtain ⟨⟨e, he⟩, _⟩ := hc
            rw [he]
            have := initialCapacity_pos c
            exact Nat.mul_pos (by omega) (Nat.pow_pos (by decide))
          refine ⟨b', rfl, ?_, ?_, ⟨?_, hbytes⟩, by omega, hno⟩
          · rw [hv]
            refine ⟨hs, fun i hi => by rw [had, if_pos hi], fun i hi => by rw [hst, if_pos (by omega)]⟩
          · refine ⟨by omega, by omega, ?_, ?_, ?_, ?_, ?_⟩
            · intro i hi
              obtain ⟨id, x, e1, e2, e3⟩ := hB.st i hi
              exact ⟨id, x, by rw [hst, if_pos (by omega)]; exact e1, e2, e3⟩
            · intro i hi _
              rw [hst, if_neg (by omega)]
            · intro i hi
              rw [had, if_pos (by omega)]; exact hB.lock i (by omega)
            · intro i j hi hj
              rw [had, had, if_pos (by omega), if_pos (by omega)]
              exact hB.inj i j (by omega) (by omega)
            · intro i hi _
              rw [had, if_neg (by omega)]
          · obtain ⟨e, he⟩ := hc.1
            exact ⟨e + 1, by rw [hcap, he, Nat.pow_succ, Nat.mul_assoc]⟩
      · simp only [hfull, if_false]
        right; right
        refine ⟨b, rfl, by rw [hv]; exact SameEntries.refl _ _, hB, h.cap b hb, ?_, hno⟩
        have := hB.size_le; have := hB.top_le; omega

/-! ### find_or_create -/

/-- The new entry appended by `find_or_create`. -/
structure Appended (b b' : Buf w) (top : Nat) (addr : BitVec w) (id : Id) : Prop where
  size : b'.size = b.size + 1
  addrs : ∀ i, i < b.size → b'.addrs i = b.addrs i
  states : ∀ i, i < top → b'.states i = b.states i
  new_addr : b'.addrs b.size = addr
  new_state : b'.states b.size = some id

inductive FocResult (c : Cfg w) (L : WList w) (heap : Heap) (k top : Nat) (addr : BitVec w) (bufOk : Bool)
    (ws : Option Id) : WList w → Heap → Option Id → Prop where
  /-- out of memory: nothing is registered -/
  | failed {L' : WList w} : NoMemory c L bufOk ws → (∀ j, j < L.view.size → L.view.addrs j ≠ addr) →
      L'.freeMemory = L.freeMemory → SameEntries L.view L'.view top → Shape c heap k L' top →
      FocResult c L heap k top addr bufOk ws L' heap none
  /-- the address is already registered -/
  | found {id : Id} {j : Nat} : j < L.view.size → L.view.addrs j = addr → L.view.states j = some id →
      FocResult c L heap k top addr bufOk ws L heap (some id)
  /-- a spare wait state is reused -/
  | reused {L' : WList w} {id : Id} : L.view.size < top → L.view.states L.view.size = some id →
      (∀ j, j < L.view.size → L.view.addrs j ≠ addr) → L'.freeMemory = L.freeMemory →
      Appended L.view L'.view top addr id → Shape c heap k L' top →
      FocResult c L heap k top addr bufOk ws L' heap (some id)
  /-- a wait state is created -/
  | created {L' : WList w} {id : Id} : L.view.size = top → ws = some id →
      (∀ j, j < L.view.size → L.view.addrs j ≠ addr) → L'.freeMemory = L.freeMemory →
      Appended L.view L'.view top addr id → Shape c (upd heap id (some ⟨0, top⟩)) k L' (top + 1) →
      FocResult c L heap k top addr bufOk ws L' (upd heap id (some ⟨0, top⟩)) (some id)

theorem foc_spec {c : Cfg w} (hg : c.Good) {heap : Heap} {k : Nat} {L : WList w} {top : Nat}
    (h : Shape c heap k L top) (addr : BitVec w) (hk : c.lockOf addr = k) (bufOk : Bool) (ws : Option Id)
    (hfresh : ∀ id, ws = some id → heap id = none) :
    ∃ L' heap' r, find_or_create c L heap addr bufOk ws = some (L', heap', r) ∧
      FocResult c L heap k top addr bufOk ws L' heap' r := by
  unfold find_or_create
  rcases getRoom_spec hg h addr bufOk with ⟨e, hmem, hno⟩ | ⟨id, j, e, h1, h2, h3⟩ |
    ⟨b, e, hsame, hB, hcap, hroom, hno⟩
  · simp only [e]
    refine ⟨L, heap, none, rfl, .failed ?_ hno rfl (SameEntries.refl _ _) h⟩
    rcases hmem with h | h
    · exact Or.inl h
    · exact Or.inr (Or.inr h)
  · simp only [e]
    exact ⟨L, heap, some id, rfl, .found h1 h2 h3⟩
  · simp only [e]
    rw [if_neg (by omega)]
    have hno' : ∀ j, j < b.size → b.addrs j ≠ addr := by
      intro j hj
      rw [hsame.size] at hj
      rw [hsame.addrs j hj]; exact hno j hj
    -- the shape of the addresses after the push
    have hlock : ∀ i, i < b.size + 1 → c.lockOf (upd b.addrs b.size addr i) = k := by
      intro i hi
      by_cases hi2 : i = b.size
      · subst hi2; rw [upd_same]; exact hk
      · rw [upd_other _ _ hi2]; exact hB.lock i (by omega)
    have hinj : ∀ i j, i < b.size + 1 → j < b.size + 1 →
        upd b.addrs b.size addr i = upd b.addrs b.size addr j → i = j := by
      intro i j hi hj
      by_cases hi2 : i = b.size
      · by_cases hj2 : j = b.size
        · intro _; omega
        · subst hi2
          rw [upd_same, upd_other _ _ hj2]
          intro hh; exact absurd hh.symm (hno' j (by omega))
      · by_cases hj2 : j = b.size
        · subst hj2
          rw [upd_same, upd_other _ _ hi2]
          intro hh; exact absurd hh (hno' i (by omega))
        · rw [upd_other _ _ hi2, upd_other _ _ hj2]
          exact hB.inj i j (by omega) (by omega)
    have hspare : ∀ i, b.size + 1 ≤ i → i < b.capacity → upd b.addrs b.size addr i = 0 := by
      intro i hi hi2
      rw [upd_other _ _ (by omega)]
      exact hB.spare i (by omega) hi2
    cases hst : b.states b.size with
    | some id =>
      simp only []
      have hlt := hB.lt_top hroom hst
      refine ⟨_, heap, some id, rfl, .reused ?_ ?_ hno rfl ?_ ?_⟩
      · rw [← hsame.size]; exact hlt
      · rw [← hsame.size, ← hsame.states _ hlt, hst]
      · refine ⟨?_, ?_, ?_, ?_, ?_⟩
        · show b.size + 1 = _; rw [hsame.size]
        · intro i hi
          show upd b.addrs b.size addr i = _
          rw [← hsame.size] at hi
          rw [upd_other _ _ (by omega)]; exact hsame.addrs i (by rw [hsame.size] at hi; exact hi)
        · intro i hi
          exact hsame.states i hi
        · show upd b.addrs b.size addr L.view.size = addr
          rw [← hsame.size, upd_same]
        · show b.states L.view.size = some id
          rw [← hsame.size]; exact hst
      · refine ⟨⟨?_, hB.top_le, hB.st, hB.nul, hlock, hinj, hspare⟩, ?_⟩
        · show b.size + 1 ≤ top; omega
        · intro b' hb'
          cases hb'
          exact hcap
    | none =>
      have htop : b.size = top := by
        by_cases hlt : b.size < top
        · obtain ⟨id, x, e1, _⟩ := hB.st b.size hlt
          rw [hst] at e1; cases e1
        · have := hB.size_le; omega
      cases ws with
      | none =>
        simp only []
        refine ⟨_, heap, none, rfl, .failed (Or.inr (Or.inl rfl)) hno rfl ?_ ?_⟩
        · exact hsame
        · exact ⟨hB, fun b' hb' => by cases hb'; exact hcap⟩
      | some id =>
        subst htop
        simp only []
        refine ⟨_, _, some id, rfl, .created ?_ rfl hno rfl ?_ ?_⟩
        · exact hsame.size.symm
        · refine ⟨?_, ?_, ?_, ?_, ?_⟩
          · show b.size + 1 = _; rw [hsame.size]
          · intro i hi
            show upd b.addrs b.size addr i = _
            rw [← hsame.size] at hi
            rw [upd_other _ _ (by omega)]; exact hsame.addrs i (by rw [hsame.size] at hi; exact hi)
          · intro i hi
            show upd b.states b.size (some id) i = _
            rw [upd_other _ _ (by omega)]
            exact hsame.states i hi
          · show upd b.addrs b.size addr L.view.size = addr
            rw [← hsame.size, upd_same]
          · show upd b.states b.size (some id) L.view.size = some id
            rw [← hsame.size, upd_same]
        · refine ⟨⟨?_, ?_, ?_, ?_, hlock, hinj, hspare⟩, ?_⟩
          · show b.size + 1 ≤ b.size + 1; omega
          · show b.size + 1 ≤ b.capacity; omega
          · intro i hi
            show ∃ id' x, upd b.states b.size (some id) i = some id' ∧ upd heap id (some ⟨0, b.size⟩) id' = some x ∧ x.index = i
            by_cases hi2 : i = b.size
            · subst hi2
              exact ⟨id, ⟨0, b.size⟩, upd_same _ _ _, upd_same _ _ _, rfl⟩
            · obtain ⟨id', x, e1, e2, e3⟩ := hB.st i (by omega)
              have hne : id' ≠ id := by
                intro hh; subst hh
                rw [hfresh id' rfl] at e2; cases e2
              exact ⟨id', x, by rw [upd_other _ _ hi2]; exact e1, by rw [upd_other _ _ hne]; exact e2, e3⟩
          · intro i hi hi2
            show upd b.states b.size (some id) i = none
            rw [upd_other _ _ (by omega)]
            exact hB.nul i (by omega) hi2
          · intro b' hb'
            cases hb'
            exact hcap

/-! ### free_spare -/

theorem freeLoop_spec (n : Nat) : ∀ (d i : Nat) (states : Nat → Option Id) (heap : Heap) (top : Nat),
    top - i = d → i ≤ top → top ≤ n →
    (∀ j, i ≤ j → j < top → ∃ id x, states j = some id ∧ heap id = some x ∧ x.index = j) →
    (∀ j, top ≤ j → j < n → states j = none) →
    ∃ states' heap', freeLoop n i states heap = some (states', heap') ∧
      (∀ j, states' j = if i ≤ j ∧ j < top then none else states j) ∧
      (∀ id, (∃ j, i ≤ j ∧ j < top ∧ states j = some id) → heap' id = none) ∧
      (∀ id, (∀ j, i ≤ j → j < top → states j ≠ some id) → heap' id = heap id) := by
  intro d
  induction d with
  | zero =>
    intro i states heap top hd hi hn hst hnul
    have hit : i = top := by omega
    subst hit
    refine ⟨states, heap, ?_, ?_, ?_, fun _ _ => rfl⟩
    · rw [freeLoop]
      by_cases h : i < n
      · rw [dif_pos h, hnul i (Nat.le_refl _) h]
      · rw [dif_neg h]
    · intro j
      rw [if_neg (by omega)]
    · intro id ⟨j, h1, h2, _⟩
      omega
  | succ d ih =>
    intro i states heap top hd hi hn hst hnul
    obtain ⟨id, x, e1, e2, e3⟩ := hst i (Nat.le_refl _) (by omega)
    have hrec := ih (i + 1) (upd states i none) (upd heap id none) top (by omega) (by omega) hn ?_ ?_
    · obtain ⟨states', heap', hr, hs', hfree, hkeep⟩ := hrec
      refine ⟨states', heap', ?_, ?_, ?_, ?_⟩
      · rw [freeLoop, dif_pos (by omega), e1]
        simp only [e2]
        exact hr
      · intro j
        rw [hs']
        by_cases hj : j = i
        · subst hj
          rw [if_neg (by omega), upd_same, if_pos (by omega)]
        · rw [upd_other _ _ hj]
          by_cases hj2 : i + 1 ≤ j ∧ j < top
          · rw [if_pos hj2, if_pos (by omega)]
          · rw [if_neg hj2, if_neg (by omega)]
      · intro id' ⟨j, h1, h2, h3⟩
        by_cases hj : j = i
        · subst hj
          rw [e1] at h3
          cases h3
          rw [hkeep id ?_, upd_same]
          intro j' h4 h5 h6
          rw [upd_other _ _ (by omega)] at h6
          obtain ⟨id2, x2, f1, f2, f3⟩ := hst j' (by omega) h5
          rw [h6] at f1
          cases f1
          rw [e2] at f2
          cases f2
          omega
        · exact hfree id' ⟨j, by omega, h2, by rw [upd_other _ _ hj]; exact h3⟩
      · intro id' hne
        have hne' : id' ≠ id := fun hh => by subst hh; exact hne i (Nat.le_refl _) (by omega) e1
        rw [hkeep id' ?_, upd_other _ _ hne']
        intro j h1 h2
        rw [upd_other _ _ (by omega)]
        exact hne j (by omega) h2
    · intro j h1 h2
      obtain ⟨id', x', f1, f2, f3⟩ := hst j (by omega) h2
      have hne : id' ≠ id := by
        intro hh; subst hh
        rw [e2] at f2; cases f2; omega
      exact ⟨id', x', by rw [upd_other _ _ (by omega)]; exact f1, by rw [upd_other _ _ hne]; exact f2, f3⟩
    · intro j h1 h2
      rw [upd_other _ _ (by omega)]
      exact hnul j h1 h2

/-- `free_spare` releases exactly the spare wait states, and the buffer if nothing is in use. -/
theorem free_spare_spec {c : Cfg w} {heap : Heap} {k : Nat} {L : WList w} {top : Nat}
    (h : Shape c heap k L top) :
    ∃ L' heap', free_spare L heap = some (L', heap') ∧ L'.freeMemory = L.freeMemory ∧
      Shape c heap' k L' L.view.size ∧ SameEntries L.view L'.view L.view.size ∧
      (∀ id, (∃ j, L.view.size ≤ j ∧ j < top ∧ L.view.states j = some id) → heap' id = none) ∧
      (∀ id, (∀ j, L.view.size ≤ j → j < top → L.view.states j ≠ some id) → heap' id = heap id) ∧
      (L.view.size = 0 → L'.hdr = none) := by
  unfold free_spare
  cases hb : L.hdr with
  | none =>
    have hv := view_none hb
    have hB := h.b
    rw [hv] at hB
    have ht : top = 0 := by have := hB.top_le; simp [emptyBuf] at this; exact this
    subst ht
    refine ⟨L, heap, rfl, rfl, ?_, SameEntries.refl _ _, fun id ⟨j, _, h2, _⟩ => by omega, fun _ _ => rfl, fun _ => hb⟩
    rw [hv]
    exact ⟨by rw [hv]; exact hB, h.cap⟩
  | some b =>
    have hv := view_some hb
    have hB := h.b
    rw [hv] at hB ⊢
    obtain ⟨states', heap', hr, hs', hfree, hkeep⟩ := freeLoop_spec b.capacity (top - b.size) b.size b.states heap top rfl
      hB.size_le hB.top_le (fun j _ h2 => hB.st j h2) hB.nul
    simp only [hr]
    have hB' : BShape c heap' k { b with states := states' } b.size := by
      refine ⟨Nat.le_refl _, Nat.le_trans hB.size_le hB.top_le, ?_, ?_, hB.lock, hB.inj, hB.spare⟩
      · intro i hi
        obtain ⟨id, x, e1, e2, e3⟩ := hB.st i (by have := hB.size_le; omega)
        refine ⟨id, x, ?_, ?_, e3⟩
        · show states' i = some id
          rw [hs', if_neg (by omega)]; exact e1
        · rw [hkeep id ?_]; exact e2
          intro j h1 h2 h3
          have := hB.id_unique (by have := hB.size_le; omega) h2 e1 h3
          omega
      · intro i h1 h2
        show states' i = none
        rw [hs']
        by_cases hi : i < top
        · rw [if_pos ⟨h1, hi⟩]
        · rw [if_neg (by omega)]; exact hB.nul i (by omega) h2
    by_cases h0 : b.size = 0
    · simp only [h0, if_true]
      rw [h0] at hfree hkeep
      refine ⟨⟨none, L.freeMemory⟩, heap', rfl, rfl, ?_, ?_, hfree, hkeep, fun _ => rfl⟩
      · exact ⟨by rw [view_none rfl]; exact bshape_empty c heap' k, fun b hb => by cases hb⟩
      · exact ⟨h0.symm, fun i hi => by omega, fun i hi => by omega⟩
    · simp only [h0, if_false]
      refine ⟨⟨some { b with states := states' }, L.freeMemory⟩, heap', rfl, rfl, ?_, ?_, hfree, hkeep, fun h => h.elim⟩
      · exact ⟨hB', fun b' hb' => by cases hb'; exact h.cap b hb⟩
      · refine ⟨rfl, fun _ _ => rfl, fun i hi => ?_⟩
        show states' i = b.states i
        rw [hs', if_neg (by omega)]

/-! ### erase -/

/-- Exchange the positions `j` and `l`. -/
def sw (j l i : Nat) : Nat := if i = j then l else if i = l then j else i

theorem sw_sw (j l i : Nat) : sw j l (sw j l i) = i := by
  unfold sw
  by_cases h1 : i = j
  · subst h1
    by_cases h2 : l = i
    · simp [h2]
    · simp [h2]
  · by_cases h2 : i = l
    · subst h2; simp [h1]
    · simp [h1, h2]

theorem sw_lt {j l i n : Nat} (hj : j < n) (hl : l < n) : sw j l i < n ↔ i < n := by
  unfold sw
  by_cases h1 : i = j
  · simp [h1, hj, hl]
  · by_cases h2 : i = l
    · simp [h2, hl]
      split <;> omega
    · simp [h1, h2]

/-- What `erase` does before it looks at `m_free_memory`. -/
theorem erase_swap {c : Cfg w} {heap : Heap} {k : Nat} {L : WList w} {top : Nat}
    (h : Shape c heap k L top) {j : Nat} {id : Id} (hj : j < L.view.size) (hid : L.view.states j = some id) :
    ∃ L₁ heap₁, erase L heap id = eraseTail L₁ heap₁ ∧ L₁.freeMemory = L.freeMemory ∧
      L₁.view.size = L.view.size - 1 ∧
      (∀ i, L₁.view.states i = L.view.states (sw j (L.view.size - 1) i)) ∧
      (∀ i, i < L.view.size - 1 → L₁.view.addrs i = L.view.addrs (sw j (L.view.size - 1) i)) ∧
      Shape c heap₁ k L₁ top ∧
      (∀ id', (∀ i, i < top → L.view.states i ≠ some id') → heap₁ id' = heap id') ∧
      (∀ i id', i < top → L.view.states i = some id' →
        ∃ x, heap id' = some x ∧ heap₁ id' = some { x with index := sw j (L.view.size - 1) i }) := by
  cases hb : L.hdr with
  | none => rw [view_none hb] at hj; simp [emptyBuf] at hj
  | some b =>
    have hv := view_some hb
    have hB := h.b
    rw [hv] at hB hj hid ⊢
    have hsl := hB.size_le
    have htl := hB.top_le
    obtain ⟨id0, x, e1, e2, e3⟩ := hB.st j (by omega)
    rw [hid] at e1; cases e1
    unfold erase
    simp only [hb, e2, e3]
    rw [if_neg (by omega)]
    simp only [hid, ne_eq, not_true_eq_false, if_false]
    by_cases hlast : j = b.size - 1
    · -- the last entry is removed
      have hsw : ∀ i, sw j (b.size - 1) i = i := by
        intro i; unfold sw
        by_cases h1 : i = j
        · rw [if_pos h1]; omega
        · rw [if_neg h1, if_neg (by omega)]
      rw [if_neg (by simpa using hlast)]
      refine ⟨_, heap, rfl, rfl, rfl, ?_, ?_, ⟨⟨?_, htl, hB.st, hB.nul, ?_, ?_, ?_⟩, ?_⟩, fun _ _ => rfl, ?_⟩
      · intro i; rw [hsw]; rfl
      · intro i hi
        show upd b.addrs j 0 i = _
        rw [hsw, upd_other _ _ (by omega)]
      · show b.size - 1 ≤ top; omega
      · intro i (hi : i < b.size - 1)
        show c.lockOf (upd b.addrs j 0 i) = k
        rw [upd_other _ _ (by omega)]; exact hB.lock i (by omega)
      · intro i i' (hi : i < b.size - 1) (hi' : i' < b.size - 1)
        show upd b.addrs j 0 i = upd b.addrs j 0 i' → _
        rw [upd_other _ _ (by omega), upd_other _ _ (by omega)]
        exact hB.inj i i' (by omega) (by omega)
      · intro i (hi : b.size - 1 ≤ i) (hi' : i < b.capacity)
        show upd b.addrs j 0 i = 0
        by_cases hij : i = j
        · subst hij; rw [upd_same]
        · rw [upd_other _ _ hij]; exact hB.spare i (by omega) hi'
      · intro b' hb'; cases hb'; exact h.cap b hb
      · intro i id' hi hid'
        obtain ⟨id2, y, f1, f2, f3⟩ := hB.st i hi
        rw [hid'] at f1; cases f1
        refine ⟨y, f2, ?_⟩
        rw [hsw, f2, ← f3]
    · -- the last entry takes the place of the removed one
      rw [if_pos (by simpa using hlast)]
      obtain ⟨idl, xl, l1, l2, l3⟩ := hB.st (b.size - 1) (by omega)
      have hne : idl ≠ id := by
        intro hh; subst hh
        exact hlast (hB.id_unique (by omega) (by omega) hid l1)
      have hs1 : setIndex heap (b.states (b.size - 1)) j = some (upd heap idl (some { xl with index := j })) := by
        simp [setIndex, l1, l2]
      have hs2 : setIndex (upd heap idl (some { xl with index := j })) (some id) (b.size - 1) =
          some (upd (upd heap idl (some { xl with index := j })) id (some { x with index := b.size - 1 })) := by
        simp only [setIndex]
        rw [upd_other _ _ (Ne.symm hne), e2]
      simp only [hs1, hs2]
      refine ⟨_, _, rfl, rfl, rfl, ?_, ?_, ⟨⟨?_, htl, ?_, ?_, ?_, ?_, ?_⟩, ?_⟩, ?_, ?_⟩
      · intro i
        show upd (upd b.states j (b.states (b.size - 1))) (b.size - 1) (some id) i = _
        unfold sw
        by_cases hi : i = b.size - 1
        · subst hi
          rw [upd_same, if_neg (by omega), if_pos rfl, hid]
        · rw [upd_other _ _ hi]
          by_cases hij : i = j
          · subst hij; rw [upd_same, if_pos rfl]
          · rw [upd_other _ _ hij, if_neg hij, if_neg hi]
      · intro i hi
        show upd (upd b.addrs j (b.addrs (b.size - 1))) (b.size - 1) 0 i = _
        unfold sw
        rw [upd_other _ _ (by omega)]
        by_cases hij : i = j
        · subst hij; rw [upd_same, if_pos rfl]
        · rw [upd_other _ _ hij, if_neg hij, if_neg (by omega)]
      · show b.size - 1 ≤ top; omega
      · intro i hi
        show ∃ id' x', upd (upd b.states j (b.states (b.size - 1))) (b.size - 1) (some id) i = some id' ∧
          upd (upd heap idl (some { xl with index := j })) id (some { x with index := b.size - 1 }) id' = some x' ∧ x'.index = i
        by_cases hil : i = b.size - 1
        · subst hil
          exact ⟨id, _, upd_same _ _ _, upd_same _ _ _, rfl⟩
        · rw [upd_other _ _ hil]
          by_cases hij : i = j
          · subst hij
            exact ⟨idl, _, by rw [upd_same]; exact l1, by rw [upd_other _ _ hne, upd_same], rfl⟩
          · obtain ⟨id', x', f1, f2, f3⟩ := hB.st i hi
            have n1 : id' ≠ id := by
              intro hh; subst hh; exact hij (hB.id_unique hi (by omega) f1 hid)
            have n2 : id' ≠ idl := by
              intro hh; subst hh; exact hil (hB.id_unique hi (by omega) f1 l1)
            exact ⟨id', x', by rw [upd_other _ _ hij]; exact f1,
              by rw [upd_other _ _ n1, upd_other _ _ n2]; exact f2, f3⟩
      · intro i (hi : top ≤ i) (hi' : i < b.capacity)
        show upd (upd b.states j (b.states (b.size - 1))) (b.size - 1) (some id) i = none
        rw [upd_other _ _ (by omega), upd_other _ _ (by omega)]
        exact hB.nul i hi hi'
      · intro i (hi : i < b.size - 1)
        show c.lockOf (upd (upd b.addrs j (b.addrs (b.size - 1))) (b.size - 1) 0 i) = k
        rw [upd_other _ _ (by omega)]
        by_cases hij : i = j
        · subst hij; rw [upd_same]; exact hB.lock _ (by omega)
        · rw [upd_other _ _ hij]; exact hB.lock i (by omega)
      · intro i i' (hi : i < b.size - 1) (hi' : i' < b.size - 1)
        show upd (upd b.addrs j (b.addrs (b.size - 1))) (b.size - 1) 0 i =
          upd (upd b.addrs j (b.addrs (b.size - 1))) (b.size - 1) 0 i' → _
        have n1 : i ≠ b.size - 1 := by omega
        have n2 : i' ≠ b.size - 1 := by omega
        rw [upd_other _ _ n1, upd_other _ _ n2]
        by_cases hij : i = j
        · by_cases hij' : i' = j
          · intro _; omega
          · subst hij
            rw [upd_same, upd_other _ _ hij']
            intro hh
            have := hB.inj _ _ (by omega) (by omega) hh
            omega
        · by_cases hij' : i' = j
          · subst hij'
            rw [upd_same, upd_other _ _ hij]
            intro hh
            have := hB.inj _ _ (by omega) (by omega) hh
            omega
          · rw [upd_other _ _ hij, upd_other _ _ hij']
            exact hB.inj i i' (by omega) (by omega)
      · intro i (hi : b.size - 1 ≤ i) (hi' : i < b.capacity)
        show upd (upd b.addrs j (b.addrs (b.size - 1))) (b.size - 1) 0 i = 0
        by_cases hil : i = b.size - 1
        · subst hil; rw [upd_same]
        · rw [upd_other _ _ hil, upd_other _ _ (by omega)]
          exact hB.spare i (by omega) hi'
      · intro b' hb'; cases hb'; exact h.cap b hb
      · intro id' hno
        have n1 : id' ≠ id := fun hh => by subst hh; exact hno j (by omega) hid
        have n2 : id' ≠ idl := fun hh => by subst hh; exact hno (b.size - 1) (by omega) l1
        rw [upd_other _ _ n1, upd_other _ _ n2]
      · intro i id' hi hid'
        obtain ⟨id2, y, f1, f2, f3⟩ := hB.st i hi
        rw [hid'] at f1; cases f1
        refine ⟨y, f2, ?_⟩
        unfold sw
        by_cases hij : i = j
        · subst hij
          rw [hid] at hid'; cases hid'
          rw [e2] at f2; cases f2
          rw [upd_same, if_pos rfl]
        · have n1 : id' ≠ id := by
            intro hh; subst hh; exact hij (hB.id_unique hi (by omega) hid' hid)
          rw [upd_other _ _ n1]
          by_cases hil : i = b.size - 1
          · subst hil
            rw [l1] at hid'; cases hid'
            rw [l2] at f2; cases f2
            rw [upd_same, if_neg hij, if_pos rfl]
          · have n2 : id' ≠ idl := by
              intro hh; subst hh; exact hil (hB.id_unique hi (by omega) hid' l1)
            rw [upd_other _ _ n2, if_neg hij, if_neg hil, f2, ← f3]

/-- `erase` removes entry `j` and keeps all others; the wait state becomes spare or, after the
cleanup, is released. -/
theorem erase_spec {c : Cfg w} {heap : Heap} {k : Nat} {L : WList w} {top : Nat}
    (h : Shape c heap k L top) {j : Nat} {id : Id} (hj : j < L.view.size) (hid : L.view.states j = some id) :
    ∃ L' heap' top', erase L heap id = some (L', heap') ∧ L'.freeMemory = L.freeMemory ∧
      Shape c heap' k L' top' ∧ (L'.freeMemory = true → top' = L'.view.size) ∧
      (∀ i, i < top' → ∃ i₀, i₀ < top ∧ L'.view.states i = L.view.states i₀ ∧
        (i < L'.view.size ↔ i₀ < L.view.size ∧ i₀ ≠ j) ∧
        (i < L'.view.size → L'.view.addrs i = L.view.addrs i₀)) ∧
      (∀ i₀, i₀ < L.view.size → i₀ ≠ j → ∃ i, i < L'.view.size ∧ L'.view.addrs i = L.view.addrs i₀ ∧
        L'.view.states i = L.view.states i₀) ∧
      (∀ id', (∀ i, i < top → L.view.states i ≠ some id') → heap' id' = heap id') ∧
      (∀ i id', i < top' → L'.view.states i = some id' →
        ∃ x y, heap id' = some x ∧ heap' id' = some y ∧ y.refCount = x.refCount) ∧
      (∀ id', heap' id' ≠ none → (∃ i, i < top ∧ L.view.states i = some id') →
        ∃ i, i < top' ∧ L'.view.states i = some id') := by
  obtain ⟨L₁, heap₁, he, hfm, hsz, hst, had, hSh, hkeep, hmap⟩ := erase_swap h hj hid
  have hsl := h.b.size_le
  have hsl1 := hSh.b.size_le
  have hl : L.view.size - 1 < top := by omega
  have hjt : j < top := by omega
  have hlt : ∀ i, sw j (L.view.size - 1) i < top ↔ i < top := fun i => sw_lt hjt hl
  have hlts : ∀ i, sw j (L.view.size - 1) i < L.view.size ↔ i < L.view.size :=
    fun i => sw_lt hj (by omega)
  have hnej : ∀ i, sw j (L.view.size - 1) i ≠ j ↔ i ≠ L.view.size - 1 := by
    intro i; unfold sw
    by_cases h1 : i = j
    · rw [if_pos h1]; omega
    · rw [if_neg h1]
      by_cases h2 : i = L.view.size - 1
      · rw [if_pos h2]; omega
      · rw [if_neg h2]; omega
  rw [he]
  -- facts about the list before `free_spare`
  have A1 : ∀ i, i < top → ∃ i₀, i₀ < top ∧ L₁.view.states i = L.view.states i₀ ∧
      (i < L₁.view.size ↔ i₀ < L.view.size ∧ i₀ ≠ j) ∧
      (i < L₁.view.size → L₁.view.addrs i = L.view.addrs i₀) := by
    intro i hi
    refine ⟨sw j (L.view.size - 1) i, (hlt i).2 hi, hst i, ?_, fun h1 => had i (by omega)⟩
    rw [hlts, hnej, hsz]; omega
  have A2 : ∀ i₀, i₀ < L.view.size → i₀ ≠ j → ∃ i, i < L₁.view.size ∧ L₁.view.addrs i = L.view.addrs i₀ ∧
      L₁.view.states i = L.view.states i₀ := by
    intro i₀ h1 h2
    have h3 : sw j (L.view.size - 1) i₀ < L.view.size := (hlts i₀).2 h1
    have h4 : sw j (L.view.size - 1) i₀ ≠ L.view.size - 1 := by
      rw [← hnej, sw_sw]; exact h2
    refine ⟨sw j (L.view.size - 1) i₀, by omega, ?_, ?_⟩
    · rw [had _ (by omega), sw_sw]
    · rw [hst, sw_sw]
  have A3 : ∀ i id', i < top → L₁.view.states i = some id' →
      ∃ x y, heap id' = some x ∧ heap₁ id' = some y ∧ y.refCount = x.refCount := by
    intro i id' hi hi2
    rw [hst] at hi2
    obtain ⟨x, e1, e2⟩ := hmap _ id' ((hlt i).2 hi) hi2
    exact ⟨x, _, e1, e2, rfl⟩
  have A4 : ∀ id', (∃ i, i < top ∧ L.view.states i = some id') → ∃ i, i < top ∧ L₁.view.states i = some id' := by
    intro id' ⟨i, h1, h2⟩
    exact ⟨sw j (L.view.size - 1) i, (hlt i).2 h1, by rw [hst, sw_sw]; exact h2⟩
  unfold eraseTail
  cases hf : L₁.freeMemory with
  | false =>
    simp only [Bool.false_eq_true, if_false]
    refine ⟨L₁, heap₁, top, rfl, hfm, hSh, (fun h => by rw [hf] at h; cases h), A1, A2, hkeep, A3, fun id' _ => A4 id'⟩
  | true =>
    simp only [if_true]
    obtain ⟨L', heap', hr, hfm', hSh', hsame, hfree, hkeep', _⟩ := free_spare_spec hSh
    refine ⟨L', heap', L₁.view.size, hr, by rw [hfm', hfm], hSh', fun _ => hsame.size.symm, ?_, ?_, ?_, ?_, ?_⟩
    · intro i hi
      obtain ⟨i₀, h1, h2, h3, h4⟩ := A1 i (by omega)
      refine ⟨i₀, h1, by rw [hsame.states i hi]; exact h2, by rw [hsame.size]; exact h3, ?_⟩
      intro _
      rw [hsame.addrs i hi]; exact h4 hi
    · intro i₀ h1 h2
      obtain ⟨i, h3, h4, h5⟩ := A2 i₀ h1 h2
      exact ⟨i, by rw [hsame.size]; exact h3, by rw [hsame.addrs i h3]; exact h4, by rw [hsame.states i h3]; exact h5⟩
    · intro id' hno
      rw [hkeep' id' ?_]
      · exact hkeep id' hno
      · intro i _ h2 h3
        rw [hst] at h3
        exact hno _ ((hlt i).2 h2) h3
    · intro i id' hi hi2
      rw [hsame.states i hi] at hi2
      obtain ⟨x, y, e1, e2, e3⟩ := A3 i id' (by omega) hi2
      refine ⟨x, y, e1, ?_, e3⟩
      rw [hkeep' id' ?_]
      · exact e2
      · intro i' h1 h2 h3
        have := hSh.b.id_unique (by omega) h2 hi2 h3
        omega
    · intro id' hne hin
      obtain ⟨i, h1, h2⟩ := A4 id' hin
      by_cases hi : i < L₁.view.size
      · exact ⟨i, hi, by rw [hsame.states i hi]; exact h2⟩
      · exact absurd (hfree id' ⟨i, by omega, h1, h2⟩) hne

end Verif.Registry
