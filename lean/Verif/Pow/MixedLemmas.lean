import Verif.Pow.Mixed
import Verif.Pow.ScLemmas
import Verif.Mca.MixedLemmas

/-! Helper lemmas: the order of seq_cst operations and fences when writes become visible to one thread after another. -/

namespace Verif.Pow

open Verif.Order Verif.Mca Verif.Mca.Run

/-- A seq_cst fence is a heavy barrier. -/
theorem fence_heavy {be : Backend} (hbe : be ∈ codes) : ∃ z, threadFence be .seqCst = [z] ∧ heavy z = true := by
  simp only [codes, List.mem_cons, List.not_mem_nil, or_false] at hbe
  rcases hbe with rfl | rfl | rfl | rfl | rfl | rfl <;> exact ⟨_, rfl, rfl⟩

namespace Run

variable {cpu : Cpu} {R : Run cpu}

/-! ### The order of the accesses to one variable -/

/-- The write whose value is the current one at an access: the access itself or the write it reads. -/
def Source (R : Run cpu) (A : Pos × Part) (s : Option Pos) : Prop :=
  (A.2 = .wr ∧ s = some A.1) ∨ (A.2 = .rd ∧ R.ReadsFrom A.1 s)

/-- Coherence order, in closed form. -/
def Later (R : Run cpu) (A B : Pos × Part) : Prop :=
  R.Has A.1 A.2 ∧ R.Has B.1 B.2 ∧ R.SameLoc A.1 B.1 ∧
  ∃ s t, R.Source A s ∧ R.Source B t ∧ (R.Slt s t ∨ (s = t ∧ A.2 = .wr ∧ B.2 = .rd))

theorem Valid.source_unique (hR : R.Valid) {A s t} (h : R.Source A s) (h' : R.Source A t) : s = t := by
  rcases h with ⟨h, rfl⟩ | ⟨h, h1⟩
  · rcases h' with ⟨-, rfl⟩ | ⟨h', -⟩
    · rfl
    · rw [h] at h'; cases h'
  · rcases h' with ⟨h', -⟩ | ⟨-, h2⟩
    · rw [h] at h'; cases h'
    · exact hR.readsFrom_unique h1 h2

theorem Source.has {A : Pos × Part} {v : Pos} (hA : R.Has A.1 A.2) (h : R.Source A (some v)) :
    R.Has v .wr ∧ R.SameLoc A.1 v ∧ R.Seen A.1 v := by
  rcases h with ⟨h, e⟩ | ⟨h, h1⟩
  · cases e
    rw [h] at hA
    exact ⟨hA, Has.sameLoc hA, hA, Has.sameLoc hA, .inl rfl⟩
  · rw [h] at hA
    obtain ⟨⟨h2, h3, h4⟩, -⟩ := h1
    exact ⟨h2, h3, h2, h3, h4.elim (fun h => .inr (.inr ⟨hA, h⟩)) fun h => .inr (.inl h)⟩

theorem Valid.later_trans (hR : R.Valid) {A B C} (h : R.Later A B) (h' : R.Later B C) : R.Later A C := by
  obtain ⟨hA, hB, hl, s, t, h1, h2, h3⟩ := h
  obtain ⟨-, hC, hl', t', u, h1', h2', h3'⟩ := h'
  obtain rfl := hR.source_unique h2 h1'
  refine ⟨hA, hC, hl.trans hl', s, u, h1, h2', ?_⟩
  rcases h3 with h3 | ⟨rfl, h4, h5⟩
  · rcases h3' with h3' | ⟨rfl, -, -⟩
    · exact .inl (hR.slt_trans h3 h3')
    · exact .inl h3
  · rcases h3' with h3' | ⟨-, h6, -⟩
    · exact .inl h3'
    · rw [h5] at h6; cases h6

theorem Valid.later_irrefl (hR : R.Valid) {A} : ¬ R.Later A A := by
  rintro ⟨-, -, -, s, t, h1, h2, h3⟩
  obtain rfl := hR.source_unique h1 h2
  rcases h3 with h3 | ⟨-, h4, h5⟩
  · exact hR.slt_irrefl h3
  · rw [h4] at h5; cases h5

theorem mixed_sameLoc {A B : Pos × Part} (hA : R.Has A.1 A.2) (hB : R.Has B.1 B.2) (h : R.mixed.loc A = R.mixed.loc B) :
    R.SameLoc A.1 B.1 := actions_sameLoc hA hB h

theorem mixed_read {A : Pos × Part} (h : R.mixed.read A) : R.Has A.1 A.2 := by
  obtain ⟨h1, h2⟩ := h; rw [h1]; exact h2

theorem mixed_write {A : Pos × Part} (h : R.mixed.write A) : R.Has A.1 A.2 := by
  obtain ⟨h1, h2⟩ := h; rw [h1]; exact h2

theorem step_later {A B : R.mixed.Acc} (h : R.mixed.Step A B) : R.Later A B := by
  cases h with
  | rf hw hr h =>
    exact ⟨mixed_write hw, mixed_read hr, h.1.2.1.symm, some A.1, some A.1, .inl ⟨hw.1, rfl⟩, .inr ⟨hr.1, h⟩,
      .inr ⟨rfl, hw.1, hr.1⟩⟩
  | mo hw hv hl h =>
    exact ⟨mixed_write hw, mixed_write hv, mixed_sameLoc (mixed_write hw) (mixed_write hv) hl, some A.1, some B.1,
      .inl ⟨hw.1, rfl⟩, .inl ⟨hv.1, rfl⟩, .inl h⟩
  | @fr s hr hw hl hrf hs =>
    refine ⟨mixed_read hr, mixed_write hw, mixed_sameLoc (mixed_read hr) (mixed_write hw) hl, s.map Prod.fst, some B.1,
      .inr ⟨hr.1, hrf⟩, .inl ⟨hw.1, rfl⟩, .inl ?_⟩
    cases s with
    | none => trivial
    | some v => exact hs v rfl

theorem Valid.coh_later (hR : R.Valid) {A B : R.mixed.Acc} (h : R.mixed.Coh A B) : A = B ∨ R.Later A B := by
  induction h with
  | refl => exact .inl rfl
  | step _ hs ih =>
    right
    rcases ih with rfl | ih
    · exact step_later hs
    · exact hR.later_trans ih (step_later hs)

/-- What a read-modify-write comes before through its read it comes before through its write. -/
theorem Valid.later_from (hR : R.Valid) {A M B : Pos × Part} (hA : A.2 = .rd) (hM : M.2 = .wr) (hMw : R.Has M.1 .wr)
    (hp : R.Paired A.1 M.1) (h : R.Later A B) : B = M ∨ R.Later M B := by
  obtain ⟨hA', hB, hl, s, t, h1, h2, h3⟩ := h
  have hM' : R.Has M.1 M.2 := by rw [hM]; exact hMw
  rcases h1 with ⟨h1, -⟩ | ⟨-, h1⟩
  · rw [hA] at h1; cases h1
  rcases h3 with h3 | ⟨-, h3, -⟩
  swap
  · rw [hA] at h3; cases h3
  cases t with
  | none => cases s <;> exact absurd h3 _root_.id
  | some v =>
    obtain ⟨hv, hlv, -⟩ := h2.has hB
    by_cases e : v = M.1
    · subst e
      rcases h2 with ⟨h2, e⟩ | ⟨h2, hrf⟩
      · left
        ext1
        · exact (Option.some.inj e).symm
        · rw [h2, hM]
      · right
        exact ⟨hM', hB, hlv.symm, some M.1, some M.1, .inl ⟨hM, rfl⟩, .inr ⟨h2, hrf⟩, .inr ⟨rfl, hM, h2⟩⟩
    · right
      refine ⟨hM', hB, hp.1.symm.trans hl, some M.1, some v, .inl ⟨hM, rfl⟩, h2, .inl ?_⟩
      rcases hR.atomic _ _ v hp hMw hv ((hl.trans hlv).symm.trans hp.1) e with ⟨u, hu, hvu⟩ | h
      · exact absurd hu (hR.not_visible h1 (hR.slt_le h3 hvu))
      · exact h

/-- What comes before the read of a read-modify-write comes before its write. -/
theorem Valid.later_into (hR : R.Valid) {C A M : Pos × Part} (hA : A.2 = .rd) (hM : M.2 = .wr) (hMw : R.Has M.1 .wr)
    (hp : R.Paired A.1 M.1) (h : R.Later C A) : R.Later C M := by
  obtain ⟨hC, hA', hl, s, t, h1, h2, h3⟩ := h
  rcases h2 with ⟨h2, -⟩ | ⟨-, h2⟩
  · rw [hA] at h2; cases h2
  rw [hA] at hA'
  refine ⟨hC, by rw [hM]; exact hMw, hl.trans hp.1, s, some M.1, h1, .inl ⟨hM, rfl⟩, .inl ?_⟩
  rcases h3 with h3 | ⟨rfl, h3, -⟩
  · cases t with
    | none => cases s <;> exact absurd h3 _root_.id
    | some v => exact hR.slt_le h3 (.inr (hR.rmw_co hp hA' hMw h2.1))
  · rcases h1 with ⟨-, rfl⟩ | ⟨h1, -⟩
    · exact hR.rmw_co hp hA' hMw h2.1
    · rw [h3] at h1; cases h1

/-! ### What all threads see -/

/-- The access has been made and what it wrote or read is past at all threads. -/
def Done (R : Run cpu) (A : Pos × Part) (T : Nat) : Prop :=
  R.time A.1 A.2 < T ∧ ∀ s, R.Source A (some s) → ∀ t, R.Past s t T

theorem Done.mono {A S T} (h : R.Done A S) (hle : S ≤ T) : R.Done A T :=
  ⟨Nat.lt_of_lt_of_le h.1 hle, fun s hs t => (h.2 s hs t).mono hle⟩

theorem Valid.later_done (hR : R.Valid) {A B T} (h : R.Later A B) (hd : R.Done B T) : R.Done A T := by
  obtain ⟨hA, hB, hl, s, t, h1, h2, h3⟩ := h
  rcases h3 with h3 | ⟨rfl, h4, h5⟩
  · cases t with
    | none => cases s <;> exact absurd h3 _root_.id
    | some v =>
      have hp := hd.2 v h2
      refine ⟨?_, fun s' hs' i => ?_⟩
      · rcases id h1 with ⟨e, rfl⟩ | ⟨e, hrf⟩
        · rw [e] at hA ⊢
          exact hR.made hA (hR.past_le (.inr h3) (hp A.1.1))
        · rw [e] at hA ⊢
          obtain ⟨u, hu, m, hm, hlt⟩ := hp A.1.1
          obtain ⟨hv, hlv, -⟩ := h2.has hB
          obtain ⟨huw, hlu⟩ := hR.past_sameLoc hv hu
          have hnv := hR.not_visible hrf (hR.slt_le h3 (hu.imp Eq.symm _root_.id))
          refine Nat.lt_of_le_of_lt (Nat.le_of_not_lt fun hlt => hnv ?_) hlt
          exact ⟨huw, (hl.trans hlv).trans hlu, .inl ⟨m, hm, hlt⟩⟩
      · obtain rfl := hR.source_unique h1 hs'
        exact hR.past_le (.inr h3) (hp i)
  · rcases id h1 with ⟨e, rfl⟩ | ⟨e, hrf⟩
    · rw [e] at hA
      refine ⟨by rw [e]; exact hR.made hA (hd.2 _ h2 A.1.1), fun s' hs' i => ?_⟩
      rw [← Option.some.inj (hR.source_unique h1 hs')]
      exact hd.2 _ h2 i
    · rw [e] at h4; cases h4

/-- The barrier has arrived at all threads. -/
def Through (R : Run cpu) (b : Pos) (T : Nat) : Prop := ∀ t, ∃ n, R.bar b t = some n ∧ n ≤ T

theorem Through.mono {b S T} (h : R.Through b S) (hle : S ≤ T) : R.Through b T := fun t => by
  obtain ⟨n, h1, h2⟩ := h t
  exact ⟨n, h1, Nat.le_trans h2 hle⟩

/-- The access is among what the barrier carries. -/
def Held (R : Run cpu) (A : Pos × Part) (b : Pos) : Prop :=
  ∃ m, R.bar b b.1 = some m ∧ R.time A.1 A.2 < m ∧ ∀ s, R.Source A (some s) → R.Past s b.1 m

theorem Valid.held_done (hR : R.Valid) {A b T} (hb : R.IsBarrier cumulative b) (hA : R.Has A.1 A.2) (h : R.Held A b)
    (h' : R.Through b T) : R.Done A T := by
  obtain ⟨m, hm, h1, h2⟩ := h
  refine ⟨?_, fun s hs t => ?_⟩
  · obtain ⟨n, hn, hle⟩ := h' b.1
    rw [hm] at hn; cases hn
    omega
  · obtain ⟨n, hn, hle⟩ := h' t
    obtain ⟨v, hv, ha⟩ := h2 s hs
    obtain ⟨hv', -⟩ := hR.past_sameLoc (hs.has hA).1 hv
    exact hR.past_le (hv.imp Eq.symm _root_.id) ((hR.cumul b v t m n hb hv' hm ha hn).mono hle)

theorem Valid.before_held (hR : R.Valid) {A b} (hb : R.IsBarrier cumulative b) (hA : R.Has A.1 A.2) (h : Before A.1 b) :
    R.Held A b := by
  obtain ⟨m, hm, h1, -⟩ := hR.execute b hb
  refine ⟨m, hm, h1 _ _ h hA, fun s hs => ?_⟩
  obtain ⟨hs1, -, -, -, rfl | hs2 | ⟨hs2, hs3⟩⟩ := hs.has hA
  · rw [← h.1]
    exact (hR.arrived_own hs1 (h1 _ _ h hs1)).past
  · rw [← h.1, ← hs2.1]
    exact (hR.arrived_own hs1 (h1 _ _ (hs2.trans h) hs1)).past
  · rw [← h.1]
    exact (hs3.mono (Nat.le_of_lt (h1 _ _ h hs2))).past

/-! ### Barriers between operations -/

theorem is_of_split {e : Pos} {pre post : List Item} {it : Item} {l c : List Ev} {z : Ev}
    (hp : R.prog e.1 = pre ++ it :: post) (he : it.events = l ++ z :: c) :
    R.Is (e.1, (events pre).length + l.length) z := by
  rw [Is, code_eq hp, he, List.getElem?_append_right (by simp)]
  simp

/-- A heavy barrier after the effects of the first, or before those of the second of two seq_cst operations. -/
theorem barrier_either (hbe : R.OnBarriers) {id id' : OpId} {it it' : Item} {e f : Pos} {x y : Ev}
    (he : R.Within e id it) (hf : R.Within f id' it') (hs : it.isSeqCst = true) (hs' : it'.isSeqCst = true)
    (hx : R.Is e x) (hy : R.Is f y) (hp : effect x.ins = true) (hq : effect y.ins = true) :
    (∃ b, R.IsBarrier heavy b ∧ Before e b ∧ R.Within b id it) ∨
    ∃ b, R.IsBarrier heavy b ∧ Before b f ∧ R.Within b id' it' := by
  obtain ⟨b, k, o, n, hr, hc, h1, h3⟩ := form hbe (List.mem_of_getElem? he.item) hs
  obtain ⟨b', k', o', n', hr', hc', h1', -⟩ := form hbe (List.mem_of_getElem? hf.item) hs'
  obtain ⟨pre, hl, ht, hi⟩ := he
  obtain ⟨pre', hl', ht', hi'⟩ := hf
  obtain ⟨post, a, c, hp1, e1, l1⟩ := hi.split hx
  obtain ⟨post', a', c', hp1', e1', l1'⟩ := hi'.split hy
  rcases sc_barrier hbe.1 hr hr' n n' h1 h1' h3 (a₁ := a.map Ev.ins) (x := x.ins) (b₁ := c.map Ev.ins)
    (a₂ := a'.map Ev.ins) (y := y.ins) (b₂ := c'.map Ev.ins) (by rw [← hc, ← events_ins, e1]; simp)
    (by rw [← hc', ← events_ins, e1']; simp) hp hq with ⟨z, hz, hh⟩ | ⟨z, hz, hh⟩
  · obtain ⟨z, hz', rfl⟩ := List.mem_map.1 hz
    obtain ⟨c1, c2, rfl⟩ := List.append_of_mem hz'
    left
    refine ⟨(e.1, (events pre).length + (a ++ x :: c1).length), ⟨z, is_of_split hp1 (c := c2) ?_, hh⟩, ⟨rfl, ?_⟩,
      pre, hl, ht, hi.1, ?_, ?_⟩
    · rw [e1]; simp
    · show e.2 < _; simp; omega
    · show _ ≤ _ + _; omega
    · show _ < _; rw [e1]; simp
  · obtain ⟨z, hz', rfl⟩ := List.mem_map.1 hz
    obtain ⟨c1, c2, rfl⟩ := List.append_of_mem hz'
    right
    refine ⟨(f.1, (events pre').length + c1.length), ⟨z, is_of_split hp1' (c := c2 ++ y :: c') ?_, hh⟩, ⟨rfl, ?_⟩,
      pre', hl', ht', hi'.1, ?_, ?_⟩
    · rw [e1']; simp
    · show _ < f.2; simp at l1'; omega
    · show _ ≤ _ + _; omega
    · show _ < _; rw [e1']; simp

theorem _root_.Verif.Mca.Run.Chief.effect {M a} (h : R.toRun.Chief a M) :
    ∃ it x, R.Within M.1 a it ∧ it.isSeqCst = true ∧ R.Is M.1 x ∧ Verif.Pow.effect x.ins = true := by
  obtain ⟨it, x, h1, h2, h3, h4, -⟩ := h.item
  refine ⟨it, x, h1, h2, h3, ?_⟩
  cases hp : M.2 <;> rw [hp] at h4
  · have : x.ins.ret = true := h4
    simp [Verif.Pow.effect, this]
  · have : x.ins.pub = true := h4
    simp [Verif.Pow.effect, this]

/-- The instruction of a seq_cst fence. -/
def site (R : Run cpu) (a : OpId) : Pos := (a.1, R.toRun.start a)

theorem fence_at (hbe : R.OnBarriers) {a : OpId} (ha : R.mixed.fence a) :
    (∃ b, R.Within (R.site a) a (.fence b .seqCst)) ∧ R.IsBarrier heavy (R.site a) ∧
    ∀ z it, R.Within z a it → z = R.site a := by
  obtain ⟨b, ha⟩ := ha
  obtain ⟨x, hx, hh⟩ := fence_heavy (runs_codes hbe.1 (hbe.2 a.1 _ (List.mem_of_getElem? ha) b rfl))
  have hev : (Item.fence b .seqCst).events = [⟨x, (Item.fence b .seqCst).loc, (Item.fence b .seqCst).pairOf x⟩] := by
    simp [Item.events, Item.code, hx]
  refine ⟨⟨b, within_of_bounds ha rfl (Nat.le_refl _) (by rw [hev]; simp [site])⟩, ?_, ?_⟩
  · obtain ⟨pre, post, hp, hl⟩ := split_at ha
    refine ⟨⟨x, (Item.fence b .seqCst).loc, (Item.fence b .seqCst).pairOf x⟩, ?_, hh⟩
    · have := is_of_split (R := R) (e := R.site a) (pre := pre) (post := post) (l := []) (c := []) hp hev
      have ht : (R.prog a.1).take a.2 = pre := by rw [hp, ← hl]; simp
      simp only [List.length_nil, Nat.add_zero] at this
      have e : R.site a = ((R.site a).1, (events pre).length) := by
        simp [site, Mca.Run.start, ht]
      rw [e]; exact this
  · intro z it hz
    have := hz.item
    rw [ha] at this
    obtain rfl := Option.some.inj this
    obtain ⟨h1, h2, h3⟩ := hz.bounds
    rw [hev] at h3
    simp at h3
    ext1
    · exact h1
    · show z.2 = _; simp [site]; omega

/-! ### Across threads -/

/-- What is seen by an access that happens before `f` in another thread is among what a barrier after `f` carries. -/
theorem Valid.across_held (hR : R.Valid) {A : Pos × Part} {w r b : Pos} (hb : R.IsBarrier cumulative b)
    (hA : R.Has A.1 A.2) (ht : R.time A.1 A.2 ≤ R.time w .wr) (hw : R.time w .wr < R.time r .rd)
    (hr : R.Has r .rd) (hrb : Before r b) (hk : ∀ v, R.Has v .wr → R.Leads v w → R.Known v r)
    (hl : ∀ v, R.Source A (some v) → R.Leads v w) : R.Held A b := by
  obtain ⟨m, hm, h1, -⟩ := hR.execute b hb
  have := h1 r .rd hrb hr
  refine ⟨m, hm, by omega, fun s hs => ?_⟩
  rw [← hrb.1]
  exact ((hk s (hs.has hA).1 (hl s hs)).past hR).mono (Nat.le_of_lt this)

theorem heavy_barrier {b : Pos} (h : R.IsBarrier heavy b) : R.IsBarrier cumulative b := by
  obtain ⟨z, hz, h⟩ := h
  exact ⟨z, hz, heavy_cumulative h⟩

/-- What happens before a fence is among what the fence carries. -/
theorem Valid.happens_held (hR : R.Valid) (hbe : R.OnBarriers) (hS : R.Sound) {A : Pos × Part} {b : OpId}
    (hb : R.mixed.fence b) (hA : R.Has A.1 A.2) (h : R.HappensBefore A.1 (R.site b)) : R.Held A (R.site b) := by
  obtain ⟨⟨_, h1⟩, h2, -⟩ := fence_at hbe hb
  rcases hR.happens hbe hS h with h | ⟨w, r, i1, i2, i3, i4, i5, i6⟩
  · exact hR.before_held (heavy_barrier h2) hA h
  · have hrb : Before r (R.site b) := by
      rcases Acquired.le i4 with rfl | h
      · exact absurd i3 h1.no_access
      · exact h
    exact hR.across_held (heavy_barrier h2) hA (hR.inThread.released hS i1 i2 hA) i5 i3 hrb i6 fun v hv =>
      hR.seen_released hbe (fun t it h => (hS t it h).1) i1 i2 (hv.has hA).2.2

/-- A heavy barrier that happens before an access has arrived everywhere. -/
theorem Valid.happens_through (hR : R.Valid) (hbe : R.OnBarriers) (hS : R.Sound) {b f : Pos} {q}
    (hb : R.IsBarrier heavy b) (hn : ∀ p, ¬ R.Has b p) (hf : R.Has f q) (h : R.HappensBefore b f) :
    R.Through b (R.time f q) := by
  rcases hR.happens hbe hS h with h | ⟨w, r, i1, i2, i3, i4, i5, i6⟩
  · exact hR.waits b f q hb h hf
  · rcases i1.before with rfl | i1
    · exact absurd i2 (hn _)
    · have := hR.inThread.acquired hS i4 i3 hf
      exact Through.mono (hR.waits b w .wr hb i1 i2) (by omega)

/-! ### The order -/

/-- An order of accesses and fences: `W` within a variable and into fences, `S` through what all threads see. -/
theorem extend {N : Type} {S W : N → N → Prop} (hS : ∀ a b c, S a b → S b c → S a c)
    (hW : ∀ a b c, W a b → W b c → W a c) (hWS : ∀ a b c, W a b → S b c → S a c) (iS : ∀ a, ¬ S a a)
    (iW : ∀ a, ¬ W a a) :
    ∃ lt : N → N → Prop, (∀ a, ¬ lt a a) ∧ (∀ a b c, lt a b → lt b c → lt a c) ∧
      (∀ a b, a ≠ b → lt a b ∨ lt b a) ∧ (∀ a b, S a b → lt a b) ∧ ∀ a b, W a b → lt a b := by
  let F (a b : N) : Prop := W a b ∨ ∃ c, S a c ∧ (c = b ∨ W c b)
  have hF : ∀ {a b c}, F a b → F b c → F a c := by
    rintro a b c (h | ⟨d, h1, h2⟩) h'
    · rcases h' with h' | ⟨d, h1, h2⟩
      · exact .inl (hW _ _ _ h h')
      · exact .inr ⟨d, hWS _ _ _ h h1, h2⟩
    · rcases h' with h' | ⟨d', h1', h2'⟩
      · refine .inr ⟨d, h1, .inr ?_⟩
        rcases h2 with rfl | h2
        · exact h'
        · exact hW _ _ _ h2 h'
      · refine .inr ⟨d', ?_, h2'⟩
        rcases h2 with rfl | h2
        · exact hS _ _ _ h1 h1'
        · exact hS _ _ _ h1 (hWS _ _ _ h2 h1')
  have hirr : ∀ a, ¬ F a a := by
    rintro a (h | ⟨c, h1, rfl | h2⟩)
    · exact iW a h
    · exact iS _ h1
    · exact iS _ (hWS _ _ _ h2 h1)
  let le (a b : N) : Prop := a = b ∨ F a b
  have : IsPartialOrder N le :=
    { refl := fun a => .inl rfl
      trans := by
        rintro a b c (rfl | h) (rfl | h')
        · exact .inl rfl
        · exact .inr h'
        · exact .inr h
        · exact .inr (hF h h')
      antisymm := by
        rintro a b (rfl | h) h'
        · rfl
        · rcases h' with rfl | h'
          · rfl
          · exact absurd (hF h h') (hirr a) }
  obtain ⟨s, hs, hle⟩ := extend_partialOrder le
  have hFs : ∀ {a b}, F a b → s a b ∧ a ≠ b := fun {a b} h =>
    ⟨hle a b (.inr h), by rintro rfl; exact hirr _ h⟩
  refine ⟨fun a b => s a b ∧ a ≠ b, fun a h => h.2 rfl, ?_, ?_, fun a b h => hFs (.inr ⟨b, h, .inl rfl⟩),
    fun a b h => hFs (.inl h)⟩
  · rintro a b c ⟨h, hne⟩ ⟨h', hne'⟩
    refine ⟨_root_.trans h h', ?_⟩
    rintro rfl
    exact hne (antisymm h h')
  · intro a b hne
    rcases total_of s a b with h | h
    · exact .inl ⟨h, hne⟩
    · exact .inr ⟨h, fun e => hne e.symm⟩

/-- When a barrier is executed. -/
def own (R : Run cpu) (b : Pos) : Nat := (R.bar b b.1).getD 0

/-- Accesses and barriers. -/
abbrev Node := (Pos × Part) ⊕ Pos

/-- The moment of an access or barrier. -/
def moment (R : Run cpu) : Node → Nat
  | .inl A => R.time A.1 A.2
  | .inr b => R.own b

/-- The first is visible everywhere at the moment of the second. -/
def Strongly (R : Run cpu) : Node → Node → Prop
  | .inl A, y => R.Has A.1 A.2 ∧ R.Done A (R.moment y)
  | .inr b, .inl B => R.Through b (R.time B.1 B.2)
  | .inr b, .inr c => R.Through b (R.own c) ∧
      (R.own b < R.own c ∨ (R.own b = R.own c ∧ (b.1 < c.1 ∨ (b.1 = c.1 ∧ b.2 < c.2))))

/-- The first is coherence-ordered before the second or carried by it. -/
def Weakly (R : Run cpu) : Node → Node → Prop
  | .inl A, .inl B => R.Later A B
  | .inl A, .inr b => R.IsBarrier cumulative b ∧ ∃ B, (A = B ∨ R.Later A B) ∧ R.Has B.1 B.2 ∧ R.Held B b
  | .inr _, _ => False

theorem Through.own {b : Pos} {T : Nat} (h : R.Through b T) : R.own b ≤ T := by
  obtain ⟨n, hn, hle⟩ := h b.1
  simp [Run.own, hn]; exact hle

theorem Valid.nodes (hR : R.Valid) :
    ∃ lt : Node → Node → Prop, (∀ a, ¬ lt a a) ∧ (∀ a b c, lt a b → lt b c → lt a c) ∧
      (∀ a b, a ≠ b → lt a b ∨ lt b a) ∧ (∀ a b, R.Strongly a b → lt a b) ∧ ∀ a b, R.Weakly a b → lt a b := by
  refine extend ?_ ?_ ?_ ?_ ?_
  · rintro (A | b) (B | c) (C | d) h h'
    · exact ⟨h.1, h.2.mono (Nat.le_of_lt h'.2.1)⟩
    · exact ⟨h.1, h.2.mono (Nat.le_of_lt h'.2.1)⟩
    · exact ⟨h.1, h.2.mono (Through.own h')⟩
    · exact ⟨h.1, h.2.mono h'.1.own⟩
    · exact Through.mono h (Nat.le_of_lt h'.2.1)
    · have h1 : R.own b ≤ R.time B.1 B.2 := Through.own h
      have h2 : R.time B.1 B.2 < R.own d := h'.2.1
      exact ⟨Through.mono h (Nat.le_of_lt h'.2.1), .inl (by omega)⟩
    · exact h.1.mono (Through.own h')
    · obtain ⟨h1, h2⟩ := h
      obtain ⟨h3, h4⟩ := h'
      exact ⟨h1.mono h3.own, by omega⟩
  · rintro (A | b) (B | c) (C | d) h h'
    · exact hR.later_trans h h'
    · obtain ⟨h1, D, h2, h3⟩ := h'
      refine ⟨h1, D, .inr ?_, h3⟩
      rcases h2 with rfl | h2
      · exact h
      · exact hR.later_trans h h2
    all_goals first | exact absurd h' _root_.id | exact absurd h _root_.id
  · rintro (A | b) (B | c) y h h'
    · exact ⟨h.1, hR.later_done h h'.2⟩
    · obtain ⟨h1, D, h2, h3, h4⟩ := h
      have hT : R.Through c (R.moment y) := by
        cases y with
        | inl B => exact h'
        | inr d => exact h'.1
      have hd := hR.held_done h1 h3 h4 hT
      rcases h2 with rfl | h2
      · exact ⟨h3, hd⟩
      · exact ⟨h2.1, hR.later_done h2 hd⟩
    all_goals exact absurd h _root_.id
  · rintro (A | b) h
    · exact Nat.lt_irrefl _ h.2.1
    · have := h.2; omega
  · rintro (A | b) h
    · exact hR.later_irrefl h
    · exact h

/-- The access of an operation at which it takes effect, or the barrier of a fence. -/
def NodeOf (R : Run cpu) (a : OpId) : Node → Prop
  | .inl M => R.mixed.seqCst a ∧ R.toRun.Chief a M
  | .inr b => R.mixed.fence a ∧ b = R.site a

theorem NodeOf.within (hbe : R.OnBarriers) {a n} (h : R.NodeOf a n) :
    ∃ it, R.Within (match n with | .inl M => M.1 | .inr b => b) a it := by
  cases n with
  | inl M => obtain ⟨it, x, h, -⟩ := h.2.item; exact ⟨it, h⟩
  | inr b => obtain ⟨h1, rfl⟩ := h; obtain ⟨⟨_, h⟩, -⟩ := fence_at hbe h1; exact ⟨_, h⟩

theorem NodeOf.inj (hbe : R.OnBarriers) {a b n} (h : R.NodeOf a n) (h' : R.NodeOf b n) : a = b := by
  obtain ⟨it, h⟩ := h.within hbe
  obtain ⟨it', h'⟩ := h'.within hbe
  exact (h.unique h').1

theorem NodeOf.unique {a n m} (h : R.NodeOf a n) (h' : R.NodeOf a m) : n = m := by
  cases n <;> cases m
  · rw [h.2.unique h'.2]
  · exact absurd h'.1 (not_both (R := R.toRun) h.1)
  · exact absurd h.1 (not_both (R := R.toRun) h'.1)
  · rw [h.2, h'.2]

theorem node (hA : R.toRun.AsAsked) {a} (h : R.mixed.Strong a) : ∃ n, R.NodeOf a n := by
  rcases h with h | h
  · obtain ⟨M, hM⟩ := hA.chief h
    exact ⟨.inl M, h, hM⟩
  · exact ⟨.inr (R.site a), h, rfl⟩

/-- The order of a thread. -/
theorem Valid.sb_order (hR : R.Valid) (hbe : R.OnBarriers) {a b n m} (hn : R.NodeOf a n)
    (hm : R.NodeOf b m) (h0 : a.1 = b.1) (h1 : a.2 < b.2) : R.Strongly n m ∨ R.Weakly n m := by
  cases n with
  | inl M =>
    obtain ⟨it, x, hin, hs, hx, hex⟩ := Mca.Run.Chief.effect hn.2
    cases m with
    | inl M' =>
      left
      obtain ⟨it', y, hin', hs', hy, hey⟩ := Mca.Run.Chief.effect hm.2
      obtain ⟨b0, z, hz, hh, hb1, hb2⟩ := barrier_between hbe h0 h1 hin hin' hs hs' hx hy hex hey
      have hc : R.IsBarrier cumulative b0 := ⟨z, hz, heavy_cumulative hh⟩
      exact ⟨hn.2.has, hR.held_done hc hn.2.has (hR.before_held hc hn.2.has hb1)
        (hR.waits b0 M'.1 M'.2 ⟨z, hz, hh⟩ hb2 hm.2.has)⟩
    | inr c =>
      right
      obtain ⟨hm, rfl⟩ := hm
      obtain ⟨⟨_, h2⟩, h3, -⟩ := fence_at hbe hm
      exact ⟨heavy_barrier h3, M, .inl rfl, hn.2.has, hR.before_held (heavy_barrier h3) hn.2.has (hin.lt h2 h0 h1)⟩
  | inr c =>
    left
    obtain ⟨hn, rfl⟩ := hn
    obtain ⟨⟨_, h2⟩, h3, -⟩ := fence_at hbe hn
    cases m with
    | inl M =>
      obtain ⟨it, x, hin, hs, hx, hex⟩ := Mca.Run.Chief.effect hm.2
      exact hR.waits _ M.1 M.2 h3 (h2.lt hin h0 h1) hm.2.has
    | inr d =>
      obtain ⟨hm, rfl⟩ := hm
      obtain ⟨⟨_, h4⟩, h5, -⟩ := fence_at hbe hm
      have hb := h2.lt h4 h0 h1
      obtain ⟨k, hk, -⟩ := hR.execute _ (heavy_barrier h5)
      have hT : R.Through (R.site a) (R.own (R.site b)) := by
        simp only [Run.own, hk]
        exact hR.waitsBarrier _ _ h3 (heavy_barrier h5) hb k hk
      refine ⟨hT, ?_⟩
      have := hT.own
      have := hb.1
      have := hb.2
      omega

/-- Strongly happens before. -/
theorem Valid.strong_order (hR : R.Valid) (hbe : R.OnBarriers) (hS : R.Sound) {a b n m} (hn : R.NodeOf a n)
    (hm : R.NodeOf b m) {x y : OpId} {e f : Pos} {itx ity} (hax : R.mixed.sb a x) (hyb : R.mixed.sb y b)
    (he : R.Within e x itx) (hf : R.Within f y ity) (h : R.HappensBefore e f) : R.Strongly n m ∨ R.Weakly n m := by
  rcases hR.happens hbe hS h with h | ⟨w, r, i1, i2, i3, i4, i5, i6⟩
  · obtain ⟨h0, h1⟩ := he.before hf h
    refine hR.sb_order hbe hn hm (hax.1.trans (h0.trans hyb.1)) ?_
    have := hax.2
    have := hyb.2
    rcases h1 with rfl | h1 <;> omega
  have hew : ∀ {g it}, R.Within g a it → Before g w := by
    intro g it hg
    have := hg.lt he hax.1 hax.2
    rcases i1.before with rfl | i1
    · exact this
    · exact this.trans i1
  have hrf : ∀ {g it}, R.Within g b it → Before r g := by
    intro g it hg
    have := hf.lt hg hyb.1 hyb.2
    rcases Acquired.le i4 with rfl | i4
    · exact this
    · exact i4.trans this
  cases n with
  | inl M =>
    obtain ⟨it, x, hin, hs, hx, hex⟩ := Mca.Run.Chief.effect hn.2
    have hrel : R.Released M.1 w := i1.of_before (hin.lt he hax.1 hax.2)
    have held : ∀ {c it}, R.Within c b it → R.IsBarrier heavy c → R.Held M c := fun hc hb =>
      hR.across_held (heavy_barrier hb) hn.2.has (hR.inThread.released hS hrel i2 hn.2.has) i5 i3 (hrf hc) i6
        fun v hv => hR.seen_released hbe (fun t it h => (hS t it h).1) hrel i2 (hv.has hn.2.has).2.2
    cases m with
    | inl M' =>
      left
      obtain ⟨it', y, hin', hs', hy, hey⟩ := Mca.Run.Chief.effect hm.2
      refine ⟨hn.2.has, ?_⟩
      rcases barrier_either hbe hin hin' hs hs' hx hy hex hey with ⟨c, hc, hc1, hc2⟩ | ⟨c, hc, hc1, hc2⟩
      · refine (hR.held_done (heavy_barrier hc) hn.2.has (hR.before_held (heavy_barrier hc) hn.2.has hc1)
          (hR.waits c w .wr hc (hew hc2) i2)).mono ?_
        have := hR.inThread.acquired hS (i4.of_before (hf.lt hin' hyb.1 hyb.2)) i3 hm.2.has
        show _ ≤ R.time M'.1 M'.2
        omega
      · exact hR.held_done (heavy_barrier hc) hn.2.has (held hc2 hc) (hR.waits c M'.1 M'.2 hc hc1 hm.2.has)
    | inr c =>
      right
      obtain ⟨hm, rfl⟩ := hm
      obtain ⟨⟨_, h2⟩, h3, -⟩ := fence_at hbe hm
      exact ⟨heavy_barrier h3, M, .inl rfl, hn.2.has, held h2 h3⟩
  | inr c =>
    left
    obtain ⟨hn, rfl⟩ := hn
    obtain ⟨⟨_, h2⟩, h3, -⟩ := fence_at hbe hn
    have hT := hR.waits _ w .wr h3 (hew h2) i2
    cases m with
    | inl M =>
      obtain ⟨it', y, hin', hs', hy, hey⟩ := Mca.Run.Chief.effect hm.2
      have := hR.inThread.acquired hS (i4.of_before (hf.lt hin' hyb.1 hyb.2)) i3 hm.2.has
      exact Through.mono hT (by omega)
    | inr d =>
      obtain ⟨hm, rfl⟩ := hm
      obtain ⟨⟨_, h4⟩, h5, -⟩ := fence_at hbe hm
      obtain ⟨k, hk, hk1, -⟩ := hR.execute _ (heavy_barrier h5)
      have := hk1 r .rd (hrf h4) i3
      have hT := Through.mono hT (T := R.own (R.site b)) (by simp only [Run.own, hk, Option.getD_some]; omega)
      refine ⟨hT, .inl ?_⟩
      have h6 : R.own (R.site a) ≤ R.time w .wr := Through.own (hR.waits _ w .wr h3 (hew h2) i2)
      simp only [Run.own, hk, Option.getD_some] at h6 ⊢
      omega

/-- The order. -/
theorem Valid.mixed_order (hR : R.Valid) (hbe : R.OnBarriers) (hS : R.Sound) (hA : R.toRun.AsAsked) :
    ∃ before, R.mixed.ScOrder before ∧ R.mixed.Literal before := by
  obtain ⟨lt, irr, tr, tot, hSt, hWk⟩ := hR.nodes
  let before (a b : OpId) : Prop := ∃ n m, R.NodeOf a n ∧ R.NodeOf b m ∧ lt n m
  have acc : ∀ {A}, R.mixed.read A ∨ R.mixed.write A → R.Has A.1 A.2 := by
    rintro A (h | h)
    · exact mixed_read h
    · exact mixed_write h
  have sw : ∀ {n m}, R.Strongly n m ∨ R.Weakly n m → lt n m := fun h => h.elim (hSt _ _) (hWk _ _)
  have within : ∀ {A a}, R.mixed.of A a → ∃ it, R.Within A.1 a it := by
    rintro A a (⟨-, it, x, h, -⟩ | ⟨-, it, x, h, -⟩) <;> exact ⟨it, h⟩
  -- from a fence to the accesses that it happens before
  have fen : ∀ {a A}, R.mixed.fence a → R.mixed.after a A → R.Has A.1 A.2 → R.Through (R.site a) (R.time A.1 A.2) := by
    rintro a A ha ⟨z, it, hz, hb⟩ hA
    obtain ⟨⟨_, h1⟩, h2, h3⟩ := fence_at hbe ha
    rw [h3 z it hz] at hb
    exact hR.happens_through hbe hS h2 (fun p => h1.no_access) hA hb
  have literal : R.mixed.Literal before := by
    rintro a A B b ⟨hacc, hfrom⟩ hcoh hof hb hne
    obtain ⟨M', hM'⟩ := hA.chief (R := R.toRun) hb
    have hM'w : M'.2 = .wr → R.Has M'.1 .wr := fun h => by have := hM'.has; rw [h] at this; exact this
    -- into the write of a read-modify-write
    have into : ∀ C, R.Later C B → R.Later C M' := by
      intro C h
      rcases hM'.rest B hof with rfl | ⟨h1, h2, -, h4⟩
      · exact h
      · exact hR.later_into h2 h1 (hM'w h1) h4 h
    rcases hfrom with ⟨ha, hofa⟩ | ⟨ha, haf⟩
    · obtain ⟨M, hM⟩ := hA.chief (R := R.toRun) ha
      refine ⟨.inl M, .inl M', ⟨ha, hM⟩, ⟨hb, hM'⟩, hWk _ _ ?_⟩
      rcases hR.coh_later hcoh with rfl | h
      · obtain ⟨_, h1⟩ := within hofa
        obtain ⟨_, h2⟩ := within hof
        exact absurd (h1.unique h2).1 hne
      · have h := into _ h
        rcases hM.rest A hofa with rfl | ⟨h1, h2, -, h4⟩
        · exact h
        · rcases hR.later_from h2 h1 (by have := hM.has; rw [h1] at this; exact this) h4 h with e | h
          · subst e
            obtain ⟨_, _, j1, -⟩ := hM.item
            obtain ⟨_, _, j2, -⟩ := hM'.item
            exact absurd (j1.unique j2).1 hne
          · exact h
    · refine ⟨.inr (R.site a), .inl M', ⟨ha, rfl⟩, ⟨hb, hM'⟩, ?_⟩
      have hT := fen ha haf (acc hacc)
      rcases hR.coh_later hcoh with rfl | h
      · apply hSt
        rcases hM'.rest A hof with rfl | ⟨h1, h2, h3, h4⟩
        · exact hT
        · have := hR.inThread.paired h4 h3 (hM'w h1)
          exact Through.mono hT (by rw [h2, h1]; omega)
      · exact tr _ (.inl A) _ (hSt _ _ hT) (hWk _ _ (into _ h))
  refine ⟨before, ⟨?_, ?_, ?_, ?_, ?_, ?_, ?_, ?_⟩, literal⟩
  · rintro a ⟨n, m, h1, h2, h3⟩
    rw [h1.unique h2] at h3
    exact irr _ h3
  · rintro a b c ⟨n, m, h1, h2, h3⟩ ⟨m', k, h1', h2', h3'⟩
    obtain rfl := h2.unique h1'
    exact ⟨n, k, h1, h2', tr _ _ _ h3 h3'⟩
  · intro a b ha hb hne
    obtain ⟨n, hn⟩ := node hA ha
    obtain ⟨m, hm⟩ := node hA hb
    rcases tot n m (by rintro rfl; exact hne (hn.inj hbe hm)) with h | h
    · exact .inl ⟨n, m, hn, hm, h⟩
    · exact .inr ⟨m, n, hm, hn, h⟩
  · intro a b ha hb ⟨h0, h1⟩
    obtain ⟨n, hn⟩ := node hA ha
    obtain ⟨m, hm⟩ := node hA hb
    exact ⟨n, m, hn, hm, sw (hR.sb_order hbe hn hm h0 h1)⟩
  · rintro a x y b ha hb h1 ⟨e, f, it, it', he, hf, hef⟩ h2
    obtain ⟨n, hn⟩ := node hA ha
    obtain ⟨m, hm⟩ := node hA hb
    exact ⟨n, m, hn, hm, sw (hR.strong_order hbe hS hn hm h1 h2 he hf hef)⟩
  · intro a w v r b ha hb hne hwa hw hseq hr hrf hrb
    have hle : R.Has v.1 .wr ∧ R.Le w.1 v.1 := by
      clear hrf
      induction hseq with
      | head => exact ⟨hw.2, .inl rfl⟩
      | @rmw v r v' _ hr hv' hrmw hrf ih =>
        exact ⟨hv'.2, .inr (hR.le_co ih.2 (hR.rmw_co (Rmw.paired hrmw) hr.2 hv'.2 hrf.1))⟩
    have hrf : R.ReadsFrom r.1 (some v.1) := hrf
    obtain ⟨M', hM'⟩ := hA.chief (R := R.toRun) hb
    have hl : R.Later w r := by
      refine ⟨mixed_write hw, mixed_read hr, ?_, some w.1, some v.1, .inl ⟨hw.1, rfl⟩, .inr ⟨hr.1, hrf⟩, ?_⟩
      · have hlv := hrf.1.2.1
        rcases hle.2 with h | h
        · rw [h]; exact hlv.symm
        · exact (hR.co_writes _ _ h).2.2.trans hlv.symm
      · rcases hle.2 with h | h
        · exact .inr ⟨by rw [h], hw.1, hr.1⟩
        · exact .inl h
    obtain ⟨M, hM⟩ := hA.chief (R := R.toRun) ha
    refine ⟨.inl M, .inl M', ⟨ha, hM⟩, ⟨hb, hM'⟩, hWk _ _ ?_⟩
    have e : w = M := by
      rcases hM.rest w hwa with e | ⟨-, h2, -⟩
      · exact e
      · have := hw.1; rw [h2] at this; cases this
    rw [← e]
    rcases hM'.rest r hrb with rfl | ⟨h1, h2, -, h4⟩
    · exact hl
    · exact hR.later_into h2 h1 (by have := hM'.has; rw [h1] at this; exact this) h4 hl
  · rintro a A B b ⟨hacc, hfrom⟩ hcoh ⟨z, it, hz, hzB⟩ hb
    obtain ⟨⟨_, j1⟩, j2, j3⟩ := fence_at hbe hb
    rw [j3 z it hz] at hzB
    have hB : R.Has B.1 B.2 := by
      rcases hR.coh_later hcoh with rfl | h
      · exact acc hacc
      · exact h.2.1
    have hheld := hR.happens_held hbe hS hb hB hzB
    have hc := heavy_barrier j2
    rcases hfrom with ⟨ha, hof⟩ | ⟨ha, haf⟩
    · obtain ⟨M, hM⟩ := hA.chief (R := R.toRun) ha
      refine ⟨.inl M, .inr (R.site b), ⟨ha, hM⟩, ⟨hb, rfl⟩, hWk _ _ ⟨hc, ?_⟩⟩
      rcases hM.rest A hof with rfl | ⟨h1, h2, h3, h4⟩
      · exact ⟨B, hR.coh_later hcoh, hB, hheld⟩
      · have hMw : R.Has M.1 .wr := by have := hM.has; rw [h1] at this; exact this
        rcases hR.coh_later hcoh with rfl | h
        · -- the read of a read-modify-write happens before the fence
          refine ⟨M, .inl rfl, hM.has, ?_⟩
          obtain ⟨itM, x, hin, hsc, -⟩ := hM.item
          obtain ⟨itA, hr⟩ := within hof
          obtain rfl : itA = itM := by
            have e1 := hr.item; rw [hin.item] at e1; exact (Option.some.inj e1).symm
          rcases hR.happens hbe hS hzB with hbf | ⟨w, r, i1, i2, i3, i4, i5, i6⟩
          · obtain ⟨k0, e | k1⟩ := hr.before j1 hbf
            · have := j1.item
              rw [← e, hin.item] at this
              cases this
              cases hsc
            · exact hR.before_held hc hM.has (hin.lt j1 k0 k1)
          · have hrb : Before r (R.site b) := by
              rcases Acquired.le i4 with rfl | h
              · exact absurd i3 j1.no_access
              · exact h
            have hpub : R.Pub a M.1 := by
              rcases hM.mine with ⟨h, -⟩ | ⟨-, h⟩
              · rw [h1] at h; cases h
              · exact h
            have hu : ∀ e, R.Within e a itA → R.Has e .wr → e = M.1 := by
              intro e he hew
              obtain ⟨ho, hp⟩ := op_of hbe hin.item hsc
              exact ho.pub _ _ (hp e he hew) hpub
            have hsrc : ∀ v, R.Source M (some v) → v = M.1 := by
              rintro v (⟨-, e⟩ | ⟨e, -⟩)
              · exact Option.some.inj e
              · rw [h1] at e; cases e
            refine hR.across_held hc hM.has ?_ i5 i3 hrb i6 fun v hv => ?_
            · rw [h1]; exact hR.inThread.released_write hS hr hin hMw hu i1 i2
            · obtain rfl := hsrc v hv
              rcases hr.released hin hu i1 i2 with e | h
              · rw [e]; exact .inr ⟨Has.sameLoc hMw, .inl rfl⟩
              · exact hR.seen_released hbe (fun t it h => (hS t it h).1) h i2 ⟨hMw, Has.sameLoc hMw, .inl rfl⟩
        · rcases hR.later_from h2 h1 hMw h4 h with rfl | h
          · exact ⟨B, .inl rfl, hB, hheld⟩
          · exact ⟨B, .inr h, hB, hheld⟩
    · refine ⟨.inr (R.site a), .inr (R.site b), ⟨ha, rfl⟩, ⟨hb, rfl⟩, tr _ (.inl A) _ (hSt _ _ (fen ha haf (acc hacc)))
        (hWk _ _ ⟨hc, B, hR.coh_later hcoh, hB, hheld⟩)⟩
  · intro a A B b h1 h2 h3 h4 h5
    exact literal a A B b h1 (.step .refl h2) h3 h4 h5

end Run
end Verif.Pow
