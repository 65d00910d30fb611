import Verif.Pow.Model
import Verif.Mca.Check
import Verif.Mca.Latest

/-! Concrete executions, a check of the rules of the machine for them, and the executions of `Verif.Mca` as executions
of this machine. -/

namespace Verif.Pow

open Verif.Order Verif.Mca Verif.Mca.Run

/-- The execution of the given threads, with the moments of the read and the write of each instruction and the moments at
which each write and barrier arrives at the threads `0`, …, `n - 1` and at others; the writes of one variable in their
order. -/
def Run.of (cpu : Cpu) (n : Nat) (ps : List (List Item)) (ts : List (List (Nat × Nat)))
    (arr : List (Pos × List (Option Nat))) : Run cpu where
  toRun := Mca.Run.of cpu ps ts
  Co w v := (Mca.Run.of cpu ps ts).Has w .wr ∧ (Mca.Run.of cpu ps ts).Has v .wr ∧ (Mca.Run.of cpu ps ts).SameLoc w v ∧
    (arr.map Prod.fst).idxOf w < (arr.map Prod.fst).idxOf v
  prop e t := ((arr.lookup e).getD []).getD (min t n) none
  bar e t := ((arr.lookup e).getD []).getD (min t n) none

namespace Run

variable {cpu : Cpu}

instance (R : Run cpu) (w : Pos) (t T : Nat) : Decidable (R.Arrived w t T) :=
  decidable_of_iff ((R.prop w t).any (fun m => decide (m < T)) = true) (by
    unfold Arrived
    cases R.prop w t <;> simp)

/-- The order of the writes, for writes and their ranks. -/
def lt (rank : Pos → Nat) (a b : Pos × Ev) : Prop :=
  a.2.ins.wr = true ∧ b.2.ins.wr = true ∧ a.2.loc = b.2.loc ∧ rank a.1 < rank b.1

instance (rank : Pos → Nat) (a b : Pos × Ev) : Decidable (lt rank a b) := by unfold lt; infer_instance

/-- The rule for the barriers after a heavy one, for finitely many threads. -/
def BarrierCheck (R : Run cpu) (n : Nat) : Prop :=
  ∀ b ∈ R.all n, heavy b.2.ins = true → ∀ c ∈ R.all n, cumulative c.2.ins = true → b.1.1 = c.1.1 → b.1.2 < c.1.2 →
    ∀ m ∈ (R.bar c.1 c.1.1).toList, ∀ t ∈ List.range (n + 1), ∃ k ∈ (R.bar b.1 t).toList, k ≤ m

instance (R : Run cpu) (n : Nat) : Decidable (R.BarrierCheck n) := by unfold BarrierCheck; infer_instance

/-- The rules of the machine, for finitely many threads. -/
def Check (R : Run cpu) (rank : Pos → Nat) (n : Nat) : Prop :=
  R.toRun.LocalCheck n ∧
  (∀ a ∈ R.all n, a.2.ins.wr = true → ∀ b ∈ R.all n, b.2.ins.wr = true → a.2.loc = b.2.loc → a.1 ≠ b.1 →
    rank a.1 ≠ rank b.1) ∧
  (∀ a ∈ R.all n, a.2.ins.wr = true → R.prop a.1 a.1.1 = some (R.time a.1 .wr)) ∧
  (∀ a ∈ R.all n, a.2.ins.wr = true → ∀ t ∈ List.range (n + 1), ∀ m ∈ (R.prop a.1 t).toList, R.time a.1 .wr ≤ m) ∧
  (∀ a ∈ R.all n, ∀ b ∈ R.all n, lt rank a b → ∀ t ∈ List.range (n + 1), ∀ m ∈ (R.prop a.1 t).toList,
    ∀ k ∈ (R.prop b.1 t).toList, m < k) ∧
  (∀ a ∈ R.all n, a.2.ins.wr = true → a.2.pair.isSome = true → ∀ v ∈ R.all n, v.2.ins.wr = true → v.2.loc = a.2.loc →
    v.1 ≠ a.1 →
    (∃ u ∈ R.all n, (u.2.ins.wr = true ∧ u.2.loc = a.2.loc ∧
      (R.Arrived u.1 a.1.1 (R.time (a.1.1, a.1.2 - a.2.pair.getD 0) .rd) ∨
        (u.1.1 = a.1.1 ∧ u.1.2 < a.1.2 - a.2.pair.getD 0))) ∧ (v.1 = u.1 ∨ lt rank v u)) ∨ lt rank a v) ∧
  (∀ b ∈ R.all n, cumulative b.2.ins = true → ∃ m ∈ (R.bar b.1 b.1.1).toList,
    (∀ e ∈ R.all n, e.1.1 = b.1.1 → e.1.2 < b.1.2 → ∀ p ∈ parts, e.2.ins.has p = true → R.time e.1 p < m) ∧
    ∀ v ∈ R.all n, b.1.1 = v.1.1 → b.1.2 < v.1.2 → v.2.ins.wr = true → m ≤ R.time v.1 .wr) ∧
  (∀ b ∈ R.all n, cumulative b.2.ins = true → ∀ w ∈ R.all n, w.2.ins.wr = true → ∀ m ∈ (R.bar b.1 b.1.1).toList,
    R.Arrived w.1 b.1.1 m → ∀ t ∈ List.range (n + 1), ∀ k ∈ (R.bar b.1 t).toList,
    ∃ v ∈ R.all n, (v.1 = w.1 ∨ lt rank w v) ∧ R.Arrived v.1 t k) ∧
  (∀ b ∈ R.all n, cumulative b.2.ins = true → ∀ v ∈ R.all n, v.2.ins.wr = true → ∀ m ∈ (R.bar b.1 v.1.1).toList,
    m ≤ R.time v.1 .wr → ∀ t ∈ List.range (n + 1), ∀ k ∈ (R.prop v.1 t).toList,
    ∃ j ∈ (R.bar b.1 t).toList, j ≤ k) ∧
  (∀ b ∈ R.all n, heavy b.2.ins = true → ∀ e ∈ R.all n, b.1.1 = e.1.1 → b.1.2 < e.1.2 → ∀ p ∈ parts,
    e.2.ins.has p = true → ∀ t ∈ List.range (n + 1), ∃ k ∈ (R.bar b.1 t).toList, k ≤ R.time e.1 p) ∧
  R.BarrierCheck n

set_option synthInstance.maxHeartbeats 800000 in
set_option synthInstance.maxSize 2048 in
instance (R : Run cpu) (rank : Pos → Nat) (n : Nat) : Decidable (R.Check rank n) := by
  unfold Check; infer_instance

/-- The order of the writes is that of their ranks, and threads that do not exist see everything alike. -/
structure Simple (R : Run cpu) (rank : Pos → Nat) (n : Nat) : Prop where
  co : ∀ w v, R.Co w v ↔ R.Has w .wr ∧ R.Has v .wr ∧ R.SameLoc w v ∧ rank w < rank v
  prop : ∀ e t, n ≤ t → R.prop e t = R.prop e n
  bar : ∀ e t, n ≤ t → R.bar e t = R.bar e n

/-- The place of a write in the list. -/
def rank (arr : List (Pos × List (Option Nat))) (e : Pos) : Nat := (arr.map Prod.fst).idxOf e

theorem of_simple {n ps ts arr} : (Run.of cpu n ps ts arr).Simple (rank arr) n := by
  refine ⟨fun _ _ => Iff.rfl, fun e t h => ?_, fun e t h => ?_⟩ <;> simp [Run.of, Nat.min_eq_right h]

theorem Check.valid {R : Run cpu} {rank : Pos → Nat} {n : Nat} (hn : ∀ t, n ≤ t → R.prog t = [])
    (hs : R.Simple rank n) (h : R.Check rank n) : R.Valid := by
  obtain ⟨h0, h1, h2, h3, h4, h5, h6, h7, h8, h9, h10⟩ := h
  have m : ∀ {e x}, R.Is e x → (e, x) ∈ R.all n := fun h => (mem_all hn).2 h
  have r : ∀ t, ∃ t' ∈ List.range (n + 1), (∀ e, R.prop e t = R.prop e t') ∧ ∀ e, R.bar e t = R.bar e t' := by
    intro t
    rcases Nat.lt_or_ge t n with h | h
    · exact ⟨t, List.mem_range.2 (by omega), fun _ => rfl, fun _ => rfl⟩
    · exact ⟨n, List.mem_range.2 (by omega), fun e => hs.prop e t h, fun e => hs.bar e t h⟩
  have co : ∀ {w v x y}, R.Is w x → R.Is v y → (R.Co w v ↔ lt rank (w, x) (v, y)) := by
    intro w v x y hx hy
    rw [hs.co]
    constructor
    · rintro ⟨⟨x', hx', hp⟩, ⟨y', hy', hq⟩, ⟨x'', y'', hx'', hy'', hl⟩, hr⟩
      rw [← hx.unique hx', ← hx.unique hx'', ← hy.unique hy', ← hy.unique hy''] at *
      exact ⟨hp, hq, hl, hr⟩
    · rintro ⟨hp, hq, hl, hr⟩
      exact ⟨⟨x, hx, hp⟩, ⟨y, hy, hq⟩, ⟨x, y, hx, hy, hl⟩, hr⟩
  refine ⟨h0.valid hn, ?_, ?_, ?_, ?_, ?_, ?_, ?_, ?_, ?_, ?_, ?_, ?_, ?_⟩
  · intro w v h
    rw [hs.co] at h
    exact ⟨h.1, h.2.1, h.2.2.1⟩
  · intro w h
    rw [hs.co] at h
    exact Nat.lt_irrefl _ h.2.2.2
  · intro u v w h h'
    rw [hs.co] at h h' ⊢
    exact ⟨h.1, h'.2.1, h.2.2.1.trans h'.2.2.1, Nat.lt_trans h.2.2.2 h'.2.2.2⟩
  · rintro w v ⟨x, hx, hp⟩ ⟨y, hy, hq⟩ ⟨x', y', hx', hy', hl⟩ hne
    rw [← hx.unique hx', ← hy.unique hy'] at hl
    rw [co hx hy, co hy hx]
    rcases Nat.lt_or_gt_of_ne (h1 _ (m hx) hp _ (m hy) hq hl hne) with h | h
    · exact .inl ⟨hp, hq, hl, h⟩
    · exact .inr ⟨hq, hp, hl.symm, h⟩
  · rintro w ⟨x, hx, hp⟩
    exact h2 _ (m hx) hp
  · rintro w t k ⟨x, hx, hp⟩ hk
    obtain ⟨t', ht', e1, -⟩ := r t
    rw [e1] at hk
    exact h3 _ (m hx) hp t' ht' k (by simp [hk])
  · rintro w v t i k hc hi hk
    obtain ⟨t', ht', e1, -⟩ := r t
    rw [e1] at hi hk
    obtain ⟨⟨x, hx, -⟩, ⟨y, hy, -⟩, -⟩ := (hs.co w v).1 hc
    exact h4 _ (m hx) _ (m hy) ((co hx hy).1 hc) t' ht' i (by simp [hi]) k (by simp [hk])
  · rintro r w v ⟨hrl, x, d, hx, hd, ht, hr⟩ ⟨x₂, hx₂, hxw⟩ ⟨y, hy, hyw⟩ hsl hne
    rw [← hx.unique hx₂] at hxw
    obtain ⟨y', x', hy', hx', hl⟩ := id hsl
    rw [← hx.unique hx', ← hy.unique hy'] at hl
    have := h5 _ (m hx) hxw (by simp [hd]) _ (m hy) hyw hl hne
    simp only [hd, Option.getD_some] at this
    have er : r = (w.1, w.2 - d) := by ext <;> simp [ht]; omega
    rcases this with ⟨⟨u, z⟩, hu, ⟨huw, hul, hv⟩, hvu⟩ | h
    · have hz := (mem_all hn).1 hu
      refine .inl ⟨u, ⟨⟨z, hz, huw⟩, hrl.trans ⟨x, z, hx, hz, hul.symm⟩, ?_⟩, ?_⟩
      · rw [er]; exact hv
      · rw [co hy hz]; exact hvu.imp Eq.symm _root_.id |>.imp Eq.symm _root_.id
    · exact .inr ((co hx hy).2 h)
  · rintro b ⟨z, hz, hc⟩
    obtain ⟨k, hk, g1, g2⟩ := h6 _ (m hz) hc
    refine ⟨k, by simpa using hk, ?_, ?_⟩
    · rintro e p hb ⟨x, hx, hp⟩
      exact g1 _ (m hx) hb.1 hb.2 p (mem_parts p) hp
    · rintro v hb ⟨y, hy, hq⟩
      exact g2 _ (m hy) hb.1 hb.2 hq
  · rintro b w t i k ⟨z, hz, hc⟩ ⟨x, hx, hp⟩ hi ha hk
    obtain ⟨t', ht', e1, e2⟩ := r t
    rw [e2] at hk
    obtain ⟨⟨v, y⟩, hv, hle, hav⟩ := h7 _ (m hz) hc _ (m hx) hp i (by simp [hi]) ha t' ht' k (by simp [hk])
    have hy := (mem_all hn).1 hv
    refine ⟨v, ?_, ?_⟩
    · rw [co hx hy]; exact hle
    · unfold Arrived; rw [e1]; exact hav
  · rintro b v t i k ⟨z, hz, hc⟩ ⟨y, hy, hq⟩ hi hle hk
    obtain ⟨t', ht', e1, e2⟩ := r t
    rw [e1] at hk
    obtain ⟨j, hj, hjk⟩ := h8 _ (m hz) hc _ (m hy) hq i (by simp [hi]) hle t' ht' k (by simp [hk])
    exact ⟨j, by rw [e2]; simpa using hj, hjk⟩
  · rintro b e p ⟨z, hz, hc⟩ hb ⟨x, hx, hp⟩ t
    obtain ⟨t', ht', e1, e2⟩ := r t
    obtain ⟨k, hk, hle⟩ := h9 _ (m hz) hc _ (m hx) hb.1 hb.2 p (mem_parts p) hp t' ht'
    exact ⟨k, by rw [e2]; simpa using hk, hle⟩
  · rintro b c ⟨z, hz, hh⟩ ⟨y, hy, hc⟩ hb i hi t
    obtain ⟨t', ht', e1, e2⟩ := r t
    obtain ⟨k, hk, hle⟩ := h10 _ (m hz) hh _ (m hy) hc hb.1 hb.2 i (by simp [hi]) t' ht'
    exact ⟨k, by rw [e2]; simpa using hk, hle⟩

/-- What a read reads, for finitely many threads. -/
theorem readsFrom_none {R : Run cpu} {n : Nat} (hn : ∀ t, n ≤ t → R.prog t = []) {r : Pos} {x : Ev}
    (hr : R.Is r x)
    (h : ∀ w ∈ R.all n, w.2.ins.wr = true → x.loc = w.2.loc →
      ¬ (R.Arrived w.1 r.1 (R.time r .rd) ∨ (w.1.1 = r.1 ∧ w.1.2 < r.2))) : R.ReadsFrom r none := by
  rintro w ⟨⟨y, hy, hyw⟩, ⟨x', y', hx', hy', hl⟩, hv⟩
  rw [← hr.unique hx', ← hy.unique hy'] at hl
  exact h _ ((mem_all hn).2 hy) hyw hl hv

/-- The only write that a read can see. -/
theorem readsFrom_only {R : Run cpu} {n : Nat} (hn : ∀ t, n ≤ t → R.prog t = []) {r w : Pos} {x y : Ev}
    (hr : R.Is r x) (hw : R.Is w y) (hyw : y.ins.wr = true) (hl : x.loc = y.loc)
    (hv : R.Arrived w r.1 (R.time r .rd) ∨ (w.1 = r.1 ∧ w.2 < r.2))
    (h : ∀ v ∈ R.all n, v.2.ins.wr = true → x.loc = v.2.loc →
      (R.Arrived v.1 r.1 (R.time r .rd) ∨ (v.1.1 = r.1 ∧ v.1.2 < r.2)) → v.1 = w) :
    R.ReadsFrom r (some w) := by
  refine ⟨⟨⟨y, hw, hyw⟩, ⟨x, y, hr, hw, hl⟩, hv⟩, ?_⟩
  rintro v ⟨⟨z, hz, hzw⟩, ⟨x', z', hx', hz', hl'⟩, hv'⟩
  rw [← hr.unique hx', ← hz.unique hz'] at hl'
  exact .inl (h _ ((mem_all hn).2 hz) hzw hl' hv')

/-! ### Executions of `Verif.Mca` -/

/-- Every write arrives at all threads at once. -/
def atOnce (R : Mca.Run cpu) : Run cpu where
  toRun := R
  Co w v := R.Has w .wr ∧ R.Has v .wr ∧ R.SameLoc w v ∧ R.time w .wr < R.time v .wr
  prop w _ := some (R.time w .wr)
  bar b _ := some (latest R b.1 b.2)

theorem barrier_keeps {R : Mca.Run cpu} (hR : R.Local) {e b f : Pos} {z : Ev} {p q : Part} (heb : Before e b)
    (hbf : Before b f) (hz : R.Is b z) (hk : z.ins.clob = true) (hb : z.ins.bars p q = true) (he : R.Has e p)
    (hf : R.Has f q) : R.time e p < R.time f q := by
  obtain ⟨x, hx, hp⟩ := he
  obtain ⟨y, hy, hq⟩ := hf
  obtain ⟨a, m, c, hc, h1, h2⟩ := Before.split (heb.trans hbf) hx hy
  have hzm : z ∈ m := by
    have hz' : (R.code e.1)[b.2]? = some z := by rw [heb.1]; exact hz
    rw [hc, List.getElem?_append_right (by have := heb.2; omega),
      show b.2 - a.length = (b.2 - (e.2 + 1)) + 1 by have := heb.2; omega, List.getElem?_cons_succ,
      List.getElem?_append_left (by have := heb.2; have := hbf.2; omega)] at hz'
    exact List.mem_of_getElem? hz'
  have := hR.keeps e.1 a x m y c p q hc hp hq (.inr (.inr (.inl ⟨z.ins, List.mem_map_of_mem hzm, hk⟩)))
    (.inr (.inr (.inr (.inr (.inr (.inl ⟨z.ins, List.mem_map_of_mem hzm, hb⟩))))))
  rw [h2, h1] at this
  have e1 : f = (e.1, f.2) := by ext; exact (heb.1.trans hbf.1).symm; rfl
  rw [e1]; exact this

theorem atOnce_arrived {R : Mca.Run cpu} {w : Pos} {t T : Nat} : (atOnce R).Arrived w t T ↔ R.time w .wr < T := by
  constructor
  · rintro ⟨m, h, h'⟩
    cases h; exact h'
  · exact fun h => ⟨_, rfl, h⟩

/-- An execution of the machine of `Verif.Mca` is one of this machine. -/
theorem atOnce_valid {R : Mca.Run cpu} (hR : R.Valid) : (atOnce R).Valid := by
  refine ⟨hR.toLocal, fun _ _ h => ⟨h.1, h.2.1, h.2.2.1⟩, fun _ h => Nat.lt_irrefl _ h.2.2.2,
    fun _ _ _ h h' => ⟨h.1, h'.2.1, h.2.2.1.trans h'.2.2.1, Nat.lt_trans h.2.2.2 h'.2.2.2⟩, ?_, fun _ _ => rfl,
    fun _ _ _ _ h => by cases h; exact Nat.le_refl _, ?_, ?_, ?_, ?_, ?_, ?_, ?_⟩
  · intro w v hw hv hl hne
    rcases Nat.lt_trichotomy (R.time w .wr) (R.time v .wr) with h | h | h
    · exact .inl ⟨hw, hv, hl, h⟩
    · exact absurd (hR.distinct _ _ _ _ hw hv h).1 hne
    · exact .inr ⟨hv, hw, hl.symm, h⟩
  · intro w v t m n h hm hn
    cases hm; cases hn; exact h.2.2.2
  · intro r w v hp hw hv hl hne
    rcases hR.atomic r w v hp hv hl hne with h | h
    · exact .inl ⟨v, ⟨hv, hp.1.trans hl.symm, .inl (atOnce_arrived.2 h)⟩, .inl rfl⟩
    · exact .inr ⟨hw, hv, hl.symm, h⟩
  · rintro b ⟨z, hz, hc⟩
    refine ⟨_, rfl, fun e p hb he => ?_, fun v hb hv => ?_⟩
    · rw [← hb.1]
      exact lt_latest he hb.2
    · refine latest_le fun e p he h1 h2 => ?_
      simp only [cumulative, Bool.and_eq_true] at hc
      exact barrier_keeps hR.toLocal ⟨h1, h2⟩ hb hz hc.1.1 (by cases p <;> simp [Instr.bars, hc]) he hv
  · rintro b w t m n _ _ hm ha hn
    cases hm; cases hn
    exact ⟨w, .inl rfl, atOnce_arrived.2 (atOnce_arrived.1 ha)⟩
  · rintro b v t m n _ _ hm hle hn
    cases hm; cases hn
    exact ⟨_, rfl, hle⟩
  · rintro b f q ⟨z, hz, hc⟩ hb hf t
    refine ⟨_, rfl, latest_le fun e p he h1 h2 => ?_⟩
    simp only [heavy, Bool.and_eq_true] at hc
    exact barrier_keeps hR.toLocal ⟨h1, h2⟩ hb hz hc.1.1.1.1 (by cases p <;> cases q <;> simp [Instr.bars, hc]) he hf
  · rintro b c _ _ hb m hm t
    cases hm
    refine ⟨_, rfl, ?_⟩
    show latest R b.1 b.2 ≤ latest R c.1 c.2
    rw [hb.1]
    exact latest_mono (Nat.le_of_lt hb.2)

/-- The reads read the same. -/
theorem atOnce_reads {R : Mca.Run cpu} (hR : R.Valid) {r : Pos} {s : Option Pos} :
    (atOnce R).ReadsFrom r s ↔ R.ReadsFrom r s := by
  have hvis : ∀ w, (atOnce R).Visible r w ↔ R.Visible r w := fun w => by
    unfold Visible; rw [atOnce_arrived]; exact Iff.rfl
  cases s with
  | none => exact forall_congr' fun w => not_congr (hvis w)
  | some w =>
    constructor
    · rintro ⟨h, h'⟩
      refine ⟨(hvis w).1 h, fun w' hw' => ?_⟩
      rcases h' w' ((hvis w').2 hw') with rfl | h
      · exact Nat.le_refl _
      · exact Nat.le_of_lt h.2.2.2
    · rintro ⟨h, h'⟩
      refine ⟨(hvis w).2 h, fun w' hw' => ?_⟩
      have hw' := (hvis w').1 hw'
      rcases Nat.lt_or_eq_of_le (h' w' hw') with h1 | h1
      · exact .inr ⟨hw'.1, h.1, hw'.2.1.symm.trans h.2.1, h1⟩
      · exact .inl (hR.distinct _ _ _ _ hw'.1 h.1 h1).1

end Run
end Verif.Pow
