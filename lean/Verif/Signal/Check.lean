import Verif.Signal.Model
import Verif.Mca.Check

/-! Concrete executions with finitely many flows, and a check of the rules for them. -/

namespace Verif.Signal

open Verif.Order Verif.Mca

/-- The execution of the given flows, with the moments of the read and the write of each instruction. -/
def Run.of (cpu : Cpu) (ps : List (List Step)) (ts : List (List (Nat × Nat))) : Run cpu where
  prog t := ps.getD t []
  time e p := match p with
    | .rd => ((ts.getD e.1 []).getD e.2 (0, 0)).1
    | .wr => ((ts.getD e.1 []).getD e.2 (0, 0)).2

namespace Run

variable {cpu : Cpu}

open Mca.Run (parts mem_parts mem_all)

/-- The rules, for finitely many flows. -/
def Check (R : Run cpu) (n : Nat) : Prop :=
  (∀ t ∈ List.range n, ∀ it ∈ R.flat.prog t, it.Fits cpu) ∧
  (∀ a ∈ R.flat.all n, ∀ b ∈ R.flat.all n, a.1.1 = b.1.1 → a.1.2 < b.1.2 → ∀ p ∈ parts, ∀ q ∈ parts,
    a.2.ins.has p = true → b.2.ins.has q = true →
    CompKeeps a.2.ins (R.flat.between a.1 b.1) b.2.ins ∨ a.2.loc = b.2.loc → R.time a.1 p < R.time b.1 q) ∧
  (∀ a ∈ R.flat.all n, a.2.ins.rd = true → a.2.ins.wr = true → R.time a.1 .rd < R.time a.1 .wr) ∧
  (∀ a ∈ R.flat.all n, ∀ b ∈ R.flat.all n, ∀ p ∈ parts, ∀ q ∈ parts, a.2.ins.has p = true → b.2.ins.has q = true →
    R.time a.1 p = R.time b.1 q → a.1 = b.1 ∧ p = q) ∧
  (∀ a ∈ R.flat.all n, a.2.pair.isSome = true → ∀ v ∈ R.flat.all n, v.2.ins.wr = true → v.2.loc = a.2.loc → v.1 ≠ a.1 →
    R.time v.1 .wr < R.time (a.1.1, a.1.2 - a.2.pair.getD 0) .rd ∨ R.time a.1 .wr < R.time v.1 .wr)

set_option synthInstance.maxHeartbeats 400000 in
set_option synthInstance.maxSize 1024 in
instance (R : Run cpu) (n : Nat) : Decidable (R.Check n) := by
  unfold Check; infer_instance

theorem flat_end {R : Run cpu} {n : Nat} (hn : ∀ t, n ≤ t → R.prog t = []) (t : Nat) (h : n ≤ t) :
    R.flat.prog t = [] := by simp [flat, hn t h]

theorem Check.valid {R : Run cpu} {n : Nat} (hn : ∀ t, n ≤ t → R.prog t = []) (h : R.Check n) : R.Valid := by
  obtain ⟨h1, h2, h3, h5, h4⟩ := h
  have m : ∀ {e x}, R.flat.Is e x → (e, x) ∈ R.flat.all n := fun h => (mem_all (flat_end hn)).2 h
  refine ⟨?_, ?_, ?_, ?_, ?_, ?_⟩
  · intro t it hit
    rcases Nat.lt_or_ge t n with h | h
    · exact h1 t (List.mem_range.2 h) it hit
    · rw [flat_end hn t h] at hit; cases hit
  · intro t a x b y c p q hc hp hq hk
    have hx : R.flat.Is (t, a.length) x := by simp [Mca.Run.Is, hc]
    have hy : R.flat.Is (t, a.length + 1 + b.length) y := by
      simp only [Mca.Run.Is, hc]
      rw [List.getElem?_append_right (by omega),
        show a.length + 1 + b.length - a.length = b.length + 1 by omega]
      simp
    have hb : R.flat.between (t, a.length) (t, a.length + 1 + b.length) = b.map Ev.ins := by
      simp only [Mca.Run.between, hc]
      have : a.length + 1 + b.length - (a.length + 1) = b.length := by omega
      rw [this]
      have : List.drop (a.length + 1) (a ++ x :: (b ++ y :: c)) = b ++ y :: c := by
        rw [List.drop_append]; simp
      rw [this]; simp
    exact h2 _ (m hx) _ (m hy) rfl (by simp; omega) p (mem_parts p) q (mem_parts q) hp hq
      (.inl (by rw [hb]; exact hk))
  · rintro e f p q hb ⟨x', y', hx', hy', hl⟩ ⟨x, hx, hp⟩ ⟨y, hy, hq⟩
    unfold Mca.Run.Is at hx hx' hy hy'
    rw [hx] at hx'; rw [hy] at hy'
    cases hx'; cases hy'
    exact h2 _ (m hx) _ (m hy) hb.1 hb.2 p (mem_parts p) q (mem_parts q) hp hq (.inr hl)
  · rintro e ⟨x, hx, hp⟩ ⟨y, hy, hq⟩
    unfold Mca.Run.Is at hx hy
    rw [hx] at hy; cases hy
    exact h3 _ (m hx) hp hq
  · rintro e p f q ⟨x, hx, hp⟩ ⟨y, hy, hq⟩ ht
    exact h5 _ (m hx) _ (m hy) p (mem_parts p) q (mem_parts q) hp hq ht
  · rintro r w v ⟨-, x, d, hx, hd, ht, hr⟩ ⟨y, hy, hyw⟩ ⟨y', x', hy', hx', hl⟩ hne
    unfold Mca.Run.Is at hx hx' hy hy'
    rw [hx] at hx'; rw [hy] at hy'
    cases hx'; cases hy'
    have := h4 _ (m hx) (by simp [hd]) _ (m hy) hyw hl hne
    simp only [hd, Option.getD_some] at this
    have er : r = (w.1, w.2 - d) := by ext <;> simp [ht]; omega
    rw [er]; exact this

/-- `Stops`, for finitely many flows. -/
def StopsIn (R : Run cpu) (n s t : Nat) : Prop :=
  ∀ e ∈ R.flat.all n, ∀ f ∈ R.flat.all n, ∀ e' ∈ R.flat.all n, ∀ p ∈ parts, ∀ q ∈ parts, ∀ p' ∈ parts,
    e.1.1 = t → f.1.1 = s → e'.1.1 = t → e.2.ins.has p = true → f.2.ins.has q = true → e'.2.ins.has p' = true →
      ¬ (R.time e.1 p < R.time f.1 q ∧ R.time f.1 q < R.time e'.1 p')

set_option synthInstance.maxSize 1000 in
set_option synthInstance.maxHeartbeats 200000 in
instance (R : Run cpu) (n s t : Nat) : Decidable (StopsIn R n s t) := by unfold StopsIn; infer_instance

/-- Nesting, for finitely many flows. -/
theorem nested_of {R : Run cpu} {n : Nat} (hn : ∀ t, n ≤ t → R.prog t = [])
    (h : ∀ s ∈ List.range n, ∀ t ∈ List.range n, s ≠ t → StopsIn R n s t ∨ StopsIn R n t s) : R.Nested := by
  have m : ∀ {e x}, R.flat.Is e x → (e, x) ∈ R.flat.all n := fun h => (mem_all (flat_end hn)).2 h
  have out : ∀ {e p}, R.flat.Has e p → e.1 < n := by
    rintro e p ⟨x, hx, -⟩
    rcases Nat.lt_or_ge e.1 n with h | h
    · exact h
    · rw [Mca.Run.Is, Mca.Run.code, flat_end hn _ h] at hx; simp [Mca.events] at hx
  intro s t hne
  by_cases hs : s < n
  · by_cases ht : t < n
    · rcases h s (List.mem_range.2 hs) t (List.mem_range.2 ht) hne with h | h
      · left
        rintro e f e' p q p' h1 h2 h3 ⟨x, hx, hp⟩ ⟨y, hy, hq⟩ ⟨z, hz, hp'⟩
        exact h _ (m hx) _ (m hy) _ (m hz) p (mem_parts p) q (mem_parts q) p' (mem_parts p') h1 h2 h3 hp hq hp'
      · right
        rintro e f e' p q p' h1 h2 h3 ⟨x, hx, hp⟩ ⟨y, hy, hq⟩ ⟨z, hz, hp'⟩
        exact h _ (m hx) _ (m hy) _ (m hz) p (mem_parts p) q (mem_parts q) p' (mem_parts p') h1 h2 h3 hp hq hp'
    · left
      intro e f e' p q p' h1 h2 h3 he
      exact absurd (h1 ▸ out he) ht
  · left
    intro e f e' p q p' h1 h2 h3 he hf
    exact absurd (h2 ▸ out hf) hs

/-- What a read reads, for finitely many flows. -/
theorem readsFrom_none {R : Run cpu} {n : Nat} (hn : ∀ t, n ≤ t → R.prog t = []) {r : Pos} {x : Ev}
    (hr : R.flat.Is r x)
    (h : ∀ w ∈ R.flat.all n, w.2.ins.wr = true → x.loc = w.2.loc → ¬ R.time w.1 .wr < R.time r .rd) :
    R.ReadsFrom r none := by
  rintro w ⟨⟨y, hy, hyw⟩, ⟨x', y', hx', hy', hl⟩, hv⟩
  unfold Mca.Run.Is at hr hx' hy hy'
  rw [hr] at hx'; rw [hy] at hy'
  cases hx'; cases hy'
  exact h _ ((mem_all (flat_end hn)).2 hy) hyw hl hv

theorem readsFrom_some {R : Run cpu} {n : Nat} (hn : ∀ t, n ≤ t → R.prog t = []) {r w : Pos} {x y : Ev}
    (hr : R.flat.Is r x) (hw : R.flat.Is w y) (hyw : y.ins.wr = true) (hl : x.loc = y.loc)
    (hv : R.time w .wr < R.time r .rd)
    (h : ∀ v ∈ R.flat.all n, v.2.ins.wr = true → x.loc = v.2.loc →
      R.time v.1 .wr < R.time r .rd → R.time v.1 .wr ≤ R.time w .wr) :
    R.ReadsFrom r (some w) := by
  refine ⟨⟨⟨y, hw, hyw⟩, ⟨x, y, hr, hw, hl⟩, hv⟩, ?_⟩
  rintro v ⟨⟨z, hz, hzw⟩, ⟨x', z', hx', hz', hl'⟩, hv'⟩
  unfold Mca.Run.Is at hr hx' hz hz'
  rw [hr] at hx'; rw [hz] at hz'
  cases hx'; cases hz'
  exact h _ ((mem_all (flat_end hn)).2 hz) hzw hl' hv'

end Run
end Verif.Signal
