import Verif.Whole.Model

/-
From an order in which every operation finds what the last one before it left to a sequence of operations.
-/

namespace Verif.Whole

theorem Request.Computes.exec {q : Request} {r : Reply} {f g : Option Nat} (h : q.Computes r f g) {v : Nat}
    (hv : ∀ u, f = some u → v = u) : Exec q v r (g.getD v) := by
  cases h with
  | load => rw [hv _ rfl]; exact .load
  | store => exact .store
  | exchange => rw [hv _ rfl]; exact .exchange
  | swapped => rw [hv _ rfl]; exact .swapped
  | kept h =>
    rw [hv _ rfl]
    rcases h with rfl | h
    · exact .spurious
    · exact .differs h
  | modify => rw [hv _ rfl]; exact .modify

variable {α : Type} {lt : α → α → Prop}

/-- What the memory contains after these operations. -/
def After (ev : α → Event) (lf : α → Option Nat) (init : Nat → Nat) (pre : List α) (mem : Nat → Nat) : Prop :=
  ∀ x, (∃ p b q, pre = p ++ b :: q ∧ (ev b).var = x ∧ lf b = some (mem x) ∧ ∀ c ∈ q, (ev c).var = x → lf c = none) ∨
    (mem x = init x ∧ ∀ c ∈ pre, (ev c).var = x → lf c = none)

theorem After.next {ev : α → Event} {lf : α → Option Nat} {init : Nat → Nat} {pre : List α} {mem : Nat → Nat}
    (h : After ev lf init pre mem) (a : α) : After ev lf init (pre ++ [a])
      (fun x => if x = (ev a).var then (lf a).getD (mem (ev a).var) else mem x) := by
  intro x
  generalize hm : (fun x => if x = (ev a).var then (lf a).getD (mem (ev a).var) else mem x) = mem'
  have keep : (∀ u, (ev a).var = x → lf a ≠ some u) → mem' x = mem x →
      (∃ p b q, pre ++ [a] = p ++ b :: q ∧ (ev b).var = x ∧ lf b = some (mem' x) ∧ ∀ c ∈ q, (ev c).var = x → lf c = none) ∨
      (mem' x = init x ∧ ∀ c ∈ pre ++ [a], (ev c).var = x → lf c = none) := fun hno he => by
    have hno' : (ev a).var = x → lf a = none := by
      intro e; cases hl : lf a with
      | none => rfl
      | some u => exact absurd hl (hno u e)
    rcases h x with ⟨p, b, q, h1, h2, h3, h4⟩ | ⟨h1, h2⟩
    · refine Or.inl ⟨p, b, q ++ [a], by rw [h1]; simp, h2, by rw [he]; exact h3, ?_⟩
      intro c hc e
      rcases List.mem_append.1 hc with hc | hc
      · exact h4 c hc e
      · rw [List.mem_singleton.1 hc] at e ⊢; exact hno' e
    · refine Or.inr ⟨by rw [he]; exact h1, ?_⟩
      intro c hc e
      rcases List.mem_append.1 hc with hc | hc
      · exact h2 c hc e
      · rw [List.mem_singleton.1 hc] at e ⊢; exact hno' e
  by_cases hx : x = (ev a).var
  · cases hl : lf a with
    | none =>
      refine keep (by simp [hl]) ?_
      simp [← hm, hx, hl]
    | some u => exact .inl ⟨pre, a, [], rfl, hx.symm, by simp [← hm, hx, hl], by simp⟩
  · exact keep (fun _ e => absurd e.symm hx) (by simp [← hm, hx])

theorem interleaved_of {l : List α} (hs : l.Pairwise lt) (irrefl : ∀ a, ¬ lt a a) (trans : ∀ a b c, lt a b → lt b c → lt a c)
    {ev : α → Event} {fd lf : α → Option Nat} {init : Nat → Nat}
    (comp : ∀ a ∈ l, (ev a).req.Computes (ev a).reply (fd a) (lf a))
    (last : ∀ a ∈ l, ∀ v, fd a = some v →
      (∃ b ∈ l, lt b a ∧ (ev b).var = (ev a).var ∧ lf b = some v ∧
        ∀ c ∈ l, ∀ u, lt c a → (ev c).var = (ev a).var → lf c = some u → c = b ∨ lt c b) ∨
      (v = init (ev a).var ∧ ∀ c ∈ l, ∀ u, lt c a → (ev c).var = (ev a).var → lf c ≠ some u)) :
    Interleaved init (l.map ev) := by
  have aux : ∀ (suf pre : List α) (mem : Nat → Nat), l = pre ++ suf → After ev lf init pre mem →
      Interleaved mem (suf.map ev) := by
    intro suf
    induction suf with
    | nil => intro pre mem _ _; exact .nil
    | cons a suf ih =>
      intro pre mem hl hm
      have hs' := hs
      rw [hl, List.pairwise_append] at hs'
      obtain ⟨hpre, hsuf, hcross⟩ := hs'
      have inl : a ∈ l := by rw [hl]; simp
      have before : ∀ b ∈ l, lt b a → b ∈ pre := by
        intro b hb hlt
        rw [hl] at hb
        rcases List.mem_append.1 hb with hb | hb
        · exact hb
        · rcases List.mem_cons.1 hb with rfl | hb
          · exact absurd hlt (irrefl _)
          · exact absurd (trans _ _ _ hlt ((List.pairwise_cons.1 hsuf).1 b hb)) (irrefl _)
      have sub : ∀ b ∈ pre, b ∈ l ∧ lt b a := fun b hb => ⟨by rw [hl]; simp [hb], hcross b hb a (by simp)⟩
      have hv : ∀ u, fd a = some u → mem (ev a).var = u := by
        intro u hu
        rcases last a inl u hu with ⟨b, hb, k1, k2, k3, k4⟩ | ⟨k1, k2⟩ <;>
          rcases hm (ev a).var with ⟨p, b', q, h1, h2, h3, h4⟩ | ⟨h1, h2⟩
        · have hb' : b' ∈ pre := by rw [h1]; simp
          rcases k4 b' (sub b' hb').1 _ (sub b' hb').2 h2 h3 with rfl | k
          · rw [k3] at h3; exact (Option.some.inj h3).symm
          · exfalso
            have hbp := before b hb k1
            rw [h1] at hbp hpre
            rw [List.pairwise_append] at hpre
            rcases List.mem_append.1 hbp with hbp | hbp
            · exact irrefl _ (trans _ _ _ k (hpre.2.2 b hbp b' (by simp)))
            · rcases List.mem_cons.1 hbp with rfl | hbp
              · exact irrefl _ k
              · have := h4 b hbp k2
                rw [k3] at this; cases this
        · have := h2 b (before b hb k1) k2
          rw [k3] at this; cases this
        · have hb' : b' ∈ pre := by rw [h1]; simp
          exact absurd h3 (k2 b' (sub b' hb').1 _ (sub b' hb').2 h2)
        · rw [h1, k1]
      exact .cons ((comp a inl).exec hv) (ih (pre ++ [a]) _ (by rw [hl]; simp) (hm.next a))
  exact aux l [] init rfl fun x => .inr ⟨rfl, by simp⟩

/-- A list can be put into an order. -/
theorem exists_sorted (l : List α) (hn : l.Nodup) (trans : ∀ a b c, lt a b → lt b c → lt a c)
    (total : ∀ a ∈ l, ∀ b ∈ l, a ≠ b → lt a b ∨ lt b a) : ∃ l' : List α, (∀ a, a ∈ l' ↔ a ∈ l) ∧ l'.Pairwise lt := by
  classical
  induction l with
  | nil => exact ⟨[], by simp, .nil⟩
  | cons a l ih =>
    have hn' := List.nodup_cons.1 hn
    obtain ⟨l', h1, h2⟩ := ih hn'.2 fun x hx y hy => total x (by simp [hx]) y (by simp [hy])
    have side : ∀ x ∈ l', lt x a ∨ lt a x := by
      intro x hx
      have hx := (h1 x).1 hx
      exact total x (by simp [hx]) a (by simp) (by rintro rfl; exact hn'.1 hx)
    refine ⟨l'.filter (fun x => decide (lt x a)) ++ a :: l'.filter (fun x => !decide (lt x a)), ?_, ?_⟩
    · intro x
      simp only [List.mem_append, List.mem_filter, List.mem_cons, decide_eq_true_eq, Bool.not_eq_true', decide_eq_false_iff_not,
        h1]
      constructor
      · rintro (⟨h, -⟩ | h | ⟨h, -⟩)
        · exact .inr h
        · exact .inl h
        · exact .inr h
      · rintro (h | h)
        · exact .inr (.inl h)
        · by_cases hx : lt x a
          · exact .inl ⟨h, hx⟩
          · exact .inr (.inr ⟨h, hx⟩)
    · rw [List.pairwise_append]
      refine ⟨h2.filter _, List.pairwise_cons.2 ⟨?_, h2.filter _⟩, ?_⟩
      · intro x hx
        simp only [List.mem_filter, Bool.not_eq_true', decide_eq_false_iff_not] at hx
        exact (side x hx.1).resolve_left hx.2
      · intro x hx y hy
        simp only [List.mem_filter, decide_eq_true_eq] at hx
        rcases List.mem_cons.1 hy with rfl | hy
        · exact hx.2
        · simp only [List.mem_filter, Bool.not_eq_true', decide_eq_false_iff_not] at hy
          exact trans _ _ _ hx.2 ((side y hy.1).resolve_left hy.2)

end Verif.Whole
