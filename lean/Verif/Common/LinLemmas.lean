import Verif.Common.Lin

/-
The generic proof method: a simulation that names, for every private state of a call,
the results the call may already be committed to.  A set of possibilities (rather than
one value) is needed because a failing LL/SC `compare_exchange_weak` linearizes at its
load-linked, before it is known that the store-conditional will fail.
-/

namespace Verif

section basics
variable {α : Type}

theorem Before.append_right {l : List α} {a b : α} (h : Before l a b) (m : List α) :
    Before (l ++ m) a b := by
  obtain ⟨l₁, l₂, l₃, rfl⟩ := h
  exact ⟨l₁, l₂, l₃ ++ m, by simp⟩

theorem Before.mem_left {l : List α} {a b : α} (h : Before l a b) : a ∈ l := by
  obtain ⟨l₁, l₂, l₃, rfl⟩ := h; simp

theorem Before.mem_right {l : List α} {a b : α} (h : Before l a b) : b ∈ l := by
  obtain ⟨l₁, l₂, l₃, rfl⟩ := h; simp

theorem Before.of_concat {l : List α} {a b x : α} (h : Before (l ++ [x]) a b) :
    Before l a b ∨ (b = x ∧ a ∈ l) := by
  obtain ⟨l₁, l₂, l₃, h⟩ := h
  rcases List.eq_nil_or_concat l₃ with rfl | ⟨l₃', y, rfl⟩
  · right
    have h' : l ++ [x] = (l₁ ++ a :: l₂) ++ [b] := by simpa using h
    have := List.append_inj' h' rfl
    obtain ⟨h1, h2⟩ := this
    simp at h2
    exact ⟨h2.symm, by rw [h1]; simp⟩
  · left
    have h' : l ++ [x] = (l₁ ++ a :: (l₂ ++ b :: l₃')) ++ [y] := by simpa using h
    have := (List.append_inj' h' rfl).1
    exact ⟨l₁, l₂, l₃', this⟩

theorem Before.concat_of_mem {l : List α} {a x : α} (h : a ∈ l) : Before (l ++ [x]) a x := by
  obtain ⟨l₁, l₂, rfl⟩ := List.append_of_mem h
  exact ⟨l₁, l₂, [], by simp⟩

end basics

theorem Legal.concat {σ Id Op Ret : Type} {spec : SeqSpec σ Op Ret} {s s₁ s₂ : σ}
    {L : List (Entry Id Op Ret)} {e : Entry Id Op Ret}
    (h : Legal spec s L s₁) (he : spec s₁ e.op s₂ e.ret) : Legal spec s (L ++ [e]) s₂ := by
  induction h with
  | nil s => exact .cons he (.nil _)
  | cons h1 _ ih => exact .cons h1 (ih he)

variable {Sh Op Ret Id σ : Type} [DecidableEq Id]

/-- What the history says about the status of each call. -/
structure HistOk {M : Machine Sh Op Ret} (sys : Sys Id M) (H : List (Event Id Op Ret)) : Prop where
  res_iff : ∀ i r, Event.res i r ∈ H ↔ ∃ op, sys.calls i = .done op r
  inv_iff : ∀ i op, Event.inv i op ∈ H ↔
    (∃ l, sys.calls i = .run op l) ∨ (∃ r, sys.calls i = .done op r)

theorem Exec.hist {M : Machine Sh Op Ret} {sh₀ : Sh} {sys : Sys Id M} {H}
    (h : Exec M sh₀ sys H) : HistOk sys H := by
  induction h with
  | init => constructor <;> simp
  | @invoke sys H i op _ hi ih =>
    constructor
    · intro j r
      by_cases hj : j = i
      · subst hj; have := ih.res_iff j r; simp [this, hi]
      · simp [upd_other _ _ hj, ih.res_iff j r]
    · intro j o
      by_cases hj : j = i
      · subst hj; have := ih.inv_iff j o; simp [this, hi, eq_comm]
      · simp [upd_other _ _ hj, ih.inv_iff j o, hj]
  | @step sys H i op l sh' l' _ hi _ ih =>
    constructor
    · intro j r
      by_cases hj : j = i
      · subst hj; have := ih.res_iff j r; simp [this, hi]
      · simp [upd_other _ _ hj, ih.res_iff j r]
    · intro j o
      by_cases hj : j = i
      · subst hj; have := ih.inv_iff j o; simp [this, hi]
      · simp [upd_other _ _ hj, ih.inv_iff j o]
  | @ret sys H i op l r _ hi _ ih =>
    constructor
    · intro j r'
      by_cases hj : j = i
      · subst hj; have := ih.res_iff j r'; simp [this, hi, eq_comm]
      · simp [upd_other _ _ hj, ih.res_iff j r', hj]
    · intro j o
      by_cases hj : j = i
      · subst hj; have := ih.inv_iff j o; simp [this, hi]
      · simp [upd_other _ _ hj, ih.inv_iff j o]

/-- Invariants by induction over executions: a global part `G`, a part `P` for every running call, and
a part `Q` for every two distinct running calls. -/
theorem Exec.invariant {M : Machine Sh Op Ret} {sh₀ : Sh}
    (G : Sh → Prop) (P : Sh → Op → M.Loc → Prop) (Q : Op → M.Loc → Op → M.Loc → Prop)
    (h0 : G sh₀)
    (hstart : ∀ sh op, G sh → P sh op (M.start op))
    (hstartQ : ∀ op op' l', Q op (M.start op) op' l' ∧ Q op' l' op (M.start op))
    (hstep : ∀ op sh l sh' l', G sh → P sh op l → M.step op sh l sh' l' → G sh' ∧ P sh' op l')
    (hother : ∀ op sh l sh' l' o k, G sh → P sh op l → P sh o k → Q op l o k → Q o k op l →
      M.step op sh l sh' l' → P sh' o k ∧ Q op l' o k ∧ Q o k op l')
    {sys : Sys Id M} {H} (h : Exec M sh₀ sys H) :
    G sys.sh ∧ (∀ i op l, sys.calls i = .run op l → P sys.sh op l) ∧
      (∀ i j op l o k, i ≠ j → sys.calls i = .run op l → sys.calls j = .run o k → Q op l o k) := by
  induction h with
  | init => exact ⟨h0, by simp, by simp⟩
  | @invoke sys H i op hex hi ih =>
    obtain ⟨hG, hP, hQ⟩ := ih
    refine ⟨hG, ?_, ?_⟩
    · intro j o l hj
      dsimp only at hj ⊢
      by_cases hji : j = i
      · subst hji; rw [upd_same] at hj; cases hj; exact hstart _ _ hG
      · rw [upd_other _ _ hji] at hj; exact hP j o l hj
    · intro a b o l o' l' hab ha hb
      dsimp only at ha hb
      by_cases hai : a = i
      · subst hai; rw [upd_same] at ha; cases ha; exact (hstartQ _ _ _).1
      · by_cases hbi : b = i
        · subst hbi; rw [upd_same] at hb; cases hb; exact (hstartQ _ _ _).2
        · rw [upd_other _ _ hai] at ha; rw [upd_other _ _ hbi] at hb; exact hQ a b _ _ _ _ hab ha hb
  | @step sys H i op l sh' l' hex hi hst ih =>
    obtain ⟨hG, hP, hQ⟩ := ih
    have hs := hstep op sys.sh l sh' l' hG (hP i op l hi) hst
    have ho : ∀ j o k, j ≠ i → sys.calls j = .run o k → P sh' o k ∧ Q op l' o k ∧ Q o k op l' :=
      fun j o k hji hj => hother op sys.sh l sh' l' o k hG (hP i op l hi) (hP j o k hj)
        (hQ i j _ _ _ _ (Ne.symm hji) hi hj) (hQ j i _ _ _ _ hji hj hi) hst
    refine ⟨hs.1, ?_, ?_⟩
    · intro j o k hj
      dsimp only at hj ⊢
      by_cases hji : j = i
      · subst hji; rw [upd_same] at hj; cases hj; exact hs.2
      · rw [upd_other _ _ hji] at hj; exact (ho j o k hji hj).1
    · intro a b o k o' k' hab ha hb
      dsimp only at ha hb
      by_cases hai : a = i
      · subst hai
        rw [upd_same] at ha; cases ha
        rw [upd_other _ _ (Ne.symm hab)] at hb
        exact (ho b _ _ (Ne.symm hab) hb).2.1
      · rw [upd_other _ _ hai] at ha
        by_cases hbi : b = i
        · subst hbi; rw [upd_same] at hb; cases hb; exact (ho a _ _ hai ha).2.2
        · rw [upd_other _ _ hbi] at hb; exact hQ a b _ _ _ _ hab ha hb
  | @ret sys H i op l r hex hi hres ih =>
    obtain ⟨hG, hP, hQ⟩ := ih
    refine ⟨hG, ?_, ?_⟩
    · intro j o l hj
      dsimp only at hj ⊢
      by_cases hji : j = i
      · subst hji; rw [upd_same] at hj; cases hj
      · rw [upd_other _ _ hji] at hj; exact hP j o l hj
    · intro a b o l o' l' hab ha hb
      dsimp only at ha hb
      by_cases hai : a = i
      · subst hai; rw [upd_same] at ha; cases ha
      · by_cases hbi : b = i
        · subst hbi; rw [upd_same] at hb; cases hb
        · rw [upd_other _ _ hai] at ha; rw [upd_other _ _ hbi] at hb; exact hQ a b _ _ _ _ hab ha hb

/-- A simulation certificate for a machine whose executions start in `sh₀`.
`Inv` is any property already known of every reachable system state. -/
structure Sim (M : Machine Sh Op Ret) (spec : SeqSpec σ Op Ret) (sh₀ : Sh) (s₀ : σ)
    (Inv : Sys Id M → Prop) where
  abs : Sh → σ
  may : Op → M.Loc → Option Ret → Prop
  abs_init : abs sh₀ = s₀
  may_ne : ∀ op l, ∃ t, may op l t
  start_none : ∀ op t, may op (M.start op) t → t = none
  step_ok : ∀ (sys : Sys Id M) i op l sh' l' t', Inv sys → sys.calls i = .run op l →
    M.step op sys.sh l sh' l' → may op l' t' →
    ∃ t, may op l t ∧ ((t = t' ∧ abs sh' = abs sys.sh) ∨
      (t = none ∧ ∃ r, t' = some r ∧ spec (abs sys.sh) op (abs sh') r))
  ret_ok : ∀ (sys : Sys Id M) i op l r, Inv sys → sys.calls i = .run op l →
    M.result l = some r → may op l (some r)

/-- A commitment assignment compatible with a system state. -/
def Admits {M : Machine Sh Op Ret} (may : Op → M.Loc → Option Ret → Prop)
    (c : Id → CallSt Op M.Loc Ret) (t : Id → Option Ret) : Prop :=
  ∀ i, match c i with
    | .idle => t i = none
    | .run op l => may op l (t i)
    | .done _ r => t i = some r

/-- The sequential explanation maintained along an execution. -/
structure Good {M : Machine Sh Op Ret} (spec : SeqSpec σ Op Ret) (s₀ s : σ) (sys : Sys Id M)
    (H : List (Event Id Op Ret)) (t : Id → Option Ret) (L : List (Entry Id Op Ret)) : Prop where
  legal : Legal spec s₀ L s
  nodup : (L.map Entry.id).Nodup
  invd : ∀ e ∈ L, Event.inv e.id e.op ∈ H
  committed : ∀ i r, t i = some r → ∃ op, Entry.mk i op r ∈ L
  entries : ∀ e ∈ L, t e.id = some e.ret
  rt : ∀ a ∈ L, ∀ b ∈ L, Before H (.res a.id a.ret) (.inv b.id b.op) → Before L a b

theorem good_exists {M : Machine Sh Op Ret} {spec : SeqSpec σ Op Ret} {sh₀ : Sh} {s₀ : σ}
    {Inv : Sys Id M → Prop} (S : Sim M spec sh₀ s₀ Inv)
    (hInv : ∀ sys H, Exec M sh₀ sys H → Inv sys)
    {sys : Sys Id M} {H} (h : Exec M sh₀ sys H) :
    ∀ t, Admits S.may sys.calls t → ∃ L, Good spec s₀ (S.abs sys.sh) sys H t L := by
  induction h with
  | init =>
    intro t ht
    refine ⟨[], ⟨?_, by simp, by simp, ?_, by simp, by simp⟩⟩
    · simp only [S.abs_init]; exact .nil _
    · intro i r hr; have := ht i; simp at this; simp [this] at hr
  | @invoke sys H i op hex hi ih =>
    intro t ht
    have hti : t i = none := by
      have := ht i; simp at this; exact S.start_none _ _ this
    have ht' : Admits S.may sys.calls t := by
      intro j
      by_cases hj : j = i
      · subst hj; simp [hi, hti]
      · have := ht j; simpa [upd_other _ _ hj] using this
    obtain ⟨L, g⟩ := ih t ht'
    refine ⟨L, ⟨g.legal, g.nodup, ?_, g.committed, g.entries, ?_⟩⟩
    · intro e he; exact List.mem_append_left _ (g.invd e he)
    · intro a ha b hb hab
      rcases hab.of_concat with h1 | ⟨h1, _⟩
      · exact g.rt a ha b hb h1
      · cases h1
        have := g.entries b hb
        simp [hti] at this
  | @step sys H i op l sh' l' hex hi hst ih =>
    intro t ht
    have hmay : S.may op l' (t i) := by have := ht i; simpa using this
    obtain ⟨u, hu, hcase⟩ := S.step_ok sys i op l sh' l' (t i) (hInv _ _ hex) hi hst hmay
    have ht' : Admits S.may sys.calls (upd t i u) := by
      intro j
      by_cases hj : j = i
      · subst hj; simp [hi, hu]
      · have := ht j; simpa [upd_other _ _ hj] using this
    obtain ⟨L, g⟩ := ih _ ht'
    rcases hcase with ⟨rfl, habs⟩ | ⟨rfl, r, hr, hsp⟩
    · have : upd t i (t i) = t := by
        funext j; by_cases hj : j = i
        · subst hj; simp
        · simp [upd_other _ _ hj]
      rw [this] at g
      exact ⟨L, ⟨by simpa only [habs] using g.legal, g.nodup, g.invd, g.committed, g.entries, g.rt⟩⟩
    · have hnot : ∀ e ∈ L, e.id ≠ i := by
        intro e he hei
        have := g.entries e he
        rw [hei] at this; simp at this
      refine ⟨L ++ [⟨i, op, r⟩], ⟨g.legal.concat hsp, ?_, ?_, ?_, ?_, ?_⟩⟩
      · rw [List.map_append, List.nodup_append]
        refine ⟨g.nodup, by simp, ?_⟩
        intro x hx y hy
        simp at hx hy
        obtain ⟨e, he, rfl⟩ := hx
        subst hy; exact hnot e he
      · intro e he
        simp at he
        rcases he with he | rfl
        · exact g.invd e he
        · exact ((hex.hist).inv_iff i op).2 (Or.inl ⟨l, hi⟩)
      · intro j r' hj
        by_cases hji : j = i
        · subst hji
          rw [hr] at hj; cases hj
          exact ⟨op, by simp⟩
        · obtain ⟨o, ho⟩ := g.committed j r' (by simpa [upd_other _ _ hji] using hj)
          exact ⟨o, by simp [ho]⟩
      · intro e he
        simp at he
        rcases he with he | rfl
        · have := g.entries e he
          simpa [upd_other _ _ (hnot e he)] using this
        · exact hr
      · intro a ha b hb hab
        simp at ha hb
        rcases ha with ha | rfl
        · rcases hb with hb | rfl
          · exact (g.rt a ha b hb hab).append_right _
          · exact Before.concat_of_mem ha
        · exfalso
          have := ((hex.hist).res_iff i r).1 hab.mem_left
          obtain ⟨o, ho⟩ := this
          rw [hi] at ho; cases ho
  | @ret sys H i op l r hex hi hres ih =>
    intro t ht
    have hti : t i = some r := by have := ht i; simpa using this
    have ht' : Admits S.may sys.calls t := by
      intro j
      by_cases hj : j = i
      · subst hj; simp [hi, hti]; exact S.ret_ok sys _ op l r (hInv _ _ hex) hi hres
      · have := ht j; simpa [upd_other _ _ hj] using this
    obtain ⟨L, g⟩ := ih t ht'
    refine ⟨L, ⟨g.legal, g.nodup, ?_, g.committed, g.entries, ?_⟩⟩
    · intro e he; exact List.mem_append_left _ (g.invd e he)
    · intro a ha b hb hab
      rcases hab.of_concat with h1 | ⟨h1, _⟩
      · exact g.rt a ha b hb h1
      · cases h1

theorem Sim.linearizable {M : Machine Sh Op Ret} {spec : SeqSpec σ Op Ret} {sh₀ : Sh} {s₀ : σ}
    {Inv : Sys Id M → Prop} (S : Sim M spec sh₀ s₀ Inv)
    (hInv : ∀ sys H, Exec M sh₀ sys H → Inv sys)
    {sys : Sys Id M} {H} (h : Exec M sh₀ sys H) : Linearizable spec s₀ H := by
  classical
  let t : Id → Option Ret := fun i => match sys.calls i with
    | .idle => none
    | .run op l => Classical.choose (S.may_ne op l)
    | .done _ r => some r
  have ht : Admits S.may sys.calls t := by
    intro i
    cases hc : sys.calls i with
    | idle => simp [t, hc]
    | run o l => simp [t, hc]; exact Classical.choose_spec (S.may_ne o l)
    | done o r => simp [t, hc]
  obtain ⟨L, g⟩ := good_exists S hInv h t ht
  refine ⟨L, _, g.legal, g.nodup, g.invd, ?_, g.rt⟩
  intro i r hr
  obtain ⟨op, hop⟩ := ((h.hist).res_iff i r).1 hr
  exact g.committed i r (by simp [t, hop])

theorem before_of_mem {α : Type} {l : List α} {a b : α} (ha : a ∈ l) (hb : b ∈ l) (hn : a ≠ b) :
    Before l a b ∨ Before l b a := by
  obtain ⟨l₁, l₂, rfl⟩ := List.append_of_mem ha
  rw [List.mem_append, List.mem_cons] at hb
  rcases hb with hb | hb | hb
  · obtain ⟨m₁, m₂, rfl⟩ := List.append_of_mem hb
    exact .inr ⟨m₁, m₂, l₂, by simp⟩
  · exact absurd hb.symm hn
  · obtain ⟨m₁, m₂, rfl⟩ := List.append_of_mem hb
    exact .inl ⟨l₁, m₁, m₂, rfl⟩

section
variable {Id Op Ret : Type} {L : List (Entry Id Op Ret)} {a b : Entry Id Op Ret}

/-- In a list without repeated ids the order of two entries is unambiguous. -/
theorem before_asymm (hn : (L.map Entry.id).Nodup) (h : Before L a b) : ¬ Before L b a := by
  induction L with
  | nil => obtain ⟨m₁, m₂, m₃, e⟩ := h; simp at e
  | cons x L ih =>
    rw [List.map_cons, List.nodup_cons] at hn
    have key : ∀ {c d : Entry Id Op Ret}, Before (x :: L) c d → (c = x ∧ d ∈ L) ∨ Before L c d := by
      rintro c d ⟨m₁, m₂, m₃, e⟩
      cases m₁ with
      | nil =>
        rw [List.nil_append, List.cons.injEq] at e
        exact .inl ⟨e.1.symm, by rw [e.2]; simp⟩
      | cons y m =>
        rw [List.cons_append, List.cons.injEq] at e
        exact .inr ⟨m, m₂, m₃, e.2⟩
    intro h'
    have nx : x ∉ L := fun hm => hn.1 (List.mem_map.2 ⟨x, hm, rfl⟩)
    rcases key h with ⟨rfl, h1⟩ | h1
    · rcases key h' with ⟨rfl, h2⟩ | h2
      · exact nx h1
      · exact nx h2.mem_right
    · rcases key h' with ⟨rfl, h2⟩ | h2
      · exact nx h1.mem_right
      · exact ih hn.2 h1 h2

theorem eq_of_id (hn : (L.map Entry.id).Nodup) (ha : a ∈ L) (hb : b ∈ L) (h : a.id = b.id) : a = b := by
  induction L with
  | nil => cases ha
  | cons x L ih =>
    rw [List.map_cons, List.nodup_cons] at hn
    rcases List.mem_cons.1 ha with ha1 | ha1
    · rcases List.mem_cons.1 hb with hb1 | hb1
      · rw [ha1, hb1]
      · exact absurd (List.mem_map.2 ⟨b, hb1, by rw [← h, ha1]⟩) hn.1
    · rcases List.mem_cons.1 hb with hb1 | hb1
      · exact absurd (List.mem_map.2 ⟨a, ha1, by rw [h, hb1]⟩) hn.1
      · exact ih hn.2 ha1 hb1

end

theorem inv_unique {Sh Id Op Ret : Type} [DecidableEq Id] {M : Machine Sh Op Ret} {sys : Sys Id M}
    {H : List (Event Id Op Ret)} (h : HistOk sys H) {i : Id} {o o' : Op} (h1 : Event.inv i o ∈ H)
    (h2 : Event.inv i o' ∈ H) : o = o' := by
  rcases (h.inv_iff i o).1 h1 with ⟨l, e⟩ | ⟨r, e⟩ <;> rcases (h.inv_iff i o').1 h2 with ⟨l', e'⟩ | ⟨r', e'⟩ <;>
  · rw [e] at e'; cases e' <;> rfl

end Verif
