import Verif.Tso.Model

set_option linter.unusedSectionVars false

namespace Verif.Tso

open Verif.Order (MO)

variable {T L V : Type} [DecidableEq T] [DecidableEq L] {init : L → V}

theorem newest_append (l : L) (a b : List (Write T L V)) :
    newest l (a ++ b) = (newest l b).or (newest l a) := by
  simp [newest, List.find?_append]

theorem read_eq (s : State T L V) (t : T) (l : L) : s.read t l = newest l (s.view t) := by
  rw [State.view, newest_append, State.read]
  cases newest l (s.buf t) <;> rfl

theorem newest_some {l : L} {ws : List (Write T L V)} {w} (h : newest l ws = some w) :
    w.loc = l ∧ ∃ a b, ws = a ++ w :: b ∧ ∀ z ∈ b, z.loc ≠ l := by
  induction ws with
  | nil => simp [newest] at h
  | cons c ws ih =>
    rw [show c :: ws = [c] ++ ws from rfl, newest_append] at h
    cases h' : newest l ws with
    | some w' =>
      rw [h'] at h
      simp at h
      subst h
      obtain ⟨h1, a, b, rfl, hb⟩ := ih h'
      exact ⟨h1, c :: a, b, by simp, hb⟩
    | none =>
      rw [h'] at h
      simp [newest] at h
      obtain ⟨h1, rfl⟩ := h
      refine ⟨h1, [], ws, rfl, ?_⟩
      simpa [newest] using h'

theorem newest_none {l : L} {ws : List (Write T L V)} (h : newest l ws = none) : ∀ w ∈ ws, w.loc ≠ l := by
  simpa [newest] using h

/-- A load returns the write `w` or one after it, if `w` is a write to that location in the view. -/
theorem newest_atOrAfter {l : L} {ws : List (Write T L V)} {w} (hw : w ∈ ws) (hl : w.loc = l) :
    ∃ r, newest l ws = some r ∧ r.loc = l ∧ AtOrAfter ws w r := by
  cases h : newest l ws with
  | none => exact absurd hl (newest_none h w hw)
  | some r =>
    obtain ⟨h1, a, b, rfl, hb⟩ := newest_some h
    refine ⟨r, rfl, h1, a, b, rfl, ?_⟩
    simp only [List.mem_append, List.mem_cons] at hw
    rcases hw with h | rfl | h
    · simp [h]
    · simp
    · exact absurd hl (hb _ h)

/-- Invariant of the machine. -/
structure Inv (s : State T L V) : Prop where
  bufTid : ∀ t, ∀ w ∈ s.buf t, w.tid = t
  idLt : ∀ t, ∀ w ∈ s.view t, w.id < s.next
  /-- the writes of one thread are committed in the order it executed them -/
  sorted : ∀ t, ((s.view t).filter (fun w => w.tid = t)).Pairwise (fun a b => a.id < b.id)

theorem Inv.start : Inv (State.start : State T L V) := by
  constructor <;> simp [State.start, State.view]

theorem view_push_log (s : State T L V) (w : Write T L V) (n : Nat) (u : T) :
    ({ s with log := w :: s.log, next := n } : State T L V).view u = s.log.reverse ++ w :: s.buf u := by
  simp [State.view]

theorem Inv.step {s s' : State T L V} {e} (hi : Inv s) (h : Step init s e s') : Inv s' := by
  obtain ⟨h1, h2, h3⟩ := hi
  cases h with
  | load => exact ⟨h1, h2, h3⟩
  | rmwFail => exact ⟨h1, h2, h3⟩
  | fence => exact ⟨h1, h2, h3⟩
  | @store t l o v ho =>
    refine ⟨?_, ?_, ?_⟩
    · intro u w hw
      simp only [setBuf] at hw
      split at hw
      · rename_i hu; subst hu
        simp only [List.mem_append, List.mem_singleton] at hw
        rcases hw with hw | rfl
        · exact h1 _ w hw
        · rfl
      · exact h1 _ w hw
    · intro u w hw
      simp only [State.view, setBuf] at hw ⊢
      split at hw
      · rename_i hu; subst hu
        rw [← List.append_assoc, List.mem_append, List.mem_singleton] at hw
        rcases hw with hw | rfl
        · have := h2 u w hw; omega
        · exact Nat.lt_succ_self _
      · have := h2 u w hw; omega
    · intro u
      simp only [State.view, setBuf]
      split
      · rename_i hu; subst hu
        rw [← List.append_assoc, List.filter_append, List.pairwise_append]
        refine ⟨h3 u, by simp [List.pairwise_cons], ?_⟩
        intro a ha b hb
        have := h2 u a (List.mem_filter.1 ha).1
        have hb' := (List.mem_filter.1 hb).1
        simp only [List.mem_singleton] at hb'
        subst hb'
        exact this
      · exact h3 u
  | @storeSc t l v hb =>
    refine ⟨h1, ?_, ?_⟩
    · intro u w hw
      rw [view_push_log] at hw
      have hs := h2 u
      simp only [State.view, List.mem_append, List.mem_cons] at hw hs
      rcases hw with hw | rfl | hw
      · have := hs w (.inl hw); simp; omega
      · simp
      · have := hs w (.inr hw); simp; omega
    · intro u
      rw [view_push_log]
      have hs := h3 u
      simp only [State.view, List.filter_append] at hs ⊢
      by_cases hu : t = u
      · subst hu
        rw [hb]
        rw [hb] at hs
        simp only [List.filter_cons, decide_true, if_true, List.filter_nil, List.append_nil] at hs ⊢
        rw [List.pairwise_append]
        refine ⟨hs, by simp, ?_⟩
        intro a ha b hb'
        simp only [List.mem_singleton] at hb'
        subst hb'
        exact h2 t a (by simp only [State.view, List.mem_append]; exact .inl (List.mem_filter.1 ha).1)
      · simpa [List.filter_cons, hu] using hs
  | @rmw t l o f v' hb _ =>
    refine ⟨h1, ?_, ?_⟩
    · intro u w hw
      rw [view_push_log] at hw
      have hs := h2 u
      simp only [State.view, List.mem_append, List.mem_cons] at hw hs
      rcases hw with hw | rfl | hw
      · have := hs w (.inl hw); simp; omega
      · simp
      · have := hs w (.inr hw); simp; omega
    · intro u
      rw [view_push_log]
      have hs := h3 u
      simp only [State.view, List.filter_append] at hs ⊢
      by_cases hu : t = u
      · subst hu
        rw [hb]
        rw [hb] at hs
        simp only [List.filter_cons, decide_true, if_true, List.filter_nil, List.append_nil] at hs ⊢
        rw [List.pairwise_append]
        refine ⟨hs, by simp, ?_⟩
        intro a ha b hb'
        simp only [List.mem_singleton] at hb'
        subst hb'
        exact h2 t a (by simp only [State.view, List.mem_append]; exact .inl (List.mem_filter.1 ha).1)
      · simpa [List.filter_cons, hu] using hs
  | @flush t w b hb =>
    refine ⟨?_, ?_, ?_⟩
    · intro u z hz
      simp only [setBuf] at hz
      split at hz
      · rename_i hu; subst hu; exact h1 u z (by rw [hb]; simp [hz])
      · exact h1 u z hz
    · intro u z hz
      have ht := h2 t
      have hu' := h2 u
      simp only [State.view, setBuf, List.reverse_cons, List.mem_append, List.not_mem_nil, or_false, hb,
        List.mem_cons] at hz ht hu'
      rcases hz with (hz | rfl) | hz
      · exact hu' z (.inl hz)
      · exact ht z (.inr (.inl rfl))
      · split at hz
        · exact ht z (.inr (.inr hz))
        · exact hu' z (.inr hz)
    · intro u
      have hu' := h3 u
      simp only [State.view, setBuf, List.reverse_cons, List.append_assoc, List.singleton_append] at hu' ⊢
      split
      · rename_i hu; subst hu; rw [hb] at hu'; exact hu'
      · rename_i hu
        have : w.tid = t := h1 t w (by rw [hb]; simp)
        have hne : ¬ t = u := fun h => hu h.symm
        simpa [List.filter_append, List.filter_cons, this, hne] using hu'

theorem Inv.run {s s' : State T L V} {es} (hi : Inv s) (h : Run init s es s') : Inv s' := by
  induction h with
  | nil => exact hi
  | cons h _ ih => exact ih (hi.step h)

/-- Committed writes stay committed, in the same order. -/
theorem step_log {s s' : State T L V} {e} (h : Step init s e s') : ∃ l, s'.log = l ++ s.log := by
  cases h with
  | load | rmwFail | fence | store => exact ⟨[], rfl⟩
  | storeSc | rmw | flush => exact ⟨[_], rfl⟩

theorem run_log {s s' : State T L V} {es} (h : Run init s es s') : ∃ l, s'.log = l ++ s.log := by
  induction h with
  | nil => exact ⟨[], rfl⟩
  | cons h _ ih =>
    obtain ⟨a, ha⟩ := step_log h
    obtain ⟨b, hb⟩ := ih
    exact ⟨b ++ a, by rw [hb, ha]; simp⟩

/-- What a thread sees it keeps seeing: each step only inserts writes into the view of a thread. -/
theorem step_view {s s' : State T L V} {e} (h : Step init s e s') (u : T) :
    (s.view u).Sublist (s'.view u) := by
  cases h with
  | load | rmwFail | fence => exact .refl _
  | @store t l o v =>
    simp only [State.view, setBuf]
    split
    · rename_i hu; subst hu; rw [← List.append_assoc]; exact List.sublist_append_left _ _
    · exact .refl _
  | storeSc | rmw =>
    rw [view_push_log]
    exact List.Sublist.append (.refl _) (List.sublist_cons_self _ _)
  | @flush t w b hb =>
    simp only [State.view, setBuf, List.reverse_cons, List.append_assoc]
    apply List.Sublist.append (.refl _)
    split
    · rename_i hu; subst hu; rw [hb]; exact .refl _
    · exact List.sublist_append_right _ _

theorem run_view {s s' : State T L V} {es} (h : Run init s es s') (u : T) :
    (s.view u).Sublist (s'.view u) := by
  induction h with
  | nil => exact .refl _
  | cons h _ ih => exact (step_view h u).trans ih

/-- The write made by a step is in the thread's view afterwards. -/
theorem step_write {s s' : State T L V} {t l op r w} (h : Step init s (.op t l op r (some w)) s') :
    w ∈ s'.view t ∧ w.tid = t ∧ w.loc = l ∧ w.id = s.next ∧ s'.next = s.next + 1 := by
  cases h <;> simp [State.view, setBuf]

theorem step_next {s s' : State T L V} {e} (h : Step init s e s') : s.next ≤ s'.next := by
  cases h <;> simp

theorem run_next {s s' : State T L V} {es} (h : Run init s es s') : s.next ≤ s'.next := by
  induction h with
  | nil => exact Nat.le_refl _
  | cons h _ ih => exact Nat.le_trans (step_next h) ih

theorem run_append {s s' s'' : State T L V} {es es'} (h : Run init s es s') (h' : Run init s' es' s'') :
    Run init s (es ++ es') s'' := by
  induction h with
  | nil => exact h'
  | cons h _ ih => exact .cons h (ih h')

/-- No write occurs twice in a view. -/
theorem nodup_step {s s' : State T L V} {e} (hi : Inv s) (hn : ∀ t, (s.view t).Nodup)
    (h : Step init s e s') : ∀ t, (s'.view t).Nodup := by
  have fresh : ∀ u t l v, (⟨s.next, t, l, v⟩ : Write T L V) ∉ s.view u := fun u t l v hm =>
    Nat.lt_irrefl _ (hi.idLt u _ hm)
  have push : ∀ (w : Write T L V) u, (∀ u, w ∉ s.view u) → (s.log.reverse ++ w :: s.buf u).Nodup := by
    intro w u hw
    have := hn u
    have hw := hw u
    simp only [State.view, List.mem_append, not_or] at hw this
    rw [List.nodup_append] at this ⊢
    refine ⟨this.1, List.nodup_cons.2 ⟨hw.2, this.2.1⟩, ?_⟩
    intro a ha b hb
    rcases List.mem_cons.1 hb with rfl | hb
    · rintro rfl; exact hw.1 ha
    · exact this.2.2 a ha b hb
  intro u
  cases h with
  | load | rmwFail | fence => exact hn u
  | @store t l o v ho =>
    simp only [State.view, setBuf]
    split
    · rename_i hu; subst hu
      rw [← List.append_assoc, List.nodup_append]
      refine ⟨hn u, by simp, ?_⟩
      intro a ha b hb
      rw [List.mem_singleton] at hb
      subst hb
      rintro rfl
      exact fresh u _ _ _ ha
    · exact hn u
  | storeSc | rmw => rw [view_push_log]; exact push _ u (fun u => fresh u _ _ _)
  | @flush t w b hb =>
    have ht := hn t
    have hu := hn u
    simp only [State.view, setBuf, List.reverse_cons, List.append_assoc, List.singleton_append, hb] at ht hu ⊢
    split
    · exact ht
    · rename_i hne
      rw [List.nodup_append] at ht hu ⊢
      refine ⟨ht.1, List.nodup_cons.2 ⟨?_, hu.2.1⟩, ?_⟩
      · intro hm
        have h1 := hi.bufTid u w hm
        have h2 := hi.bufTid t w (by rw [hb]; simp)
        exact hne (h1 ▸ h2)
      · intro a ha c hc
        rcases List.mem_cons.1 hc with rfl | hc
        · exact ht.2.2 a ha c (by simp)
        · exact hu.2.2 a ha c hc

theorem nodup_run {s s' : State T L V} {es} (hi : Inv s) (hn : ∀ t, (s.view t).Nodup)
    (h : Run init s es s') : ∀ t, (s'.view t).Nodup := by
  induction h with
  | nil => exact hn
  | cons h _ ih => exact ih (hi.step h) (nodup_step hi hn h)

theorem atOrAfter_sublist {α : Type} {l l' : List α} {w r : α} (h : l.Sublist l') (ha : AtOrAfter l w r) :
    AtOrAfter l' w r := by
  obtain ⟨a, b, rfl, hw⟩ := ha
  obtain ⟨l₁, l₂, rfl, h1, h2⟩ := List.append_sublist_iff.1 h
  obtain ⟨c, d, rfl, h3, h4⟩ := List.cons_sublist_iff.1 h2
  obtain ⟨c1, c2, rfl⟩ := List.append_of_mem h3
  refine ⟨l₁ ++ c1, c2 ++ d, by simp, ?_⟩
  rw [List.mem_append] at hw ⊢
  rcases hw with hw | hw
  · exact .inl (List.mem_append.2 (.inl (h1.subset hw)))
  · exact .inr hw

/-- If `r` is known to lie in the first part of a list without repetitions, its place in the list is
there. -/
theorem atOrAfter_left {α : Type} {l l' : List α} {w r : α} (hn : (l ++ l').Nodup) (hr : r ∈ l)
    (ha : AtOrAfter (l ++ l') w r) : AtOrAfter l w r := by
  obtain ⟨a, b, e, hw⟩ := ha
  rw [List.append_eq_append_iff] at e
  rcases e with ⟨c, rfl, e⟩ | ⟨c, rfl, e⟩
  · exfalso
    rw [List.nodup_append] at hn
    exact hn.2.2 r hr r (by rw [e]; simp) rfl
  · cases c with
    | nil =>
      exfalso
      simp at e
      rw [List.nodup_append] at hn
      exact hn.2.2 r hr r (by rw [← e]; simp) rfl
    | cons c0 c => simp at e; rw [← e.1]; exact ⟨a, c, rfl, hw⟩

end Verif.Tso
