import Verif.Wait.PropsLemmas

/-! Polling waits, and the number of steps after the value has changed or the deadline has passed. -/

set_option linter.unusedSectionVars false

namespace Verif.Wait

open Verif.Chrono

variable {V : Type} [DecidableEq V] {W : World V} {i i0 : Nat} {h : List (Ev V)} {old : V}

/-! ### Results of polling waits -/

theorem pollStep_good : Good W Any (pollStep old) i h (Post (fun (_ : Unit) j _ => i ≤ j)
    (fun j _ v => WaitOk W old i j v)) := by
  simp only [pollStep, bind_def, pure_def]
  apply good_bind
  apply good_pause trivial
  intro t ht
  refine ⟨trivial, ?_⟩
  apply good_bind
  apply good_load trivial
  intro t2 ht2
  refine ⟨trivial, ?_⟩
  split
  · rename_i hne
    exact good_ret trivial ⟨hne, t2, by omega, Nat.le_refl _, rfl⟩
  · exact good_ret trivial (by show i ≤ t2; omega)

theorem WaitOk.earlier {i i' j : Nat} {v : V} (hi : i' ≤ i) (h : WaitOk W old i j v) : WaitOk W old i' j v := by
  obtain ⟨h1, t, h2, h3, h4⟩ := h
  exact ⟨h1, t, by omega, h3, h4⟩

theorem pollFrom_good (n : Nat) : ∀ i h, Good W Any (pollFrom old n) i h (fun j _ v => WaitOk W old i j v) := by
  induction n with
  | zero =>
    intro i h
    simp only [pollFrom]
    apply good_loop (fun _ j _ => i ≤ j) (Nat.le_refl _)
    intro _ k h' hk
    refine pollStep_good.mono fun j h'' r hj hr => ?_
    cases r with
    | inl _ => exact Nat.le_trans hk hj
    | inr v => exact WaitOk.earlier hk hr
  | succ n ih =>
    intro i h
    simp only [pollFrom, bind_def, pure_def]
    apply good_bind
    refine pollStep_good.mono fun j h'' r hj hr => ?_
    cases r with
    | inl _ => exact (ih _ _).mono fun k h3 v _ hv => hv.earlier hj
    | inr v => exact good_ret trivial hr

theorem ipcWait_good {spins : Nat} : Good W Any (ipcWait spins old) i h (fun j _ v => WaitOk W old i j v) := by
  simp only [ipcWait, bind_def, pure_def]
  apply good_bind
  apply good_load trivial
  intro t ht
  refine ⟨trivial, ?_⟩
  split
  · exact (pollFrom_good _ _ _).mono fun k h3 v _ hv => hv.earlier ht
  · rename_i hne
    exact good_ret trivial ⟨hne, t, ht, Nat.le_refl _, rfl⟩

/-- The state of the timed polling loops: the time was read and after that the old value. -/
def PollInv (W : World V) (old : V) (c : Clk) (i0 : Nat) (now : Int) (j : Nat) : Prop :=
  ∃ t t', i0 ≤ t ∧ t ≤ t' ∧ t' ≤ j ∧ now = W.clk c t ∧ W.val t' = old

theorem pollTimedStep_good {c : Clk} {timeout now : Int} (hi : PollInv W old c i0 now i) :
    Good W Any (pollTimedStep c old timeout now) i h (Post (fun now j _ => PollInv W old c i0 now j)
      (fun j _ r => TimedOk W old (fun t => timeout ≤ W.clk c t) i0 j r.1 r.2)) := by
  obtain ⟨t1, t2, k1, k2, k3, k4, k5⟩ := hi
  simp only [pollTimedStep, bind_def, pure_def]
  split
  · exact good_ret trivial (.timeout k1 k2 k3 k5 rfl (by omega))
  · apply good_bind
    apply good_pause trivial
    intro t ht
    refine ⟨trivial, ?_⟩
    apply good_bind
    apply good_now trivial
    intro t3 ht3
    refine ⟨trivial, ?_⟩
    apply good_bind
    apply good_load trivial
    intro t4 ht4
    refine ⟨trivial, ?_⟩
    split
    · rename_i hne
      exact good_ret trivial (.value (t := t4) (by omega) (Nat.le_refl _) rfl hne)
    · rename_i he
      exact good_ret trivial ⟨t3, t4, by omega, by omega, Nat.le_refl _, rfl, by simpa using he⟩

theorem pollTimedFrom_good {c : Clk} {timeout : Int} (n : Nat) : ∀ now i h, PollInv W old c i0 now i →
    Good W Any (pollTimedFrom c old timeout n now) i h
      (fun j _ r => TimedOk W old (fun t => timeout ≤ W.clk c t) i0 j r.1 r.2) := by
  induction n with
  | zero =>
    intro now i h hi
    simp only [pollTimedFrom]
    apply good_loop (fun now j _ => PollInv W old c i0 now j) hi
    intro now k h' hk
    exact pollTimedStep_good hk
  | succ n ih =>
    intro now i h hi
    simp only [pollTimedFrom, bind_def, pure_def]
    apply good_bind
    refine (pollTimedStep_good hi).mono fun j h'' r hj hr => ?_
    cases r with
    | inl now => exact ih _ _ _ hr
    | inr x => exact good_ret trivial hr

theorem ipcUntil_good {spins : Nat} {c : Clk} {timeout now : Int} (t0 : Nat) (h0 : i0 ≤ t0) (h1 : t0 ≤ i)
    (hn : now = W.clk c t0) :
    Good W Any (ipcUntil spins c old timeout now) i h
      (fun j _ r => TimedOk W old (fun t => timeout ≤ W.clk c t) i0 j r.1 r.2) := by
  simp only [ipcUntil, bind_def, pure_def]
  apply good_bind
  apply good_load trivial
  intro t ht
  refine ⟨trivial, ?_⟩
  split
  · rename_i he
    exact pollTimedFrom_good _ _ _ _ ⟨t0, t, h0, by omega, Nat.le_refl _, hn, he⟩
  · rename_i hne
    exact good_ret trivial (.value (t := t) (by omega) (Nat.le_refl _) rfl hne)

theorem ipcWaitUntil_good {spins : Nat} {timeout : Int} :
    Good W Any (ipcWaitUntil spins old timeout) i h
      (fun j _ r => TimedOk W old (fun t => timeout ≤ W.clk .user t) i j r.1 r.2) := by
  simp only [ipcWaitUntil, bind_def]
  apply good_bind
  apply good_now trivial
  intro t ht
  exact ⟨trivial, ipcUntil_good t ht (Nat.le_refl _) rfl⟩

theorem ipcWaitFor_good {spins : Nat} {timeout : Int} :
    Good W Any (ipcWaitFor spins old timeout) i h
      (fun j _ r => TimedForOk W old (fun s t => timeout ≤ W.clk .steady t - W.clk .steady s) i j r.1 r.2) := by
  simp only [ipcWaitFor, bind_def]
  apply good_bind
  apply good_now trivial
  intro t ht
  refine ⟨trivial, (ipcUntil_good t (Nat.le_refl _) (Nat.le_refl _) rfl).mono fun j h' r _ hr => ?_⟩
  exact TimedOk.elapsed ht (hr.weaken (Nat.le_refl _) (fun s _ _ hs => by omega))

/-! ### Steps after a time -/

theorem stepsAfter_snoc (T : Nat) (h : List (Ev V)) (e : Ev V) :
    stepsAfter T (h ++ [e]) = stepsAfter T h + if T ≤ e.time then 1 else 0 := by
  unfold stepsAfter
  rw [List.filter_append, List.length_append]
  congr 1
  by_cases he : T ≤ e.time <;> simp [he]

theorem neverBlocks_snoc {h : List (Ev V)} {e : Ev V} (hh : NeverBlocks h) (he : ∀ l t, e ≠ .block l t) :
    NeverBlocks (h ++ [e]) := by
  intro l t hm
  rcases List.mem_append.1 hm with hm | hm
  · exact hh l t hm
  · exact he l t (List.mem_singleton.1 hm).symm

/-- At most `k` steps after `T`, none of them blocking. -/
def AtMost (T k : Nat) (tr : List (Ev V)) : Prop := stepsAfter T tr ≤ k ∧ NeverBlocks tr

theorem atMost_snoc {T k k' : Nat} {h : List (Ev V)} {e : Ev V} (hh : AtMost T k h) (he : ∀ l t, e ≠ .block l t)
    (hk : k + 1 ≤ k' ∨ (e.time < T ∧ k ≤ k')) : AtMost T k' (h ++ [e]) := by
  obtain ⟨h1, h2⟩ := hh
  refine ⟨?_, neverBlocks_snoc h2 he⟩
  rw [stepsAfter_snoc]
  rcases hk with hk | hk
  · split <;> omega
  · rw [if_neg (by omega)]; omega

theorem AtMost.mono {T k k' : Nat} {h : List (Ev V)} (hk : k ≤ k') (hh : AtMost T k h) : AtMost T k' h :=
  ⟨Nat.le_trans hh.1 hk, hh.2⟩

section

variable {T : Nat} (hT : ∀ t, T ≤ t → W.val t ≠ old)

include hT

theorem before (t : Nat) (ht : W.val t = old) : t < T := by
  rcases Nat.lt_or_ge t T with h | h
  · exact h
  · exact absurd ht (hT t h)

theorem pollStep_steps (hh : AtMost T 0 h) : Good W (AtMost T 2) (pollStep old) i h
    (Post (fun (_ : Unit) _ h => AtMost T 0 h) (fun _ h _ => AtMost T 2 h)) := by
  simp only [pollStep, bind_def, pure_def]
  apply good_bind
  apply good_pause (hh.mono (by omega))
  intro t ht
  refine ⟨atMost_snoc hh (fun _ _ h => nomatch h) (.inl (by omega)), ?_⟩
  have h1 : AtMost T 1 (h ++ [Ev.pause t]) := atMost_snoc hh (fun _ _ h => nomatch h) (.inl (by omega))
  apply good_bind
  apply good_load (h1.mono (by omega))
  intro t2 ht2
  have h2 : AtMost T 2 (h ++ [Ev.pause t] ++ [Ev.load t2 (W.val t2)]) :=
    atMost_snoc h1 (fun _ _ h => nomatch h) (.inl (by omega))
  refine ⟨h2, ?_⟩
  split
  · exact good_ret h2 h2
  · rename_i he
    have hb := before hT t2 (by simpa using he)
    refine good_ret h2 ?_
    exact atMost_snoc (atMost_snoc hh (fun _ _ h => nomatch h) (.inr ⟨by show t < T; omega, Nat.le_refl _⟩))
      (fun _ _ h => nomatch h) (.inr ⟨by show t2 < T; omega, Nat.le_refl _⟩)

theorem pollFrom_steps (n : Nat) : ∀ i h, AtMost T 0 h →
    Good W (AtMost T 2) (pollFrom old n) i h (fun _ h _ => AtMost T 2 h) := by
  induction n with
  | zero =>
    intro i h hh
    simp only [pollFrom]
    apply good_loop (fun _ _ h => AtMost T 0 h) hh
    intro _ k h' hk
    exact pollStep_steps hT hk
  | succ n ih =>
    intro i h hh
    simp only [pollFrom, bind_def, pure_def]
    apply good_bind
    refine (pollStep_steps hT hh).mono fun j h'' r hj hr => ?_
    cases r with
    | inl _ => exact ih _ _ hr
    | inr v => exact good_ret hr hr

theorem ipcWait_steps {spins : Nat} (hh : AtMost T 0 h) :
    Good W (AtMost T 2) (ipcWait spins old) i h (fun _ h _ => AtMost T 2 h) := by
  simp only [ipcWait, bind_def, pure_def]
  apply good_bind
  apply good_load (hh.mono (by omega))
  intro t ht
  have h1 : AtMost T 2 (h ++ [Ev.load t (W.val t)]) := atMost_snoc hh (fun _ _ h => nomatch h) (.inl (by omega))
  refine ⟨h1, ?_⟩
  split
  · rename_i he
    exact pollFrom_steps hT _ _ _
      (atMost_snoc hh (fun _ _ h => nomatch h) (.inr ⟨before hT t he, Nat.le_refl _⟩))
  · exact good_ret h1 h1

end

/-! Timed polling wait, the value changed at `T`. -/

section

variable {T : Nat} {c : Clk} {timeout : Int} (hT : ∀ t, T ≤ t → W.val t ≠ old)

include hT

theorem pollTimedStep_steps {now : Int} (hh : AtMost T 0 h) : Good W (AtMost T 3) (pollTimedStep c old timeout now) i h
    (Post (fun _ _ h => AtMost T 0 h) (fun _ h _ => AtMost T 3 h)) := by
  simp only [pollTimedStep, bind_def, pure_def]
  split
  · exact good_ret (hh.mono (by omega)) (hh.mono (by omega))
  · apply good_bind
    apply good_pause (hh.mono (by omega))
    intro t ht
    have h1 : AtMost T 1 (h ++ [Ev.pause t]) := atMost_snoc hh (fun _ _ h => nomatch h) (.inl (by omega))
    refine ⟨h1.mono (by omega), ?_⟩
    apply good_bind
    apply good_now (h1.mono (by omega))
    intro t2 ht2
    have h2 : AtMost T 2 (h ++ [Ev.pause t] ++ [Ev.now c t2]) :=
      atMost_snoc h1 (fun _ _ h => nomatch h) (.inl (by omega))
    refine ⟨h2.mono (by omega), ?_⟩
    apply good_bind
    apply good_load (h2.mono (by omega))
    intro t3 ht3
    have h3 : AtMost T 3 (h ++ [Ev.pause t] ++ [Ev.now c t2] ++ [Ev.load t3 (W.val t3)]) :=
      atMost_snoc h2 (fun _ _ h => nomatch h) (.inl (by omega))
    refine ⟨h3, ?_⟩
    split
    · exact good_ret h3 h3
    · rename_i he
      have hb := before hT t3 (by simpa using he)
      refine good_ret h3 ?_
      exact atMost_snoc (atMost_snoc (atMost_snoc hh
        (fun _ _ h => nomatch h) (.inr ⟨by show t < T; omega, Nat.le_refl _⟩))
        (fun _ _ h => nomatch h) (.inr ⟨by show t2 < T; omega, Nat.le_refl _⟩))
        (fun _ _ h => nomatch h) (.inr ⟨by show t3 < T; omega, Nat.le_refl _⟩)

theorem pollTimedFrom_steps (n : Nat) : ∀ now i h, AtMost T 0 h →
    Good W (AtMost T 3) (pollTimedFrom c old timeout n now) i h (fun _ h _ => AtMost T 3 h) := by
  induction n with
  | zero =>
    intro now i h hh
    simp only [pollTimedFrom]
    apply good_loop (fun _ _ h => AtMost T 0 h) hh
    intro _ k h' hk
    exact pollTimedStep_steps hT hk
  | succ n ih =>
    intro now i h hh
    simp only [pollTimedFrom, bind_def, pure_def]
    apply good_bind
    refine (pollTimedStep_steps hT hh).mono fun j h'' r hj hr => ?_
    cases r with
    | inl _ => exact ih _ _ _ hr
    | inr v => exact good_ret hr hr

theorem ipcUntil_steps {spins : Nat} {now : Int} (hh : AtMost T 1 h) (hh0 : i < T → AtMost T 0 h) :
    Good W (AtMost T 3) (ipcUntil spins c old timeout now) i h (fun _ h _ => AtMost T 3 h) := by
  simp only [ipcUntil, bind_def, pure_def]
  apply good_bind
  apply good_load (hh.mono (by omega))
  intro t ht
  have h1 : AtMost T 3 (h ++ [Ev.load t (W.val t)]) := atMost_snoc hh (fun _ _ h => nomatch h) (.inl (by omega))
  refine ⟨h1, ?_⟩
  split
  · rename_i he
    have hb := before hT t he
    exact pollTimedFrom_steps hT _ _ _ _
      (atMost_snoc (hh0 (by omega)) (fun _ _ h => nomatch h) (.inr ⟨hb, Nat.le_refl _⟩))
  · exact good_ret h1 h1

end

/-! Timed polling wait, the deadline passed at `T`. -/

section

variable {T : Nat} {c : Clk} {timeout : Int} (hT : ∀ t, T ≤ t → timeout ≤ W.clk c t)

include hT

/-- State at the head of the loop. -/
def PollBound (T : Nat) (timeout : Int) (now : Int) (j : Nat) (h : List (Ev V)) : Prop :=
  (AtMost T 1 h ∧ (j < T → AtMost T 0 h)) ∨ (AtMost T 4 h ∧ timeout ≤ now)

theorem pollTimedStep_deadline {now : Int} (hh : PollBound T timeout now i h) :
    Good W (AtMost T 4) (pollTimedStep c old timeout now) i h
      (Post (fun now j h => PollBound T timeout now j h) (fun _ h _ => AtMost T 4 h)) := by
  have h4 : AtMost T 4 h := by
    rcases hh with h | h
    · exact h.1.mono (by omega)
    · exact h.1
  simp only [pollTimedStep, bind_def, pure_def]
  split
  · exact good_ret h4 h4
  · rename_i hnow
    rcases hh with ⟨hh, hh0⟩ | ⟨-, hh⟩
    · apply good_bind
      apply good_pause h4
      intro t ht
      have h1 : AtMost T 2 (h ++ [Ev.pause t]) := atMost_snoc hh (fun _ _ h => nomatch h) (.inl (by omega))
      refine ⟨h1.mono (by omega), ?_⟩
      apply good_bind
      apply good_now (h1.mono (by omega))
      intro t2 ht2
      have h2 : AtMost T 3 (h ++ [Ev.pause t] ++ [Ev.now c t2]) :=
        atMost_snoc h1 (fun _ _ h => nomatch h) (.inl (by omega))
      refine ⟨h2.mono (by omega), ?_⟩
      apply good_bind
      apply good_load (h2.mono (by omega))
      intro t3 ht3
      have h3 : AtMost T 4 (h ++ [Ev.pause t] ++ [Ev.now c t2] ++ [Ev.load t3 (W.val t3)]) :=
        atMost_snoc h2 (fun _ _ h => nomatch h) (.inl (by omega))
      refine ⟨h3, ?_⟩
      split
      · exact good_ret h3 h3
      · refine good_ret h3 ?_
        rcases Nat.lt_or_ge t2 T with hlt | hge
        · left
          have h5 := atMost_snoc (k' := 0) (e := Ev.now c t2) (atMost_snoc (e := Ev.pause t) (k' := 0) (hh0 (by omega))
            (fun _ _ h => nomatch h) (.inr ⟨by show t < T; omega, Nat.le_refl _⟩))
            (fun _ _ h => nomatch h) (.inr ⟨by show t2 < T; omega, Nat.le_refl _⟩)
          exact ⟨atMost_snoc h5 (fun _ _ h => nomatch h) (.inl (by omega)),
            fun h6 => atMost_snoc h5 (fun _ _ h => nomatch h) (.inr ⟨h6, Nat.le_refl _⟩)⟩
        · exact .inr ⟨h3, hT _ hge⟩
    · omega

theorem pollTimedFrom_deadline (n : Nat) : ∀ now i h, PollBound T timeout now i h →
    Good W (AtMost T 4) (pollTimedFrom c old timeout n now) i h (fun _ h _ => AtMost T 4 h) := by
  induction n with
  | zero =>
    intro now i h hh
    simp only [pollTimedFrom]
    apply good_loop (fun now j h => PollBound T timeout now j h) hh
    intro _ k h' hk
    exact pollTimedStep_deadline hT hk
  | succ n ih =>
    intro now i h hh
    simp only [pollTimedFrom, bind_def, pure_def]
    apply good_bind
    refine (pollTimedStep_deadline hT hh).mono fun j h'' r hj hr => ?_
    cases r with
    | inl _ => exact ih _ _ _ hr
    | inr v => exact good_ret hr hr

theorem ipcUntil_deadline {spins : Nat} {now : Int} (hh : AtMost T 1 h)
    (hn : timeout ≤ now ∨ AtMost T 0 h) :
    Good W (AtMost T 4) (ipcUntil spins c old timeout now) i h (fun _ h _ => AtMost T 4 h) := by
  simp only [ipcUntil, bind_def, pure_def]
  apply good_bind
  apply good_load (hh.mono (by omega))
  intro t ht
  have h1 : AtMost T 2 (h ++ [Ev.load t (W.val t)]) := atMost_snoc hh (fun _ _ h => nomatch h) (.inl (by omega))
  have h2 := h1.mono (show 2 ≤ 4 by omega)
  refine ⟨h2, ?_⟩
  split
  · apply pollTimedFrom_deadline hT
    rcases hn with hn | hn
    · exact .inr ⟨h2, hn⟩
    · exact .inl ⟨atMost_snoc hn (fun _ _ h => nomatch h) (.inl (by omega)),
        fun h6 => atMost_snoc hn (fun _ _ h => nomatch h) (.inr ⟨h6, Nat.le_refl _⟩)⟩
  · exact good_ret h2 h2

end

/-- After the first clock reading. -/
theorem atMost_now {T t : Nat} {c : Clk} : AtMost T 1 ([Ev.now c t] : List (Ev V)) ∧
    (t < T → AtMost T 0 ([Ev.now c t] : List (Ev V))) := by
  have h0 : AtMost T 0 ([] : List (Ev V)) := ⟨Nat.le_refl _, fun _ _ h => nomatch h⟩
  exact ⟨atMost_snoc h0 (fun _ _ h => nomatch h) (.inl (by omega)),
    fun h => atMost_snoc h0 (fun _ _ h => nomatch h) (.inr ⟨h, Nat.le_refl _⟩)⟩

/-! ### Native and lock pool waits: limits, and steps after the deadline -/

/-- Every relative limit passed to the kernel is positive and at most `max`. -/
def LimitsOk (max : Int) (tr : List (Ev V)) : Prop := ∀ n t, Ev.block (.rel n) t ∈ tr → 0 < n ∧ n ≤ max

theorem limitsOk_snoc {max : Int} {h : List (Ev V)} {e : Ev V} (hh : LimitsOk max h)
    (he : ∀ n t, e = .block (.rel n) t → 0 < n ∧ n ≤ max) : LimitsOk max (h ++ [e]) := by
  intro n t hm
  rcases List.mem_append.1 hm with hm | hm
  · exact hh n t hm
  · exact he n t (List.mem_singleton.1 hm).symm

theorem relUntil_limits {c : Clk} {u : Conv} {max timeout now : Int} (hmax : 0 < max) (hh : LimitsOk max h) :
    Good W (LimitsOk max) (relUntil c u (clamp max) old timeout now) i h (fun _ h _ => LimitsOk max h) := by
  simp only [relUntil, bind_def, pure_def]
  apply good_bind
  apply good_load hh
  intro t ht
  have h1 : LimitsOk max (h ++ [Ev.load t (W.val t)]) := limitsOk_snoc hh (fun _ _ h => nomatch h)
  refine ⟨h1, ?_⟩
  apply good_loop (fun _ _ h => LimitsOk max h) h1
  rintro ⟨v, now⟩ k h' hh
  simp only
  split
  · split
    · exact good_ret hh hh
    · rename_i hc
      have hcl := C30_clamp max (u.ceil (timeout - now)) hmax (by omega)
      have h2 : LimitsOk max (h' ++ [Ev.block (.rel (clamp max (u.ceil (timeout - now)))) k]) := by
        refine limitsOk_snoc hh (fun n t he => ?_)
        cases he
        exact ⟨hcl.1, hcl.2.2.1⟩
      apply good_bind
      apply good_kwait hh h2
      intro t r ht _
      apply good_bind
      apply good_now h2
      intro t2 ht2
      have h3 := limitsOk_snoc (e := Ev.now c t2) h2 (fun _ _ h => nomatch h)
      refine ⟨h3, ?_⟩
      apply good_bind
      apply good_load h3
      intro t4 ht4
      have h4 := limitsOk_snoc (e := Ev.load t4 (W.val t4)) h3 (fun _ _ h => nomatch h)
      exact ⟨h4, good_ret h4 h4⟩
  · exact good_ret hh hh

theorem steps_snoc {T k k' : Nat} {h : List (Ev V)} {e : Ev V} (hh : stepsAfter T h ≤ k)
    (hk : k + 1 ≤ k' ∨ (e.time < T ∧ k ≤ k')) : stepsAfter T (h ++ [e]) ≤ k' := by
  rw [stepsAfter_snoc]
  rcases hk with hk | hk
  · split <;> omega
  · rw [if_neg (by omega)]; omega

/-- Invariant of the loop of `relUntil` when the deadline passed at `T`. -/
def RelBound (T : Nat) (timeout : Int) (now : Int) (j : Nat) (h : List (Ev V)) : Prop :=
  (stepsAfter T h ≤ 1 ∧ (j < T → stepsAfter T h ≤ 0)) ∨ (stepsAfter T h ≤ 4 ∧ timeout ≤ now)

theorem relUntil_deadline {T : Nat} {c : Clk} {u : Conv} {lim : Int → Int} {timeout now : Int}
    (hT : ∀ t, T ≤ t → timeout ≤ W.clk c t) (hu : u.std = true ∨ u.den = 1)
    (hh : stepsAfter T h ≤ 1) (hn : timeout ≤ now ∨ stepsAfter T h ≤ 0) :
    Good W (fun h => stepsAfter T h ≤ 4) (relUntil c u lim old timeout now) i h (fun _ h _ => stepsAfter T h ≤ 4) := by
  simp only [relUntil, bind_def, pure_def]
  apply good_bind
  apply good_load (by omega)
  intro t ht
  have h1 : stepsAfter T (h ++ [Ev.load t (W.val t)]) ≤ 2 := steps_snoc hh (.inl (by omega))
  refine ⟨by omega, ?_⟩
  apply good_loop (fun (s : V × Int) j h => RelBound T timeout s.2 j h)
  · rcases hn with hn | hn
    · exact .inr ⟨by omega, hn⟩
    · exact .inl ⟨steps_snoc hn (.inl (by omega)), fun h6 => steps_snoc hn (.inr ⟨h6, Nat.le_refl _⟩)⟩
  rintro ⟨v, now⟩ k h' hh
  have h4 : stepsAfter T h' ≤ 4 := by
    rcases hh with h | h
    · omega
    · exact h.1
  simp only at hh ⊢
  split
  · split
    · exact good_ret h4 h4
    · rename_i hc
      rcases hh with ⟨hh, hh0⟩ | ⟨-, hh⟩
      · apply good_bind
        have h2 := steps_snoc (k' := 2) (e := Ev.block (.rel (lim (u.ceil (timeout - now)))) k) hh (.inl (by omega))
        apply good_kwait h4 (by omega)
        intro t r ht _
        apply good_bind
        apply good_now (by omega)
        intro t2 ht2
        have h3 := steps_snoc (k' := 3) (e := Ev.now c t2) h2 (.inl (by omega))
        refine ⟨by omega, ?_⟩
        apply good_bind
        apply good_load (by omega)
        intro t3 ht3
        have h5 := steps_snoc (k' := 4) (e := Ev.load t3 (W.val t3)) h3 (.inl (by omega))
        refine ⟨h5, good_ret h5 ?_⟩
        rcases Nat.lt_or_ge t2 T with hlt | hge
        · left
          have h6 := steps_snoc (k' := 0) (e := Ev.now c t2)
            (steps_snoc (e := Ev.block (.rel (lim (u.ceil (timeout - now)))) k) (k' := 0) (hh0 (by omega))
            (.inr ⟨by show k < T; omega, Nat.le_refl _⟩)) (.inr ⟨by show t2 < T; omega, Nat.le_refl _⟩)
          exact ⟨steps_snoc h6 (.inl (by omega)), fun h7 => steps_snoc h6 (.inr ⟨h7, Nat.le_refl _⟩)⟩
        · exact .inr ⟨h5, hT _ hge⟩
      · have := C30_timeout_recognised u.std u.num u.den (timeout - now) u.num_pos u.den_pos (by omega) hu
        simp only [Conv.ceil] at hc
        omega
  · exact good_ret h4 h4

/-- After the value has changed for good the native untimed wait does at most one more blocking call. -/
theorem nativeWait_steps {T : Nat} (hT : ∀ t, T ≤ t → W.val t ≠ old) (hh : stepsAfter T h ≤ 0) :
    Good W (fun h => stepsAfter T h ≤ 2) (nativeWait old) i h (fun _ h _ => stepsAfter T h ≤ 2) := by
  simp only [nativeWait, bind_def, pure_def]
  apply good_bind
  apply good_load (by omega)
  intro t ht
  have h1 := steps_snoc (k' := 1) (e := Ev.load t (W.val t)) hh (.inl (by omega))
  refine ⟨by omega, ?_⟩
  apply good_loop (fun v j h => stepsAfter T h ≤ 2 ∧ (v = old → stepsAfter T h ≤ 0))
  · exact ⟨by omega, fun he => steps_snoc hh (.inr ⟨before hT t he, Nat.le_refl _⟩)⟩
  · rintro v k h' ⟨h2, h0⟩
    split
    · rename_i he
      have h0 := h0 he
      have h3 := steps_snoc (k' := 1) (e := Ev.block .none k) h0 (.inl (by omega))
      apply good_bind
      apply good_kwait (by omega) (by omega)
      intro t r ht _
      apply good_bind
      apply good_load (by omega)
      intro t2 ht2
      have h4 := steps_snoc (k' := 2) (e := Ev.load t2 (W.val t2)) h3 (.inl (by omega))
      refine ⟨h4, good_ret h4 ⟨h4, fun he => ?_⟩⟩
      have hb := before hT t2 he
      exact steps_snoc (steps_snoc (k' := 0) h0 (.inr ⟨by show k < T; omega, Nat.le_refl _⟩)) (.inr ⟨hb, Nat.le_refl _⟩)
    · exact good_ret h2 h2

end Verif.Wait
