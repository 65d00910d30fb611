import Verif.Wait.Lemmas
import Verif.Chrono.Props

/-! Correctness of the results of the waiting operations, in the logic of `Lemmas.lean`. -/

set_option linter.unusedSectionVars false

namespace Verif.Wait

open Verif.Chrono

variable {V : Type} [DecidableEq V] {W : World V} {i i0 : Nat} {h : List (Ev V)} {old : V}

/-- No condition on incomplete runs. -/
abbrev Any : List (Ev V) → Prop := fun _ => True

theorem TimedOk.value {passed : Nat → Prop} {i j t : Nat} {v : V} (h1 : i ≤ t) (h2 : t ≤ j) (h3 : W.val t = v)
    (h4 : v ≠ old) : TimedOk W old passed i j v false :=
  ⟨⟨t, h1, h2, h3⟩, fun _ => h4, fun h => nomatch h⟩

theorem TimedOk.timeout {passed : Nat → Prop} {i j t t' : Nat} {v : V} (h1 : i ≤ t) (h2 : t ≤ t') (h3 : t' ≤ j)
    (h4 : W.val t' = v) (h5 : v = old) (h6 : passed t) : TimedOk W old passed i j v true :=
  ⟨⟨t', by omega, h3, h4⟩, (fun h => nomatch h), fun _ => ⟨h5, t, t', h1, h2, h3, h6, h5 ▸ h4⟩⟩

/-- Both at once: the value was read at `t'`, after the deadline had passed at `t`. -/
theorem TimedOk.either {passed : Nat → Prop} {i j t t' : Nat} {v : V} (h1 : i ≤ t) (h2 : t ≤ t') (h3 : t' ≤ j)
    (h4 : W.val t' = v) (h6 : passed t) : TimedOk W old passed i j v (decide (v = old)) := by
  by_cases h5 : v = old
  · rw [decide_eq_true h5]; exact .timeout h1 h2 h3 h4 h5 h6
  · rw [decide_eq_false h5]; exact .value (by omega) h3 h4 h5

theorem TimedOk.weaken {passed passed' : Nat → Prop} {i i' j : Nat} {v : V} {b : Bool} (hi : i' ≤ i)
    (hp : ∀ t, i ≤ t → t ≤ j → passed t → passed' t) (h : TimedOk W old passed i j v b) :
    TimedOk W old passed' i' j v b := by
  obtain ⟨⟨t, h1, h2, h3⟩, h4, h5⟩ := h
  refine ⟨⟨t, by omega, h2, h3⟩, h4, fun hb => ?_⟩
  obtain ⟨e, t, t', k1, k2, k3, k4, k5⟩ := h5 hb
  exact ⟨e, t, t', by omega, k2, k3, hp t k1 (by omega) k4, k5⟩

theorem TimedOk.elapsed {elapsed : Nat → Nat → Prop} {i s j : Nat} {v : V} {b : Bool} (hi : i ≤ s)
    (h : TimedOk W old (elapsed s) s j v b) : TimedForOk W old elapsed i j v b := by
  obtain ⟨⟨t, h1, h2, h3⟩, h4, h5⟩ := h
  refine ⟨⟨t, by omega, h2, h3⟩, h4, fun hb => ?_⟩
  obtain ⟨e, t, t', k1, k2, k3, k4, k5⟩ := h5 hb
  exact ⟨e, s, t, t', hi, k1, k2, k3, k4, k5⟩

theorem nativeWait_good : Good W Any (nativeWait old) i h (fun j _ v => WaitOk W old i j v) := by
  simp only [nativeWait, bind_def, pure_def]
  apply good_bind
  apply good_load trivial
  intro t ht
  refine ⟨trivial, ?_⟩
  apply good_loop (fun v j _ => i ≤ j ∧ Seen W i j v)
  · exact ⟨ht, t, ht, Nat.le_refl _, rfl⟩
  · rintro v k h' ⟨hk, hv⟩
    split
    · apply good_bind
      apply good_kwait trivial trivial
      intro t r ht' _
      apply good_bind
      apply good_load trivial
      intro t2 ht2
      exact ⟨trivial, good_ret trivial ⟨by omega, t2, by omega, Nat.le_refl _, rfl⟩⟩
    · rename_i hne
      exact good_ret trivial ⟨hne, hv⟩

theorem relUntil_good {c : Clk} {u : Conv} {lim : Int → Int} {timeout now : Int} (t0 : Nat) (h0 : i0 ≤ t0)
    (h1 : t0 ≤ i) (hn : now = W.clk c t0) :
    Good W Any (relUntil c u lim old timeout now) i h
      (fun j _ r => TimedOk W old (fun t => timeout ≤ W.clk c t) i0 j r.1 r.2) := by
  simp only [relUntil, bind_def, pure_def]
  apply good_bind
  apply good_load trivial
  intro t ht
  refine ⟨trivial, ?_⟩
  apply good_loop (fun (s : V × Int) j _ => ∃ t t', i0 ≤ t ∧ t ≤ t' ∧ t' ≤ j ∧ s.2 = W.clk c t ∧ W.val t' = s.1)
  · exact ⟨t0, t, h0, by omega, Nat.le_refl _, hn, rfl⟩
  · rintro ⟨v, now⟩ k h' ⟨t1, t2, k1, k2, k3, k4, k5⟩
    simp only at k4 k5 ⊢
    split
    · rename_i hv
      split
      · rename_i hc
        have := C30_no_early_timeout u.std u.num u.den _ u.num_pos u.den_pos hc
        exact good_ret trivial (.timeout k1 k2 k3 k5 hv (by omega))
      · apply good_bind
        apply good_kwait trivial trivial
        intro t3 r ht3 _
        apply good_bind
        apply good_now trivial
        intro t4 ht4
        refine ⟨trivial, ?_⟩
        apply good_bind
        apply good_load trivial
        intro t5 ht5
        exact ⟨trivial, good_ret trivial ⟨t4, t5, by omega, by omega, Nat.le_refl _, rfl, rfl⟩⟩
    · rename_i hne
      exact good_ret trivial (.value (by omega) k3 k5 hne)

theorem relWaitUntil_good {u : Conv} {lim : Int → Int} {timeout : Int} :
    Good W Any (relWaitUntil u lim old timeout) i h
      (fun j _ r => TimedOk W old (fun t => timeout ≤ W.clk .user t) i j r.1 r.2) := by
  simp only [relWaitUntil, bind_def]
  apply good_bind
  apply good_now trivial
  intro t ht
  exact ⟨trivial, relUntil_good t ht (Nat.le_refl _) rfl⟩

theorem relWaitFor_good {u : Conv} {lim : Int → Int} {timeout : Int} :
    Good W Any (relWaitFor u lim old timeout) i h
      (fun j _ r => TimedForOk W old (fun s t => timeout ≤ W.clk .steady t - W.clk .steady s) i j r.1 r.2) := by
  simp only [relWaitFor, bind_def]
  apply good_bind
  apply good_now trivial
  intro t ht
  refine ⟨trivial, (relUntil_good t (Nat.le_refl _) (Nat.le_refl _) rfl).mono fun j h' r _ hr => ?_⟩
  exact TimedOk.elapsed ht (hr.weaken (Nat.le_refl _) (fun s _ _ hs => by omega))

/-- The loop with an absolute deadline, for any condition that holds of correct results. -/
theorem absLoop_good {clockId : Nat} {ts : Timespec} {nosys : Option (Prog V (Timed V))} {v : V} {t0 : Nat}
    (Q : Nat → Timed V → Prop)
    (h0 : i0 ≤ t0) (h1 : t0 ≤ i) (hv : W.val t0 = v)
    (hq : ∀ j v b, TimedOk W old (fun t => ts.ns ≤ (W.posix clockId t).ns) i0 j v b → Q j (v, b))
    (hn : ∀ p, nosys = some p → ∀ k h', i ≤ k → Good W Any p k h' (fun j _ r => Q j r)) :
    Good W Any (absLoop clockId ts nosys old v) i h (fun j _ r => Q j r) := by
  simp only [absLoop, bind_def, pure_def]
  apply good_loop (fun v j _ => i ≤ j ∧ ∃ t, i0 ≤ t ∧ t ≤ j ∧ W.val t = v)
  · exact ⟨Nat.le_refl _, t0, h0, h1, hv⟩
  · rintro v k h' ⟨hk, t, k1, k2, k3⟩
    split
    · apply good_bind
      apply good_kwait trivial trivial
      intro t1 r ht1 hto
      have reload : ∀ h'', Good W Any (Prog.load.bind fun v => (Prog.ret (.inl v) : Prog V (V ⊕ Timed V))) t1 h''
          (Post (fun v j _ => i ≤ j ∧ ∃ t, i0 ≤ t ∧ t ≤ j ∧ W.val t = v) (fun j _ r => Q j r)) := by
        intro h''
        apply good_bind
        apply good_load trivial
        intro t2 ht2
        exact ⟨trivial, good_ret trivial ⟨by omega, t2, by omega, Nat.le_refl _, rfl⟩⟩
      cases r with
      | timedOut =>
        apply good_bind
        apply good_load trivial
        intro t2 ht2
        refine ⟨trivial, good_ret trivial (hq _ _ _ ?_)⟩
        exact .either (t := t1) (t' := t2) (by omega) (by omega) (Nat.le_refl _) rfl (hto rfl _ _ rfl)
      | noSys =>
        cases nosys with
        | none => exact reload _
        | some p =>
          apply good_bind
          exact (hn p rfl _ _ (by omega)).mono fun j h' r _ hr => good_ret trivial hr
      | ok => exact reload _
      | intr => exact reload _
      | other => exact reload _
    · rename_i hne
      exact good_ret trivial (hq _ _ _ (.value k1 k2 k3 hne))

/-- A deadline with negative seconds is before the epoch of the clock, so it has passed. -/
theorem negative_passed {ts : Timespec} (hn : ts.Normal) (hs : ¬ 0 ≤ ts.sec) (c t : Nat) :
    ts.ns ≤ (W.posix c t).ns := by
  obtain ⟨⟨h1, h2⟩, h3⟩ := W.posix_ok c t
  obtain ⟨h4, h5⟩ := hn
  simp only [Timespec.ns]; omega

theorem futexAbs_good {clockId : Nat} {ts : Timespec} {u : Conv} {lim : Int → Int} {timeout : Int}
    (hts : ts.Normal) (hclk : ∀ t, timeout ≤ W.clk .user t ↔ ts.ns ≤ (W.posix clockId t).ns) :
    Good W Any (futexAbs clockId ts u lim old timeout) i h
      (fun j _ r => TimedOk W old (fun t => timeout ≤ W.clk .user t) i j r.1 r.2) := by
  simp only [futexAbs, bind_def, pure_def]
  apply good_bind
  apply good_load trivial
  intro t ht
  refine ⟨trivial, ?_⟩
  split
  · apply absLoop_good (t0 := t) (i0 := i)
      (fun j (r : Timed V) => TimedOk W old (fun t => timeout ≤ W.clk .user t) i j r.1 r.2) ht (Nat.le_refl _) rfl
    · intro j v b hb
      exact hb.weaken (Nat.le_refl _) (fun t _ _ => (hclk t).2)
    · intro p hp k h' hk
      cases hp
      apply good_bind
      apply good_now trivial
      intro t2 ht2
      exact ⟨trivial, relUntil_good t2 (by omega) (Nat.le_refl _) rfl⟩
  · rename_i hs
    exact good_ret trivial (.either ht (Nat.le_refl _) (Nat.le_refl _) rfl ((hclk t).2 (negative_passed hts hs _ _)))

theorem freebsdAbs_good {clockId : Nat} {ts : Timespec} (hts : ts.Normal) :
    Good W Any (freebsdAbs clockId ts old) i h
      (fun j _ r => TimedOk W old (fun t => ts.ns ≤ (W.posix clockId t).ns) i j r.1 r.2) := by
  simp only [freebsdAbs, bind_def, pure_def]
  apply good_bind
  apply good_load trivial
  intro t ht
  refine ⟨trivial, ?_⟩
  split
  · apply absLoop_good (t0 := t) (i0 := i) _ ht (Nat.le_refl _) rfl
    · intro j v b hb; exact hb
    · intro p hp; cases hp
  · rename_i hs
    exact good_ret trivial (.either ht (Nat.le_refl _) (Nat.le_refl _) rfl (negative_passed hts hs _ _))

theorem absWaitFor_good {nosys : Bool} {w : Nat} {ut u : Conv} {mult : Int} {lim : Int → Int} {c : Int}
    (hw : 0 < w) (hfit : ∀ t, Fits w (W.posix 1 t).sec) :
    Good W Any (absWaitFor nosys w ut mult u lim old c) i h
      (fun j _ r => TimedForOk W old (fun s t => c * mult ≤ W.clk .steady t - W.clk .steady s ∨
        c * ut.num ≤ ((W.posix 1 t).ns - (W.posix 1 s).ns) * ut.den) i j r.1 r.2) := by
  have fb : ∀ k h', i ≤ k → Good W Any (relWaitFor u lim old (c * mult)) k h'
      (fun j _ r => TimedForOk W old (fun s t => c * mult ≤ W.clk .steady t - W.clk .steady s ∨
        c * ut.num ≤ ((W.posix 1 t).ns - (W.posix 1 s).ns) * ut.den) i j r.1 r.2) := by
    intro k h' hk
    refine relWaitFor_good.mono fun j h' r _ hr => ?_
    obtain ⟨⟨t, h1, h2, h3⟩, h4, h5⟩ := hr
    refine ⟨⟨t, by omega, h2, h3⟩, h4, fun hb => ?_⟩
    obtain ⟨e, s, t, t', k0, k1, k2, k3, k4, k5⟩ := h5 hb
    exact ⟨e, s, t, t', by omega, k1, k2, k3, .inl k4, k5⟩
  simp only [absWaitFor, bind_def]
  split
  · rename_i hc
    apply good_bind
    apply good_gettime trivial
    intro s hs
    refine ⟨trivial, ?_, fb _ _ hs⟩
    simp only
    have hn : 0 ≤ ut.ceil c := by
      have h1 := C30_ceil_not_shorter ut.std ut.num ut.den c ut.den_pos
      have h2 : 0 ≤ c * ut.num := Int.mul_nonneg hc (by have := ut.num_pos; omega)
      rcases Int.lt_or_le (ut.ceil c) 0 with h | h
      · have := Int.mul_neg_of_neg_of_pos h ut.den_pos
        simp only [Conv.ceil] at this; omega
      · exact h
    obtain ⟨a1, -⟩ := C30_abs_timespec w hw (W.posix 1 s) _ hn (W.posix_ok 1 s).1 (hfit s)
    split
    · rename_i ts hts
      obtain ⟨-, -, a2⟩ := a1 _ hts
      apply good_bind
      apply good_load trivial
      intro t ht
      refine ⟨trivial, ?_⟩
      apply absLoop_good (t0 := t) (i0 := s)
        (fun j (r : Timed V) => TimedForOk W old (fun s t => c * mult ≤ W.clk .steady t - W.clk .steady s ∨
        c * ut.num ≤ ((W.posix 1 t).ns - (W.posix 1 s).ns) * ut.den) i j r.1 r.2) ht (Nat.le_refl _) rfl
      · intro j v b hb
        apply TimedOk.elapsed hs
        refine hb.weaken (Nat.le_refl _) (fun t _ _ hp => .inr ?_)
        have h1 := C30_ceil_not_shorter ut.std ut.num ut.den c ut.den_pos
        refine Int.le_trans h1 (Int.mul_le_mul_of_nonneg_right ?_ (by have := ut.den_pos; omega))
        have h2 : Chrono.ceil ut.std ut.num ut.den c = ut.ceil c := rfl
        omega
      · intro p hp k h' hk
        cases nosys with
        | false => cases hp
        | true => cases hp; exact fb _ _ (by omega)
    · exact fb _ _ hs
  · exact fb _ _ (Nat.le_refl _)

/-! ### Lock pool -/

theorem poolWait_le {pool : Pool} : Good W Any (pool.wait : Prog V Unit) i h (fun j _ _ => i ≤ j) :=
  (good_any _).mono fun _ _ _ hj _ => hj

/-- `wait_until` of the lock pool reports timeout only if the deadline has passed. -/
theorem poolWaitUntil_good {pool : Pool} {c : Nat} {ts : Timespec} (hts : ts.Normal) :
    Good W Any (pool.waitUntil c ts : Prog V Bool) i h
      (fun j _ b => b = true → ∃ t, i ≤ t ∧ t ≤ j ∧ ts.ns ≤ (W.posix c t).ns) := by
  cases pool with
  | futex native =>
    simp only [Pool.waitUntil, bind_def, pure_def]
    split
    · apply good_loop (fun _ j _ => i ≤ j) (Nat.le_refl _)
      intro _ k h' hk
      apply good_bind
      apply good_kwait trivial trivial
      intro t r ht hto
      split
      · apply good_bind
        apply good_env trivial
        intro t2 b ht2
        refine ⟨trivial, ?_⟩
        cases b
        · exact good_ret trivial (by show i ≤ t2; omega)
        · exact good_ret trivial (fun h => nomatch h)
      · refine good_ret trivial (fun hb => ?_)
        exact ⟨t, by omega, Nat.le_refl _, hto (of_decide_eq_true hb) _ _ rfl⟩
    · apply good_bind
      apply good_gettime trivial
      intro t ht
      refine ⟨trivial, ?_, good_ret trivial (fun h => nomatch h)⟩
      apply good_loop (fun (now : Timespec) j _ => ∃ t, i ≤ t ∧ t ≤ j ∧ now = W.posix c t)
      · exact ⟨t, ht, Nat.le_refl _, rfl⟩
      · rintro now k h' ⟨t, k1, k2, rfl⟩
        split
        · rename_i hr
          refine good_ret trivial (fun _ => ⟨t, k1, k2, ?_⟩)
          have := (C30_reached (W.posix c t) ts (W.posix_ok c t).1 hts).2
          omega
        · apply good_bind
          apply good_kwait trivial trivial
          intro t2 r ht2 _
          apply good_bind
          apply good_gettime trivial
          intro t3 ht3
          refine ⟨trivial, ?_, ?_⟩
          · apply good_bind
            apply good_env trivial
            intro t4 b ht4
            refine ⟨trivial, ?_⟩
            cases b
            · exact good_ret trivial ⟨t3, by omega, by omega, rfl⟩
            · exact good_ret trivial (fun h => nomatch h)
          · apply good_bind
            apply good_env trivial
            intro t4 b ht4
            refine ⟨trivial, ?_⟩
            cases b
            · exact good_ret trivial ⟨t, by omega, by omega, rfl⟩
            · exact good_ret trivial (fun h => nomatch h)
  | pthread native =>
    simp only [Pool.waitUntil, bind_def, pure_def]
    split
    · apply good_bind
      apply good_kwait trivial trivial
      intro t r ht hto
      refine good_ret trivial (fun hb => ?_)
      exact ⟨t, by omega, Nat.le_refl _, hto (of_decide_eq_true hb) _ _ rfl⟩
    · apply good_loop (fun (now : Timespec) j _ => i ≤ j ∧ now.Normal ∧
        (ts.ns ≤ now.ns → ∃ t, i ≤ t ∧ t ≤ j ∧ ts.ns ≤ (W.posix c t).ns))
      · refine ⟨Nat.le_refl _, ⟨by decide, by decide⟩, fun hz => ⟨i, Nat.le_refl _, Nat.le_refl _, ?_⟩⟩
        obtain ⟨⟨h1, h2⟩, h3⟩ := W.posix_ok c i
        simp only [Timespec.ns] at hz ⊢; omega
      · rintro now k h' ⟨hk, hnn, hnow⟩
        apply good_bind
        apply good_gettime trivial
        intro t ht
        have step : ∀ (now : Timespec) h', now.Normal →
            (ts.ns ≤ now.ns → ∃ t', i ≤ t' ∧ t' ≤ t ∧ ts.ns ≤ (W.posix c t').ns) →
            Good W Any (if reached now ts = true then (Prog.ret (.inr true) : Prog V (Timespec ⊕ Bool)) else
              ((Pool.pthread native).waitFor (remaining ts now)).bind fun timedOut =>
                if timedOut = true then .ret (.inl now) else .ret (.inr false)) t h'
              (Post (fun (now : Timespec) j _ => i ≤ j ∧ now.Normal ∧
                  (ts.ns ≤ now.ns → ∃ t, i ≤ t ∧ t ≤ j ∧ ts.ns ≤ (W.posix c t).ns))
                (fun j _ b => b = true → ∃ t, i ≤ t ∧ t ≤ j ∧ ts.ns ≤ (W.posix c t).ns)) := by
          intro now h' hnn hp
          split
          · rename_i hr
            exact good_ret trivial (fun _ => hp ((C30_reached now ts hnn hts).1.1 hr))
          · apply good_bind
            refine (good_any _).mono fun t2 h'' b ht2 _ => ?_
            cases b
            · exact good_ret trivial (fun h => nomatch h)
            · refine good_ret trivial ⟨by omega, hnn, fun hq => ?_⟩
              obtain ⟨t', a, b, c⟩ := hp hq
              exact ⟨t', a, by omega, c⟩
        refine ⟨trivial, ?_, ?_⟩
        · exact step _ _ (W.posix_ok c t).1 (fun hp => ⟨t, by omega, Nat.le_refl _, hp⟩)
        · refine step _ _ hnn (fun hp => ?_)
          obtain ⟨t', a, b, c⟩ := hnow hp
          exact ⟨t', a, by omega, c⟩
  | windows =>
    exact good_ret trivial (fun h => nomatch h)
  | null =>
    simp only [Pool.waitUntil, bind_def, pure_def]
    apply good_bind
    apply good_pause trivial
    intro t ht
    refine ⟨trivial, ?_⟩
    apply good_bind
    apply good_gettime trivial
    intro t2 ht2
    refine ⟨trivial, good_ret trivial (fun hr => ?_), good_ret trivial (fun h => nomatch h)⟩
    exact ⟨t2, by omega, Nat.le_refl _, (C30_reached (W.posix c t2) ts (W.posix_ok c t2).1 hts).1.1 hr⟩

theorem emulatedWait_good {pool : Pool} :
    Good W Any (emulatedWait pool old) i h (fun j _ v => WaitOk W old i j v) := by
  simp only [emulatedWait, bind_def, pure_def]
  apply good_bind
  apply good_load trivial
  intro t ht
  refine ⟨trivial, ?_⟩
  apply good_loop (fun v j _ => i ≤ j ∧ Seen W i j v)
  · exact ⟨ht, t, ht, Nat.le_refl _, rfl⟩
  · rintro v k h' ⟨hk, hv⟩
    split
    · apply good_bind
      refine poolWait_le.mono fun t h'' _ ht' _ => ?_
      apply good_bind
      apply good_load trivial
      intro t2 ht2
      exact ⟨trivial, good_ret trivial ⟨by omega, t2, by omega, Nat.le_refl _, rfl⟩⟩
    · rename_i hne
      exact good_ret trivial ⟨hne, hv⟩

theorem genericWait_good {pool : Pool} :
    Good W Any (genericWait pool old) i h (fun j _ v => WaitOk W old i j v) := by
  simp only [genericWait, bind_def, pure_def]
  apply good_bind
  apply good_load trivial
  intro t ht
  refine ⟨trivial, ?_⟩
  split
  · refine emulatedWait_good.mono fun j h' v _ hv => ?_
    obtain ⟨h1, t', h2, h3, h4⟩ := hv
    exact ⟨h1, t', by omega, h3, h4⟩
  · rename_i hne
    exact good_ret trivial ⟨hne, t, ht, Nat.le_refl _, rfl⟩

theorem poolRelUntil_good {pool : Pool} {c : Clk} {u : Conv} {timeout now : Int} (t0 : Nat) (h0 : i0 ≤ t0)
    (h1 : t0 ≤ i) (hn : now = W.clk c t0) :
    Good W Any (poolRelUntil pool c u old timeout now) i h
      (fun j _ r => TimedOk W old (fun t => timeout ≤ W.clk c t) i0 j r.1 r.2) := by
  simp only [poolRelUntil, poolRelLoop, bind_def, pure_def]
  apply good_bind
  apply good_load trivial
  intro t ht
  refine ⟨trivial, ?_⟩
  apply good_loop (fun (s : V × Int) j _ => ∃ t t', i0 ≤ t ∧ t ≤ t' ∧ t' ≤ j ∧ s.2 = W.clk c t ∧ W.val t' = s.1)
  · exact ⟨t0, t, h0, by omega, Nat.le_refl _, hn, rfl⟩
  · rintro ⟨v, now⟩ k h' ⟨t1, t2, k1, k2, k3, k4, k5⟩
    simp only at k4 k5 ⊢
    split
    · rename_i hv
      split
      · rename_i hc
        have := C30_no_early_timeout u.std u.num u.den _ u.num_pos u.den_pos hc
        exact good_ret trivial (.timeout k1 k2 k3 k5 hv (by omega))
      · apply good_bind
        refine (good_any _).mono fun t3 h'' _ ht3 _ => ?_
        apply good_bind
        apply good_now trivial
        intro t4 ht4
        refine ⟨trivial, ?_⟩
        apply good_bind
        apply good_load trivial
        intro t5 ht5
        exact ⟨trivial, good_ret trivial ⟨t4, t5, by omega, by omega, Nat.le_refl _, rfl, rfl⟩⟩
    · rename_i hne
      exact good_ret trivial (.value (by omega) k3 k5 hne)

theorem poolAbsUntil_good {pool : Pool} {c : Nat} {ts : Timespec} (hts : ts.Normal) :
    Good W Any (poolAbsUntil pool c ts old) i h
      (fun j _ r => TimedOk W old (fun t => ts.ns ≤ (W.posix c t).ns) i j r.1 r.2) := by
  simp only [poolAbsUntil, poolAbsLoop, bind_def, pure_def]
  apply good_bind
  apply good_load trivial
  intro t ht
  refine ⟨trivial, ?_⟩
  split
  · rename_i hs
    apply good_loop (fun v j _ => ∃ t, i ≤ t ∧ t ≤ j ∧ W.val t = v)
    · exact ⟨t, ht, Nat.le_refl _, rfl⟩
    · rintro v k h' ⟨t, k1, k2, k3⟩
      split
      · apply good_bind
        refine (poolWaitUntil_good hts).mono fun t2 h'' b ht2 hb => ?_
        apply good_bind
        apply good_load trivial
        intro t3 ht3
        refine ⟨trivial, ?_⟩
        cases b with
        | true =>
          obtain ⟨t', a1, a2, a3⟩ := hb rfl
          exact good_ret trivial (.either (t := t') (by omega) (by omega) (Nat.le_refl _) rfl a3)
        | false => exact good_ret trivial ⟨t3, by omega, Nat.le_refl _, rfl⟩
      · rename_i hne
        exact good_ret trivial (.value k1 k2 k3 hne)
  · rename_i hs
    exact good_ret trivial (.either ht (Nat.le_refl _) (Nat.le_refl _) rfl (negative_passed hts hs _ _))

theorem poolWaitUntil'_good {pool : Pool} {u : Conv} {timeout : Int} :
    Good W Any (poolWaitUntil pool u old timeout) i h
      (fun j _ r => TimedOk W old (fun t => timeout ≤ W.clk .user t) i j r.1 r.2) := by
  simp only [poolWaitUntil, bind_def]
  apply good_bind
  apply good_now trivial
  intro t ht
  exact ⟨trivial, poolRelUntil_good t ht (Nat.le_refl _) rfl⟩

theorem poolWaitFor_good {pool : Pool} {u : Conv} {timeout : Int} :
    Good W Any (poolWaitFor pool u old timeout) i h
      (fun j _ r => TimedForOk W old (fun s t => timeout ≤ W.clk .steady t - W.clk .steady s) i j r.1 r.2) := by
  simp only [poolWaitFor, bind_def]
  apply good_bind
  apply good_now trivial
  intro t ht
  refine ⟨trivial, (poolRelUntil_good t (Nat.le_refl _) (Nat.le_refl _) rfl).mono fun j h' r _ hr => ?_⟩
  exact TimedOk.elapsed ht (hr.weaken (Nat.le_refl _) (fun s _ _ hs => by omega))

end Verif.Wait
