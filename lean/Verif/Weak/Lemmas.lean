import Verif.Weak.Model

set_option linter.unusedSectionVars false

namespace Verif.Weak

open Verif (upd upd_same upd_other)
open Verif.Order (MO)

section Views

variable {T X V : Type} [DecidableEq T] [DecidableEq X]

theorem View.Le.rfl {a : View T X} : a.Le a := ⟨fun _ => Nat.le_refl _, fun _ => Nat.le_refl _⟩
theorem View.Le.trans {a b c : View T X} (h : a.Le b) (k : b.Le c) : a.Le c :=
  ⟨fun x => Nat.le_trans (h.1 x) (k.1 x), fun x => Nat.le_trans (h.2 x) (k.2 x)⟩
theorem View.le_join_left (a b : View T X) : a.Le (a.join b) := ⟨fun _ => Nat.le_max_left _ _, fun _ => Nat.le_max_left _ _⟩
theorem View.le_join_right (a b : View T X) : b.Le (a.join b) := ⟨fun _ => Nat.le_max_right _ _, fun _ => Nat.le_max_right _ _⟩
theorem View.le_see (a : View T X) (x : X) (i : Nat) : a.Le (a.see x i) := by
  refine ⟨fun y => ?_, fun _ => Nat.le_refl _⟩
  by_cases h : y = x
  · subst h; simp only [View.see, upd_same]; exact Nat.le_max_left _ _
  · simp only [View.see, upd_other _ _ h]; exact Nat.le_refl _
theorem View.le_tick (a : View T X) (t : T) : a.Le (a.tick t) := by
  refine ⟨fun _ => Nat.le_refl _, fun y => ?_⟩
  by_cases h : y = t
  · subst h; simp only [View.tick, upd_same]; omega
  · simp only [View.tick, upd_other _ _ h]; exact Nat.le_refl _
theorem View.see_seen (a : View T X) (x : X) (i : Nat) : i ≤ (a.see x i).seen x := by
  simp only [View.see, upd_same]; exact Nat.le_max_right _ _

/-- Having seen just position `i` of `x`. -/
abbrev View.at (x : X) (i : Nat) : View T X := View.bot.see x i

theorem View.at_le {x : X} {i : Nat} {v : View T X} (h : i ≤ v.seen x) : (View.at x i).Le v := by
  refine ⟨fun y => ?_, fun _ => Nat.zero_le _⟩
  by_cases e : y = x
  · subst e; simp only [View.at, View.see, View.bot, upd_same]; omega
  · simp only [View.at, View.see, View.bot, upd_other _ _ e]; omega

theorem View.le_at {x : X} {i : Nat} {v : View T X} (h : (View.at x i).Le v) : i ≤ v.seen x :=
  Nat.le_trans (View.see_seen _ _ _) (h.1 x)

/-- Knowing just the first `n` actions of `t`. -/
def View.ofNo (t : T) (n : Nat) : View T X := ⟨fun _ => 0, upd (fun _ => 0) t n⟩

theorem View.ofNo_le {t : T} {n : Nat} {v : View T X} (h : n ≤ v.clk t) : (View.ofNo t n).Le v := by
  refine ⟨fun _ => Nat.zero_le _, fun u => ?_⟩
  by_cases e : u = t
  · subst e; simp only [View.ofNo, upd_same]; omega
  · simp only [View.ofNo, upd_other _ _ e]; omega

theorem View.le_ofNo {t : T} {n : Nat} {v : View T X} (h : (View.ofNo t n).Le v) : n ≤ v.clk t := by
  have := h.2 t; simpa only [View.ofNo, upd_same] using this

theorem seeRead_cur (M : Mach T X V) (t : T) (x : X) (o : MO) (i : Nat) (m : Msg T X V) (u : T) :
    (M.cur u).Le ((M.seeRead t x o i m).cur u) := by
  by_cases h : u = t
  · subst h
    simp only [Mach.seeRead, upd_same]
    exact ((View.le_see _ _ _).trans (View.le_join_left _ _)).trans (View.le_tick _ _)
  · simp only [Mach.seeRead, upd_other _ _ h]; exact .rfl

theorem seeRead_acquire (M : Mach T X V) (t : T) (x : X) {o : MO} (ho : o.isAcquire = true) (i : Nat) (m : Msg T X V) :
    m.view.Le ((M.seeRead t x o i m).cur t) := by
  simp only [Mach.seeRead, upd_same, ho, if_true]
  exact (View.le_join_right _ _).trans (View.le_tick _ _)

theorem seeRead_seen (M : Mach T X V) (t : T) (x : X) (o : MO) (i : Nat) (m : Msg T X V) :
    i ≤ ((M.seeRead t x o i m).cur t).seen x := by
  simp only [Mach.seeRead, upd_same]
  exact Nat.le_trans (View.see_seen _ _ _) ((View.le_join_left _ _).1 x)

theorem seeWrite_cur (M : Mach T X V) (t : T) (x : X) (i : Nat) (u : T) :
    (M.cur u).Le ((M.seeWrite t x i).cur u) := by
  by_cases h : u = t
  · subst h
    simp only [Mach.seeWrite, upd_same]
    exact (View.le_see _ _ _).trans (View.le_tick _ _)
  · simp only [Mach.seeWrite, upd_other _ _ h]; exact .rfl

theorem seeWrite_seen (M : Mach T X V) (t : T) (x : X) (i : Nat) : i ≤ ((M.seeWrite t x i).cur t).seen x := by
  simp only [Mach.seeWrite, upd_same]; exact View.see_seen _ _ _

/-- Threads forget nothing. -/
theorem MStep.mono {M M' : Mach T X V} {t : T} {a : Act X V} {i : Nat} (h : MStep M t a i M') (u : T) :
    (M.cur u).Le (M'.cur u) := by
  cases h with
  | tau =>
    by_cases e : u = t
    · subst e; simp only [upd_same]; exact View.le_tick _ _
    · simp only [upd_other _ _ e]; exact .rfl
  | read => exact seeRead_cur ..
  | write => exact seeWrite_cur ..
  | rmw => exact (seeRead_cur ..).trans (seeWrite_cur ..)
  | fence =>
    rename_i o
    by_cases e : u = t
    · subst e; simp only [upd_same]
      refine View.Le.trans ?_ (View.le_tick _ _)
      split
      · exact View.le_join_right _ _
      · exact .rfl
    · simp only [upd_other _ _ e]; exact .rfl
  | naRead => exact seeRead_cur ..
  | naWrite => exact seeWrite_cur ..

/-- Only writes to a location change it. -/
theorem MStep.frame {M M' : Mach T X V} {t : T} {a : Act X V} {i : Nat} (h : MStep M t a i M') {x : X}
    (hx : a.loc = some x → ¬ a.Writes) : M'.mem x = M.mem x := by
  cases h with
  | tau | read | fence | naRead => rfl
  | write | rmw | naWrite =>
    refine upd_other _ _ ?_
    intro e; subst e; exact hx rfl trivial

/-- The position of an access is known to the thread that made it. -/
theorem MStep.pos {M M' : Mach T X V} {t : T} {a : Act X V} {i : Nat} (h : MStep M t a i M') {x : X}
    (hx : a.loc = some x) : i ≤ (M'.cur t).seen x := by
  cases h with
  | tau | fence => simp [Act.loc] at hx
  | read | naRead => cases hx; exact seeRead_seen ..
  | write | naWrite => cases hx; exact seeWrite_seen ..
  | rmw => cases hx; exact seeWrite_seen ..

end Views

section Pool

variable {T L A V : Type} [DecidableEq T] [DecidableEq L] [DecidableEq A]
variable {guard : A → Option L} {v₀ : A → V}

/-- `m` is the last message of mutex word `l` and its value is `w`. -/
def Last (M : Mach T (Loc L A) (Val V)) (l : L) (i : Nat) (m : Msg T (Loc L A) (Val V)) (w : BitVec 32) : Prop :=
  M.mem (.mutex l) i = some m ∧ M.mem (.mutex l) (i + 1) = none ∧ m.val = .word w

/-- Whoever takes lock `l` next, or owns it, knows `v`. -/
def Carried (s : Sys T (Loc L A) (Val V) (Pc L)) (l : L) (v : View T (Loc L A)) : Prop :=
  (∀ t, (s.pc t).Owns l → v.Le (s.m.cur t)) ∧
  ∀ i m w, Last s.m l i m w → w &&& locked = 0 → v.Le m.view

/-- Facts about what threads have read. -/
def PcOk : Pc L → Prop
  | .spinCas _ _ w | .ulWake _ w | .ulClear _ w => w &&& locked = 0
  | _ => True

structure Inv (s : Sys T (Loc L A) (Val V) (Pc L)) : Prop where
  chain : ∀ l, ∃ n, (∀ i, n < i → s.m.mem (.mutex l) i = none) ∧
    ∀ i, i ≤ n → ∃ m w, s.m.mem (.mutex l) i = some m ∧ m.val = .word w
  own : ∀ l i m w, Last s.m l i m w → (w &&& locked = 0 ↔ ∀ t, ¬ (s.pc t).Owns l)
  uniq : ∀ l t u, (s.pc t).Owns l → (s.pc u).Owns l → t = u
  pcs : ∀ t, PcOk (s.pc t)

theorem Inv.last_unique {s : Sys T (Loc L A) (Val V) (Pc L)} (h : Inv s) {l i i' m m' w w'}
    (a : Last s.m l i m w) (b : Last s.m l i' m' w') : i = i' ∧ m = m' ∧ w = w' := by
  obtain ⟨n, hn, hm⟩ := h.chain l
  have key : ∀ i m w, Last s.m l i m w → i = n := by
    intro i m w ⟨h1, h2, _⟩
    rcases Nat.lt_trichotomy i n with hlt | rfl | hgt
    · obtain ⟨m', w', hh, _⟩ := hm (i + 1) hlt
      rw [h2] at hh; cases hh
    · rfl
    · rw [hn i hgt] at h1; cases h1
  have e1 := key _ _ _ a
  have e2 := key _ _ _ b
  subst e1
  subst e2
  have := a.1.symm.trans b.1
  injection this with this
  subst this
  have := a.2.2.symm.trans b.2.2
  injection this with this
  exact ⟨rfl, rfl, this⟩

theorem lock_bits (w : BitVec 32) : (w ||| locked) &&& locked ≠ 0 := by
  intro h
  have := congrArg (·.getLsbD 0) h
  simp [locked] at this

theorem contend_bits (w : BitVec 32) : (w ||| contended) &&& locked = w &&& locked := by
  have h : contended &&& locked = 0 := by decide
  rw [BitVec.and_comm, BitVec.and_or_distrib_left, BitVec.and_comm locked contended, h, BitVec.and_comm]
  simp

theorem mod2 (w : BitVec 32) : w &&& locked = 0 ↔ w.toNat % 2 = 0 := by
  rw [← BitVec.toNat_inj, BitVec.toNat_and]
  simp [locked, Nat.and_one_is_mod]

theorem unlock_bits (w : BitVec 32) : ((w &&& ~~~locked) + counterOne) &&& locked = 0 := by
  have h0 : (w &&& ~~~locked) &&& locked = 0 := by
    rw [BitVec.and_assoc, BitVec.and_comm (~~~locked)]; simp
  rw [mod2] at h0 ⊢
  rw [BitVec.toNat_add]
  have : counterOne.toNat = 4 := by decide
  omega

theorem clear_bits (w : BitVec 32) (h : w &&& locked = 0) : (w &&& ~~~contended) &&& locked = 0 := by
  rw [BitVec.and_assoc, BitVec.and_comm (~~~contended), ← BitVec.and_assoc, h]; simp

/-- The effect of a read-modify-write of a mutex word on the last message. -/
theorem rmw_last {s : Sys T (Loc L A) (Val V) (Pc L)} {t l o w w' i M'}
    (hs : MStep s.m t (.rmw (.mutex l) o (.word w) (.word w')) i M') :
    ∃ m v, Last s.m l (i - 1) m w ∧ 0 < i ∧ M'.mem (.mutex l) = upd (s.m.mem (.mutex l)) i (some ⟨.word w', v⟩) ∧
      m.view.Le v ∧ (o.isAcquire = true → m.view.Le (M'.cur t)) ∧ (o.isRelease = true → (s.m.cur t).Le v) ∧
      ∀ y, y ≠ Loc.mutex l → M'.mem y = s.m.mem y := by
  generalize ha : Act.rmw (Loc.mutex l : Loc L A) o (Val.word w : Val V) (.word w') = a at hs
  cases hs with
  | rmw h1 h2 h3 =>
    rename_i x o' i m v'
    injection ha with e1 e2 e3 e4
    subst e1 e2 e4
    refine ⟨m, _, ⟨h1, h2, e3.symm⟩, Nat.succ_pos _, upd_same .., ?_, ?_, ?_, ?_⟩
    · exact (View.le_join_left _ _).trans (View.le_see _ _ _)
    · intro ho
      exact (seeRead_acquire s.m t _ ho i m).trans (seeWrite_cur ..)
    · intro ho
      refine View.Le.trans ?_ ((View.le_join_right _ _).trans (View.le_see _ _ _))
      simp only [Mach.handed, ho, if_true]
      exact (seeRead_cur s.m t _ o i m t).trans (seeWrite_cur ..)
    · intro y hy
      exact upd_other _ _ hy
  | _ => cases ha

/-- Threads change ownership only through the mutex word. -/
theorem Prog.owns_same {p p' : Pc L} {a : Act (Loc L A) (Val V)} (h : Prog guard p a p')
    (ha : ∀ l, a.loc = some (.mutex l) → ¬ a.Writes) (l : L) : p.Owns l ↔ p'.Owns l := by
  cases h <;> first
    | exact Iff.rfl
    | exact absurd trivial (ha _ rfl)

theorem Prog.guarded {p p' : Pc L} {a : Act (Loc L A) (Val V)} (h : Prog guard p a p') {x : A}
    (hx : a.loc = some (.obj x)) : (a.Plain ∧ ∃ l, guard x = some l ∧ p.Owns l) ∨ (¬ a.Plain ∧ guard x = none) := by
  cases h <;> simp only [Act.loc, Option.some.injEq, reduceCtorEq, Loc.obj.injEq] at hx
  all_goals first
    | (subst hx; exact .inr ⟨fun h => h, by assumption⟩)
    | (subst hx; exact .inl ⟨trivial, _, by assumption, rfl⟩)

/-- What can happen to a mutex word. -/
inductive Kind (l : L) : Pc L → MO → BitVec 32 → BitVec 32 → Pc L → Prop where
  | lock {p w} : w &&& locked = 0 → ¬ p.Owns l → (∀ k, ¬ p.Owns k) → Kind l p lockOrder w (w ||| locked) (.hold l)
  | keep {p w o} : p.Owns l ∨ w &&& locked ≠ 0 → ∀ p', (∀ k, p.Owns k ↔ p'.Owns k) → Kind l p o w (w ||| contended) p'
  | unlock {p w p'} : p.Owns l → (∀ k, p.Owns k → k = l) → (∀ k, ¬ p'.Owns k) →
      Kind l p unlockOrder w ((w &&& ~~~locked) + counterOne) p'
  | clear {p w o p'} : w &&& locked = 0 → (∀ k, ¬ p.Owns k) → (∀ k, ¬ p'.Owns k) → Kind l p o w (w &&& ~~~contended) p'

theorem Prog.kind {p p' : Pc L} {a : Act (Loc L A) (Val V)} {l : L} (hp : PcOk p) (h : Prog guard p a p')
    (ha : a.loc = some (.mutex l)) (hw : a.Writes) :
    ∃ o w w', a = .rmw (.mutex l) o (.word w) (.word w') ∧ Kind l p o w w' p' := by
  cases h <;> simp only [Act.loc, Option.some.injEq, reduceCtorEq, Loc.mutex.injEq] at ha <;>
    simp only [Act.Writes] at hw
  all_goals subst ha
  · exact ⟨_, _, _, rfl, .keep (p := .hold _) (.inl rfl) _ fun _ => Iff.rfl⟩
  · exact ⟨_, _, _, rfl, .lock hp (fun h => h) fun _ h => h⟩
  · exact ⟨_, _, _, rfl, .lock (by assumption) (fun h => h) fun _ h => h⟩
  · exact ⟨_, _, _, rfl, .keep (.inr (by assumption)) _ fun _ => Iff.rfl⟩
  · exact ⟨_, _, _, rfl, .unlock rfl (fun _ h => h.symm) fun _ h => h⟩
  · exact ⟨_, _, _, rfl, .unlock rfl (fun _ h => h.symm) fun _ h => h⟩
  · exact ⟨_, _, _, rfl, .clear hp (fun _ h => h) fun _ h => h⟩

theorem Prog.pcOk {p p' : Pc L} {a : Act (Loc L A) (Val V)} (hp : PcOk p) (h : Prog guard p a p') : PcOk p' := by
  cases h <;> first | trivial | assumption | exact unlock_bits _

theorem Last.frame {M M' : Mach T (Loc L A) (Val V)} {l i m w} (e : M'.mem (.mutex l) = M.mem (.mutex l)) :
    Last M' l i m w ↔ Last M l i m w := by rw [Last, Last, e]

/-- After a read-modify-write of the mutex word its message is the last one. -/
theorem Inv.last_rmw {s : Sys T (Loc L A) (Val V) (Pc L)} (h : Inv s) {l k m w} (hl : Last s.m l k m w)
    {M' : Mach T (Loc L A) (Val V)} {n : Msg T (Loc L A) (Val V)}
    (e : M'.mem (.mutex l) = upd (s.m.mem (.mutex l)) (k + 1) (some n)) {i m' w'} (hl' : Last M' l i m' w') :
    m' = n := by
  obtain ⟨N, hN, hm⟩ := h.chain l
  have hk : k = N := by
    rcases Nat.lt_trichotomy k N with hlt | rfl | hgt
    · obtain ⟨m', w', hh, _⟩ := hm (k + 1) hlt
      rw [hl.2.1] at hh; cases hh
    · rfl
    · have := hl.1; rw [hN k hgt] at this; cases this
  subst hk
  obtain ⟨h1, h2, _⟩ := hl'
  rw [e] at h1 h2
  by_cases hi : i = k + 1
  · subst hi; rw [upd_same] at h1; injection h1 with h1; exact h1.symm
  · rw [upd_other _ _ hi] at h1
    have hik : i ≤ k := by
      rcases Nat.lt_or_ge k i with hgt | hle
      · rw [hN i hgt] at h1; cases h1
      · exact hle
    by_cases hi' : i + 1 = k + 1
    · rw [hi', upd_same] at h2; cases h2
    · rw [upd_other _ _ hi'] at h2
      obtain ⟨m'', w'', hh, _⟩ := hm (i + 1) (by omega)
      rw [h2] at hh; cases hh

theorem step_mutex_cases {s s' : Sys T (Loc L A) (Val V) (Pc L)} {e} (h : Inv s) (hs : Step (Prog guard) s e s') (l : L) :
    ((s'.m.mem (.mutex l) = s.m.mem (.mutex l)) ∧ (∀ u, (s.pc u).Owns l ↔ (s'.pc u).Owns l)) ∨
    (∃ o w w' k m v p', Kind l (s.pc e.thr) o w w' p' ∧ s'.pc = upd s.pc e.thr p' ∧ Last s.m l k m w ∧
      s'.m.mem (.mutex l) = upd (s.m.mem (.mutex l)) (k + 1) (some ⟨.word w', v⟩) ∧
      m.view.Le v ∧ (o.isAcquire = true → m.view.Le (s'.m.cur e.thr)) ∧
      (o.isRelease = true → (s.m.cur e.thr).Le v)) := by
  cases hs with
  | mk hp hm =>
    rename_i t a i p' M'
    by_cases ha : ∃ k, a.loc = some (.mutex k) ∧ a.Writes
    · obtain ⟨k, ha, hw⟩ := ha
      obtain ⟨o, w, w', rfl, hk⟩ := hp.kind (h.pcs t) ha hw
      obtain ⟨m, v, hl, hi, e, h1, h2, h3, h4⟩ := rmw_last hm
      by_cases hkl : k = l
      · subst hkl
        refine .inr ⟨o, w, w', i - 1, m, v, p', hk, rfl, hl, ?_, h1, h2, h3⟩
        rw [e, Nat.sub_add_cancel hi]
      · refine .inl ⟨h4 _ (by intro e; cases e; exact hkl rfl), fun u => ?_⟩
        by_cases hu : u = t
        · subst hu
          simp only [upd_same]
          cases hk with
          | lock _ _ h => exact ⟨fun x => absurd x (h l), fun x => absurd x hkl⟩
          | keep _ _ h => exact h l
          | unlock _ h h' => exact ⟨fun x => absurd (h l x).symm hkl, fun x => absurd x (h' l)⟩
          | clear _ h h' => exact ⟨fun x => absurd x (h l), fun x => absurd x (h' l)⟩
        · simp only [upd_other _ _ hu]
    · have ha' : ∀ k, a.loc = some (.mutex k) → ¬ a.Writes := fun k h1 h2 => ha ⟨k, h1, h2⟩
      refine .inl ⟨hm.frame (ha' l), fun u => ?_⟩
      by_cases hu : u = t
      · subst hu; simp only [upd_same]; exact hp.owns_same ha' l
      · simp only [upd_other _ _ hu]

theorem Inv.step {s s' : Sys T (Loc L A) (Val V) (Pc L)} {e} (h : Inv s) (hs : Step (Prog guard) s e s') : Inv s' := by
  have hpcs : ∀ t, PcOk (s'.pc t) := by
    intro u
    cases hs with
    | mk hp hm =>
      rename_i t a i p' M'
      by_cases hu : u = t
      · subst hu; simp only [upd_same]; exact hp.pcOk (h.pcs _)
      · simp only [upd_other _ _ hu]; exact h.pcs u
  refine ⟨fun l => ?_, fun l i m w hl => ?_, fun l t u ht hu => ?_, hpcs⟩
  · rcases step_mutex_cases h hs l with ⟨e1, _⟩ | ⟨o, w, w', k, m, v, p', _, _, hl, e1, _⟩
    · rw [e1]; exact h.chain l
    · obtain ⟨N, hN, hm⟩ := h.chain l
      have hk : k = N := by
        rcases Nat.lt_trichotomy k N with hlt | rfl | hgt
        · obtain ⟨m', w', hh, _⟩ := hm (k + 1) hlt
          rw [hl.2.1] at hh; cases hh
        · rfl
        · have := hl.1; rw [hN k hgt] at this; cases this
      subst hk
      refine ⟨k + 1, fun i hi => ?_, fun i hi => ?_⟩
      · rw [e1, upd_other _ _ (by omega)]; exact hN i (by omega)
      · by_cases hik : i = k + 1
        · subst hik; rw [e1, upd_same]; exact ⟨_, _, rfl, rfl⟩
        · rw [e1, upd_other _ _ hik]; exact hm i (by omega)
  · rcases step_mutex_cases h hs l with ⟨e1, e2⟩ | ⟨o, w₁, w', k, m₁, v, p', hk, ep, hl₁, e1, _⟩
    · rw [h.own l i m w ((Last.frame e1).1 hl)]
      exact forall_congr' fun t => not_congr (e2 t)
    · have := h.last_rmw hl₁ e1 hl
      subst this
      have ew := hl.2.2
      injection ew with ew
      subst ew
      have ho := h.own l _ _ _ hl₁
      have old : ∀ u, u ≠ e.thr → (s'.pc u = s.pc u) := fun u hu => by rw [ep, upd_other _ _ hu]
      have new : s'.pc e.thr = p' := by rw [ep, upd_same]
      cases hk with
      | lock h0 _ _ =>
        refine ⟨fun x => absurd x (lock_bits _), fun x => ?_⟩
        exact absurd (show (s'.pc e.thr).Owns l by rw [new]; exact rfl) (x _)
      | keep _ _ heq =>
        rw [contend_bits, ho]
        refine forall_congr' fun u => not_congr ?_
        by_cases hu : u = e.thr
        · subst hu; rw [new]; exact heq l
        · rw [old u hu]
      | unlock hown _ hno =>
        refine ⟨fun _ u hu' => ?_, fun _ => unlock_bits _⟩
        by_cases hu : u = e.thr
        · subst hu; rw [new] at hu'; exact hno l hu'
        · rw [old u hu] at hu'; exact hu (h.uniq l _ _ hu' hown)
      | clear h0 _ hno =>
        refine ⟨fun _ u hu' => ?_, fun _ => clear_bits _ h0⟩
        by_cases hu : u = e.thr
        · subst hu; rw [new] at hu'; exact hno l hu'
        · rw [old u hu] at hu'; exact ho.1 h0 u hu'
  · rcases step_mutex_cases h hs l with ⟨e1, e2⟩ | ⟨o, w₁, w', k, m₁, v, p', hk, ep, hl₁, e1, _⟩
    · exact h.uniq l t u ((e2 t).2 ht) ((e2 u).2 hu)
    · have ho := h.own l _ _ _ hl₁
      have old : ∀ u, u ≠ e.thr → (s'.pc u).Owns l → (s.pc u).Owns l := fun u hu => by rw [ep, upd_other _ _ hu]; exact id
      have new : s'.pc e.thr = p' := by rw [ep, upd_same]
      cases hk with
      | lock h0 _ _ =>
        have nobody := ho.1 h0
        by_cases h1 : t = e.thr
        · by_cases h2 : u = e.thr
          · rw [h1, h2]
          · exact absurd (old u h2 hu) (nobody u)
        · exact absurd (old t h1 ht) (nobody t)
      | keep _ _ heq =>
        have back : ∀ u, (s'.pc u).Owns l → (s.pc u).Owns l := fun u hu => by
          by_cases h1 : u = e.thr
          · subst h1; rw [new] at hu; exact (heq l).2 hu
          · exact old u h1 hu
        exact h.uniq l t u (back t ht) (back u hu)
      | unlock hown _ hno =>
        by_cases h1 : t = e.thr
        · subst h1; rw [new] at ht; exact absurd ht (hno l)
        · exact absurd (h.uniq l _ _ (old t h1 ht) hown) h1
      | clear h0 _ hno =>
        by_cases h1 : t = e.thr
        · subst h1; rw [new] at ht; exact absurd ht (hno l)
        · exact absurd (old t h1 ht) (ho.1 h0 t)

theorem Step.mono {s s' : Sys T (Loc L A) (Val V) (Pc L)} {e} (hs : Step (Prog guard) s e s') (u : T) :
    (s.m.cur u).Le (s'.m.cur u) := by
  cases hs with | mk _ hm => exact hm.mono u

theorem Carried.step {s s' : Sys T (Loc L A) (Val V) (Pc L)} {e} (h : Inv s) (hs : Step (Prog guard) s e s') {l v}
    (hc : Carried s l v) : Carried s' l v := by
  rcases step_mutex_cases h hs l with ⟨e1, e2⟩ | ⟨o, w₁, w', k, m₁, v', p', hk, ep, hl₁, e1, hle, hacq, hrel⟩
  · exact ⟨fun t ht => (hc.1 t ((e2 t).2 ht)).trans (hs.mono t), fun i m w hl hw => hc.2 i m w ((Last.frame e1).1 hl) hw⟩
  · have ho := h.own l _ _ _ hl₁
    have old : ∀ u, u ≠ e.thr → (s'.pc u).Owns l → (s.pc u).Owns l := fun u hu => by rw [ep, upd_other _ _ hu]; exact id
    have new : s'.pc e.thr = p' := by rw [ep, upd_same]
    have last : ∀ i m w, Last s'.m l i m w → m = ⟨.word w', v'⟩ ∧ w = w' := fun i m w hl => by
      have := h.last_rmw hl₁ e1 hl
      subst this
      have ew := hl.2.2
      injection ew with ew
      exact ⟨rfl, ew.symm⟩
    cases hk with
    | lock h0 _ _ =>
      refine ⟨fun t ht => ?_, fun i m w hl hw => ?_⟩
      · by_cases h1 : t = e.thr
        · subst h1
          exact (hc.2 _ _ _ hl₁ h0).trans (hacq rfl)
        · exact (hc.1 t (old t h1 ht)).trans (hs.mono t)
      · obtain ⟨rfl, rfl⟩ := last i m w hl
        exact absurd hw (lock_bits _)
    | keep hor _ heq =>
      refine ⟨fun t ht => ?_, fun i m w hl hw => ?_⟩
      · by_cases h1 : t = e.thr
        · subst h1; rw [new] at ht
          exact (hc.1 _ ((heq l).2 ht)).trans (hs.mono _)
        · exact (hc.1 t (old t h1 ht)).trans (hs.mono t)
      · obtain ⟨rfl, rfl⟩ := last i m w hl
        rw [contend_bits] at hw
        exact (hc.2 _ _ _ hl₁ hw).trans hle
    | unlock hown _ hno =>
      refine ⟨fun t ht => ?_, fun i m w hl hw => ?_⟩
      · by_cases h1 : t = e.thr
        · subst h1; rw [new] at ht; exact absurd ht (hno l)
        · exact (hc.1 t (old t h1 ht)).trans (hs.mono t)
      · obtain ⟨rfl, rfl⟩ := last i m w hl
        exact (hc.1 _ hown).trans (hrel rfl)
    | clear h0 _ hno =>
      refine ⟨fun t ht => ?_, fun i m w hl hw => ?_⟩
      · by_cases h1 : t = e.thr
        · subst h1; rw [new] at ht; exact absurd ht (hno l)
        · exact (hc.1 t (old t h1 ht)).trans (hs.mono t)
      · obtain ⟨rfl, rfl⟩ := last i m w hl
        exact (hc.2 _ _ _ hl₁ h0).trans hle

/-- What the owner of a lock knows is carried. -/
theorem Inv.carried_of_owns {s : Sys T (Loc L A) (Val V) (Pc L)} (h : Inv s) {l t v} (ht : (s.pc t).Owns l)
    (hv : v.Le (s.m.cur t)) : Carried s l v := by
  refine ⟨fun u hu => ?_, fun i m w hl hw => ?_⟩
  · rw [h.uniq l u t hu ht]; exact hv
  · exact absurd ht ((h.own l i m w hl).1 hw t)

theorem Inv.init : Inv (T := T) (⟨.init (init v₀), fun _ => .out, []⟩ : Sys T (Loc L A) (Val V) (Pc L)) := by
  refine ⟨fun l => ⟨0, fun i hi => ?_, fun i hi => ?_⟩, fun l i m w hl => ?_, fun l t u ht => absurd ht (fun h => h), fun t => trivial⟩
  · simp only [Mach.init]; rw [if_neg (by omega)]
  · obtain rfl : i = 0 := by omega
    exact ⟨_, _, rfl, rfl⟩
  · have := hl.1
    simp only [Mach.init] at this
    split at this
    · injection this with this
      subst this
      have := hl.2.2
      simp only [Verif.Weak.init, Val.word.injEq] at this
      subst this
      exact ⟨fun _ t h => h, fun _ => by decide⟩
    · cases this

theorem inv_of_reach {s : Sys T (Loc L A) (Val V) (Pc L)} (h : Reachable guard v₀ s) : Inv s := by
  induction h with
  | init => exact .init
  | step _ hs ih => exact ih.step hs

/-! ### Ordinary variables -/

/-- State of the ordinary variable `a` protected by lock `l`. -/
structure Data (v₀ : A → V) (s : Sys T (Loc L A) (Val V) (Pc L)) (a : A) (l : L) : Prop where
  latest : ∃ i m, s.m.mem (.obj a) i = some m ∧ (∀ j, i < j → s.m.mem (.obj a) j = none) ∧
    m.val = lastWritten (.obj a) (.val (v₀ a)) s.log ∧ Carried s l (.at (.obj a) i)
  past : ∀ e ∈ s.log, e.act.loc = some (.obj a) → Carried s l (.ofNo e.thr e.no)

theorem lastWritten_append {X W : Type} [DecidableEq X] (x : X) (l : List (Ev T X W)) (e : Ev T X W) (v : W) :
    lastWritten x v (l ++ [e]) = match e.act with
      | .naWrite y v' => if y = x then v' else lastWritten x v l
      | _ => lastWritten x v l := by
  induction l generalizing v with
  | nil => cases h : e.act <;> simp [lastWritten, h]
  | cons e' l ih => simp only [List.cons_append, lastWritten]; exact ih _

theorem Data.step {s s' : Sys T (Loc L A) (Val V) (Pc L)} {e a l} (hg : guard a = some l) (h : Inv s)
    (hs : Step (Prog guard) s e s') (hd : Data v₀ s a l) : Data v₀ s' a l := by
  have h' := h.step hs
  have hpast : ∀ e' ∈ s.log, e'.act.loc = some (.obj a) → Carried s' l (.ofNo e'.thr e'.no) :=
    fun e' he' hl => (hd.past e' he' hl).step h hs
  have hstep := hs
  cases hs with
  | mk hp hm =>
    rename_i t b i p' M'
    obtain ⟨k, m, hk, hmax, hval, hcar⟩ := hd.latest
    have hcar' := hcar.step h hstep
    by_cases hb : b.loc = some (.obj a)
    · rcases hp.guarded hb with ⟨hpl, l', hl', hown⟩ | ⟨_, hn⟩
      · rw [hg] at hl'; injection hl' with hl'; subst hl'
        have hown' : (upd s.pc t p' t).Owns l := by
          rw [upd_same]
          refine (hp.owns_same (fun k hk => ?_) l).1 hown
          rw [hb] at hk; cases hk
        have mine : Carried (⟨M', upd s.pc t p', s.log ++ [⟨t, (M'.cur t).clk t, b, i⟩]⟩ : Sys T _ _ _) l
            (.ofNo t ((M'.cur t).clk t)) := h'.carried_of_owns hown' (View.ofNo_le (Nat.le_refl _))
        refine ⟨?_, fun e' he' hl => ?_⟩
        · have hk' : k ≤ (s.m.cur t).seen (.obj a) := View.le_at (hcar.1 t hown)
          have hpos := hm.pos hb
          cases hm with
          | naRead hr hsn =>
            refine ⟨k, m, hk, hmax, ?_, hcar'⟩
            rw [lastWritten_append]; exact hval
          | naWrite hr hsn =>
            rename_i x v
            cases hb
            refine ⟨i, ⟨v, View.bot.see (.obj a) i⟩, ?_, fun j hj => ?_, ?_, h'.carried_of_owns hown' (View.at_le hpos)⟩
            · simp only [Mach.put, upd_same]
            · simp only [Mach.put, upd_same]
              rw [upd_other _ _ (by omega)]
              exact hmax j (by omega)
            · rw [lastWritten_append]; simp
          | _ => exact absurd hpl (fun h => h)
        · rcases List.mem_append.1 he' with he' | he'
          · exact hpast e' he' hl
          · rw [List.mem_singleton] at he'; subst he'; exact mine
      · rw [hg] at hn; cases hn
    · refine ⟨⟨k, m, ?_, ?_, ?_, hcar'⟩, fun e' he' hl => ?_⟩
      · rw [hm.frame (fun h => absurd h hb)]; exact hk
      · rw [hm.frame (fun h => absurd h hb)]; exact hmax
      · rw [lastWritten_append, hval]
        cases b <;> try rfl
        rename_i x v
        simp only [Act.loc, Option.some.injEq] at hb
        simp [hb]
      · rcases List.mem_append.1 he' with he' | he'
        · exact hpast e' he' hl
        · rw [List.mem_singleton] at he'; subst he'; exact absurd hl hb

theorem data_of_reach {s : Sys T (Loc L A) (Val V) (Pc L)} (h : Reachable guard v₀ s) {a l} (hg : guard a = some l) :
    Data v₀ s a l := by
  induction h with
  | init =>
    refine ⟨⟨0, ⟨.val (v₀ a), .bot⟩, rfl, fun j hj => ?_, rfl, fun t ht => absurd ht (fun h => h), fun i m w _ _ => ?_⟩,
      fun e he => absurd he (by simp)⟩
    · simp only [Mach.init]; rw [if_neg (by omega)]
    · exact View.at_le (Nat.zero_le _)
  | step hr hs ih => exact ih.step hg (inv_of_reach hr) hs

/-! ### Own actions -/

theorem Prog.plain {p p' : Pc L} {a : Act (Loc L A) (Val V)} (h : Prog guard p a p') (hp : a.Plain) :
    ∃ x l, a.loc = some (.obj x) ∧ guard x = some l := by
  cases h <;> first
    | exact ⟨_, _, rfl, by assumption⟩
    | exact absurd hp (fun h => h)

/-- Ordinary accesses are to protected variables. -/
theorem plain_past {s : Sys T (Loc L A) (Val V) (Pc L)} (h : Reachable guard v₀ s) :
    ∀ e ∈ s.log, e.act.Plain → ∃ x l, e.act.loc = some (.obj x) ∧ guard x = some l := by
  induction h with
  | init => intro e he; simp at he
  | step hr hs ih =>
    intro e he hpl
    cases hs with
    | mk hp hm =>
      rcases List.mem_append.1 he with he | he
      · exact ih e he hpl
      · rw [List.mem_singleton] at he; subst he; exact hp.plain hpl

/-- A thread knows its own past. -/
theorem own_past {s : Sys T (Loc L A) (Val V) (Pc L)} (h : Reachable guard v₀ s) :
    ∀ e ∈ s.log, e.no ≤ (s.m.cur e.thr).clk e.thr ∧ ∀ x, e.act.loc = some x → e.pos ≤ (s.m.cur e.thr).seen x := by
  induction h with
  | init => intro e he; simp at he
  | step hr hs ih =>
    intro e he
    have mono := hs.mono e.thr
    cases hs with
    | mk hp hm =>
      rcases List.mem_append.1 he with he | he
      · obtain ⟨h1, h2⟩ := ih e he
        exact ⟨Nat.le_trans h1 (mono.2 _), fun x hx => Nat.le_trans (h2 x hx) (mono.1 x)⟩
      · rw [List.mem_singleton] at he; subst he
        exact ⟨Nat.le_refl _, fun x hx => hm.pos hx⟩

/-- A thread accesses nothing older than what it knows. -/
theorem MStep.not_older {M M' : Mach T (Loc L A) (Val V)} {t : T} {a : Act (Loc L A) (Val V)} {i : Nat}
    (h : MStep M t a i M') {x} (hx : a.loc = some x) : (M.cur t).seen x ≤ i := by
  cases h with
  | tau | fence => simp [Act.loc] at hx
  | read | naRead | write | naWrite | rmw => cases hx; omega

theorem Steps.reach {s s' : Sys T (Loc L A) (Val V) (Pc L)} (h : Reachable guard v₀ s)
    (hs : Steps (Prog guard) s s') : Reachable guard v₀ s' := by
  induction hs with
  | refl => exact h
  | step _ h' ih => exact .step ih h'

theorem Steps.mono {s s' : Sys T (Loc L A) (Val V) (Pc L)} (hs : Steps (Prog guard) s s') (u : T) :
    (s.m.cur u).Le (s'.m.cur u) := by
  induction hs with
  | refl => exact .rfl
  | step _ h' ih => exact ih.trans (h'.mono u)

theorem Carried.steps {s s' : Sys T (Loc L A) (Val V) (Pc L)} (h : Reachable guard v₀ s)
    (hs : Steps (Prog guard) s s') {l v} (hc : Carried s l v) : Carried s' l v := by
  induction hs with
  | refl => exact hc
  | step h1 h' ih => exact ih.step (inv_of_reach (h1.reach h)) h'

end Pool

end Verif.Weak
