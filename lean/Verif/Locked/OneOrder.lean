import Verif.Locked.Exclusion
import Verif.Locked.Model
import Verif.Pow.MixedLemmas

/-
Critical sections and seq_cst operations in one order.
-/

namespace Verif.Locked

open Verif.Order Verif.Mca Verif.Mca.Run

variable {cpu : Cpu} {R : Mca.Run cpu} {M : Memory R} {V : Values}

/-- What is needed of the order of the seq_cst operations. -/
structure Strongly (M : Memory R) (St : OpId → Prop) (before : OpId → OpId → Prop) : Prop where
  irrefl : ∀ a, ¬ before a a
  trans : ∀ {a b c}, before a b → before b c → before a c
  total : ∀ {a b}, St a → St b → a ≠ b → before a b ∨ before b a
  sb : ∀ {a b}, St a → St b → a.1 = b.1 → a.2 < b.2 → before a b
  strong : ∀ {a x y b e f it it'}, St a → St b → a.1 = x.1 → a.2 < x.2 → R.Within e x it → R.Within f y it' →
    M.hb e f → y.1 = b.1 → y.2 < b.2 → before a b

namespace Locks

variable (L : Locks M V) {St : OpId → Prop} {before : OpId → OpId → Prop}

/-- The operation comes before the section. -/
def Up (before : OpId → OpId → Prop) (St : OpId → Prop) (a : OpId) (S : L.Sec) : Prop :=
  ∃ a' S', St a' ∧ (a = a' ∨ before a a') ∧ a'.1 = (L.take S').1 ∧ a'.2 < (L.take S').2 ∧ (S' = S ∨ L.Prior S' S)

/-- The section comes before the operation. -/
def Down (before : OpId → OpId → Prop) (St : OpId → Prop) (S : L.Sec) (b : OpId) : Prop :=
  ∃ S' b', St b' ∧ (S = S' ∨ L.Prior S S') ∧ (L.give S').1 = b'.1 ∧ (L.give S').2 < b'.2 ∧ (b' = b ∨ before b' b)

variable {L}

theorem Up.down (hO : Strongly M St before) {a S b} (h : L.Up before St a S) (h' : L.Down before St S b) :
    before a b := by
  obtain ⟨a', S1, sa, h1, h2, h3, h4⟩ := h
  obtain ⟨S2, b', sb, h5, h6, h7, h8⟩ := h'
  have hle : S1 = S2 ∨ L.Prior S1 S2 := by
    rcases h4 with rfl | h4
    · exact h5
    · rcases h5 with rfl | h5
      · exact .inr h4
      · exact .inr (prior_trans h4 h5)
  obtain ⟨_, hl⟩ := L.lw_in S1
  obtain ⟨_, hu⟩ := L.uw_in S2
  have hhb : M.hb (L.lw S1) (L.uw S2) := by
    rcases hle with rfl | ⟨e, f, it, it', k1, k2, k3⟩
    · exact M.sb (L.lw_before _)
    · exact M.trans (M.sb (hl.lt k1 (L.same _) (L.lt _))) (M.trans k3 (M.sb (k2.lt hu (L.same _) (L.lt _))))
  have : before a' b' := hO.strong sa sb h2 h3 hl hu hhb h6 h7
  have : before a' b := by
    rcases h8 with rfl | h8
    · exact this
    · exact hO.trans this h8
  rcases h1 with rfl | h1
  · exact this
  · exact hO.trans h1 this

theorem Up.prior {a S S'} (h : L.Up before St a S) (h' : L.Prior S S') : L.Up before St a S' := by
  obtain ⟨a', S1, sa, h1, h2, h3, h4⟩ := h
  refine ⟨a', S1, sa, h1, h2, h3, .inr ?_⟩
  rcases h4 with rfl | h4
  · exact h'
  · exact prior_trans h4 h'

theorem Up.head (hO : Strongly M St before) {a b S} (h : before a b) (h' : L.Up before St b S) : L.Up before St a S := by
  obtain ⟨a', S1, sa, h1, h2, h3, h4⟩ := h'
  refine ⟨a', S1, sa, .inr ?_, h2, h3, h4⟩
  rcases h1 with rfl | h1
  · exact h
  · exact hO.trans h h1

theorem Down.prior {S S' b} (h : L.Prior S S') (h' : L.Down before St S' b) : L.Down before St S b := by
  obtain ⟨S2, b', sb, h5, h6, h7, h8⟩ := h'
  refine ⟨S2, b', sb, .inr ?_, h6, h7, h8⟩
  rcases h5 with rfl | h5
  · exact h
  · exact prior_trans h h5

theorem Down.tail (hO : Strongly M St before) {S a b} (h : L.Down before St S a) (h' : before a b) :
    L.Down before St S b := by
  obtain ⟨S2, b', sb, h5, h6, h7, h8⟩ := h
  refine ⟨S2, b', sb, h5, h6, h7, .inr ?_⟩
  rcases h8 with rfl | h8
  · exact h'
  · exact hO.trans h8 h'

/-- The union of the two orders and of the order of each thread. -/
def Joint (L : Locks M V) (before : OpId → OpId → Prop) (St : OpId → Prop) : OpId ⊕ L.Sec → OpId ⊕ L.Sec → Prop
  | .inl a, .inl b => before a b
  | .inl a, .inr S => L.Up before St a S
  | .inr S, .inl b => L.Down before St S b
  | .inr S, .inr S' => L.Prior S S' ∨ ∃ c, L.Down before St S c ∧ L.Up before St c S'

theorem joint (hO : Strongly M St before) : ∃ T : OpId ⊕ L.Sec → OpId ⊕ L.Sec → Prop,
    (∀ a, ¬ T a a) ∧ (∀ a b c, T a b → T b c → T a c) ∧ (∀ a b, a ≠ b → T a b ∨ T b a) ∧
    ∀ a b, L.Joint before St a b → T a b := by
  have hW : ∀ a b c, L.Joint before St a b → L.Joint before St b c → L.Joint before St a c := by
    rintro (a | S) (b | S') (c | S'') h h'
    · exact hO.trans h h'
    · exact Up.head hO h h'
    · exact Up.down hO h h'
    · rcases h' with h' | ⟨c, h', h''⟩
      · exact Up.prior h h'
      · exact Up.head hO (Up.down hO h h') h''
    · exact Down.tail hO h h'
    · exact .inr ⟨b, h, h'⟩
    · rcases h with h | ⟨d, h, h''⟩
      · exact Down.prior h h'
      · exact Down.tail hO h (Up.down hO h'' h')
    · rcases h with h | ⟨c, h, k⟩
      · rcases h' with h' | ⟨d, h', k'⟩
        · exact .inl (prior_trans h h')
        · exact .inr ⟨d, Down.prior h h', k'⟩
      · rcases h' with h' | ⟨d, h', k'⟩
        · exact .inr ⟨c, h, Up.prior k h'⟩
        · exact .inr ⟨d, Down.tail hO h (Up.down hO k h'), k'⟩
  have hI : ∀ a, ¬ L.Joint before St a a := by
    rintro (a | S) h
    · exact hO.irrefl _ h
    · rcases h with h | ⟨c, h, k⟩
      · exact prior_irrefl S h
      · exact hO.irrefl _ (Up.down hO k h)
  obtain ⟨T, h1, h2, h3, -, h5⟩ := Pow.Run.extend (N := OpId ⊕ L.Sec) (S := fun _ _ => False) (W := L.Joint before St)
    (fun _ _ _ h => h.elim) hW (fun _ _ _ _ h => h.elim) (fun _ h => h) hI
  exact ⟨T, h1, h2, h3, h5⟩

/-! ### What the sections find -/

/-- `e` is an access between taking the mutex and giving it back. -/
abbrev Inside (L : Locks M V) (S : L.Sec) (e : Pos) : Prop := Locked.Inside R (L.take S) (L.give S) e

theorem prior_inside {S S' : L.Sec} (h : L.Prior S S') {e f} (he : L.Inside S e) (hf : L.Inside S' f) : M.hb e f := by
  obtain ⟨g, k, it, it', h1, h2, h3⟩ := h
  obtain ⟨id, jt, w1, e1, e2, e3⟩ := he
  obtain ⟨id', jt', w2, f1, f2, f3⟩ := hf
  exact M.trans (M.sb (w1.lt h1 (e1.trans (L.same S)) e3)) (M.trans h3 (M.sb (h2.lt w2 f1.symm f2)))

theorem inside_unique {S S' : L.Sec} (hm : L.mutex S = L.mutex S') {e} (h : L.Inside S e) (h' : L.Inside S' e) : S = S' := by
  by_cases hne : S = S'
  · exact hne
  · rcases prior_total hm hne with k | k
    · exact absurd (prior_inside k h h') (M.irrefl _)
    · exact absurd (prior_inside k h' h) (M.irrefl _)

/-- Variables that are accessed in sections of one mutex only. -/
def Guards (L : Locks M V) (guard : Nat → Option Nat) : Prop :=
  ∀ e x p m, R.Is e x → R.Has e p → guard x.loc = some m → ∃ S, L.mutex S = m ∧ L.Inside S e

theorem section_last {guard : Nat → Option Nat} (hG : L.Guards guard) {S : L.Sec} {x v : Nat}
    (h : (SectionFound R M.rf V (L.take S) (L.give S) x v)) (hg : guard x = some (L.mutex S)) :
    (∃ S', L.Prior S' S ∧ L.mutex S' = L.mutex S ∧ SectionLeft R V (L.take S') (L.give S') x v ∧
      ∀ C u, L.mutex C = L.mutex S → L.Prior C S → SectionLeft R V (L.take C) (L.give C) x u → C = S' ∨ L.Prior C S') ∨
    (v = V.init x ∧ ∀ C u, L.mutex C = L.mutex S → L.Prior C S → ¬ SectionLeft R V (L.take C) (L.give C) x u) := by
  obtain ⟨r, s, y, hin, hrd, hy, hyl, hrf, hv, hfirst⟩ := h
  have sl : ∀ {w z}, R.Is w z → z.loc = x → R.SameLoc w r := fun hz hzl => ⟨_, _, hz, hy, hzl.trans hyl.symm⟩
  cases s with
  | none =>
    right
    refine ⟨hv, ?_⟩
    rintro C u hm hC ⟨w, z, hinw, hw, hz, hzl, -, -⟩
    rcases M.writeRead (prior_inside hC hinw hin) hw hrd (sl hz hzl) hrf with e | ⟨_, e, -⟩ <;> cases e
  | some w =>
    left
    obtain ⟨hw, hl⟩ := M.source hrd hrf
    obtain ⟨y', z, hy', hz, hzl⟩ := hl
    rw [hy'.unique hy] at hzl
    have hzx : z.loc = x := hzl.symm.trans hyl
    obtain ⟨S', hm', hin'⟩ := hG w z .wr (L.mutex S) hz hw (by rw [hzx]; exact hg)
    have hne : S' ≠ S := by
      rintro rfl
      have nb := hfirst w z hin' hw hz hzx
      have t : w.1 = r.1 := by
        obtain ⟨_, _, w1, e1, -⟩ := hin
        obtain ⟨_, _, w2, e2, -⟩ := hin'
        rw [w1.bounds.1, w2.bounds.1, e1, e2]
      rcases Nat.lt_trichotomy w.2 r.2 with hlt | heq | hgt
      · exact nb ⟨t, hlt⟩
      · have : w = r := Prod.ext t heq
        subst this
        exact M.self hrd hrf
      · exact M.mo_irrefl _ (M.readWrite (M.sb ⟨t.symm, hgt⟩) hrd hw (sl hz hzx).symm hrf)
    have hprior : L.Prior S' S := by
      rcases prior_total hm' hne with k | k
      · exact k
      · exact absurd (M.readWrite (prior_inside k hin hin') hrd hw (sl hz hzx).symm hrf) (M.mo_irrefl _)
    -- a write of an earlier section is `w` or before it
    have old : ∀ {C w' z'}, L.Prior C S → L.Inside C w' → R.Has w' .wr → R.Is w' z' → z'.loc = x → w' = w ∨ M.mo w' w := by
      intro C w' z' hC hi hw' hz' hl'
      rcases M.writeRead (prior_inside hC hi hin) hw' hrd (sl hz' hl') hrf with e | ⟨_, e, k⟩
      · cases e; exact .inl rfl
      · cases e; exact .inr k
    refine ⟨S', hprior, hm', ⟨w, z, hin', hw, hz, hzx, hv, ?_⟩, ?_⟩
    · intro w' z' hi' hw' hz' hl' hb
      have hmo := M.writeWrite (M.sb hb) hw hw' ⟨_, _, hz, hz', hzx.trans hl'.symm⟩
      rcases old hprior hi' hw' hz' hl' with rfl | k
      · exact M.mo_irrefl _ hmo
      · exact M.mo_irrefl _ (M.mo_trans hmo k)
    · rintro C u hmC hC ⟨w', z', hi', hw', hz', hl', -, -⟩
      by_cases he : C = S'
      · exact .inl he
      · rcases prior_total (hmC.trans hm'.symm) he with k | k
        · exact .inr k
        · have hmo := M.writeWrite (prior_inside k hin' hi') hw hw' ⟨_, _, hz, hz', hzx.trans hl'.symm⟩
          rcases old hC hi' hw' hz' hl' with rfl | k'
          · exact absurd hmo (M.mo_irrefl _)
          · exact absurd (M.mo_trans hmo k') (M.mo_irrefl _)

/-- Sections and seq_cst operations are in one order. -/
theorem oneOrder (hO : Strongly M St before) {guard : Nat → Option Nat} (hG : L.Guards guard) {A : Nat → Prop}
    (hA : ∀ x, A x → guard x = none)
    (hSt : ∀ a it, (R.prog a.1)[a.2]? = some it → A it.loc → it.isFence = false → St a)
    (hlast : ∀ a x v, FreeOp R A a → FreeFound R M.rf V a x v →
      (∃ b, FreeOp R A b ∧ before b a ∧ FreeLeft R V b x v ∧
        ∀ c u, FreeOp R A c → before c a → FreeLeft R V c x u → c = b ∨ before c b) ∨
      (v = V.init x ∧ ∀ c u, FreeOp R A c → before c a → ¬ FreeLeft R V c x u)) :
    (historyOf R M.rf V A guard L.mutex L.take L.give).OneOrder := by
  obtain ⟨T, t1, t2, t3, t4⟩ := L.joint hO
  have hst : ∀ {a}, FreeOp R A a → St a := by rintro a ⟨it, h1, h2, h3⟩; exact hSt a it h1 h2 h3
  have back : ∀ {a b : { a // FreeOp R A a }}, T (.inl a.1) (.inl b.1) → before a.1 b.1 := by
    intro a b h
    by_cases he : a.1 = b.1
    · rw [he] at h; exact absurd h (t1 _)
    · rcases hO.total (hst a.2) (hst b.2) he with k | k
      · exact k
      · exact absurd (t2 _ _ _ h (t4 (.inl b.1) (.inl a.1) k)) (t1 _)
  have backS : ∀ {S S' : L.Sec}, L.mutex S = L.mutex S' → T (.inr S) (.inr S') → L.Prior S S' := by
    intro S S' hm h
    by_cases he : S = S'
    · rw [he] at h; exact absurd h (t1 _)
    · rcases prior_total hm he with k | k
      · exact k
      · exact absurd (t2 _ _ _ h (t4 (.inr S') (.inr S) (.inl k))) (t1 _)
  let f : { a // FreeOp R A a } ⊕ L.Sec → OpId ⊕ L.Sec := Sum.map Subtype.val _root_.id
  have finj : ∀ {a b}, f a = f b → a = b := by
    rintro (a | S) (b | S') h
    · exact congrArg Sum.inl (Subtype.ext (Sum.inl.inj h))
    · cases h
    · cases h
    · exact congrArg Sum.inr (Sum.inr.inj h)
  refine ⟨fun a b => T (f a) (f b), fun a => t1 _, fun a b c => t2 _ _ _, fun a b h => t3 _ _ fun e => h (finj e), ?_, ?_⟩
  · rintro (a | S) (b | S') h
    · exact t4 (.inl _) (.inl _) (hO.sb (hst a.2) (hst b.2) h.1 h.2)
    · exact t4 (.inl _) (.inr _) ⟨a.1, S', hst a.2, .inl rfl, h.1, h.2, .inl rfl⟩
    · exact t4 (.inr _) (.inl _) ⟨S, b.1, hst b.2, .inl rfl, h.1, h.2, .inl rfl⟩
    · exact t4 (.inr _) (.inr _) (.inl (prior_sb h.1 h.2))
  · rintro (a | S) x v h
    · have hax : A x := by
        obtain ⟨it, h1, h2, -⟩ := a.2
        obtain ⟨it', r, s, i1, i2, -⟩ := h
        rw [h1] at i1; cases i1; rw [← i2]; exact h2
      rcases hlast a.1 x v a.2 h with ⟨b, fb, k1, k2, k3⟩ | ⟨k1, k2⟩
      · refine .inl ⟨.inl ⟨b, fb⟩, t4 (.inl _) (.inl _) k1, k2, ?_⟩
        rintro (c | C) u hc hl
        · rcases k3 c.1 u c.2 (back hc) hl with e | e
          · exact .inl (congrArg Sum.inl (Subtype.ext e))
          · exact .inr (t4 (.inl _) (.inl _) e)
        · have := hl.1; rw [hA x hax] at this; cases this
      · refine .inr ⟨k1, ?_⟩
        rintro (c | C) u hc hl
        · exact k2 c.1 u c.2 (back hc) hl
        · have := hl.1; rw [hA x hax] at this; cases this
    · obtain ⟨hg, h⟩ := h
      have hnA : ∀ c : { a // FreeOp R A a }, ∀ u, ¬ FreeLeft R V c.1 x u := by
        intro c u hu
        obtain ⟨it, h1, h2, -⟩ := c.2
        obtain ⟨it', w, i1, i2, -⟩ := hu
        rw [h1] at i1; cases i1
        rw [i2] at h2
        rw [hA x h2] at hg; cases hg
      rcases section_last hG h hg with ⟨S', k1, k2, k3, k4⟩ | ⟨k1, k2⟩
      · refine .inl ⟨.inr S', t4 (.inr _) (.inr _) (.inl k1), ⟨by rw [hg, k2], k3⟩, ?_⟩
        rintro (c | C) u hc hl
        · exact absurd hl (hnA c u)
        · have hm : L.mutex C = L.mutex S := by
            have := hl.1; rw [hg] at this; exact (Option.some.inj this).symm
          rcases k4 C u hm (backS hm hc) hl.2 with e | e
          · exact .inl (congrArg Sum.inr e)
          · exact .inr (t4 (.inr _) (.inr _) (.inl e))
      · refine .inr ⟨k1, ?_⟩
        rintro (c | C) u hc hl
        · exact absurd hl (hnA c u)
        · have hm : L.mutex C = L.mutex S := by
            have := hl.1; rw [hg] at this; exact (Option.some.inj this).symm
          exact k2 C u hm (backS hm hc) hl.2

end Locks
end Verif.Locked
