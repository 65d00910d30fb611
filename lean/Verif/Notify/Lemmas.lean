import Verif.Locked.OneOrder
import Verif.Notify.Model

/-
A notification that comes after the registration of a waiter finds it.
-/

namespace Verif.Notify

open Verif.Order Verif.Mca Verif.Mca.Run Verif.Locked

variable {cpu : Cpu} {R : Mca.Run cpu} {M : Memory R} {V : Values} {L : Locks M V}

theorem chain_time {u w : Pos} (h : Chain R M.rf u w) : u = w ∨ R.time u .wr < R.time w .wr := by
  induction h with
  | head => exact .inl rfl
  | rmw _ h1 h2 h3 h4 ih =>
    have := M.older h4 h2 h3 h1
    rcases ih with rfl | h
    · exact .inr this
    · exact .inr (Nat.lt_trans h this)

/-- Earlier sections take the mutex at an earlier time. -/
theorem prior_time {S S' : L.Sec} (hm : L.mutex S = L.mutex S') (h : L.Prior S S') :
    R.time (L.lw S) .wr < R.time (L.lw S') .wr := by
  have hne : S ≠ S' := by rintro rfl; exact Locks.prior_irrefl S h
  have ho : Locks.On (R := R) (L.mutex S') (L.lw S) := hm ▸ L.on_lw S
  rcases M.mo_total (L.lw_wr S) (L.lw_wr S') (ho.sameLoc (L.on_lw S')) (fun e => hne (Locks.lw_inj e)) with k | k
  · rcases chain_time (L.chain ⟨S', rfl⟩ ho _ rfl (L.on_lw S') (.inr k)) with e | e
    · exact absurd (Locks.lw_inj e) hne
    · exact e
  · exact absurd (Locks.prior_trans h (L.prior_of_mo hm.symm k)) (Locks.prior_irrefl S)

theorem left_unique {a b : OpId} {x v v' : Nat} (h : SectionLeft R V a b x v) (h' : SectionLeft R V a b x v') : v = v' := by
  obtain ⟨w, y, i1, i2, i3, i4, rfl, i5⟩ := h
  obtain ⟨w', y', j1, j2, j3, j4, rfl, j5⟩ := h'
  have t : w.1 = w'.1 := by
    obtain ⟨_, _, k1, k2, -⟩ := i1
    obtain ⟨_, _, l1, l2, -⟩ := j1
    rw [k1.bounds.1, l1.bounds.1, k2, l2]
  rcases Nat.lt_trichotomy w.2 w'.2 with h | h | h
  · exact absurd ⟨t, h⟩ (i5 _ _ j1 j2 j3 j4)
  · rw [Prod.ext t h]
  · exact absurd ⟨t.symm, h⟩ (j5 _ _ i1 i2 i3 i4)

variable {guard : Nat → Option Nat} {slot : Nat → Nat} {does : L.Sec → Nat → Option Call}

/-- A section after the registration finds the waiter, if none has removed it. -/
theorem finds (hG : L.Guards guard) (hK : Records R M.rf V guard L.mutex L.take L.give slot does) {S : L.Sec} {x k u : Nat}
    (hg : guard (slot x) = some (L.mutex S)) (hl : SectionLeft R V (L.take S) (L.give S) (slot x) u) (hu : u.testBit k = true)
    (hB : ∀ B, L.mutex B = L.mutex S → ¬ Wakes R M.rf V L.take L.give slot B x k) : ∀ (n : Nat) {N : L.Sec} {v : Nat},
    R.time (L.lw N) .wr = n → L.mutex N = L.mutex S → L.Prior S N →
    SectionFound R M.rf V (L.take N) (L.give N) (slot x) v → v.testBit k = true := by
  intro n
  induction n using Nat.strongRecOn with
  | _ n ih =>
    intro N v hn hm hp hf
    rcases Locks.section_last hG hf (by rw [hm, hg]) with ⟨T, h1, h2, h3, h4⟩ | ⟨-, h⟩
    · rcases h4 S u hm.symm hp hl with rfl | h
      · rw [← left_unique hl h3]; exact hu
      · obtain ⟨u', hu'⟩ := hK.reads T x v h3
        have := ih _ (hn ▸ prior_time h2 h1) rfl (h2.trans hm) h hu'
        cases hv : v.testBit k with
        | true => rfl
        | false => exact absurd ⟨u', v, hu', h3, this, hv⟩ (hB T (h2.trans hm))
    · exact absurd hl (h S u hm.symm hp)

/-- If a notification does not reach a waiter, the waiter has compared a value that is at least as recent as the
modifications before the notification. -/
theorem recent {S N : L.Sec} (hm : L.mutex N = L.mutex S) (hne : N ≠ S) (hnot : ¬ L.Prior S N) {w r : Pos} {s : Option Pos}
    (hw : R.Has w .wr) (hr : R.Has r .rd) (hl : R.SameLoc w r) (hin : L.Inside S r) (hpre : Precedes R M.hb w (L.take N))
    (hrf : M.rf r s) : s = some w ∨ ∃ w', s = some w' ∧ M.mo w w' := by
  have hp : L.Prior N S := (Locks.prior_total hm hne).resolve_right hnot
  obtain ⟨g, k, it, it', h1, h2, h3⟩ := hp
  obtain ⟨id, jt, w2, f1, f2, f3⟩ := hin
  obtain ⟨e, id', jt', w1, e1, e2, e3⟩ := hpre
  have hlast : M.hb e r := M.trans (M.sb (w1.lt h1 (e1.trans (L.same N)) (Nat.lt_trans e2 (L.lt N))))
    (M.trans h3 (M.sb (h2.lt w2 f1.symm f2)))
  refine M.writeRead ?_ hw hr hl hrf
  rcases e3 with rfl | e3
  · exact hlast
  · exact M.trans e3 hlast

theorem not_notified (hG : L.Guards guard) (hK : Records R M.rf V guard L.mutex L.take L.give slot does) {S N : L.Sec}
    {x k old : Nat} (h1 : does S x = some (.wait k old))
    (h2 : ∀ B, L.mutex B = L.mutex S → ¬ Wakes R M.rf V L.take L.give slot B x k) (hN : does N x = some .notifyAll) :
    ¬ L.Prior S N := by
  intro hp
  obtain ⟨⟨u, hu, hk⟩, -⟩ := hK.wait _ _ _ _ h1
  have hg := hK.guarded _ _ _ h1
  have hm : L.mutex N = L.mutex S := Option.some.inj ((hK.guarded _ _ _ hN).symm.trans hg)
  obtain ⟨v, hv, h⟩ := hK.all _ _ hN
  have := finds hG hK hg hu hk h2 _ rfl hm hp hv
  rcases h with rfl | h
  · simp at this
  · exact h2 N hm ⟨v, 0, hv, h, this, by simp⟩

theorem one_notified (hG : L.Guards guard) (hK : Records R M.rf V guard L.mutex L.take L.give slot does) {S N : L.Sec}
    {x old k : Nat} (h1 : does S x = some (.wait k old))
    (h2 : ∀ B, L.mutex B = L.mutex S → ¬ Wakes R M.rf V L.take L.give slot B x k) (hN : does N x = some .notifyOne) (hp : L.Prior S N) : ∃ j, j ≠ k ∧ Wakes R M.rf V L.take L.give slot N x j := by
  obtain ⟨⟨u, hu, hk⟩, -⟩ := hK.wait _ _ _ _ h1
  have hg := hK.guarded _ _ _ h1
  have hm : L.mutex N = L.mutex S := Option.some.inj ((hK.guarded _ _ _ hN).symm.trans hg)
  obtain ⟨v, hv, h⟩ := hK.one _ _ hN
  have := finds hG hK hg hu hk h2 _ rfl hm hp hv
  rcases h with rfl | ⟨j, v', hj, hv', h⟩
  · simp at this
  · have hw : Wakes R M.rf V L.take L.give slot N x j := ⟨v, v', hv, hv', hj, by simp [h]⟩
    exact ⟨j, by rintro rfl; exact h2 N hm hw, hw⟩

/-- A waiter that is left blocked has compared a value at least as recent as the modifications before any notify_all. -/
theorem compared (hG : L.Guards guard) (hK : Records R M.rf V guard L.mutex L.take L.give slot does) {S N : L.Sec}
    {x k old : Nat} (h1 : does S x = some (.wait k old))
    (h2 : ∀ B, L.mutex B = L.mutex S → ¬ Wakes R M.rf V L.take L.give slot B x k) (hN : does N x = some .notifyAll) {w : Pos}
    (hpre : Precedes R M.hb w (L.take N)) : ¬ Settles R V M.mo x old w := by
  rintro ⟨⟨y, hy, rfl⟩, hw, hv, hlater⟩
  have hnot := not_notified hG hK h1 h2 hN
  obtain ⟨-, r, s, y', hin, hr, hy', hl, hrf, hval⟩ := hK.wait _ _ _ _ h1
  have hm : L.mutex N = L.mutex S := Option.some.inj ((hK.guarded _ _ _ hN).symm.trans (hK.guarded _ _ _ h1))
  have hne : N ≠ S := by rintro rfl; rw [h1] at hN; cases hN
  rcases recent hm hne hnot hw hr ⟨y, y', hy, hy', hl.symm⟩ hin hpre hrf with rfl | ⟨w', rfl, h⟩
  · exact hv hval
  · obtain ⟨hw', z, z', hz, hz', he⟩ := M.source hr hrf
    exact hlater w' z' hz' (he.symm.trans ((congrArg Ev.loc (hz.unique hy')).trans hl)) hw' h hval

theorem compared_one (hG : L.Guards guard) (hK : Records R M.rf V guard L.mutex L.take L.give slot does) {S N : L.Sec}
    {x k old : Nat} (h1 : does S x = some (.wait k old))
    (h2 : ∀ B, L.mutex B = L.mutex S → ¬ Wakes R M.rf V L.take L.give slot B x k) (hN : does N x = some .notifyOne) {w : Pos}
    (hpre : Precedes R M.hb w (L.take N)) (hset : Settles R V M.mo x old w) :
    ∃ j, j ≠ k ∧ Wakes R M.rf V L.take L.give slot N x j := by
  obtain ⟨⟨y, hy, rfl⟩, hw, hv, hlater⟩ := hset
  obtain ⟨-, r, s, y', hin, hr, hy', hl, hrf, hval⟩ := hK.wait _ _ _ _ h1
  have hm : L.mutex N = L.mutex S := Option.some.inj ((hK.guarded _ _ _ hN).symm.trans (hK.guarded _ _ _ h1))
  have hne : N ≠ S := by rintro rfl; rw [h1] at hN; cases hN
  by_cases hp : L.Prior S N
  · exact one_notified hG hK h1 h2 hN hp
  · rcases recent hm hne hp hw hr ⟨y, y', hy, hy', hl.symm⟩ hin hpre hrf with rfl | ⟨w', rfl, h⟩
    · exact absurd hval hv
    · obtain ⟨hw', z, z', hz, hz', he⟩ := M.source hr hrf
      exact absurd hval (hlater w' z' hz' (he.symm.trans ((congrArg Ev.loc (hz.unique hy')).trans hl)) hw' h)

end Verif.Notify
