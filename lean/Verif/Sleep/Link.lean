import Verif.Locked.Program
import Verif.Sleep.Model

/-
The sections of a program satisfy what `Verif.Locked.Exclusion` needs, also if they contain one another.
-/

namespace Verif.Sleep

open Verif.Order Verif.Mca Verif.Mca.Run Verif.Locked

variable {cpu : Cpu} {R : Mca.Run cpu} {M : Memory R} {V : Values} {guard : Nat → Option Nat} {Z : Sections}

/-- The accesses of the operation that takes or gives back a mutex. -/
structure Access (R : Mca.Run cpu) (id : OpId) (m : Nat) (r w : Pos) : Prop where
  ret : R.Ret id r
  rd : R.Has r .rd
  pub : R.Pub id w
  wr : R.Has w .wr
  pair : R.Paired r w
  only : ∀ e it, R.Within e id it → R.Has e .wr → e = w
  loc : ∀ x, R.Is w x → x.loc = m

theorem access {id : OpId} {it : Item} (h : (R.prog id.1)[id.2]? = some it) (hr : it.isRmw = true) :
    ∃ r w, Access R id it.loc r w := by
  obtain ⟨r, w, h1, h2, h3, h4, h5, h6⟩ := rmw_facts h hr
  refine ⟨r, w, h1, h2, h3, h4, h5, h6, ?_⟩
  intro x hx
  obtain ⟨it, y, hin, -, -⟩ := h3
  have := hin.item; rw [h] at this; cases this
  exact hin.loc hx

theorem acquire_of {id : OpId} {b n m} (h : (R.prog id.1)[id.2]? = some (.op b (.casOk .relaxed) .acquire n m)) {r : Pos}
    (hr : R.Ret id r) : R.AcquireRead r := by
  obtain ⟨it, x, hin, hx, hr⟩ := hr
  have := hin.item; rw [h] at this; cases this
  obtain ⟨pre, -, -, hi⟩ := hin
  exact ⟨pre, _, _, x, hi, hx, hr, rfl, rfl⟩

theorem release_of {id : OpId} {b n m} (h : (R.prog id.1)[id.2]? = some (.op b (.casOk .relaxed) .release n m)) {w : Pos}
    (hw : R.Pub id w) : R.ReleaseWrite w := by
  obtain ⟨it, x, hin, hx, hr⟩ := hw
  have := hin.item; rw [h] at this; cases this
  obtain ⟨pre, -, -, hi⟩ := hin
  exact ⟨pre, _, _, x, hi, hx, hr, rfl, rfl⟩

theorem taking (hL : Z.Lawful R.prog guard) (S : Z.Sec) : ∃ r w, Access R (Z.take S) (Z.mutex S) r w ∧ R.AcquireRead r := by
  obtain ⟨b, n, h⟩ := hL.take S
  obtain ⟨r, w, hA⟩ := access h rfl
  exact ⟨r, w, hA, acquire_of h hA.ret⟩

theorem giving (hL : Z.Lawful R.prog guard) (S : Z.Sec) : ∃ r w, Access R (Z.give S) (Z.mutex S) r w ∧ R.ReleaseWrite w := by
  obtain ⟨b, n, h⟩ := hL.give S
  obtain ⟨r, w, hA⟩ := access h rfl
  exact ⟨r, w, hA, release_of h hA.pub⟩

/-- The sections of a program that follows the code of the mutexes. -/
noncomputable def locks (M : Memory R) (hL : Z.Lawful R.prog guard) (hH : Z.Holds R M.rf V)
    (hcr : ∀ r c, R.CopyOf r c → R.Has c .wr → R.Has r .rd) : Locks M V :=
  have ht := fun S => (Classical.choose_spec (Classical.choose_spec (taking hL S))).1
  have hg := fun S => (Classical.choose_spec (Classical.choose_spec (giving hL S))).1
  { Sec := Z.Sec
    mutex := Z.mutex
    take := Z.take
    give := Z.give
    lr := fun S => Classical.choose (taking hL S)
    lw := fun S => Classical.choose (Classical.choose_spec (taking hL S))
    uw := fun S => Classical.choose (Classical.choose_spec (giving hL S))
    same := fun S => (hL.order S).1
    lt := fun S => (hL.order S).2
    inj := hL.once
    ne := fun S S' h => by
      obtain ⟨b, n, h1⟩ := hL.take S
      obtain ⟨b', n', h2⟩ := hL.give S'
      rw [h, h2] at h1; cases h1
    lr_in := fun S => by obtain ⟨it, -, h, -⟩ := (ht S).ret; exact ⟨it, h⟩
    lw_in := fun S => by obtain ⟨it, -, h, -⟩ := (ht S).pub; exact ⟨it, h⟩
    uw_in := fun S => by obtain ⟨it, -, h, -⟩ := (hg S).pub; exact ⟨it, h⟩
    lr_rd := fun S => (ht S).rd
    lw_wr := fun S => (ht S).wr
    uw_wr := fun S => (hg S).wr
    pair := fun S => (ht S).pair
    acquire := fun S => (Classical.choose_spec (Classical.choose_spec (taking hL S))).2
    release := fun S => (Classical.choose_spec (Classical.choose_spec (giving hL S))).2
    lw_loc := fun S => (ht S).loc
    uw_loc := fun S => (hg S).loc
    taken := fun S => by
      obtain ⟨s, h1, h2, -⟩ := hH.take S _ _ (ht S).ret (ht S).pub
      exact ⟨s, h1, h2⟩
    lw_val := fun S => by
      obtain ⟨s, -, -, h3⟩ := hH.take S _ _ (ht S).ret (ht S).pub
      exact h3
    uw_val := fun S => by
      obtain ⟨s, -, h3⟩ := hH.give S _ _ (hg S).ret (hg S).pub
      exact h3
    uw_rmw := fun S => by
      obtain ⟨s, h1, -⟩ := hH.give S _ _ (hg S).ret (hg S).pub
      exact ⟨_, s, (hg S).pair, (hg S).rd, h1⟩
    others := by
      intro w x S hx hw hxl
      obtain ⟨id, it, hin⟩ := exists_within hx
      have hl : it.loc = Z.mutex S := (hin.loc hx).symm.trans hxl
      rcases hL.words id it S hin.item (hin.writes hw) hl with ⟨S', rfl⟩ | ⟨S', rfl⟩ | h | h
      · exact .inl ⟨S', (ht S').only _ _ hin hw⟩
      · exact .inr (.inl ⟨S', (hg S').only _ _ hin hw⟩)
      · right; right
        obtain ⟨r, hc⟩ := watch_copy hin.item h hin hw
        obtain ⟨s, h1, h2⟩ := hH.copies r w x hc hx
        exact ⟨r, s, hc.1, hcr r w hc hw, h1, by rw [h2, hxl]⟩
      · right; right
        obtain ⟨r, w', h1, h2, h3, h4, h5, h6⟩ := rmw_facts hin.item h.isRmw
        cases h6 w it hin hw
        obtain ⟨s, k1, k2⟩ := hH.mark id it S hin.item (hl ▸ h) r w h1 h3
        exact ⟨r, s, h5, h2, k1, k2⟩
    init := hH.init }

theorem locks_guards (hL : Z.Lawful R.prog guard) (hH : Z.Holds R M.rf V)
    (hcr : ∀ r c, R.CopyOf r c → R.Has c .wr → R.Has r .rd) : (locks M hL hH hcr).Guards guard := by
  intro e x p m hx he hg
  obtain ⟨id, it, hin⟩ := exists_within hx
  have hf : it.isFence = false := by
    cases it with
    | fence b o => exact absurd he hin.no_access
    | _ => rfl
  obtain ⟨S, h1, h2, h3, h4⟩ := hL.guarded id it m hin.item hf (by rw [← hin.loc hx]; exact hg)
  exact ⟨S, h1, id, it, hin, h2, h3, h4⟩

end Verif.Sleep
