import Verif.Mca.MixedLemmas

/-
Mutual exclusion on memories that reorder accesses: what the proofs for the machines of `Verif.Mca` and `Verif.Pow` have in
common.
-/

namespace Verif.Locked

open Verif.Order Verif.Mca Verif.Mca.Run

variable {cpu : Cpu}

/-- The writes that read one another, from `w` on. -/
inductive Chain (R : Mca.Run cpu) (rf : Pos → Option Pos → Prop) (w : Pos) : Pos → Prop where
  | head : Chain R rf w w
  | rmw {v r v' : Pos} : Chain R rf w v → rf r (some v) → R.Has r .rd → R.Has v' .wr → R.Paired r v' → Chain R rf w v'

/-- What the machines have in common. -/
structure Memory (R : Mca.Run cpu) where
  rf : Pos → Option Pos → Prop
  mo : Pos → Pos → Prop
  hb : Pos → Pos → Prop
  irrefl : ∀ a, ¬ hb a a
  trans : ∀ {a b c}, hb a b → hb b c → hb a c
  sb : ∀ {a b}, Before a b → hb a b
  mo_irrefl : ∀ a, ¬ mo a a
  mo_trans : ∀ {a b c}, mo a b → mo b c → mo a c
  mo_total : ∀ {a b}, R.Has a .wr → R.Has b .wr → R.SameLoc a b → a ≠ b → mo a b ∨ mo b a
  atomic : ∀ {r w s}, R.Paired r w → R.Has r .rd → R.Has w .wr → rf r s → (∀ u, s = some u → mo u w) ∧
    ∀ v, R.Has v .wr → R.SameLoc v w → mo v w → s = some v ∨ ∃ u, s = some u ∧ mo v u
  writeWrite : ∀ {a b}, hb a b → R.Has a .wr → R.Has b .wr → R.SameLoc a b → mo a b
  writeRead : ∀ {a b s}, hb a b → R.Has a .wr → R.Has b .rd → R.SameLoc a b → rf b s →
    s = some a ∨ ∃ w, s = some w ∧ mo a w
  readWrite : ∀ {a b w}, hb a b → R.Has a .rd → R.Has b .wr → R.SameLoc a b → rf a (some w) → mo w b
  source : ∀ {r w}, R.Has r .rd → rf r (some w) → R.Has w .wr ∧ R.SameLoc r w
  self : ∀ {r}, R.Has r .rd → ¬ rf r (some r)
  older : ∀ {r w p}, R.Paired r w → R.Has r .rd → R.Has w .wr → rf r (some p) → R.time p .wr < R.time w .wr
  inOrder : ∀ {a b}, Before a b → R.Has a .wr → R.Has b .wr → R.SameLoc a b → R.time a .wr < R.time b .wr
  sync : ∀ {e w v r f}, R.Released e w → R.Has w .wr → Chain R rf w v → rf r (some v) → R.Has r .rd → r.1 ≠ w.1 →
    R.Acquired r f → hb e f

/-- The critical sections of a program: the operations that take and give back the mutex, with their reads and writes.
The lowest bit of the mutex word says whether it is taken. -/
structure Locks {R : Mca.Run cpu} (M : Memory R) (V : Values) where
  Sec : Type
  mutex : Sec → Nat
  take : Sec → OpId
  give : Sec → OpId
  lr : Sec → Pos
  lw : Sec → Pos
  uw : Sec → Pos
  same : ∀ S, (take S).1 = (give S).1
  lt : ∀ S, (take S).2 < (give S).2
  inj : ∀ S S', take S = take S' → S = S'
  ne : ∀ S S', take S ≠ give S'
  lr_in : ∀ S, ∃ it, R.Within (lr S) (take S) it
  lw_in : ∀ S, ∃ it, R.Within (lw S) (take S) it
  uw_in : ∀ S, ∃ it, R.Within (uw S) (give S) it
  lr_rd : ∀ S, R.Has (lr S) .rd
  lw_wr : ∀ S, R.Has (lw S) .wr
  uw_wr : ∀ S, R.Has (uw S) .wr
  pair : ∀ S, R.Paired (lr S) (lw S)
  acquire : ∀ S, R.AcquireRead (lr S)
  release : ∀ S, R.ReleaseWrite (uw S)
  lw_loc : ∀ S x, R.Is (lw S) x → x.loc = mutex S
  uw_loc : ∀ S x, R.Is (uw S) x → x.loc = mutex S
  /-- the mutex is free when it is taken -/
  taken : ∀ S, ∃ s, M.rf (lr S) s ∧ V.of (mutex S) s % 2 = 0
  lw_val : ∀ S, V.val (lw S) % 2 = 1
  uw_val : ∀ S, V.val (uw S) % 2 = 0
  uw_rmw : ∀ S, ∃ r s, R.Paired r (uw S) ∧ R.Has r .rd ∧ M.rf r s
  /-- all other writes of the word leave the bit as it is -/
  others : ∀ w x S, R.Is w x → R.Has w .wr → x.loc = mutex S → (∃ S', w = lw S') ∨ (∃ S', w = uw S') ∨
    ∃ r s, R.Paired r w ∧ R.Has r .rd ∧ M.rf r s ∧ V.val w % 2 = V.of (mutex S) s % 2
  init : ∀ S, V.init (mutex S) % 2 = 0

namespace Locks

variable {R : Mca.Run cpu} {M : Memory R} {V : Values} (L : Locks M V)

/-- The mutex is held by the section after the write `w`. -/
def Open (S : L.Sec) (w : Pos) : Prop := (L.lw S = w ∨ M.mo (L.lw S) w) ∧ M.mo w (L.uw S)

/-- `w` writes the word of the mutex. -/
def On (m : Nat) (w : Pos) : Prop := R.Has w .wr ∧ ∃ x, R.Is w x ∧ x.loc = m

variable {L}

theorem on_lw (S : L.Sec) : On (R := R) (L.mutex S) (L.lw S) := by
  obtain ⟨x, hx, -⟩ := L.lw_wr S
  exact ⟨L.lw_wr S, x, hx, L.lw_loc S x hx⟩

theorem on_uw (S : L.Sec) : On (R := R) (L.mutex S) (L.uw S) := by
  obtain ⟨x, hx, -⟩ := L.uw_wr S
  exact ⟨L.uw_wr S, x, hx, L.uw_loc S x hx⟩

theorem On.sameLoc {m : Nat} {w v : Pos} (h : On (R := R) m w) (h' : On (R := R) m v) : R.SameLoc w v := by
  obtain ⟨-, x, hx, e⟩ := h
  obtain ⟨-, y, hy, e'⟩ := h'
  exact ⟨x, y, hx, hy, e.trans e'.symm⟩

theorem On.of_sameLoc {m : Nat} {w v : Pos} (h : On (R := R) m w) (hv : R.Has v .wr) (hl : R.SameLoc w v) :
    On (R := R) m v := by
  obtain ⟨-, x, hx, e⟩ := h
  obtain ⟨x', y, hx', hy, e'⟩ := hl
  rw [hx.unique hx'] at e
  exact ⟨hv, y, hy, e'.symm.trans e⟩

theorem lw_before (S : L.Sec) : Before (L.lw S) (L.uw S) := by
  obtain ⟨_, h⟩ := L.lw_in S
  obtain ⟨_, h'⟩ := L.uw_in S
  exact h.lt h' (L.same S) (L.lt S)

theorem lw_mo (S : L.Sec) : M.mo (L.lw S) (L.uw S) :=
  M.writeWrite (M.sb (L.lw_before S)) (L.lw_wr S) (L.uw_wr S) ((L.on_lw S).sameLoc (L.on_uw S))

theorem lw_inj {S S' : L.Sec} (h : L.lw S = L.lw S') : S = S' := by
  obtain ⟨_, h1⟩ := L.lw_in S
  obtain ⟨_, h2⟩ := L.lw_in S'
  rw [h] at h1
  exact L.inj _ _ (h1.unique h2).1

theorem lw_ne {S S' : L.Sec} : L.lw S ≠ L.uw S' := by
  intro h
  obtain ⟨_, h1⟩ := L.lw_in S
  obtain ⟨_, h2⟩ := L.uw_in S'
  rw [h] at h1
  exact L.ne _ _ (h1.unique h2).1

/-- Every write of the word is made by reading the last one before it. -/
theorem predecessor {m : Nat} {w : Pos} (h : On (R := R) m w) (hm : ∃ S, L.mutex S = m) :
    ∃ s, (∀ p, s = some p → On (R := R) m p ∧ M.mo p w ∧ R.time p .wr < R.time w .wr ∧
        ∃ r, M.rf r (some p) ∧ R.Has r .rd ∧ R.Paired r w) ∧
      (∀ v, On (R := R) m v → M.mo v w → ∃ p, s = some p ∧ (v = p ∨ M.mo v p)) ∧
      ((∃ S, L.mutex S = m ∧ w = L.lw S ∧ V.of m s % 2 = 0) ∨ (∃ S, L.mutex S = m ∧ w = L.uw S) ∨
        ((∀ S, w ≠ L.lw S) ∧ (∀ S, w ≠ L.uw S) ∧ V.val w % 2 = V.of m s % 2)) := by
  obtain ⟨S₀, rfl⟩ := hm
  have key : ∀ r s, R.Paired r w → R.Has r .rd → M.rf r s →
      (∀ p, s = some p → On (R := R) (L.mutex S₀) p ∧ M.mo p w ∧ R.time p .wr < R.time w .wr ∧
        ∃ r, M.rf r (some p) ∧ R.Has r .rd ∧ R.Paired r w) ∧
      ∀ v, On (R := R) (L.mutex S₀) v → M.mo v w → ∃ p, s = some p ∧ (v = p ∨ M.mo v p) := by
    intro r s hp hr hs
    obtain ⟨h1, h2⟩ := M.atomic hp hr h.1 hs
    refine ⟨?_, ?_⟩
    · rintro p rfl
      obtain ⟨hpw, hl⟩ := M.source hr hs
      exact ⟨h.of_sameLoc hpw (hp.1.symm.trans hl), h1 p rfl, M.older hp hr h.1 hs, r, hs, hr, hp⟩
    · intro v hv hvw
      rcases h2 v hv.1 (hv.sameLoc h) hvw with e | ⟨u, e, hu⟩
      · exact ⟨v, e, .inl rfl⟩
      · exact ⟨u, e, .inr hu⟩
  have same : ∀ {S w'}, On (R := R) (L.mutex S₀) w → w = w' → On (R := R) (L.mutex S) w' → L.mutex S = L.mutex S₀ := by
    rintro S w' ⟨-, x, hx, e⟩ rfl ⟨-, y, hy, e'⟩
    rw [hx.unique hy] at e
    exact e'.symm.trans e
  obtain ⟨-, x, hx, hxl⟩ := _root_.id h
  by_cases h1 : ∃ S, w = L.lw S
  · obtain ⟨S, hS⟩ := h1
    obtain ⟨s, hs, hv⟩ := L.taken S
    have hm := same h hS (L.on_lw S)
    obtain ⟨k1, k2⟩ := key _ s (hS ▸ L.pair S) (L.lr_rd S) hs
    exact ⟨s, k1, k2, .inl ⟨S, hm, hS, hm ▸ hv⟩⟩
  by_cases h2 : ∃ S, w = L.uw S
  · obtain ⟨S, hS⟩ := h2
    obtain ⟨r, s, hp, hr, hs⟩ := L.uw_rmw S
    obtain ⟨k1, k2⟩ := key r s (hS ▸ hp) hr hs
    exact ⟨s, k1, k2, .inr (.inl ⟨S, same h hS (L.on_uw S), hS⟩)⟩
  rcases L.others w x S₀ hx h.1 hxl with h' | h' | ⟨r, s, hp, hr, hs, hv⟩
  · exact absurd h' h1
  · exact absurd h' h2
  · obtain ⟨k1, k2⟩ := key r s hp hr hs
    exact ⟨s, k1, k2, .inr (.inr ⟨fun S e => h1 ⟨S, e⟩, fun S e => h2 ⟨S, e⟩, hv⟩)⟩

/-- The word says whether the mutex is held, and it is held by one section at most. -/
theorem exclusion {m : Nat} (hm : ∃ S, L.mutex S = m) : ∀ (n : Nat) {w : Pos}, R.time w .wr = n → On (R := R) m w →
    (V.val w % 2 = 1 ↔ ∃ S, L.mutex S = m ∧ L.Open S w) ∧
    ∀ S S', L.mutex S = m → L.mutex S' = m → L.Open S w → L.Open S' w → S = S' := by
  intro n
  induction n using Nat.strongRecOn with
  | _ n ih =>
    intro w hn hw
    obtain ⟨s, hs1, hs2, hs3⟩ := L.predecessor hw hm
    -- the state before the write
    have pre : (V.of m s % 2 = 1 ↔ ∃ S p, L.mutex S = m ∧ s = some p ∧ L.Open S p) ∧
        ∀ S S' p, L.mutex S = m → L.mutex S' = m → s = some p → L.Open S p → L.Open S' p → S = S' := by
      cases s with
      | none =>
        obtain ⟨S, rfl⟩ := hm
        refine ⟨⟨fun h => ?_, by rintro ⟨_, _, -, e, -⟩; cases e⟩, by rintro _ _ _ _ _ e; cases e⟩
        have := L.init S
        simp only [Values.of] at h; omega
      | some p =>
        obtain ⟨hp, -, hlt, -⟩ := hs1 p rfl
        obtain ⟨i1, i2⟩ := ih _ (hn ▸ hlt) rfl hp
        refine ⟨⟨fun h => ?_, ?_⟩, ?_⟩
        · obtain ⟨S, h1, h2⟩ := i1.1 h
          exact ⟨S, p, h1, rfl, h2⟩
        · rintro ⟨S, _, h1, e, h2⟩
          cases e
          exact i1.2 ⟨S, h1, h2⟩
        · rintro S S' _ h1 h2 e
          cases e
          exact i2 S S' h1 h2
    -- a section that is open after the write, and is not opened by it, was open before
    have back : ∀ S, L.mutex S = m → L.Open S w → w ≠ L.lw S → ∃ p, s = some p ∧ L.Open S p := by
      rintro S rfl ⟨h1, h2⟩ hne
      obtain ⟨p, e, h3⟩ := hs2 _ (L.on_lw S) (h1.resolve_left fun e => hne e.symm)
      exact ⟨p, e, h3, M.mo_trans (hs1 p e).2.1 h2⟩
    rcases hs3 with ⟨S, hS, rfl, hv⟩ | ⟨S, hS, rfl⟩ | ⟨hl, hu, hv⟩
    · have only : ∀ S', L.mutex S' = m → L.Open S' (L.lw S) → S' = S := by
        intro S' hS' ho
        by_cases he : L.lw S = L.lw S'
        · exact (lw_inj he).symm
        · obtain ⟨p, e, h⟩ := back S' hS' ho he
          have := pre.1.2 ⟨S', p, hS', e, h⟩
          omega
      refine ⟨⟨fun _ => ⟨S, hS, .inl rfl, L.lw_mo S⟩, fun _ => L.lw_val S⟩, ?_⟩
      intro S1 S2 h1 h2 o1 o2
      rw [only S1 h1 o1, only S2 h2 o2]
    · have none : ∀ S', L.mutex S' = m → ¬ L.Open S' (L.uw S) := by
        intro S' hS' ho
        obtain ⟨p, e, h⟩ := back S' hS' ho (fun e => lw_ne e.symm)
        have ho' : L.Open S p := by
          obtain ⟨q, e', h3⟩ := hs2 _ (hS ▸ L.on_lw S) (L.lw_mo S)
          rw [e] at e'; cases e'
          exact ⟨h3, (hs1 p e).2.1⟩
        obtain rfl := pre.2 S' S p hS' hS e h ho'
        exact M.mo_irrefl _ ho.2
      refine ⟨⟨fun h => ?_, ?_⟩, fun S1 _ h1 _ o1 => absurd o1 (none S1 h1)⟩
      · have := L.uw_val S; omega
      · rintro ⟨S', hS', ho⟩; exact absurd ho (none S' hS')
    · have fwd : ∀ S p, L.mutex S = m → s = some p → L.Open S p → L.Open S w := by
        rintro S p hS e ⟨h1, h2⟩
        obtain ⟨hp, hpw, -⟩ := hs1 p e
        refine ⟨.inr ?_, ?_⟩
        · rcases h1 with h1 | h1
          · rw [h1]; exact hpw
          · exact M.mo_trans h1 hpw
        · rcases M.mo_total hw.1 (L.uw_wr S) (hw.sameLoc (hS ▸ L.on_uw S)) (hu S) with h | h
          · exact h
          · obtain ⟨q, e', h3⟩ := hs2 _ (hS ▸ L.on_uw S) h
            rw [e] at e'; cases e'
            rcases h3 with h3 | h3
            · rw [h3] at h2; exact absurd h2 (M.mo_irrefl _)
            · exact absurd (M.mo_trans h3 h2) (M.mo_irrefl _)
      refine ⟨⟨fun h => ?_, ?_⟩, ?_⟩
      · obtain ⟨S, p, hS, e, ho⟩ := pre.1.1 (by omega)
        exact ⟨S, hS, fwd S p hS e ho⟩
      · rintro ⟨S, hS, ho⟩
        obtain ⟨p, e, h⟩ := back S hS ho (hl S)
        have := pre.1.2 ⟨S, p, hS, e, h⟩
        omega
      · intro S S' hS hS' o1 o2
        obtain ⟨p, e, h⟩ := back S hS o1 (hl S)
        obtain ⟨q, e', h'⟩ := back S' hS' o2 (hl S')
        rw [e] at e'; cases e'
        exact pre.2 S S' p hS hS' e h h'

/-- Every later write of the word is in the release sequence of the write that gives the mutex back. -/
theorem chain {m : Nat} (hm : ∃ S, L.mutex S = m) {u : Pos} (hu : On (R := R) m u) : ∀ (n : Nat) {w : Pos},
    R.time w .wr = n → On (R := R) m w → (u = w ∨ M.mo u w) → Chain R M.rf u w := by
  intro n
  induction n using Nat.strongRecOn with
  | _ n ih =>
    rintro w hn hw (rfl | h)
    · exact .head
    · obtain ⟨s, hs1, hs2, -⟩ := L.predecessor hw hm
      obtain ⟨p, e, hp⟩ := hs2 u hu h
      obtain ⟨h1, h2, h3, r, h4, h5, h6⟩ := hs1 p e
      exact .rmw (ih _ (hn ▸ h3) rfl h1 hp) h4 h5 hw.1 h6

/-- The section `S` is before `S'`: what is done in it or before it happens before what is done in `S'` or after it. -/
def Prior (L : Locks M V) (S S' : L.Sec) : Prop :=
  ∃ e f it it', R.Within e (L.give S) it ∧ R.Within f (L.take S') it' ∧ M.hb e f

theorem prior_of_mo {S S' : L.Sec} (hm : L.mutex S = L.mutex S') (h : M.mo (L.lw S) (L.lw S')) : L.Prior S S' := by
  obtain ⟨_, hl⟩ := L.lr_in S'
  obtain ⟨_, hl'⟩ := L.lw_in S'
  obtain ⟨_, hu⟩ := L.uw_in S
  have ho : On (R := R) (L.mutex S') (L.lw S) := hm ▸ L.on_lw S
  have hou : On (R := R) (L.mutex S') (L.uw S) := hm ▸ L.on_uw S
  obtain ⟨s, hs, hv⟩ := L.taken S'
  obtain ⟨h1, h2⟩ := M.atomic (L.pair S') (L.lr_rd S') (L.lw_wr S') hs
  obtain ⟨p, rfl, hle⟩ : ∃ p, s = some p ∧ (L.lw S = p ∨ M.mo (L.lw S) p) := by
    rcases h2 _ (L.lw_wr S) (ho.sameLoc (L.on_lw S')) h with e | ⟨u, e, hu⟩
    · exact ⟨_, e, .inl rfl⟩
    · exact ⟨u, e, .inr hu⟩
  obtain ⟨hpw, hpl⟩ := M.source (L.lr_rd S') hs
  have hp : On (R := R) (L.mutex S') p := (L.on_lw S').of_sameLoc hpw ((L.pair S').1.symm.trans hpl)
  have hup : L.uw S = p ∨ M.mo (L.uw S) p := by
    by_cases he : L.uw S = p
    · exact .inl he
    · rcases M.mo_total (L.uw_wr S) hpw (hou.sameLoc hp) he with h | h
      · exact .inr h
      · have := (L.exclusion ⟨S', rfl⟩ _ rfl hp).1.2 ⟨S, hm, hle, h⟩
        simp only [Values.of] at hv; omega
  have hch := L.chain ⟨S', rfl⟩ hou _ rfl hp hup
  refine ⟨L.uw S, L.lr S', _, _, hu, hl, ?_⟩
  by_cases ht : (L.lr S').1 = (L.uw S).1
  · -- in one thread
    have hmo : M.mo (L.uw S) (L.lw S') := by
      rcases hup with e | h
      · rw [e]; exact h1 p rfl
      · exact M.mo_trans h (h1 p rfl)
    have t1 := hl.bounds.1
    have t2 := hl'.bounds.1
    have t3 := hu.bounds.1
    have hb : Before (L.uw S) (L.lw S') := by
      rcases Nat.lt_trichotomy (L.uw S).2 (L.lw S').2 with hlt | heq | hgt
      · exact ⟨by rw [← ht, t1, t2], hlt⟩
      · exact absurd (Prod.ext (by rw [← ht, t1, t2]) heq).symm lw_ne
      · have := M.writeWrite (M.sb ⟨by rw [← ht, t1, t2], hgt⟩) (L.lw_wr S') (L.uw_wr S) ((L.on_lw S').sameLoc hou)
        exact absurd (M.mo_trans this hmo) (M.mo_irrefl _)
    obtain ⟨e0, e1⟩ := hu.before hl' hb
    rcases e1 with e1 | e1
    · exact absurd e1.symm (L.ne _ _)
    · exact M.sb (hu.lt hl e0 e1)
  · exact M.sync (.inl ⟨L.release S, .inl rfl⟩) (L.uw_wr S) hch hs (L.lr_rd S') ht (.inl ⟨L.acquire S', .inl rfl⟩)

theorem prior_total {S S' : L.Sec} (hm : L.mutex S = L.mutex S') (hne : S ≠ S') : L.Prior S S' ∨ L.Prior S' S := by
  rcases M.mo_total (L.lw_wr S) (L.lw_wr S') ((hm ▸ L.on_lw S).sameLoc (L.on_lw S')) (fun e => hne (lw_inj e)) with h | h
  · exact .inl (L.prior_of_mo hm h)
  · exact .inr (L.prior_of_mo hm.symm h)

theorem prior_trans {S S' S'' : L.Sec} (h : L.Prior S S') (h' : L.Prior S' S'') : L.Prior S S'' := by
  obtain ⟨e, f, it, it', h1, h2, h3⟩ := h
  obtain ⟨g, k, jt, jt', h4, h5, h6⟩ := h'
  exact ⟨e, k, it, jt', h1, h5, M.trans h3 (M.trans (M.sb (h2.lt h4 (L.same _) (L.lt _))) h6)⟩

theorem prior_irrefl (S : L.Sec) : ¬ L.Prior S S := by
  rintro ⟨e, f, it, it', h1, h2, h3⟩
  exact M.irrefl _ (M.trans h3 (M.sb (h2.lt h1 (L.same _) (L.lt _))))

theorem prior_sb {S S' : L.Sec} (h0 : (L.give S).1 = (L.take S').1) (h : (L.give S).2 < (L.take S').2) : L.Prior S S' := by
  obtain ⟨_, hu⟩ := L.uw_in S
  obtain ⟨_, hl⟩ := L.lw_in S'
  exact ⟨_, _, _, _, hu, hl, M.sb (hu.lt hl h0 h)⟩

end Locks
end Verif.Locked
