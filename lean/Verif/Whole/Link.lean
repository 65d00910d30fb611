import Verif.Whole.Lemmas

/-
From the order of the operations of a run to a sequence of calls.
-/

namespace Verif.Whole

open Verif.Order Verif.Mca Verif.Mca.Run Verif.Target Verif.Locked

variable {cpu : Cpu} {t : Target} {pool : Pool} {L : Layout} {obj : Nat → Obj} {role : Nat → Role} {prog : Nat → List Step} {P : Nat → List Piece}
  {R : Mca.Run cpu} {rf : Pos → Option Pos → Prop} {V : Values}

/-- The history of the run. -/
def hist (role : Nat → Role) (P : Nat → List Piece) (R : Mca.Run cpu) (rf : Pos → Option Pos → Prop) (V : Values) : History :=
  fullHistoryOf R rf V (fun l => role l = .seqCst) (fun l => role l = .own) (fun l => (role l).guard)
    (fun S : Sec P => S.sec.mutex) Sec.take Sec.give

/-! ### Pieces -/

theorem items_pos (q : Piece) : 0 < q.items.length := by
  cases q with
  | plain it => simp [Piece.items]
  | locked s => simp only [Piece.items, Section.items, List.length_append, List.length_cons]; omega

theorem opAt_lt {p p' : Nat × Nat} {q : Piece} (h : (P p.1)[p.2]? = some q) (h1 : p.1 = p'.1) (h2 : p.2 < p'.2) :
    (opAt P p).2 + q.items.length ≤ (opAt P p').2 := by
  have := start_lt h h2
  simp only [opAt, ← h1]; exact this

theorem opAt_inj {p p' : Nat × Nat} {q q' : Piece} (h : (P p.1)[p.2]? = some q) (h' : (P p'.1)[p'.2]? = some q')
    (he : opAt P p = opAt P p') : p = p' := by
  have h1 : p.1 = p'.1 := (congrArg Prod.fst he :)
  have h2 : (opAt P p).2 = (opAt P p').2 := congrArg Prod.snd he
  rcases Nat.lt_trichotomy p.2 p'.2 with k | k | k
  · have := opAt_lt h h1 k; have := items_pos q; omega
  · exact Prod.ext h1 k
  · have := opAt_lt h' h1.symm k; have := items_pos q'; omega

theorem plain_at (hP : ∀ i, R.prog i = code (P i)) {p : Nat × Nat} {it : Item} (h : (P p.1)[p.2]? = some (.plain it)) :
    (R.prog (opAt P p).1)[(opAt P p).2]? = some it := by
  have := at_piece h (j := 0) (by simp [Piece.items])
  simp only [opAt, hP]
  exact this

/-- The operations between taking and giving back a mutex. -/
theorem inside_item (hP : ∀ i, R.prog i = code (P i)) (S : Sec P) {id : OpId} {it : Item}
    (h : (R.prog id.1)[id.2]? = some it) (h1 : id.1 = S.take.1) (h2 : S.take.2 < id.2) (h3 : id.2 < S.give.2) :
    ∃ k, id.2 = S.take.2 + 1 + k ∧ (S.sec.body ++ S.sec.leave)[k]? = some it := by
  have hlen := Sec.length S.sec
  have e2 : S.take.2 = S.start + S.sec.spin.length := rfl
  have e3 : S.give.2 = S.start + S.sec.spin.length + 1 + S.sec.body.length + S.sec.leave.length := rfl
  refine ⟨id.2 - S.take.2 - 1, by omega, ?_⟩
  rw [e2]
  obtain ⟨k, hk⟩ : ∃ k, id.2 = S.start + (S.sec.spin.length + 1 + k) := ⟨id.2 - S.start - S.sec.spin.length - 1, by omega⟩
  have hkl : k < (S.sec.body ++ S.sec.leave).length := by
    rw [List.length_append]; omega
  rw [List.length_append] at hkl
  have hat := at_piece (q := .locked S.sec) S.2 (j := S.sec.spin.length + 1 + k) (by show _ < S.sec.items.length; omega)
  have hh : (R.prog id.1)[id.2]? = (code (P S.1.1.1))[(code ((P S.1.1.1).take S.1.1.2)).length + (S.sec.spin.length + 1 + k)]? := by
    rw [hP, h1, hk]; rfl
  rw [hh, hat] at h
  have e : id.2 - (S.start + S.sec.spin.length) - 1 = k := by omega
  rw [e]
  have hi : (Piece.locked S.sec).items = (S.sec.spin ++ [S.sec.take]) ++ ((S.sec.body ++ S.sec.leave) ++ S.sec.give :: S.sec.wake) := by
    simp [Piece.items, Section.items]
  rw [hi, List.getElem?_append_right (by simp), List.getElem?_append_left (by simp; omega)] at h
  have e' : S.sec.spin.length + 1 + k - (S.sec.spin ++ [S.sec.take]).length = k := by simp
  rw [e'] at h
  exact h

/-! ### Operations of the history and calls -/

/-- The first item of an operation. -/
def idx : (hist role P R rf V).Op → OpId
  | .inl a => a.1
  | .inr (.inl S) => opAt P S.1.1
  | .inr (.inr a) => a.1

/-- The operation is this call. -/
def IsAt (p : Nat × Nat) : (hist role P R rf V).Op → Prop
  | .inl a => a.1 = opAt P p ∧ ∃ it, (P p.1)[p.2]? = some (.plain it) ∧ role it.loc = .seqCst ∧ it.isFence = false
  | .inr (.inl S) => S.1.1 = p
  | .inr (.inr a) => a.1 = opAt P p ∧ ∃ x l, (P p.1)[p.2]? = some (.plain (.user x l)) ∧ role l = .own

theorem IsAt.piece {p : Nat × Nat} {o : (hist role P R rf V).Op} (h : IsAt p o) : ∃ q, (P p.1)[p.2]? = some q := by
  match o, h with
  | .inl a, ⟨_, it, h, _⟩ => exact ⟨_, h⟩
  | .inr (.inl S), h => cases h; exact ⟨_, S.2⟩
  | .inr (.inr a), ⟨_, x, l, h, _⟩ => exact ⟨_, h⟩

theorem IsAt.inj {p : Nat × Nat} {o o' : (hist role P R rf V).Op} (h : IsAt p o) (h' : IsAt p o') : o = o' := by
  match o, o', h, h' with
  | .inl a, .inl a', h, h' => exact congrArg Sum.inl (Subtype.ext (h.1.trans h'.1.symm))
  | .inr (.inr a), .inr (.inr a'), h, h' => exact congrArg (Sum.inr ∘ Sum.inr) (Subtype.ext (h.1.trans h'.1.symm))
  | .inr (.inl S), .inr (.inl S'), h, h' =>
    have e : S.1.1 = S'.1.1 := Eq.trans h (Eq.symm h')
    exact congrArg (Sum.inr ∘ Sum.inl) (Sec.ext (congrArg Prod.fst e :) (congrArg Prod.snd e :))
  | .inl a, .inr (.inr a'), ⟨_, it, h1, h2, _⟩, ⟨_, x, l, h3, h4⟩ =>
    rw [h1] at h3; cases h3; simp only [Item.loc] at h2; rw [h4] at h2; cases h2
  | .inr (.inr a'), .inl a, ⟨_, x, l, h3, h4⟩, ⟨_, it, h1, h2, _⟩ =>
    rw [h1] at h3; cases h3; simp only [Item.loc] at h2; rw [h4] at h2; cases h2
  | .inl a, .inr (.inl S), ⟨_, it, h1, _⟩, h => cases h; have := S.2; rw [h1] at this; cases this
  | .inr (.inl S), .inl a, h, ⟨_, it, h1, _⟩ => cases h; have := S.2; rw [h1] at this; cases this
  | .inr (.inr a), .inr (.inl S), ⟨_, x, l, h1, _⟩, h => cases h; have := S.2; rw [h1] at this; cases this
  | .inr (.inl S), .inr (.inr a), h, ⟨_, x, l, h1, _⟩ => cases h; have := S.2; rw [h1] at this; cases this

theorem IsAt.fun {p p' : Nat × Nat} {o : (hist role P R rf V).Op} (h : IsAt p o) (h' : IsAt p' o) : p = p' := by
  obtain ⟨q, hq⟩ := h.piece
  obtain ⟨q', hq'⟩ := h'.piece
  match o, h, h' with
  | .inl a, h, h' => exact opAt_inj hq hq' (h.1.symm.trans h'.1)
  | .inr (.inl S), h, h' => exact Eq.trans (Eq.symm h) h'
  | .inr (.inr a), h, h' => exact opAt_inj hq hq' (h.1.symm.trans h'.1)

theorem IsAt.earlier {p p' : Nat × Nat} {o o' : (hist role P R rf V).Op} (h : IsAt p o) (h' : IsAt p' o')
    (h1 : p.1 = p'.1) (h2 : p.2 < p'.2) : (hist role P R rf V).earlier o o' := by
  have give : ∀ S : Sec P, S.give.1 = S.1.1.1 ∧ S.give.2 < (opAt P S.1.1).2 + (Piece.locked S.sec).items.length := by
    intro S
    refine ⟨rfl, ?_⟩
    have := Sec.length S.sec
    have e3 : S.give.2 = (opAt P S.1.1).2 + S.sec.spin.length + 1 + S.sec.body.length + S.sec.leave.length := rfl
    show _ < _ + S.sec.items.length
    omega
  have take : ∀ S : Sec P, S.take.1 = S.1.1.1 ∧ (opAt P S.1.1).2 ≤ S.take.2 := by
    intro S
    refine ⟨rfl, ?_⟩
    have e3 : S.take.2 = (opAt P S.1.1).2 + S.sec.spin.length := rfl
    omega
  have one : ∀ {it q}, (P p.1)[p.2]? = some q → q = .plain it → (opAt P p).2 < (opAt P p').2 := by
    rintro it q hq rfl
    have := opAt_lt hq h1 h2
    simp only [Piece.items, List.length_singleton] at this; omega
  match o, o', h, h' with
  | .inl a, .inl a', ⟨e, it, hq, _⟩, ⟨e', _⟩ =>
    show a.1.1 = a'.1.1 ∧ a.1.2 < a'.1.2
    rw [e, e']; exact ⟨h1, one hq rfl⟩
  | .inl a, .inr (.inr a'), ⟨e, it, hq, _⟩, ⟨e', _⟩ =>
    show a.1.1 = a'.1.1 ∧ a.1.2 < a'.1.2
    rw [e, e']; exact ⟨h1, one hq rfl⟩
  | .inr (.inr a), .inl a', ⟨e, x, l, hq, _⟩, ⟨e', _⟩ =>
    show a.1.1 = a'.1.1 ∧ a.1.2 < a'.1.2
    rw [e, e']; exact ⟨h1, one hq rfl⟩
  | .inr (.inr a), .inr (.inr a'), ⟨e, x, l, hq, _⟩, ⟨e', _⟩ =>
    show a.1.1 = a'.1.1 ∧ a.1.2 < a'.1.2
    rw [e, e']; exact ⟨h1, one hq rfl⟩
  | .inl a, .inr (.inl S), ⟨e, it, hq, _⟩, e' =>
    cases e'
    show a.1.1 = S.take.1 ∧ a.1.2 < S.take.2
    rw [e]; exact ⟨h1, Nat.lt_of_lt_of_le (one hq rfl) (take S).2⟩
  | .inr (.inr a), .inr (.inl S), ⟨e, x, l, hq, _⟩, e' =>
    cases e'
    show a.1.1 = S.take.1 ∧ a.1.2 < S.take.2
    rw [e]; exact ⟨h1, Nat.lt_of_lt_of_le (one hq rfl) (take S).2⟩
  | .inr (.inl S), .inl a, e', ⟨e, _⟩ =>
    cases e'
    show S.give.1 = a.1.1 ∧ S.give.2 < a.1.2
    rw [e]; exact ⟨h1, Nat.lt_of_lt_of_le (give S).2 (opAt_lt S.2 h1 h2)⟩
  | .inr (.inl S), .inr (.inr a), e', ⟨e, _⟩ =>
    cases e'
    show S.give.1 = a.1.1 ∧ S.give.2 < a.1.2
    rw [e]; exact ⟨h1, Nat.lt_of_lt_of_le (give S).2 (opAt_lt S.2 h1 h2)⟩
  | .inr (.inl S), .inr (.inl S'), e', e =>
    cases e'; cases e
    show S.give.1 = S'.take.1 ∧ S.give.2 < S'.take.2
    exact ⟨h1, Nat.lt_of_lt_of_le (give S).2 (Nat.le_trans (opAt_lt S.2 h1 h2) (take S').2)⟩

theorem event_some {p : Nat × Nat} {ev : Event} (h : (observed L role prog V).event p = some ev) :
    ∃ st, (prog p.1)[p.2]? = some st ∧ st.call.loc = some ev.var ∧ (role ev.var).seen = true ∧ ev.req = st.req ∧
      ev.reply = st.reply := by
  simp only [observed, Option.bind_eq_some_iff] at h
  obtain ⟨st, h1, l, h2, h3⟩ := h
  split at h3
  · next h4 => cases h3; exact ⟨st, h1, h2, h4, rfl, rfl⟩
  · cases h3

/-- The words of a variable or object. -/
def varsOf (L : Layout) (role : Nat → Role) (l : Nat) : List Nat :=
  match role l with
  | .pooled _ => L.words l
  | _ => [l]

/-- The value of the words. -/
def valOf (L : Layout) (role : Nat → Role) (l : Nat) (vs : List Nat) : Nat :=
  match role l with
  | .pooled _ => L.join l vs
  | _ => vs.headD 0

theorem first_mem (l : Nat) : l ∈ varsOf L role l := by
  unfold varsOf; split <;> simp [Layout.words]

theorem init_eq (l : Nat) : (observed L role prog V).init l = valOf L role l ((varsOf L role l).map V.init) := by
  unfold varsOf valOf
  show (match role l with | .pooled _ => L.join l ((L.words l).map V.init) | _ => V.init l) = _
  cases role l <;> rfl

section

variable (hE : Executes t pool L obj role prog P R rf V)

include hE

/-- Different variables and objects have different words. -/
theorem vars_disjoint {l l' w : Nat} (h : (role l).seen = true) (h' : (role l').seen = true) (hw : w ∈ varsOf L role l)
    (hw' : w ∈ varsOf L role l') : l = l' := by
  have cs : ∀ {l}, (role l).seen = true → w ∈ varsOf L role l → w = l ∨ ∃ m, role l = .pooled m ∧ w ∈ L.rest l := by
    intro l h hw
    unfold varsOf at hw
    split at hw
    · next m hr =>
      rcases List.mem_cons.1 hw with hw | hw
      · exact .inl hw
      · exact .inr ⟨m, hr, hw⟩
    · exact .inl (List.mem_singleton.1 hw)
  rcases cs h hw with e | ⟨m, k1, k2⟩ <;> rcases cs h' hw' with e' | ⟨m', k1', k2'⟩
  · exact e.symm.trans e'
  · rw [← e, ((hE.parts _ _ k1').2 w k2').1] at h; cases h
  · rw [← e', ((hE.parts _ _ k1).2 w k2).1] at h'; cases h'
  · exact ((hE.parts _ _ k1').2 w k2').2 l m k1 k2

/-- Every event is an operation of the history, which found and left the same. -/
theorem op_of_event {p : Nat × Nat} {ev : Event} (h : (observed L role prog V).event p = some ev) :
    ∃ o : (hist role P R rf V).Op, IsAt p o ∧
      (∀ v, FoundAt L R rf V P p ev.var v ↔ ∃ g : Nat → Nat, (∀ w ∈ varsOf L role ev.var, (hist role P R rf V).found o w (g w)) ∧
        v = valOf L role ev.var ((varsOf L role ev.var).map g)) ∧
      ∀ v, LeftAt L R V P p ev.var v ↔ ∃ g : Nat → Nat, (∀ w ∈ varsOf L role ev.var, (hist role P R rf V).left o w (g w)) ∧
        v = valOf L role ev.var ((varsOf L role ev.var).map g) := by
  obtain ⟨st, h1, h2, h3, -, -⟩ := event_some h
  obtain ⟨q, hq, hm⟩ := piece_of hE h1
  have hmem := List.mem_of_getElem? h1
  have one : ∀ {Q : Nat → Nat → Prop} {v}, varsOf L role ev.var = [ev.var] → (∀ vs, valOf L role ev.var vs = vs.headD 0) →
      (Q ev.var v ↔ ∃ g : Nat → Nat, (∀ w ∈ varsOf L role ev.var, Q w (g w)) ∧
        v = valOf L role ev.var ((varsOf L role ev.var).map g)) := by
    intro Q v e1 e2
    rw [e1]
    refine ⟨fun h => ⟨fun _ => v, fun w hw => by rw [List.mem_singleton.1 hw]; exact h, by rw [e2]; rfl⟩, ?_⟩
    rintro ⟨g, hg, hv⟩
    rw [hv, e2]; exact hg _ (by simp)
  cases hm with
  | free he =>
    rename_i it
    have hl := item_loc he h2
    rcases role_cases hE hmem he h2 with hr | hr | hr
    · have := hE.admits _ _ hmem _ h2
      rw [hr] at this
      obtain ⟨x, l, hx⟩ := this
      rw [hx] at he h2
      cases he; cases h2
      have e1 : varsOf L role ev.var = [ev.var] := by unfold varsOf; rw [hr]
      have e2 : ∀ vs, valOf L role ev.var vs = vs.headD 0 := by intro vs; unfold valOf; rw [hr]
      refine ⟨.inr (.inr ⟨opAt P p, x, _, plain_at hE.code hq, hr⟩), ⟨rfl, _, _, hq, hr⟩, fun v => ?_, fun v => ?_⟩
      · refine Iff.trans ⟨?_, fun h => .own hq h⟩ (one (Q := OwnFound R rf V (opAt P p)) e1 e2)
        rintro (⟨-, h⟩ | ⟨h, h', -⟩ | ⟨h, -⟩)
        · exact h
        · rw [hq] at h; cases h; exact absurd rfl (h' _ _)
        · rw [hq] at h; cases h
      · refine Iff.trans ⟨?_, fun h => .own hq h⟩ (one (Q := OwnLeft R V (opAt P p)) e1 e2)
        rintro (⟨-, h⟩ | ⟨h, h', -⟩ | ⟨h, -⟩)
        · exact h
        · rw [hq] at h; cases h; exact absurd rfl (h' _ _)
        · rw [hq] at h; cases h
    · have hs := hE.admits _ _ hmem _ h2
      rw [hr] at hs
      have hu : ∀ y l, it ≠ .user y l := by
        rintro y l rfl
        have hs : st.call.SeqCst := hs
        generalize st.call = c at he hs
        cases he; exact hs
      have hf : it.isFence = false := by
        generalize st.call = c at he h2
        cases he <;> first | rfl | cases h2
      have e1 : varsOf L role ev.var = [ev.var] := by unfold varsOf; rw [hr]
      have e2 : ∀ vs, valOf L role ev.var vs = vs.headD 0 := by intro vs; unfold valOf; rw [hr]
      refine ⟨.inl ⟨opAt P p, it, plain_at hE.code hq, by rw [hl]; exact hr, hf⟩, ⟨rfl, it, hq, by rw [hl]; exact hr, hf⟩,
        fun v => ?_, fun v => ?_⟩
      · refine Iff.trans ⟨?_, fun h => .free hq hu h⟩ (one (Q := FreeFound R rf V (opAt P p)) e1 e2)
        rintro (⟨h, -⟩ | ⟨-, -, h⟩ | ⟨h, -⟩)
        · rw [hq] at h; cases h; exact absurd rfl (hu _ _)
        · exact h
        · rw [hq] at h; cases h
      · refine Iff.trans ⟨?_, fun h => .free hq hu h⟩ (one (Q := FreeLeft R V (opAt P p)) e1 e2)
        rintro (⟨h, -⟩ | ⟨-, -, h⟩ | ⟨h, -⟩)
        · rw [hq] at h; cases h; exact absurd rfl (hu _ _)
        · exact h
        · rw [hq] at h; cases h
    · rw [hr] at h3; cases h3
  | pooled hl hr hs hb =>
    rename_i s l
    rw [h2] at hl; cases hl
    have hg : ∀ w ∈ L.words ev.var, (role w).guard = some s.mutex := fun w hw => word_guard hE hr hw
    have e1 : varsOf L role ev.var = L.words ev.var := by unfold varsOf; rw [hr]
    have e2 : valOf L role ev.var = L.join ev.var := by funext vs; unfold valOf; rw [hr]
    rw [e1, e2]
    refine ⟨.inr (.inl ⟨(p, s), hq⟩), rfl, fun v => ⟨?_, fun ⟨g, h, hv⟩ => .pooled hq (fun w hw => (h w hw).2) hv⟩,
      fun v => ⟨?_, fun ⟨g, h, hv⟩ => .pooled hq (fun w hw => (h w hw).2) hv⟩⟩
    · rintro (⟨h, -⟩ | ⟨h, -⟩ | ⟨h, h', hv⟩)
      · rw [hq] at h; cases h
      · rw [hq] at h; cases h
      · rw [hq] at h; cases h; exact ⟨_, fun w hw => ⟨hg w hw, h' w hw⟩, hv⟩
    · rintro (⟨h, -⟩ | ⟨h, -⟩ | ⟨h, h', hv⟩)
      · rw [hq] at h; cases h
      · rw [hq] at h; cases h
      · rw [hq] at h; cases h; exact ⟨_, fun w hw => ⟨hg w hw, h' w hw⟩, hv⟩

/-! ### The storage of objects that are not lock-free -/

omit hE in
theorem user_one {a : OpId} {x : Instr} {l : Nat} {e f : Pos} (he : R.Within e a (.user x l)) {it} (hf : R.Within f a it) :
    f = e := by
  obtain ⟨_, _, e₀, _, _, _, _, h⟩ := own_at (R := R) (D := fun _ => True) (a := a) ⟨x, l, he.item, trivial⟩
  rw [h e _ he, h f _ hf]

omit hE in
theorem user_is {e : Pos} {a : OpId} {x : Instr} {l : Nat} {y : Ev} (hw : R.Within e a (.user x l)) (hy : R.Is e y) :
    y.ins = x := by
  obtain ⟨x', l', e₀, g1, -, g2, g3, g4⟩ := own_at (R := R) (D := fun _ => True) (a := a) ⟨x, _, hw.item, trivial⟩
  have := hw.item; rw [g1] at this; cases this
  rw [g4 e _ hw] at hy
  rw [hy.unique g3]

theorem words_nodup {l m : Nat} (h : role l = .pooled m) : (L.words l).Nodup := by
  obtain ⟨h1, h2⟩ := hE.parts l m h
  refine List.nodup_cons.2 ⟨fun hl => ?_, h1⟩
  have := (h2 l hl).1
  rw [h] at this; cases this

omit hE in
theorem stored_nodup {c : Call} {ws : List Nat} (h : ws.Nodup) : (stored c ws).Nodup := by
  have mp : ∀ x : Instr, (ws.map (Item.user x)).Nodup := fun x => by
    refine List.Pairwise.map _ (fun a b hab e => ?_) h
    injection e with _ e; exact hab e
  refine List.nodup_append.2 ⟨?_, ?_, ?_⟩
  · split
    · exact mp _
    · exact .nil
  · split
    · exact mp _
    · exact .nil
  · intro a ha b hb e
    split at ha
    · split at hb
      · obtain ⟨_, _, rfl⟩ := List.mem_map.1 ha
        obtain ⟨_, _, rfl⟩ := List.mem_map.1 hb
        injection e with e; injection e with e; cases e
      · cases hb
    · cases ha

section

variable {S : Sec P} {c : Call} {ws : List Nat} (hsec : pool.Code t obj S.sec) (hb : S.sec.body = stored c ws)

include hsec hb

/-- What a section accesses. -/
theorem inside_loc {e : Pos} (h : Inside R S.take S.give e) {y : Ev} (hy : R.Is e y) :
    y.loc = S.sec.mutex ∨ ∃ (k : Nat) (a : OpId), R.Within e a (.user y.ins y.loc) ∧ a.1 = S.take.1 ∧
      a.2 = S.take.2 + 1 + k ∧ (stored c ws)[k]? = some (.user y.ins y.loc) ∧ y.loc ∈ ws ∧
      (y.ins = userLoad ∨ y.ins = userStore) := by
  obtain ⟨id, it, hin, i1, i2, i3⟩ := h
  obtain ⟨k, hk, hit⟩ := inside_item hE.code S hin.item i1 i2 i3
  by_cases hkb : k < S.sec.body.length
  · rw [List.getElem?_append_left hkb, hb] at hit
    obtain ⟨x, w, rfl, k2, k3⟩ := stored_user (List.mem_of_getElem? hit)
    have e1 := user_is hin hy
    have e2 : y.loc = w := hin.loc hy
    subst e1; subst e2
    exact .inr ⟨k, id, hin, i1, hk, hit, k2, k3⟩
  · rw [List.getElem?_append_right (by omega)] at hit
    left
    rw [hin.loc hy]
    exact ((pool_lawful hsec).leave _ (List.mem_of_getElem? hit)).loc

/-- It reads and writes every word once. -/
theorem inside_one (hnd : ws.Nodup) {e e' : Pos} (h : Inside R S.take S.give e) (h' : Inside R S.take S.give e') {y y' : Ev}
    (hy : R.Is e y) (hy' : R.Is e' y') (hm : y.loc ≠ S.sec.mutex) (hl : y'.loc = y.loc) {q : Part} (hq : y.ins.has q = true)
    (hq' : y'.ins.has q = true) (hrw : q = .rd ∨ q = .wr) : e' = e := by
  rcases inside_loc hE hsec hb h hy with k | ⟨k, a, w1, w2, w3, w4, -, w5⟩
  · exact absurd k hm
  rcases inside_loc hE hsec hb h' hy' with k' | ⟨k', a', w1', w2', w3', w4', -, w5'⟩
  · exact absurd (hl ▸ k') hm
  have hi : y'.ins = y.ins := by
    rcases w5 with w5 | w5 <;> rcases w5' with w5' | w5'
    · rw [w5, w5']
    · rw [w5] at hq; rw [w5'] at hq'
      rcases hrw with rfl | rfl
      · cases hq'
      · cases hq
    · rw [w5] at hq; rw [w5'] at hq'
      rcases hrw with rfl | rfl
      · cases hq
      · cases hq'
    · rw [w5, w5']
  rw [hi, hl] at w4'
  have : k' = k := (List.getElem?_inj (List.getElem?_eq_some_iff.1 w4').1 (stored_nodup hnd)).1 (w4'.trans w4.symm)
  have ha : a' = a := Prod.ext (w2'.trans w2.symm) (by rw [w3', w3, this])
  rw [ha] at w1'
  exact user_one w1 w1'

/-- If it writes one word, it writes all of them. -/
theorem inside_all {e : Pos} (h : Inside R S.take S.give e) {y : Ev} (hy : R.Is e y) (hm : y.loc ≠ S.sec.mutex)
    (hw : y.ins.has .wr = true) {w : Nat} (hws : w ∈ ws) :
    ∃ f z, Inside R S.take S.give f ∧ R.Is f z ∧ z.loc = w ∧ z.ins.has .wr = true := by
  rcases inside_loc hE hsec hb h hy with k | ⟨k, a, w1, w2, w3, w4, -, w5⟩
  · exact absurd k hm
  have hi : y.ins = userStore := by
    rcases w5 with w5 | w5
    · rw [w5] at hw; cases hw
    · exact w5
  rw [hi] at w4
  have hwr : writes c = true := by
    rcases List.mem_append.1 (List.mem_of_getElem? w4) with k | k
    · split at k
      · obtain ⟨_, _, k⟩ := List.mem_map.1 k
        injection k with k; injection k with k; cases k
      · cases k
    · split at k
      · assumption
      · cases k
  have hmem : Item.user userStore w ∈ S.sec.body := by
    rw [hb]; unfold stored; rw [hwr]
    exact List.mem_append_right _ (List.mem_map.2 ⟨w, hws, rfl⟩)
  obtain ⟨k', hk'⟩ := List.getElem?_of_mem hmem
  have hlt := (List.getElem?_eq_some_iff.1 hk').1
  have hat : (R.prog S.take.1)[S.take.2 + 1 + k']? = some (.user userStore w) := by
    have hlen := Sec.length S.sec
    have := at_piece (q := .locked S.sec) S.2 (j := S.sec.spin.length + 1 + k') (by show _ < S.sec.items.length; omega)
    have hi : (Piece.locked S.sec).items =
        (S.sec.spin ++ [S.sec.take]) ++ (S.sec.body ++ (S.sec.leave ++ S.sec.give :: S.sec.wake)) := by
      simp [Piece.items, Section.items]
    rw [hi, List.getElem?_append_right (by simp), List.getElem?_append_left (by simp; omega)] at this
    have e' : S.sec.spin.length + 1 + k' - (S.sec.spin ++ [S.sec.take]).length = k' := by simp
    rw [e', hk'] at this
    rw [hE.code, ← this]
    show (code (P S.1.1.1))[(code ((P S.1.1.1).take S.1.1.2)).length + S.sec.spin.length + 1 + k']? = _
    congr 1; omega
  obtain ⟨x', l', f, g1, -, g2, g3, -⟩ := own_at (R := R) (D := fun _ => True) (a := (S.take.1, S.take.2 + 1 + k'))
    ⟨userStore, w, hat, trivial⟩
  rw [hat] at g1; cases g1
  refine ⟨f, _, ⟨_, _, g2, rfl, ?_, ?_⟩, g3, rfl, rfl⟩
  · show S.take.2 < S.take.2 + 1 + k'; omega
  · show S.take.2 + 1 + k' < S.give.2
    have e1 : S.give.2 = S.take.2 + 1 + S.sec.body.length + S.sec.leave.length := rfl
    omega

end

/-- Every operation of the history is an event. -/
theorem event_of_op (o : (hist role P R rf V).Op) : ∃ p ev, (observed L role prog V).event p = some ev ∧ IsAt p o ∧
    ∀ x v, (hist role P R rf V).left o x v → x ∈ varsOf L role ev.var ∧
      ∀ w ∈ varsOf L role ev.var, ∃ u, (hist role P R rf V).left o w u := by
  have mk : ∀ {p : Nat × Nat} {st l}, (prog p.1)[p.2]? = some st → st.call.loc = some l → (role l).seen = true →
      (observed L role prog V).event p = some ⟨l, st.req, st.reply⟩ := by
    intro p st l h1 h2 h3
    simp [observed, h1, h2, h3]
  -- the items of sections
  have sec : ∀ {i j : Nat} {s : Section} {it : Item}, (P i)[j]? = some (.locked s) → it ∈ s.items →
      role it.loc = .mutex ∨ ∃ m, (role it.loc).guard = some m := by
    intro i j s it hq hit
    obtain ⟨st, l, -, h2, hr, hs, hb⟩ := section_of hE ⟨((i, j), s), hq⟩
    have hm : role s.mutex = .mutex := (hE.pooled _ _ hr).1
    have hs : pool.Code t obj s := hs
    by_cases hc : it ∈ s.spin ++ s.take :: (s.leave ++ s.give :: s.wake)
    · left; rw [control_loc (pool_lawful hs) hc]; exact hm
    · have hit : it ∈ s.body := by
        simp only [Section.items, List.mem_append, List.mem_cons] at hit hc
        rcases hit with h | h | h | h | h | h
        · exact absurd (.inl h) hc
        · exact absurd (.inr (.inl h)) hc
        · exact h
        · exact absurd (.inr (.inr (.inl h))) hc
        · exact absurd (.inr (.inr (.inr (.inl h)))) hc
        · exact absurd (.inr (.inr (.inr (.inr h)))) hc
      have hb : s.body = stored st.call (L.words l) := hb
      rw [hb] at hit
      obtain ⟨x, w, rfl, k2, -⟩ := stored_user hit
      exact .inr ⟨_, word_guard hE hr k2⟩
  have plain : ∀ {a : OpId} {it : Item}, (R.prog a.1)[a.2]? = some it → role it.loc = .seqCst ∨ role it.loc = .own →
      ∃ j, a = opAt P (a.1, j) ∧ (P a.1)[j]? = some (.plain it) := by
    intro a it hit hr
    rw [hE.code] at hit
    obtain ⟨j, q, k, h1, h2, h3⟩ := locate hit
    cases q with
    | plain it' =>
      simp only [Piece.items] at h3
      match k, h3 with
      | 0, h3 => exact ⟨j, Prod.ext rfl h2, by rw [h1]; simpa using h3⟩
    | locked s =>
      rcases sec h1 (List.mem_of_getElem? h3) with h | ⟨m, h⟩ <;> rcases hr with hr | hr <;> rw [hr] at h <;> cases h
  match o with
  | .inl ⟨a, it, h1, h2, h3⟩ =>
    obtain ⟨j, ha, hj⟩ := plain h1 (.inl h2)
    obtain ⟨st, k1, k2⟩ := step_of hE hj
    cases k2 with
    | free he =>
      have hl : st.call.loc = some it.loc := by
        rcases fence_or_loc he with h | h
        · rw [h3] at h; cases h
        · exact h
      refine ⟨(a.1, j), _, mk k1 hl (by rw [h2]; rfl), ⟨ha, it, hj, h2, h3⟩, ?_⟩
      intro x v hx
      have hx' := hx
      obtain ⟨it', w, i1, i2, -⟩ := hx
      rw [h1] at i1; cases i1
      have e1 : varsOf L role it.loc = [it.loc] := by unfold varsOf; rw [h2]
      rw [e1]
      exact ⟨by simp [i2], fun w hw => ⟨v, by rw [(List.mem_singleton.1 hw).trans i2]; exact hx'⟩⟩
  | .inr (.inr ⟨a, x, l, h1, h2⟩) =>
    obtain ⟨j, ha, hj⟩ := plain h1 (.inr h2)
    obtain ⟨st, k1, k2⟩ := step_of hE hj
    cases k2 with
    | free he =>
      have hl : st.call.loc = some l := by
        rcases fence_or_loc he with h | h
        · cases h
        · exact h
      refine ⟨(a.1, j), _, mk k1 hl (by rw [h2]; rfl), ⟨ha, x, l, hj, h2⟩, ?_⟩
      intro y v hx
      have hx' := hx
      obtain ⟨it', w, i1, i2, -⟩ := hx
      have := i1.item; rw [h1] at this; cases this
      have e1 : varsOf L role l = [l] := by unfold varsOf; rw [h2]
      have i2 : l = y := i2
      rw [e1]
      exact ⟨by simp [i2], fun w hw => ⟨v, by rw [(List.mem_singleton.1 hw).trans i2]; exact hx'⟩⟩
  | .inr (.inl S) =>
    obtain ⟨st, l, h1, h2, hr, hs, hb⟩ := section_of hE S
    refine ⟨S.1.1, _, mk h1 h2 (by rw [hr]; rfl), rfl, ?_⟩
    have e1 : varsOf L role l = L.words l := by unfold varsOf; rw [hr]
    have nm : ∀ {x}, (role x).guard = some S.sec.mutex → x ≠ S.sec.mutex := by
      rintro x hg rfl
      rw [(hE.pooled _ _ hr).1] at hg; cases hg
    rintro x v ⟨hg, w, y, hin, ⟨y', hy', hyw⟩, hy, hyl, -⟩
    rw [hy'.unique hy] at hyw
    have hm : y.loc ≠ S.sec.mutex := by rw [hyl]; exact nm hg
    show x ∈ varsOf L role l ∧ ∀ w ∈ varsOf L role l, _
    rw [e1]
    refine ⟨?_, fun w' hw' => ?_⟩
    · rcases inside_loc hE hs hb hin hy with h | ⟨_, _, -, -, -, -, h, -⟩
      · exact absurd h hm
      · rw [← hyl]; exact h
    · obtain ⟨f, z, f1, f2, f3, f4⟩ := inside_all hE hs hb hin hy hm hyw hw'
      have hg' := word_guard hE hr hw'
      refine ⟨V.val f, hg', f, z, f1, ⟨z, f2, f4⟩, f2, f3, rfl, ?_⟩
      rintro f' z' f1' ⟨z'', f2', f4'⟩ f3' f5' hbf
      rw [f2'.unique f3'] at f4'
      have := inside_one hE hs hb (words_nodup hE hr) f1 f1' f2 f3' (by rw [f3]; exact nm hg') (f5'.trans f3.symm) f4 f4'
        (.inr rfl)
      rw [this] at hbf
      exact absurd hbf.2 (Nat.lt_irrefl _)

/-! ### Found and left are unique -/

theorem free_kind {a : OpId} {it : Item} (h : (R.prog a.1)[a.2]? = some it) (hr : role it.loc = .seqCst)
    (hf : it.isFence = false) : ∃ k, it.kind = some k := by
  rcases seq_items hE a.1 it (List.mem_of_getElem? h) hr with k | k
  · rw [hf] at k; cases k
  · cases it with
    | user => cases k
    | fence => cases hf
    | op | exchange | clear => exact ⟨_, rfl⟩

theorem found_unique (huniq : ∀ r s s', rf r s → rf r s' → s = s') (o : (hist role P R rf V).Op) {x v v' : Nat}
    (h1 : (hist role P R rf V).found o x v) (h2 : (hist role P R rf V).found o x v') : v = v' := by
  match o, h1, h2 with
  | .inl ⟨a, it, g1, g2, g3⟩, h1, h2 =>
    obtain ⟨it₁, r, s, i1, i2, i3, i4, rfl⟩ := h1
    obtain ⟨it', r', s', j1, j2, j3, j4, rfl⟩ := h2
    obtain ⟨k, hk⟩ := free_kind hE g1 g2 g3
    have : r = r' := by
      cases facts g1 hk with
      | reads r₀ ret rd uniq npub wr => rw [uniq r i3, uniq r' j3]
      | writes w pub has uniq nret wr => exact absurd i3 (nret r)
      | both r₀ w ret rd uniq pub has uniq' pair wr => rw [uniq r i3, uniq r' j3]
    rw [← this] at j4
    rw [huniq _ _ _ i4 j4]
  | .inr (.inr ⟨a, y, l, g1, g2⟩), h1, h2 =>
    obtain ⟨it, e, s, i1, -, -, i4, rfl⟩ := h1
    obtain ⟨it', e', s', j1, -, -, j4, rfl⟩ := h2
    have := i1.item; rw [g1] at this; cases this
    rw [user_one i1 j1] at j4
    rw [huniq _ _ _ i4 j4]
  | .inr (.inl S), h1, h2 =>
    obtain ⟨hg, r, u, y, i1, ⟨y₀, iy, i2⟩, i3, i4, i5, rfl, -⟩ := h1
    obtain ⟨-, r', u', y', j1, ⟨y₁, jy, j2⟩, j3, j4, j5, rfl, -⟩ := h2
    obtain ⟨st, l, -, -, hr, hs, hb⟩ := section_of hE S
    rw [iy.unique i3] at i2; rw [jy.unique j3] at j2
    have hm : y.loc ≠ S.sec.mutex := by
      intro e
      have hg : (role x).guard = some S.sec.mutex := hg
      rw [← i4, e, (hE.pooled _ _ hr).1] at hg; cases hg
    rw [inside_one hE hs hb (words_nodup hE hr) i1 j1 i3 j3 hm (j4.trans i4.symm) i2 j2 (.inl rfl)] at j5
    rw [huniq _ _ _ i5 j5]

theorem left_unique (o : (hist role P R rf V).Op) {x v v' : Nat}
    (h1 : (hist role P R rf V).left o x v) (h2 : (hist role P R rf V).left o x v') : v = v' := by
  match o, h1, h2 with
  | .inl ⟨a, it, g1, g2, g3⟩, h1, h2 =>
    obtain ⟨it₁, r, i1, i2, i3, rfl⟩ := h1
    obtain ⟨it', r', j1, j2, j3, rfl⟩ := h2
    obtain ⟨k, hk⟩ := free_kind hE g1 g2 g3
    cases facts g1 hk with
    | reads r₀ ret rd uniq npub wr => exact absurd i3 (npub r)
    | writes w pub has uniq nret wr => rw [uniq r i3, uniq r' j3]
    | both r₀ w ret rd uniq pub has uniq' pair wr => rw [uniq' r i3, uniq' r' j3]
  | .inr (.inr ⟨a, y, l, g1, g2⟩), h1, h2 =>
    obtain ⟨it, e, i1, -, -, rfl⟩ := h1
    obtain ⟨it', e', j1, -, -, rfl⟩ := h2
    have := i1.item; rw [g1] at this; cases this
    rw [user_one i1 j1]
  | .inr (.inl S), h1, h2 =>
    obtain ⟨hg, r, y, i1, ⟨y₀, iy, i2⟩, i3, i4, rfl, -⟩ := h1
    obtain ⟨-, r', y', j1, ⟨y₁, jy, j2⟩, j3, j4, rfl, -⟩ := h2
    obtain ⟨st, l, -, -, hr, hs, hb⟩ := section_of hE S
    rw [iy.unique i3] at i2; rw [jy.unique j3] at j2
    have hm : y.loc ≠ S.sec.mutex := by
      intro e
      have hg : (role x).guard = some S.sec.mutex := hg
      rw [← i4, e, (hE.pooled _ _ hr).1] at hg; cases hg
    rw [inside_one hE hs hb (words_nodup hE hr) i1 j1 i3 j3 hm (j4.trans i4.symm) i2 j2 (.inr rfl)]

end

/-! ### The sequence -/

theorem option_of {Q : Nat → Prop} (h : ∀ v v', Q v → Q v' → v = v') : ∃ f : Option Nat, ∀ v, Q v ↔ f = some v := by
  by_cases he : ∃ v, Q v
  · obtain ⟨v, hv⟩ := he
    exact ⟨some v, fun u => ⟨fun hu => by rw [h v u hv hu], fun e => by cases e; exact hv⟩⟩
  · exact ⟨none, fun u => ⟨fun hu => absurd ⟨u, hu⟩ he, fun e => by cases e⟩⟩

theorem exists_nodup {α : Type} (l : List α) : ∃ l' : List α, l'.Nodup ∧ ∀ a, a ∈ l' ↔ a ∈ l := by
  classical
  induction l with
  | nil => exact ⟨[], .nil, fun _ => Iff.rfl⟩
  | cons a l ih =>
    obtain ⟨l', h1, h2⟩ := ih
    by_cases ha : a ∈ l
    · refine ⟨l', h1, fun b => ?_⟩
      rw [h2, List.mem_cons]
      exact ⟨.inr, fun h => h.elim (fun e => e ▸ ha) _root_.id⟩
    · refine ⟨a :: l', List.nodup_cons.2 ⟨fun h => ha ((h2 a).1 h), h1⟩, fun b => ?_⟩
      rw [List.mem_cons, List.mem_cons, h2]

theorem filterMap_map {α β : Type} (f : α → Option β) (g : α → β) (l : List α) (h : ∀ a ∈ l, f a = some (g a)) :
    l.filterMap f = l.map g := by
  induction l with
  | nil => rfl
  | cons a l ih => rw [List.filterMap_cons, h a (by simp), List.map_cons, ih fun b hb => h b (by simp [hb])]

theorem interleaving (hE : Executes t pool L obj role prog P R rf V) (huniq : ∀ r s s', rf r s → rf r s' → s = s')
    (hO : (hist role P R rf V).OneOrder) : (observed L role prog V).Interleaving := by
  obtain ⟨before, irr, trs, tot, sub, lst⟩ := hO
  -- the events
  let ev : Nat × Nat → Event := fun p => ((observed L role prog V).event p).getD ⟨0, .load, .done⟩
  have hev : ∀ {p}, ((observed L role prog V).event p).isSome = true → (observed L role prog V).event p = some (ev p) := by
    intro p h
    obtain ⟨e, he⟩ := Option.isSome_iff_exists.1 h
    simp only [ev, he, Option.getD_some]
  obtain ⟨n, hn⟩ := hE.threads
  have hfin : ∃ l : List (Nat × Nat), ∀ p, p ∈ l ↔ ((observed L role prog V).event p).isSome = true := by
    refine ⟨((List.range n).flatMap fun i => (List.range (prog i).length).map fun j => (i, j)).filter
      fun p => ((observed L role prog V).event p).isSome, fun p => ?_⟩
    simp only [List.mem_filter, List.mem_flatMap, List.mem_map, List.mem_range]
    refine ⟨fun h => h.2, fun h => ⟨?_, h⟩⟩
    obtain ⟨st, h1, -⟩ := event_some (hev h)
    refine ⟨p.1, ?_, p.2, (List.getElem?_eq_some_iff.1 h1).1, rfl⟩
    by_cases hp : p.1 < n
    · exact hp
    · rw [hn p.1 (by omega)] at h1; cases h1
  obtain ⟨l₀, h₀⟩ := hfin
  obtain ⟨l₁, hnd, h₁⟩ := exists_nodup l₀
  -- the order
  let lt : Nat × Nat → Nat × Nat → Prop := fun p q => ∃ o o', IsAt p o ∧ IsAt q o' ∧ before o o'
  have ltirr : ∀ p, ¬ lt p p := by
    rintro p ⟨o, o', h1, h2, h3⟩
    rw [h1.inj h2] at h3; exact irr _ h3
  have lttrans : ∀ p q r, lt p q → lt q r → lt p r := by
    rintro p q r ⟨o, o', h1, h2, h3⟩ ⟨o₁, o₂, h4, h5, h6⟩
    rw [h2.inj h4] at h3
    exact ⟨o, o₂, h1, h5, trs _ _ _ h3 h6⟩
  have opof : ∀ {p}, p ∈ l₁ → ∃ o : (hist role P R rf V).Op, IsAt p o ∧
      (∀ v, FoundAt L R rf V P p (ev p).var v ↔ ∃ g : Nat → Nat,
        (∀ w ∈ varsOf L role (ev p).var, (hist role P R rf V).found o w (g w)) ∧
        v = valOf L role (ev p).var ((varsOf L role (ev p).var).map g)) ∧
      ∀ v, LeftAt L R V P p (ev p).var v ↔ ∃ g : Nat → Nat,
        (∀ w ∈ varsOf L role (ev p).var, (hist role P R rf V).left o w (g w)) ∧
        v = valOf L role (ev p).var ((varsOf L role (ev p).var).map g) :=
    fun hp => op_of_event hE (hev ((h₀ _).1 ((h₁ _).1 hp)))
  have lttot : ∀ p ∈ l₁, ∀ q ∈ l₁, p ≠ q → lt p q ∨ lt q p := by
    intro p hp q hq hne
    obtain ⟨o, a1, -⟩ := opof hp
    obtain ⟨o', b1, -⟩ := opof hq
    rcases tot o o' (by rintro rfl; exact hne (a1.fun b1)) with h | h
    · exact .inl ⟨_, _, a1, b1, h⟩
    · exact .inr ⟨_, _, b1, a1, h⟩
  obtain ⟨l, hl, hs⟩ := exists_sorted l₁ hnd lttrans lttot
  have hmem : ∀ p, p ∈ l ↔ ((observed L role prog V).event p).isSome = true := fun p => by rw [hl, h₁, h₀]
  have hopt : ∀ p, ∃ fg : Option Nat × Option Nat, p ∈ l → (∀ v, FoundAt L R rf V P p (ev p).var v ↔ fg.1 = some v) ∧
      ∀ v, LeftAt L R V P p (ev p).var v ↔ fg.2 = some v := by
    intro p
    by_cases hp : p ∈ l
    · obtain ⟨o, -, a2, a3⟩ := opof ((hl p).1 hp)
      obtain ⟨f, hf⟩ : ∃ f : Option Nat, ∀ v, FoundAt L R rf V P p (ev p).var v ↔ f = some v := option_of fun v v' h h' => by
        obtain ⟨g, h1, rfl⟩ := (a2 v).1 h
        obtain ⟨g', h1', rfl⟩ := (a2 v').1 h'
        rw [List.map_congr_left fun w hw => found_unique hE huniq o (h1 w hw) (h1' w hw)]
      obtain ⟨g, hg⟩ : ∃ f : Option Nat, ∀ v, LeftAt L R V P p (ev p).var v ↔ f = some v := option_of fun v v' h h' => by
        obtain ⟨g, h1, rfl⟩ := (a3 v).1 h
        obtain ⟨g', h1', rfl⟩ := (a3 v').1 h'
        rw [List.map_congr_left fun w hw => left_unique hE o (h1 w hw) (h1' w hw)]
      exact ⟨(f, g), fun _ => ⟨hf, hg⟩⟩
    · exact ⟨(none, none), fun h => absurd h hp⟩
  obtain ⟨fg, hfg⟩ := Classical.axiomOfChoice hopt
  refine ⟨l, hs.imp (fun {a b} h e => by rw [e] at h; exact ltirr _ h), hmem, ?_, ?_⟩
  · refine List.Pairwise.imp_of_mem (fun {p q} hp hq h => ?_) hs
    rintro ⟨e1, e2⟩
    obtain ⟨o, a1, -⟩ := opof ((hl p).1 hp)
    obtain ⟨o', b1, -⟩ := opof ((hl q).1 hq)
    exact ltirr _ (lttrans _ _ _ h ⟨o', o, b1, a1, sub _ _ (b1.earlier a1 e1.symm e2)⟩)
  · rw [filterMap_map _ ev l fun p hp => hev ((hmem p).1 hp)]
    refine interleaved_of hs ltirr lttrans (fd := fun p => (fg p).1) (lf := fun p => (fg p).2) ?_ ?_
    · intro p hp
      obtain ⟨st, k1, k2, k3, k4, k5⟩ := event_some (hev ((hmem p).1 hp))
      rw [k4, k5]
      exact hE.computes p.1 p.2 st _ k1 k2 k3 _ _ (hfg p hp).1 (hfg p hp).2
    · intro p hp v hv
      obtain ⟨o, a1, a2, a3⟩ := opof ((hl p).1 hp)
      obtain ⟨g, hfound, hval⟩ := (a2 v).1 (((hfg p hp).1 v).2 hv)
      have seen : ∀ {q e}, (observed L role prog V).event q = some e → (role e.var).seen = true := by
        intro q e he
        obtain ⟨_, -, -, h, -⟩ := event_some he
        exact h
      have hseen := seen (hev ((hmem p).1 hp))
      have back : ∀ {c} (hc : c ∈ l) u, lt c p → (ev c).var = (ev p).var → (fg c).2 = some u →
          ∃ o' u', IsAt c o' ∧ before o' o ∧ (hist role P R rf V).left o' (ev p).var u' := by
        rintro c hc u ⟨o', o'', b1, b2, b3⟩ hvar hu
        obtain ⟨o₁, c1, -, c3⟩ := opof ((hl c).1 hc)
        rw [b2.inj a1] at b3
        rw [b1.inj c1] at b3
        obtain ⟨g', h', -⟩ := (c3 u).1 (((hfg c hc).2 u).2 hu)
        refine ⟨o₁, g' (ev p).var, c1, b3, h' _ ?_⟩
        rw [hvar]; exact first_mem _
      -- whoever leaves one word leaves all of them
      have all : ∀ {b w u}, w ∈ varsOf L role (ev p).var → (hist role P R rf V).left b w u →
          ∃ q, (observed L role prog V).event q = some (ev q) ∧ q ∈ l ∧ IsAt q b ∧ (ev q).var = (ev p).var ∧
            ∀ w ∈ varsOf L role (ev p).var, ∃ u, (hist role P R rf V).left b w u := by
        intro b w u hw hu
        obtain ⟨q, evq, hq, hat, hvar⟩ := event_of_op hE b
        have hql : q ∈ l := (hmem q).2 (by rw [hq]; rfl)
        have e : evq = ev q := by simp only [ev, hq, Option.getD_some]
        subst e
        obtain ⟨k1, k2⟩ := hvar w u hu
        have hv' := vars_disjoint hE (seen hq) hseen k1 hw
        exact ⟨q, hq, hql, hat, hv', fun w hw => k2 w (hv' ▸ hw)⟩
      rcases lst o _ _ (hfound _ (first_mem _)) with ⟨b, b1, b2, b3⟩ | ⟨b1, b2⟩
      · obtain ⟨q, hq, hql, hat, hv', hall⟩ := all (first_mem _) b2
        have hleft : ∀ w ∈ varsOf L role (ev p).var, (hist role P R rf V).left b w (g w) := by
          intro w hw
          obtain ⟨u, hu⟩ := hall w hw
          rcases lst o w _ (hfound w hw) with ⟨b', d1, d2, d3⟩ | ⟨-, d2⟩
          · obtain ⟨-, -, -, -, -, hall'⟩ := all hw d2
            obtain ⟨u', hu'⟩ := hall' _ (first_mem _)
            rcases b3 b' u' d1 hu' with e | k
            · rw [← e]; exact d2
            · rcases d3 b u b1 hu with e | k'
              · rw [e]; exact d2
              · exact absurd (trs _ _ _ k k') (irr _)
          · exact absurd hu (d2 b u b1)
        obtain ⟨o₁, c1, -, c3⟩ := opof ((hl q).1 hql)
        have eb := c1.inj hat
        subst eb
        refine .inl ⟨q, hql, ⟨o₁, o, hat, a1, b1⟩, hv', ?_, ?_⟩
        · refine ((hfg q hql).2 v).1 ((c3 v).2 ⟨g, ?_, ?_⟩)
          · rw [hv']; exact hleft
          · rw [hv']; exact hval
        · intro c hc u hlt hcv hu
          obtain ⟨o', u', d1, d2, d3⟩ := back hc u hlt hcv hu
          rcases b3 o' u' d2 d3 with rfl | h
          · exact .inl (d1.fun hat)
          · exact .inr ⟨_, _, d1, hat, h⟩
      · refine .inr ⟨?_, ?_⟩
        · rw [init_eq, hval]
          congr 1
          refine List.map_congr_left fun w hw => ?_
          rcases lst o w _ (hfound w hw) with ⟨b', d1, d2, d3⟩ | ⟨d1, -⟩
          · obtain ⟨-, -, -, -, -, hall'⟩ := all hw d2
            obtain ⟨u', hu'⟩ := hall' _ (first_mem _)
            exact absurd hu' (b2 b' u' d1)
          · exact d1
        · intro c hc u hlt hcv hu
          obtain ⟨o', u', d1, d2, d3⟩ := back hc u hlt hcv hu
          exact b2 o' u' d2 d3

end Verif.Whole
