import Verif.Idiom.Examples

/-
Executions on PowerPC, where a write becomes visible to one thread after another, to which C60–C64 apply.
-/

namespace Verif.Idiom

open Verif.Order Verif.Mca Verif.Mca.Run Verif.Locked

variable {cpu : Cpu} {R : Mca.Run cpu}

theorem atOnce_rf (hR : R.Valid) : (Pow.Run.atOnce R).ReadsFrom = R.ReadsFrom := by
  funext r s; exact propext (Pow.Run.atOnce_reads hR)

theorem atOnce_hb (hR : R.Valid) : (Pow.Run.atOnce R).HappensBefore = R.HappensBefore := by
  have hs : ∀ {w v}, (Pow.Run.atOnce R).ReleaseSequence w v ↔ R.ReleaseSequence w v := by
    refine fun {w v} => ⟨fun h => ?_, fun h => ?_⟩ <;> induction h with
    | head => exact .head
    | rmw _ h1 h2 h3 h4 ih =>
      first
      | exact .rmw ih ((Pow.Run.atOnce_reads hR).1 h1) h2 h3 h4
      | exact .rmw ih ((Pow.Run.atOnce_reads hR).2 h1) h2 h3 h4
  funext e f
  refine propext ⟨fun h => ?_, fun h => ?_⟩ <;> induction h with
  | before h => exact .before h
  | sync h =>
    obtain ⟨w, v, r, h1, h2, h3, h4, h5⟩ := h
    first
    | exact .sync ⟨w, v, r, h1, h2, hs.1 h3, (Pow.Run.atOnce_reads hR).1 h4, h5⟩
    | exact .sync ⟨w, v, r, h1, h2, hs.2 h3, (Pow.Run.atOnce_reads hR).2 h4, h5⟩
  | trans _ _ ih ih' => exact .trans ih ih'

/-- No instruction writes back what it read. -/
theorem no_copies {n : Nat} (hn : ∀ t, n ≤ t → R.prog t = [])
    (h : ∀ y ∈ R.all n, y.2.pair ≠ none → y.2.ins.pub = true) (r c : Pos) : ¬ R.CopyOf r c := by
  rintro ⟨⟨-, y, d, hy, hd, -⟩, z, hz, hnp⟩
  rw [← hy.unique hz, h _ ((mem_all hn).2 hy) (by simp [hd])] at hnp; cases hnp

/-! ### Reference counting -/

/-- A thread makes two references to an object and passes one of them to another thread, which deletes the object. -/
def countPower : Mca.Run .power := Run.of .power
  [[.op .ppc64 .rmw .relaxed 0 1, .op .ppc64 .rmw .relaxed 0 1, .op .ppc64 .store .release 0 2, .user userStore 3,
      .op .ppc64 .rmw .release 0 1],
    [.op .ppc64 .load .acquire 0 2, .user userStore 4, .op .ppc64 .rmw .release 0 1, .fence .ppc64 .acquire,
      .user userStore 0]]
  [[(1, 0), (0, 2), (3, 0), (0, 4), (0, 0), (0, 6), (0, 9), (0, 0), (12, 0), (0, 13)],
    [(7, 0), (0, 0), (0, 10), (0, 0), (15, 0), (0, 16), (0, 0), (0, 18)]]

theorem countPower_end (t : Nat) (h : 2 ≤ t) : countPower.prog t = [] := by simp [countPower, Run.of, h]

theorem countPower_valid : countPower.Valid := Check.valid (n := 2) countPower_end (by decide +kernel)

theorem countPower_items {Q : OpId → Item → Prop} (h0 : Q (0, 0) (.op .ppc64 .rmw .relaxed 0 1))
    (h1 : Q (0, 1) (.op .ppc64 .rmw .relaxed 0 1))
    (h2 : Q (0, 2) (.op .ppc64 .store .release 0 2))
    (h3 : Q (0, 3) (.user userStore 3))
    (h4 : Q (0, 4) (.op .ppc64 .rmw .release 0 1))
    (h5 : Q (1, 0) (.op .ppc64 .load .acquire 0 2))
    (h6 : Q (1, 1) (.user userStore 4))
    (h7 : Q (1, 2) (.op .ppc64 .rmw .release 0 1))
    (h8 : Q (1, 3) (.fence .ppc64 .acquire))
    (h9 : Q (1, 4) (.user userStore 0)) :
    ∀ id it, At countPower id it → Q id it := by
  rintro ⟨t, i⟩ it h
  match t, i, h with
  | 0, 0, h => cases h; exact h0
  | 0, 1, h => cases h; exact h1
  | 0, 2, h => cases h; exact h2
  | 0, 3, h => cases h; exact h3
  | 0, 4, h => cases h; exact h4
  | 0, i + 5, h => cases h
  | 1, 0, h => cases h; exact h5
  | 1, 1, h => cases h; exact h6
  | 1, 2, h => cases h; exact h7
  | 1, 3, h => cases h; exact h8
  | 1, 4, h => cases h; exact h9
  | 1, i + 5, h => cases h
  | t + 2, i, h => rw [At, countPower_end _ (by simp)] at h; cases h

theorem countPower_ppc : (∀ t, ∀ it ∈ countPower.prog t, it.accepts = true) ∧
    (∀ t, ∀ it ∈ countPower.prog t, it.backend ≠ some .linuxArm) ∧ ∀ t, ∀ it ∈ countPower.prog t, it.broken = false := by
  have items : ∀ {Q : Item → Prop}, (∀ it ∈ countPower.prog 0, Q it) → (∀ it ∈ countPower.prog 1, Q it) →
      ∀ t, ∀ it ∈ countPower.prog t, Q it := by
    intro Q h0 h1 t it h
    match t with
    | 0 => exact h0 it h
    | 1 => exact h1 it h
    | t + 2 => rw [countPower_end _ (by simp)] at h; cases h
  exact ⟨items (by decide) (by decide), items (by decide) (by decide),
    items (by decide) (by decide)⟩

theorem countPower_copies (V : Values) : countPower.Copies V := copies_trivial countPower_end _ (by decide +kernel)

def countPowerValues : Values := ⟨fun e => if e = (0, 1) ∨ e = (0, 9) then 1 else if e = (0, 3) then 2 else 0, fun _ => 0⟩

theorem countPower_sound : countPower.Sound := fun t it h =>
  ⟨countPower_ppc.1 t it h, countPower_ppc.2.2 t it h⟩

theorem countPower_count : RefCount countPower countPower.ReadsFrom countPower.HappensBefore countPowerValues 1 32 countRefs where
  init := rfl
  add p := by cases p <;> exact ⟨_, _, _, .inl rfl, rfl⟩
  release p d h := by cases p <;> cases h <;> exact ⟨_, _, _, .inl rfl, rfl⟩
  added p := by
    cases p
    · exact ⟨0, ⟨(0, 0), none, ⟨.op .ppc64 .rmw .relaxed 0 1, _, within_of_bounds rfl rfl (by decide) (by decide), rfl, rfl⟩,
        readsFrom_none (n := 2) countPower_end rfl (by decide +kernel), rfl⟩, by decide,
        pub_leaves (n := 2) countPower_end rfl (by decide +kernel)⟩
    · exact ⟨1, ⟨(0, 2), some (0, 1), ⟨.op .ppc64 .rmw .relaxed 0 1, _, within_of_bounds rfl rfl (by decide) (by decide), rfl, rfl⟩,
        readsFrom_some (n := 2) countPower_end rfl rfl rfl rfl (by decide) (by decide +kernel), rfl⟩, by decide,
        pub_leaves (n := 2) countPower_end rfl (by decide +kernel)⟩
  subtracted p d h := by
    cases p <;> cases h
    · exact ⟨2, ⟨(0, 8), some (0, 3), ⟨.op .ppc64 .rmw .release 0 1, _, within_of_bounds rfl rfl (by decide) (by decide), rfl, rfl⟩,
        readsFrom_some (n := 2) countPower_end rfl rfl rfl rfl (by decide) (by decide +kernel), rfl⟩,
        pub_leaves (n := 2) countPower_end rfl (by decide +kernel)⟩
    · exact ⟨1, ⟨(1, 4), some (0, 9), ⟨.op .ppc64 .rmw .release 0 1, _, within_of_bounds rfl rfl (by decide) (by decide), rfl, rfl⟩,
        readsFrom_some (n := 2) countPower_end rfl rfl rfl rfl (by decide) (by decide +kernel), rfl⟩,
        pub_leaves (n := 2) countPower_end rfl (by decide +kernel)⟩
  add_inj p q h := by cases p <;> cases q <;> first | rfl | cases h
  release_inj p q d h h' := by cases p <;> cases q <;> first | rfl | (cases h; cases h')
  disjoint p q h := by cases p <;> cases q <;> cases h
  others := by
    refine countPower_items ?_ ?_ ?_ ?_ ?_ ?_ ?_ ?_ ?_ ?_
    · exact fun _ _ => .inl ⟨false, rfl⟩
    · exact fun _ _ => .inl ⟨true, rfl⟩
    · exact fun _ h => absurd h (by decide)
    · exact fun _ h => absurd h (by decide)
    · exact fun _ _ => .inr (.inl ⟨false, rfl⟩)
    · exact fun _ h => absurd h (by decide)
    · exact fun _ h => absurd h (by decide)
    · exact fun _ _ => .inr (.inl ⟨true, rfl⟩)
    · exact fun h => absurd h (by decide)
    · exact fun _ h => absurd h (by decide)
  order p d h := by
    cases p <;> cases h
    · exact opHb_sb rfl (by decide)
    · exact opHb_sync countPower_sound countPower_valid (u := (0, 2)) (v := (1, 0)) (w := (0, 5)) (r := (1, 0)) rfl rfl rfl rfl
        ⟨.op .ppc64 .store .release 0 2, _, within_of_bounds rfl rfl (by decide) (by decide), rfl, rfl⟩
        ⟨.op .ppc64 .load .acquire 0 2, _, within_of_bounds rfl rfl (by decide) (by decide), rfl, rfl⟩
        (readsFrom_some (n := 2) countPower_end rfl rfl rfl rfl (by decide) (by decide +kernel)) (by decide)
        ⟨rfl, by decide⟩ ⟨rfl, by decide⟩
  copied p h := by
    cases p
    · exact absurd rfl h
    · refine ⟨opHb_sb rfl (by decide), fun d hd => ?_⟩
      cases hd; exact opHb_sb rfl (by decide)

/-- The hypotheses of C60 hold for this execution, in which the second thread deletes the object. -/
example : (Pow.Run.atOnce countPower).Valid ∧ (∀ r c, ¬ countPower.CopyOf r c) ∧
    (∀ t, ∀ it ∈ countPower.prog t, it.accepts = true) ∧ (∀ t, ∀ it ∈ countPower.prog t, it.backend ≠ some .linuxArm) ∧
    RefCount countPower (Pow.Run.atOnce countPower).ReadsFrom (Pow.Run.atOnce countPower).HappensBefore countPowerValues 1 32 countRefs ∧
    Deletes countPower (Pow.Run.atOnce countPower).ReadsFrom countPowerValues 1 countRefs true (1, 2) 3 ∧
    Until countPower 0 4 (0, 6) ∧ From countPower 1 4 (1, 7) := by
  rw [atOnce_rf countPower_valid, atOnce_hb countPower_valid]
  exact ⟨Pow.Run.atOnce_valid countPower_valid, no_copies countPower_end (by decide +kernel), countPower_ppc.1, countPower_ppc.2.1,
    countPower_count,
    ⟨rfl, ⟨(1, 4), some (0, 9), ⟨.op .ppc64 .rmw .release 0 1, _, within_of_bounds rfl rfl (by decide) (by decide), rfl, rfl⟩,
        readsFrom_some (n := 2) countPower_end rfl rfl rfl rfl (by decide) (by decide +kernel), rfl⟩, ⟨_, rfl⟩, by decide⟩,
    ⟨(0, 3), .user userStore 3, within_of_bounds rfl rfl (by decide) (by decide), rfl, by decide⟩,
    ⟨(1, 4), .user userStore 0, within_of_bounds rfl rfl (by decide) (by decide), rfl, by decide⟩⟩

/-! ### Ring buffer -/

/-- Three elements are put into a ring buffer of size 2, which has room for one; two are taken out.  The first element of
the array is used twice.  Then the consumer finds the buffer empty, and the producer finds it full. -/
def ringPower : Mca.Run .power := Run.of .power
  [[.op .ppc64 .load .relaxed 0 1, .op .ppc64 .load .acquire 0 2, .user userStore 10,
      .op .ppc64 .store .release 0 1, .op .ppc64 .load .relaxed 0 1, .op .ppc64 .load .acquire 0 2,
      .user userStore 11, .op .ppc64 .store .release 0 1, .op .ppc64 .load .relaxed 0 1,
      .op .ppc64 .load .acquire 0 2, .user userStore 10, .op .ppc64 .store .release 0 1,
      .op .ppc64 .load .relaxed 0 1, .op .ppc64 .load .acquire 0 2],
    [.op .ppc64 .load .relaxed 0 2, .op .ppc64 .load .acquire 0 1, .user userLoad 10, .op .ppc64 .store .release 0 2,
      .op .ppc64 .load .relaxed 0 2, .op .ppc64 .load .acquire 0 1, .user userLoad 11, .op .ppc64 .store .release 0 2,
      .op .ppc64 .load .relaxed 0 2, .op .ppc64 .load .acquire 0 1]]
  [[(1, 0), (2, 0), (0, 0), (0, 4), (0, 0), (0, 6), (13, 0), (14, 0), (0, 0), (0, 16), (0, 0), (0, 18), (28, 0),
      (29, 0), (0, 0), (0, 31), (0, 0), (0, 33), (34, 0), (35, 0), (0, 0)],
    [(7, 0), (8, 0), (0, 0), (10, 0), (0, 0), (0, 12), (19, 0), (20, 0), (0, 0), (22, 0), (0, 0), (0, 24), (25, 0),
      (26, 0), (0, 0)]]

theorem ringPower_end (t : Nat) (h : 2 ≤ t) : ringPower.prog t = [] := by simp [ringPower, Run.of, h]

theorem ringPower_valid : ringPower.Valid := Check.valid (n := 2) ringPower_end (by decide +kernel)

theorem ringPower_items {Q : OpId → Item → Prop} (h0 : Q (0, 0) (.op .ppc64 .load .relaxed 0 1))
    (h1 : Q (0, 1) (.op .ppc64 .load .acquire 0 2))
    (h2 : Q (0, 2) (.user userStore 10))
    (h3 : Q (0, 3) (.op .ppc64 .store .release 0 1))
    (h4 : Q (0, 4) (.op .ppc64 .load .relaxed 0 1))
    (h5 : Q (0, 5) (.op .ppc64 .load .acquire 0 2))
    (h6 : Q (0, 6) (.user userStore 11))
    (h7 : Q (0, 7) (.op .ppc64 .store .release 0 1))
    (h8 : Q (0, 8) (.op .ppc64 .load .relaxed 0 1))
    (h9 : Q (0, 9) (.op .ppc64 .load .acquire 0 2))
    (h10 : Q (0, 10) (.user userStore 10))
    (h11 : Q (0, 11) (.op .ppc64 .store .release 0 1))
    (h12 : Q (0, 12) (.op .ppc64 .load .relaxed 0 1))
    (h13 : Q (0, 13) (.op .ppc64 .load .acquire 0 2))
    (h14 : Q (1, 0) (.op .ppc64 .load .relaxed 0 2))
    (h15 : Q (1, 1) (.op .ppc64 .load .acquire 0 1))
    (h16 : Q (1, 2) (.user userLoad 10))
    (h17 : Q (1, 3) (.op .ppc64 .store .release 0 2))
    (h18 : Q (1, 4) (.op .ppc64 .load .relaxed 0 2))
    (h19 : Q (1, 5) (.op .ppc64 .load .acquire 0 1))
    (h20 : Q (1, 6) (.user userLoad 11))
    (h21 : Q (1, 7) (.op .ppc64 .store .release 0 2))
    (h22 : Q (1, 8) (.op .ppc64 .load .relaxed 0 2))
    (h23 : Q (1, 9) (.op .ppc64 .load .acquire 0 1)) :
    ∀ id it, At ringPower id it → Q id it := by
  rintro ⟨t, i⟩ it h
  match t, i, h with
  | 0, 0, h => cases h; exact h0
  | 0, 1, h => cases h; exact h1
  | 0, 2, h => cases h; exact h2
  | 0, 3, h => cases h; exact h3
  | 0, 4, h => cases h; exact h4
  | 0, 5, h => cases h; exact h5
  | 0, 6, h => cases h; exact h6
  | 0, 7, h => cases h; exact h7
  | 0, 8, h => cases h; exact h8
  | 0, 9, h => cases h; exact h9
  | 0, 10, h => cases h; exact h10
  | 0, 11, h => cases h; exact h11
  | 0, 12, h => cases h; exact h12
  | 0, 13, h => cases h; exact h13
  | 0, i + 14, h => cases h
  | 1, 0, h => cases h; exact h14
  | 1, 1, h => cases h; exact h15
  | 1, 2, h => cases h; exact h16
  | 1, 3, h => cases h; exact h17
  | 1, 4, h => cases h; exact h18
  | 1, 5, h => cases h; exact h19
  | 1, 6, h => cases h; exact h20
  | 1, 7, h => cases h; exact h21
  | 1, 8, h => cases h; exact h22
  | 1, 9, h => cases h; exact h23
  | 1, i + 10, h => cases h
  | t + 2, i, h => rw [At, ringPower_end _ (by simp)] at h; cases h

theorem ringPower_ppc : (∀ t, ∀ it ∈ ringPower.prog t, it.accepts = true) ∧
    (∀ t, ∀ it ∈ ringPower.prog t, it.backend ≠ some .linuxArm) ∧ ∀ t, ∀ it ∈ ringPower.prog t, it.broken = false := by
  have items : ∀ {Q : Item → Prop}, (∀ it ∈ ringPower.prog 0, Q it) → (∀ it ∈ ringPower.prog 1, Q it) →
      ∀ t, ∀ it ∈ ringPower.prog t, Q it := by
    intro Q h0 h1 t it h
    match t with
    | 0 => exact h0 it h
    | 1 => exact h1 it h
    | t + 2 => rw [ringPower_end _ (by simp)] at h; cases h
  exact ⟨items (by decide) (by decide), items (by decide) (by decide),
    items (by decide) (by decide)⟩

theorem ringPower_copies (V : Values) : ringPower.Copies V := copies_trivial ringPower_end _ (by decide +kernel)

def ringPowerValues : Values := ⟨fun e => if e = (0, 5) ∨ e = (0, 17) ∨ e = (1, 5) then 1 else 0, fun _ => 0⟩

theorem ringPower_ring : Ring ringPower ringPower.ReadsFrom ringPowerValues 2 1 2 ringCell 0 1 3 2 ringCall ringCall where
  threads := by decide
  cell_inj i j _ _ h := by simp only [ringCell] at h; omega
  vars := ⟨by decide, fun i _ => by simp only [ringCell]; omega⟩
  size_pos := by decide
  init := ⟨rfl, rfl⟩
  pushOk i hi := by
    have hi : i = 0 ∨ i = 1 ∨ i = 2 := by omega
    rcases hi with rfl | rfl | rfl
    · exact ⟨0, 0, ⟨by decide, by decide, by decide⟩, ⟨_, _, rfl⟩,
        ⟨(0, 0), none, ⟨.op .ppc64 .load .relaxed 0 1, _, within_of_bounds rfl rfl (by decide) (by decide), rfl, rfl⟩,
        readsFrom_none (n := 2) ringPower_end rfl (by decide +kernel), rfl⟩,
        ⟨_, _, rfl⟩, ⟨(0, 1), none, ⟨.op .ppc64 .load .acquire 0 2, _, within_of_bounds rfl rfl (by decide) (by decide), rfl, rfl⟩,
        readsFrom_none (n := 2) ringPower_end rfl (by decide +kernel), rfl⟩,
        by decide, ⟨_, rfl, rfl, rfl⟩, ⟨_, _, rfl⟩,
        pub_leaves (n := 2) ringPower_end rfl (by decide +kernel)⟩
    · exact ⟨1, 1, ⟨by decide, by decide, by decide⟩, ⟨_, _, rfl⟩,
        ⟨(0, 6), some (0, 5), ⟨.op .ppc64 .load .relaxed 0 1, _, within_of_bounds rfl rfl (by decide) (by decide), rfl, rfl⟩,
        readsFrom_some (n := 2) ringPower_end rfl rfl rfl rfl (by decide) (by decide +kernel), rfl⟩,
        ⟨_, _, rfl⟩, ⟨(0, 7), some (1, 5), ⟨.op .ppc64 .load .acquire 0 2, _, within_of_bounds rfl rfl (by decide) (by decide), rfl, rfl⟩,
        readsFrom_some (n := 2) ringPower_end rfl rfl rfl rfl (by decide) (by decide +kernel), rfl⟩,
        by decide, ⟨_, rfl, rfl, rfl⟩, ⟨_, _, rfl⟩,
        pub_leaves (n := 2) ringPower_end rfl (by decide +kernel)⟩
    · exact ⟨0, 0, ⟨by decide, by decide, by decide⟩, ⟨_, _, rfl⟩,
        ⟨(0, 12), some (0, 11), ⟨.op .ppc64 .load .relaxed 0 1, _, within_of_bounds rfl rfl (by decide) (by decide), rfl, rfl⟩,
        readsFrom_some (n := 2) ringPower_end rfl rfl rfl rfl (by decide) (by decide +kernel), rfl⟩,
        ⟨_, _, rfl⟩, ⟨(0, 13), some (1, 11), ⟨.op .ppc64 .load .acquire 0 2, _, within_of_bounds rfl rfl (by decide) (by decide), rfl, rfl⟩,
        readsFrom_some (n := 2) ringPower_end rfl rfl rfl rfl (by decide) (by decide +kernel), rfl⟩,
        by decide, ⟨_, rfl, rfl, rfl⟩, ⟨_, _, rfl⟩,
        pub_leaves (n := 2) ringPower_end rfl (by decide +kernel)⟩
  popOk i hi := by
    have hi : i = 0 ∨ i = 1 := by omega
    rcases hi with rfl | rfl
    · exact ⟨0, 1, ⟨by decide, by decide, by decide⟩, ⟨_, _, rfl⟩,
        ⟨(1, 0), none, ⟨.op .ppc64 .load .relaxed 0 2, _, within_of_bounds rfl rfl (by decide) (by decide), rfl, rfl⟩,
        readsFrom_none (n := 2) ringPower_end rfl (by decide +kernel), rfl⟩,
        ⟨_, _, rfl⟩, ⟨(1, 1), some (0, 5), ⟨.op .ppc64 .load .acquire 0 1, _, within_of_bounds rfl rfl (by decide) (by decide), rfl, rfl⟩,
        readsFrom_some (n := 2) ringPower_end rfl rfl rfl rfl (by decide) (by decide +kernel), rfl⟩,
        by decide, ⟨_, rfl, rfl, rfl⟩, ⟨_, _, rfl⟩,
        pub_leaves (n := 2) ringPower_end rfl (by decide +kernel)⟩
    · exact ⟨1, 0, ⟨by decide, by decide, by decide⟩, ⟨_, _, rfl⟩,
        ⟨(1, 6), some (1, 5), ⟨.op .ppc64 .load .relaxed 0 2, _, within_of_bounds rfl rfl (by decide) (by decide), rfl, rfl⟩,
        readsFrom_some (n := 2) ringPower_end rfl rfl rfl rfl (by decide) (by decide +kernel), rfl⟩,
        ⟨_, _, rfl⟩, ⟨(1, 7), some (0, 11), ⟨.op .ppc64 .load .acquire 0 1, _, within_of_bounds rfl rfl (by decide) (by decide), rfl, rfl⟩,
        readsFrom_some (n := 2) ringPower_end rfl rfl rfl rfl (by decide) (by decide +kernel), rfl⟩,
        by decide, ⟨_, rfl, rfl, rfl⟩, ⟨_, _, rfl⟩,
        pub_leaves (n := 2) ringPower_end rfl (by decide +kernel)⟩
  pushed i hi := by simp only [ringCall]; omega
  popped i hi := by simp only [ringCall]; omega
  heads := by
    refine ringPower_items ?_ ?_ ?_ ?_ ?_ ?_ ?_ ?_ ?_ ?_ ?_ ?_ ?_ ?_ ?_ ?_ ?_ ?_ ?_ ?_ ?_ ?_ ?_ ?_
    · exact fun _ _ => .inr ⟨_, _, _, _, .inl rfl, rfl⟩
    · exact fun _ h => absurd h (by decide)
    · exact fun _ h => absurd h (by decide)
    · exact fun _ _ => .inl ⟨0, by decide, rfl⟩
    · exact fun _ _ => .inr ⟨_, _, _, _, .inl rfl, rfl⟩
    · exact fun _ h => absurd h (by decide)
    · exact fun _ h => absurd h (by decide)
    · exact fun _ _ => .inl ⟨1, by decide, rfl⟩
    · exact fun _ _ => .inr ⟨_, _, _, _, .inl rfl, rfl⟩
    · exact fun _ h => absurd h (by decide)
    · exact fun _ h => absurd h (by decide)
    · exact fun _ _ => .inl ⟨2, by decide, rfl⟩
    · exact fun _ _ => .inr ⟨_, _, _, _, .inl rfl, rfl⟩
    · exact fun _ h => absurd h (by decide)
    · exact fun _ h => absurd h (by decide)
    · exact fun _ _ => .inr ⟨_, _, _, _, .inl rfl, rfl⟩
    · exact fun _ h => absurd h (by decide)
    · exact fun _ h => absurd h (by decide)
    · exact fun _ h => absurd h (by decide)
    · exact fun _ _ => .inr ⟨_, _, _, _, .inl rfl, rfl⟩
    · exact fun _ h => absurd h (by decide)
    · exact fun _ h => absurd h (by decide)
    · exact fun _ h => absurd h (by decide)
    · exact fun _ _ => .inr ⟨_, _, _, _, .inl rfl, rfl⟩
  tails := by
    refine ringPower_items ?_ ?_ ?_ ?_ ?_ ?_ ?_ ?_ ?_ ?_ ?_ ?_ ?_ ?_ ?_ ?_ ?_ ?_ ?_ ?_ ?_ ?_ ?_ ?_
    · exact fun _ h => absurd h (by decide)
    · exact fun _ _ => .inr ⟨_, _, _, _, .inl rfl, rfl⟩
    · exact fun _ h => absurd h (by decide)
    · exact fun _ h => absurd h (by decide)
    · exact fun _ h => absurd h (by decide)
    · exact fun _ _ => .inr ⟨_, _, _, _, .inl rfl, rfl⟩
    · exact fun _ h => absurd h (by decide)
    · exact fun _ h => absurd h (by decide)
    · exact fun _ h => absurd h (by decide)
    · exact fun _ _ => .inr ⟨_, _, _, _, .inl rfl, rfl⟩
    · exact fun _ h => absurd h (by decide)
    · exact fun _ h => absurd h (by decide)
    · exact fun _ h => absurd h (by decide)
    · exact fun _ _ => .inr ⟨_, _, _, _, .inl rfl, rfl⟩
    · exact fun _ _ => .inr ⟨_, _, _, _, .inl rfl, rfl⟩
    · exact fun _ h => absurd h (by decide)
    · exact fun _ h => absurd h (by decide)
    · exact fun _ _ => .inl ⟨0, by decide, rfl⟩
    · exact fun _ _ => .inr ⟨_, _, _, _, .inl rfl, rfl⟩
    · exact fun _ h => absurd h (by decide)
    · exact fun _ h => absurd h (by decide)
    · exact fun _ _ => .inl ⟨1, by decide, rfl⟩
    · exact fun _ _ => .inr ⟨_, _, _, _, .inl rfl, rfl⟩
    · exact fun _ h => absurd h (by decide)
  cells id it c h := by
    refine ringPower_items (Q := fun id it => ∀ c, it.isFence = false → c < 2 → it.loc = ringCell c →
      (∃ i, i < 3 ∧ id = (0, (ringCall i).access)) ∨ ∃ j, j < 2 ∧ id = (1, (ringCall j).access)) ?_ ?_ ?_ ?_ ?_ ?_ ?_ ?_ ?_ ?_ ?_ ?_ ?_ ?_ ?_ ?_ ?_ ?_ ?_ ?_ ?_ ?_ ?_ ?_ id it h c
    · exact fun c _ _ h => by simp [Item.loc, ringCell] at h; omega
    · exact fun c _ _ h => by simp [Item.loc, ringCell] at h; omega
    · exact fun c _ _ h => .inl ⟨0, by decide, rfl⟩
    · exact fun c _ _ h => by simp [Item.loc, ringCell] at h; omega
    · exact fun c _ _ h => by simp [Item.loc, ringCell] at h; omega
    · exact fun c _ _ h => by simp [Item.loc, ringCell] at h; omega
    · exact fun c _ _ h => .inl ⟨1, by decide, rfl⟩
    · exact fun c _ _ h => by simp [Item.loc, ringCell] at h; omega
    · exact fun c _ _ h => by simp [Item.loc, ringCell] at h; omega
    · exact fun c _ _ h => by simp [Item.loc, ringCell] at h; omega
    · exact fun c _ _ h => .inl ⟨2, by decide, rfl⟩
    · exact fun c _ _ h => by simp [Item.loc, ringCell] at h; omega
    · exact fun c _ _ h => by simp [Item.loc, ringCell] at h; omega
    · exact fun c _ _ h => by simp [Item.loc, ringCell] at h; omega
    · exact fun c _ _ h => by simp [Item.loc, ringCell] at h; omega
    · exact fun c _ _ h => by simp [Item.loc, ringCell] at h; omega
    · exact fun c _ _ h => .inr ⟨0, by decide, rfl⟩
    · exact fun c _ _ h => by simp [Item.loc, ringCell] at h; omega
    · exact fun c _ _ h => by simp [Item.loc, ringCell] at h; omega
    · exact fun c _ _ h => by simp [Item.loc, ringCell] at h; omega
    · exact fun c _ _ h => .inr ⟨1, by decide, rfl⟩
    · exact fun c _ _ h => by simp [Item.loc, ringCell] at h; omega
    · exact fun c _ _ h => by simp [Item.loc, ringCell] at h; omega
    · exact fun c _ _ h => by simp [Item.loc, ringCell] at h; omega

/-- The hypotheses of C62 hold for this execution, in which calls also fail. -/
example : (Pow.Run.atOnce ringPower).Valid ∧ (∀ r c, ¬ ringPower.CopyOf r c) ∧
    (∀ t, ∀ it ∈ ringPower.prog t, it.accepts = true) ∧ (∀ t, ∀ it ∈ ringPower.prog t, it.backend ≠ some .linuxArm) ∧
    Ring ringPower (Pow.Run.atOnce ringPower).ReadsFrom ringPowerValues 2 1 2 ringCell 0 1 3 2 ringCall ringCall ∧
    (Pow.Run.atOnce ringPower).ReadsFrom (1, 3) (some (0, 3)) ∧
    (Pow.Run.atOnce ringPower).ReadsFrom (1, 9) (some (0, 9)) ∧
    PushFails ringPower (Pow.Run.atOnce ringPower).ReadsFrom ringPowerValues 2 1 2 0 3 ringCall 3 12 13 ∧
    PopFails ringPower (Pow.Run.atOnce ringPower).ReadsFrom ringPowerValues 1 2 1 2 ringCall 2 8 9 := by
  rw [atOnce_rf ringPower_valid]
  exact ⟨Pow.Run.atOnce_valid ringPower_valid, no_copies ringPower_end (by decide +kernel), ringPower_ppc.1, ringPower_ppc.2.1, ringPower_ring,
    readsFrom_some (n := 2) ringPower_end rfl rfl rfl rfl (by decide) (by decide +kernel),
    readsFrom_some (n := 2) ringPower_end rfl rfl rfl rfl (by decide) (by decide +kernel),
    ⟨by decide, fun k hk => by simp only [ringCall]; omega, by decide, fun k hk hk' => by omega, 1, ⟨_, _, rfl⟩,
      ⟨(0, 18), some (0, 17), ⟨.op .ppc64 .load .relaxed 0 1, _, within_of_bounds rfl rfl (by decide) (by decide), rfl, rfl⟩,
        readsFrom_some (n := 2) ringPower_end rfl rfl rfl rfl (by decide) (by decide +kernel), rfl⟩, ⟨_, _, rfl⟩,
      ⟨(0, 19), some (1, 11), ⟨.op .ppc64 .load .acquire 0 2, _, within_of_bounds rfl rfl (by decide) (by decide), rfl, rfl⟩,
        readsFrom_some (n := 2) ringPower_end rfl rfl rfl rfl (by decide) (by decide +kernel), rfl⟩⟩,
    ⟨by decide, fun k hk => by simp only [ringCall]; omega, by decide, fun k hk hk' => by omega, 0, ⟨_, _, rfl⟩,
      ⟨(1, 12), some (1, 11), ⟨.op .ppc64 .load .relaxed 0 2, _, within_of_bounds rfl rfl (by decide) (by decide), rfl, rfl⟩,
        readsFrom_some (n := 2) ringPower_end rfl rfl rfl rfl (by decide) (by decide +kernel), rfl⟩, ⟨_, _, rfl⟩,
      ⟨(1, 13), some (0, 11), ⟨.op .ppc64 .load .acquire 0 1, _, within_of_bounds rfl rfl (by decide) (by decide), rfl, rfl⟩,
        readsFrom_some (n := 2) ringPower_end rfl rfl rfl rfl (by decide) (by decide +kernel), rfl⟩⟩⟩

/-! ### Queue -/

/-- Two threads put the nodes 1 and 2 into a queue; a third one takes them out and goes along the list. -/
def queuePower : Mca.Run .power := Run.of .power
  [[.user userStore 11, .op .ppc64 (.casOk .relaxed) .release 0 1],
    [.op .ppc64 .load .relaxed 0 1, .user userStore 12, .op .ppc64 (.casOk .relaxed) .release 0 1],
    [.exchange .ppc64 .consume 0 1, .user userLoad 12, .user userStore 12, .user userLoad 11, .user userStore 11,
      .user userLoad 11, .user userLoad 12]]
  [[(0, 1), (0, 0), (3, 0), (0, 4)],
    [(5, 0), (0, 6), (0, 0), (8, 0), (0, 9)],
    [(10, 0), (0, 11), (0, 0), (13, 0), (0, 14), (15, 0), (0, 16), (17, 0), (18, 0)]]

theorem queuePower_end (t : Nat) (h : 3 ≤ t) : queuePower.prog t = [] := by simp [queuePower, Run.of, h]

theorem queuePower_valid : queuePower.Valid := Check.valid (n := 3) queuePower_end (by decide +kernel)

theorem queuePower_items {Q : OpId → Item → Prop} (h0 : Q (0, 0) (.user userStore 11))
    (h1 : Q (0, 1) (.op .ppc64 (.casOk .relaxed) .release 0 1))
    (h2 : Q (1, 0) (.op .ppc64 .load .relaxed 0 1))
    (h3 : Q (1, 1) (.user userStore 12))
    (h4 : Q (1, 2) (.op .ppc64 (.casOk .relaxed) .release 0 1))
    (h5 : Q (2, 0) (.exchange .ppc64 .consume 0 1))
    (h6 : Q (2, 1) (.user userLoad 12))
    (h7 : Q (2, 2) (.user userStore 12))
    (h8 : Q (2, 3) (.user userLoad 11))
    (h9 : Q (2, 4) (.user userStore 11))
    (h10 : Q (2, 5) (.user userLoad 11))
    (h11 : Q (2, 6) (.user userLoad 12)) :
    ∀ id it, At queuePower id it → Q id it := by
  rintro ⟨t, i⟩ it h
  match t, i, h with
  | 0, 0, h => cases h; exact h0
  | 0, 1, h => cases h; exact h1
  | 0, i + 2, h => cases h
  | 1, 0, h => cases h; exact h2
  | 1, 1, h => cases h; exact h3
  | 1, 2, h => cases h; exact h4
  | 1, i + 3, h => cases h
  | 2, 0, h => cases h; exact h5
  | 2, 1, h => cases h; exact h6
  | 2, 2, h => cases h; exact h7
  | 2, 3, h => cases h; exact h8
  | 2, 4, h => cases h; exact h9
  | 2, 5, h => cases h; exact h10
  | 2, 6, h => cases h; exact h11
  | 2, i + 7, h => cases h
  | t + 3, i, h => rw [At, queuePower_end _ (by simp)] at h; cases h

theorem queuePower_ppc : (∀ t, ∀ it ∈ queuePower.prog t, it.accepts = true) ∧
    (∀ t, ∀ it ∈ queuePower.prog t, it.backend ≠ some .linuxArm) ∧ ∀ t, ∀ it ∈ queuePower.prog t, it.broken = false := by
  have items : ∀ {Q : Item → Prop}, (∀ it ∈ queuePower.prog 0, Q it) → (∀ it ∈ queuePower.prog 1, Q it) → (∀ it ∈ queuePower.prog 2, Q it) →
      ∀ t, ∀ it ∈ queuePower.prog t, Q it := by
    intro Q h0 h1 h2 t it h
    match t with
    | 0 => exact h0 it h
    | 1 => exact h1 it h
    | 2 => exact h2 it h
    | t + 3 => rw [queuePower_end _ (by simp)] at h; cases h
  exact ⟨items (by decide) (by decide) (by decide), items (by decide) (by decide) (by decide),
    items (by decide) (by decide) (by decide)⟩

theorem queuePower_copies (V : Values) : queuePower.Copies V := copies_trivial queuePower_end _ (by decide +kernel)

def queuePowerValues : Values := ⟨fun e => if e = (0, 3) ∨ e = (1, 1) then 1 else if e = (1, 4) ∨ e = (2, 6) then 2 else 0, fun _ => 0⟩

theorem queuePower_queue : Queue queuePower queuePower.ReadsFrom queuePowerValues 1 queueNext 2 queuePushes (· = queuePop) where
  init := rfl
  push := by
    rintro p (rfl | rfl)
    · exact ⟨by decide, ⟨_, _, _, rfl⟩,
        pub_leaves (n := 3) queuePower_end rfl (by decide +kernel), 0,
        ⟨userStore, (0, 0), rfl, rfl, within_of_bounds rfl rfl (by decide) (by decide), by decide⟩,
        ⟨(0, 2), none, ⟨.op .ppc64 (.casOk .relaxed) .release 0 1, _, within_of_bounds rfl rfl (by decide) (by decide), rfl, rfl⟩,
        readsFrom_none (n := 3) queuePower_end rfl (by decide +kernel), rfl⟩⟩
    · exact ⟨by decide, ⟨_, _, _, rfl⟩,
        pub_leaves (n := 3) queuePower_end rfl (by decide +kernel), 1,
        ⟨userStore, (1, 1), rfl, rfl, within_of_bounds rfl rfl (by decide) (by decide), by decide⟩,
        ⟨(1, 3), some (0, 3), ⟨.op .ppc64 (.casOk .relaxed) .release 0 1, _, within_of_bounds rfl rfl (by decide) (by decide), rfl, rfl⟩,
        readsFrom_some (n := 3) queuePower_end rfl rfl rfl rfl (by decide) (by decide +kernel), rfl⟩⟩
  pop := by
    rintro c rfl
    refine ⟨by decide, ⟨_, _, rfl⟩,
        pub_leaves (n := 3) queuePower_end rfl (by decide +kernel), ?_, 2,
      ⟨(2, 0), some (1, 4), ⟨.exchange .ppc64 .consume 0 1, _, within_of_bounds rfl rfl (by decide) (by decide), rfl, rfl⟩,
        readsFrom_some (n := 3) queuePower_end rfl rfl rfl rfl (by decide) (by decide +kernel), rfl⟩, fun _ => ?_,
      fun h => by cases h⟩
    · intro s hs
      simp only [queuePop, List.mem_cons, List.not_mem_nil, or_false] at hs
      rcases hs with rfl | rfl <;> decide
    · refine ⟨by decide, rfl, by decide, by decide, ⟨userLoad, (2, 3), some (1, 1), rfl, rfl, rfl, within_of_bounds rfl rfl (by decide) (by decide),
        readsFrom_some (n := 3) queuePower_end rfl rfl rfl rfl (by decide) (by decide +kernel), by decide⟩,
        ⟨userStore, (2, 4), rfl, rfl, within_of_bounds rfl rfl (by decide) (by decide), by decide⟩, ?_⟩
      refine ⟨by decide, rfl, by decide, by decide, ⟨userLoad, (2, 5), some (0, 0), rfl, rfl, rfl, within_of_bounds rfl rfl (by decide) (by decide),
        readsFrom_some (n := 3) queuePower_end rfl rfl rfl rfl (by decide) (by decide +kernel), by decide⟩,
        ⟨userStore, (2, 6), rfl, rfl, within_of_bounds rfl rfl (by decide) (by decide), by decide⟩, ?_⟩
      intro x hx; cases hx; exact ⟨rfl, rfl⟩
  heads := by
    refine queuePower_items ?_ ?_ ?_ ?_ ?_ ?_ ?_ ?_ ?_ ?_ ?_ ?_
    · exact fun _ h => absurd h (by decide)
    · exact fun _ _ => .inl ⟨_, .inl rfl, rfl⟩
    · exact fun _ _ => .inr (.inr ⟨_, _, _, _, .inl rfl, rfl⟩)
    · exact fun _ h => absurd h (by decide)
    · exact fun _ _ => .inl ⟨_, .inr rfl, rfl⟩
    · exact fun _ _ => .inr (.inl ⟨_, rfl, rfl⟩)
    · exact fun _ h => absurd h (by decide)
    · exact fun _ h => absurd h (by decide)
    · exact fun _ h => absurd h (by decide)
    · exact fun _ h => absurd h (by decide)
    · exact fun _ h => absurd h (by decide)
    · exact fun _ h => absurd h (by decide)
  nodes := by rintro p (rfl | rfl) <;> decide
  fresh := by rintro p q (rfl | rfl) (rfl | rfl) h <;> first | rfl | cases h
  pushes := by rintro p q (rfl | rfl) (rfl | rfl) h <;> first | rfl | cases h
  pops := by rintro c c' rfl rfl _; rfl
  nexts := by
    rintro p (rfl | rfl)
    · refine queuePower_items ?_ ?_ ?_ ?_ ?_ ?_ ?_ ?_ ?_ ?_ ?_ ?_
      · exact fun _ _ => .inl ⟨rfl, by decide, _, rfl⟩
      · exact fun _ h => absurd h (by decide)
      · exact fun _ h => absurd h (by decide)
      · exact fun _ h => absurd h (by decide)
      · exact fun _ h => absurd h (by decide)
      · exact fun _ h => absurd h (by decide)
      · exact fun _ h => absurd h (by decide)
      · exact fun _ h => absurd h (by decide)
      · exact fun _ _ => .inr (.inr ⟨_, rfl, rfl⟩)
      · exact fun _ _ => .inr (.inl ⟨queuePop, _, rfl, List.mem_cons_of_mem _ List.mem_cons_self, rfl, rfl⟩)
      · exact fun _ _ => .inr (.inr ⟨_, rfl, rfl⟩)
      · exact fun _ h => absurd h (by decide)
    · refine queuePower_items ?_ ?_ ?_ ?_ ?_ ?_ ?_ ?_ ?_ ?_ ?_ ?_
      · exact fun _ h => absurd h (by decide)
      · exact fun _ h => absurd h (by decide)
      · exact fun _ h => absurd h (by decide)
      · exact fun _ _ => .inl ⟨rfl, by decide, _, rfl⟩
      · exact fun _ h => absurd h (by decide)
      · exact fun _ h => absurd h (by decide)
      · exact fun _ _ => .inr (.inr ⟨_, rfl, rfl⟩)
      · exact fun _ _ => .inr (.inl ⟨queuePop, _, rfl, List.mem_cons_self, rfl, rfl⟩)
      · exact fun _ h => absurd h (by decide)
      · exact fun _ h => absurd h (by decide)
      · exact fun _ h => absurd h (by decide)
      · exact fun _ _ => .inr (.inr ⟨_, rfl, rfl⟩)

/-- The hypotheses of C63 hold for this execution: the consumer comes to the nodes in the order in which they were put in. -/
example : (Pow.Run.atOnce queuePower).Valid ∧ (∀ r c, ¬ queuePower.CopyOf r c) ∧
    (∀ t, ∀ it ∈ queuePower.prog t, it.accepts = true) ∧ (∀ t, ∀ it ∈ queuePower.prog t, it.backend ≠ some .linuxArm) ∧
    Queue queuePower (Pow.Run.atOnce queuePower).ReadsFrom queuePowerValues 1 queueNext 2 queuePushes (· = queuePop) ∧
    Walk queuePower (Pow.Run.atOnce queuePower).ReadsFrom queuePowerValues queueNext 2 queuePop.last 1 [1, 2] 0 := by
  rw [atOnce_rf queuePower_valid]
  exact ⟨Pow.Run.atOnce_valid queuePower_valid, no_copies queuePower_end (by decide +kernel), queuePower_ppc.1, queuePower_ppc.2.1,
    queuePower_queue,
    .node (i := 5) (b := 2) (by decide) (by decide) ⟨userLoad, (2, 7), some (2, 6), rfl, rfl, rfl, within_of_bounds rfl rfl (by decide) (by decide),
        readsFrom_some (n := 3) queuePower_end rfl rfl rfl rfl (by decide) (by decide +kernel), by decide⟩
      (.node (i := 6) (b := 0) (by decide) (by decide) ⟨userLoad, (2, 8), some (2, 4), rfl, rfl, rfl, within_of_bounds rfl rfl (by decide) (by decide),
        readsFrom_some (n := 3) queuePower_end rfl rfl rfl rfl (by decide) (by decide +kernel), by decide⟩ .stop)⟩

/-! ### Singleton -/

/-- Two threads find that there is no object and lock the mutex, which is the spinlock 2; the first one creates the object.  A
third thread finds the object at once. -/
def oncePower : Mca.Run .power := Run.of .power
  [[.op .ppc64 .load .consume 0 1, .exchange .ppc64 .acquire 0 2, .op .ppc64 .load .consume 0 1, .user userStore 0,
      .op .ppc64 .store .release 0 1, .op .ppc64 .store .release 0 2],
    [.op .ppc64 .load .consume 0 1, .exchange .ppc64 .acquire 0 2, .op .ppc64 .load .consume 0 1, .user userLoad 0],
    [.op .ppc64 .load .consume 0 1, .user userLoad 0]]
  [[(1, 0), (0, 0), (5, 0), (0, 6), (0, 0), (8, 0), (0, 0), (0, 10), (0, 0), (0, 12), (0, 0), (0, 14)],
    [(3, 0), (0, 0), (15, 0), (0, 16), (0, 0), (18, 0), (0, 0), (20, 0)],
    [(21, 0), (0, 0), (23, 0)]]

theorem oncePower_end (t : Nat) (h : 3 ≤ t) : oncePower.prog t = [] := by simp [oncePower, Run.of, h]

theorem oncePower_valid : oncePower.Valid := Check.valid (n := 3) oncePower_end (by decide +kernel)

theorem oncePower_items {Q : OpId → Item → Prop} (h0 : Q (0, 0) (.op .ppc64 .load .consume 0 1))
    (h1 : Q (0, 1) (.exchange .ppc64 .acquire 0 2))
    (h2 : Q (0, 2) (.op .ppc64 .load .consume 0 1))
    (h3 : Q (0, 3) (.user userStore 0))
    (h4 : Q (0, 4) (.op .ppc64 .store .release 0 1))
    (h5 : Q (0, 5) (.op .ppc64 .store .release 0 2))
    (h6 : Q (1, 0) (.op .ppc64 .load .consume 0 1))
    (h7 : Q (1, 1) (.exchange .ppc64 .acquire 0 2))
    (h8 : Q (1, 2) (.op .ppc64 .load .consume 0 1))
    (h9 : Q (1, 3) (.user userLoad 0))
    (h10 : Q (2, 0) (.op .ppc64 .load .consume 0 1))
    (h11 : Q (2, 1) (.user userLoad 0)) :
    ∀ id it, At oncePower id it → Q id it := by
  rintro ⟨t, i⟩ it h
  match t, i, h with
  | 0, 0, h => cases h; exact h0
  | 0, 1, h => cases h; exact h1
  | 0, 2, h => cases h; exact h2
  | 0, 3, h => cases h; exact h3
  | 0, 4, h => cases h; exact h4
  | 0, 5, h => cases h; exact h5
  | 0, i + 6, h => cases h
  | 1, 0, h => cases h; exact h6
  | 1, 1, h => cases h; exact h7
  | 1, 2, h => cases h; exact h8
  | 1, 3, h => cases h; exact h9
  | 1, i + 4, h => cases h
  | 2, 0, h => cases h; exact h10
  | 2, 1, h => cases h; exact h11
  | 2, i + 2, h => cases h
  | t + 3, i, h => rw [At, oncePower_end _ (by simp)] at h; cases h

theorem oncePower_ppc : (∀ t, ∀ it ∈ oncePower.prog t, it.accepts = true) ∧
    (∀ t, ∀ it ∈ oncePower.prog t, it.backend ≠ some .linuxArm) ∧ ∀ t, ∀ it ∈ oncePower.prog t, it.broken = false := by
  have items : ∀ {Q : Item → Prop}, (∀ it ∈ oncePower.prog 0, Q it) → (∀ it ∈ oncePower.prog 1, Q it) → (∀ it ∈ oncePower.prog 2, Q it) →
      ∀ t, ∀ it ∈ oncePower.prog t, Q it := by
    intro Q h0 h1 h2 t it h
    match t with
    | 0 => exact h0 it h
    | 1 => exact h1 it h
    | 2 => exact h2 it h
    | t + 3 => rw [oncePower_end _ (by simp)] at h; cases h
  exact ⟨items (by decide) (by decide) (by decide), items (by decide) (by decide) (by decide),
    items (by decide) (by decide) (by decide)⟩

theorem oncePower_copies (V : Values) : oncePower.Copies V := copies_trivial oncePower_end _ (by decide +kernel)

def oncePowerValues : Values := ⟨fun e => if e = (0, 9) then 7 else if e = (0, 11) then Unlocked else Locked,
  fun x => if x = 2 then Unlocked else 0⟩

theorem oncePower_lock : Spinlock oncePower oncePower.ReadsFrom oncePowerValues 2 onceSecs where
  init := rfl
  found := by
    rintro S (rfl | rfl)
    · exact ⟨Unlocked, by decide, ⟨(0, 2), none, ⟨.exchange .ppc64 .acquire 0 2, _, within_of_bounds rfl rfl (by decide) (by decide), rfl, rfl⟩,
        readsFrom_none (n := 3) oncePower_end rfl (by decide +kernel), rfl⟩⟩
    · exact ⟨Unlocked, by decide, ⟨(1, 2), some (0, 11), ⟨.exchange .ppc64 .acquire 0 2, _, within_of_bounds rfl rfl (by decide) (by decide), rfl, rfl⟩,
        readsFrom_some (n := 3) oncePower_end rfl rfl rfl rfl (by decide) (by decide +kernel), rfl⟩⟩
  lock := by rintro S (rfl | rfl) <;> exact .inl ⟨_, _, rfl, rfl⟩
  unlock := by
    rintro S u (rfl | rfl) h
    · cases h; exact ⟨by decide, _, _, rfl⟩
    · cases h
  apart := by rintro S S' (rfl | rfl) (rfl | rfl) h <;> first | exact .inl rfl | cases h
  others := by
    refine oncePower_items ?_ ?_ ?_ ?_ ?_ ?_ ?_ ?_ ?_ ?_ ?_ ?_
    · exact fun _ h => absurd h (by decide)
    · exact fun _ _ => .inl ⟨_, _, _, rfl⟩
    · exact fun _ h => absurd h (by decide)
    · exact fun _ h => absurd h (by decide)
    · exact fun _ h => absurd h (by decide)
    · exact fun _ _ => .inr (.inl ⟨_, _, .inl rfl, rfl, rfl⟩)
    · exact fun _ h => absurd h (by decide)
    · exact fun _ _ => .inl ⟨_, _, _, rfl⟩
    · exact fun _ h => absurd h (by decide)
    · exact fun _ h => absurd h (by decide)
    · exact fun _ h => absurd h (by decide)
    · exact fun _ h => absurd h (by decide)
  locks := by
    intro id b o n h
    refine oncePower_items (Q := fun id it => (∃ b o n, it = .exchange b o n 2) → Leaves oncePower oncePowerValues id Locked)
      ?_ ?_ ?_ ?_ ?_ ?_ ?_ ?_ ?_ ?_ ?_ ?_ id _ h ⟨_, _, _, rfl⟩
    · rintro ⟨_, _, _, ⟨⟩⟩
    · exact fun _ => pub_leaves (n := 3) oncePower_end rfl (by decide +kernel)
    · rintro ⟨_, _, _, ⟨⟩⟩
    · rintro ⟨_, _, _, ⟨⟩⟩
    · rintro ⟨_, _, _, ⟨⟩⟩
    · rintro ⟨_, _, _, ⟨⟩⟩
    · rintro ⟨_, _, _, ⟨⟩⟩
    · exact fun _ => pub_leaves (n := 3) oncePower_end rfl (by decide +kernel)
    · rintro ⟨_, _, _, ⟨⟩⟩
    · rintro ⟨_, _, _, ⟨⟩⟩
    · rintro ⟨_, _, _, ⟨⟩⟩
    · rintro ⟨_, _, _, ⟨⟩⟩
  unlocks := by
    rintro S u (rfl | rfl) h
    · cases h; exact pub_leaves (n := 3) oncePower_end rfl (by decide +kernel)
    · cases h

/-- The section of the thread that creates the object comes first. -/
theorem oncePower_section : Section oncePower oncePower.HappensBefore ⟨0, 1, 1, some 5⟩ ⟨1, 1, 1, none⟩ := by
  rcases C61_spinlock_partial oncePower oncePower_valid oncePowerValues (oncePower_copies _) oncePower_ppc.1
    oncePower_ppc.2.2 oncePower_lock
    _ _ (.inl rfl) (.inr rfl) (by simp) with k | ⟨_, k, -⟩
  · exact k
  · cases k

theorem oncePower_once : Singleton oncePower oncePower.ReadsFrom oncePower.HappensBefore oncePowerValues 1 onceCalls where
  init := rfl
  first := by
    rintro c (rfl | rfl | rfl)
    · exact ⟨by decide, ⟨_, _, rfl⟩, 0, ⟨(0, 0), none, ⟨.op .ppc64 .load .consume 0 1, _, within_of_bounds rfl rfl (by decide) (by decide), rfl, rfl⟩,
        readsFrom_none (n := 3) oncePower_end rfl (by decide +kernel), rfl⟩, by decide, by decide⟩
    · exact ⟨by decide, ⟨_, _, rfl⟩, 0, ⟨(1, 0), none, ⟨.op .ppc64 .load .consume 0 1, _, within_of_bounds rfl rfl (by decide) (by decide), rfl, rfl⟩,
        readsFrom_none (n := 3) oncePower_end rfl (by decide +kernel), rfl⟩, by decide, by decide⟩
    · exact ⟨by decide, ⟨_, _, rfl⟩, 7, ⟨(2, 0), some (0, 9), ⟨.op .ppc64 .load .consume 0 1, _, within_of_bounds rfl rfl (by decide) (by decide), rfl, rfl⟩,
        readsFrom_some (n := 3) oncePower_end rfl rfl rfl rfl (by decide) (by decide +kernel), rfl⟩, by decide, by decide⟩
  second := by
    rintro c k (rfl | rfl | rfl) h <;> cases h
    · exact ⟨by decide, by decide, ⟨_, _, rfl⟩, 0, ⟨(0, 5), none, ⟨.op .ppc64 .load .consume 0 1, _, within_of_bounds rfl rfl (by decide) (by decide), rfl, rfl⟩,
        readsFrom_none (n := 3) oncePower_end rfl (by decide +kernel), rfl⟩, by decide, by decide⟩
    · exact ⟨by decide, by decide, ⟨_, _, rfl⟩, 7, ⟨(1, 5), some (0, 9), ⟨.op .ppc64 .load .consume 0 1, _, within_of_bounds rfl rfl (by decide) (by decide), rfl, rfl⟩,
        readsFrom_some (n := 3) oncePower_end rfl rfl rfl rfl (by decide) (by decide +kernel), rfl⟩, by decide, by decide⟩
  store := by
    rintro c s (rfl | rfl | rfl) h <;> cases h
    exact ⟨2, rfl, by decide, by decide, ⟨_, _, rfl⟩,
        pub_leaves (n := 3) oncePower_end rfl (by decide +kernel), by decide⟩
  others := by
    refine oncePower_items ?_ ?_ ?_ ?_ ?_ ?_ ?_ ?_ ?_ ?_ ?_ ?_
    · exact fun _ _ => .inr ⟨_, _, _, _, .inl rfl, rfl⟩
    · exact fun _ h => absurd h (by decide)
    · exact fun _ _ => .inr ⟨_, _, _, _, .inl rfl, rfl⟩
    · exact fun _ h => absurd h (by decide)
    · exact fun _ _ => .inl ⟨_, _, .inl rfl, rfl, rfl⟩
    · exact fun _ h => absurd h (by decide)
    · exact fun _ _ => .inr ⟨_, _, _, _, .inl rfl, rfl⟩
    · exact fun _ h => absurd h (by decide)
    · exact fun _ _ => .inr ⟨_, _, _, _, .inl rfl, rfl⟩
    · exact fun _ h => absurd h (by decide)
    · exact fun _ _ => .inr ⟨_, _, _, _, .inl rfl, rfl⟩
    · exact fun _ h => absurd h (by decide)
  mutex := by
    have key : OpHb oncePower oncePower.HappensBefore (0, 4) (1, 2) := by
      obtain ⟨u, hu, hb⟩ := oncePower_section
      cases hu
      exact fun e f it it' he hf => hb e f ⟨_, _, he, rfl, by decide⟩ ⟨_, _, hf, rfl, by decide⟩
    rintro c c' k k' (rfl | rfl | rfl) (rfl | rfl | rfl) hne h h' <;> cases h <;> cases h'
    · exact absurd rfl hne
    · exact .inl fun s hs => by cases hs; exact key
    · exact .inr fun s hs => by cases hs; exact key
    · exact absurd rfl hne

/-- The hypotheses of C64 hold for this execution, in which the object is created by the first thread and used by the others. -/
example : (Pow.Run.atOnce oncePower).Valid ∧ (∀ r c, ¬ oncePower.CopyOf r c) ∧
    (∀ t, ∀ it ∈ oncePower.prog t, it.accepts = true) ∧ (∀ t, ∀ it ∈ oncePower.prog t, it.backend ≠ some .linuxArm) ∧
    Singleton oncePower (Pow.Run.atOnce oncePower).ReadsFrom (Pow.Run.atOnce oncePower).HappensBefore oncePowerValues 1 onceCalls ∧
    (Pow.Run.atOnce oncePower).ReadsFrom (1, 7) (some (0, 7)) ∧
    (Pow.Run.atOnce oncePower).ReadsFrom (2, 2) (some (0, 7)) := by
  rw [atOnce_rf oncePower_valid, atOnce_hb oncePower_valid]
  exact ⟨Pow.Run.atOnce_valid oncePower_valid, no_copies oncePower_end (by decide +kernel), oncePower_ppc.1, oncePower_ppc.2.1, oncePower_once,
    readsFrom_some (n := 3) oncePower_end rfl rfl rfl rfl (by decide) (by decide +kernel),
    readsFrom_some (n := 3) oncePower_end rfl rfl rfl rfl (by decide) (by decide +kernel)⟩

end Verif.Idiom
