import Verif.Idiom.Props
import Verif.Mca.ScProps

/-
Executions of the examples of the documentation to which C60–C64 apply.
-/

namespace Verif.Idiom

open Verif.Order Verif.Mca Verif.Mca.Run Verif.Locked

variable {cpu : Cpu} {R : Mca.Run cpu} {V : Values}

/-- An operation that is one instruction. -/
theorem one_pub {id : OpId} {it : Item} {w : Pos} (hit : At R id it) (hlen : it.events.length = 1) (hw : R.Pub id w) :
    w = (id.1, R.start id) := by
  obtain ⟨_, hin⟩ := pub_within hw
  cases At.eq hit hin.item
  have := hin.bounds
  exact Prod.ext this.1 (by simp only; omega)

theorem one_leaves {id : OpId} {it : Item} {v : Nat} (hit : At R id it) (hlen : it.events.length = 1)
    (hv : V.val (id.1, R.start id) = v) : Leaves R V id v := fun _ hw => one_pub hit hlen hw ▸ hv

theorem one_ret {id : OpId} {it : Item} (i : Instr) (hit : At R id it) (hc : it.code = [i]) (hr : i.ret = true) :
    R.Ret id (id.1, R.start id) := by
  obtain ⟨e, h1, h2⟩ := instr_at (i := 0) (x := i) hit (by rw [hc]; rfl)
  have hb := h1.bounds
  have hl : it.events.length = 1 := by rw [← List.length_map (f := fun e => e.ins), events_ins, hc]; rfl
  have : e = (id.1, R.start id) := Prod.ext hb.1 (by simp only; omega)
  exact this ▸ ⟨_, _, h1, h2, hr⟩

/-! ### Spinlock -/

/-- Two threads take the lock, one after the other; the second one finds it locked once. -/
def spinDemo : Mca.Run .aarch64 := Run.of .aarch64
  [[.exchange .gccAtomic .acquire 0 1, .user userStore 0, .op .gccAtomic .store .release 0 1],
    [.exchange .gccAtomic .relaxed 0 1, .exchange .gccAtomic .relaxed 0 1, .fence .gccAtomic .acquire, .user userLoad 0]]
  [[(2, 3), (0, 7), (0, 9)], [(4, 5), (10, 11), (0, 0), (12, 0)]]

def spinValues : Values := ⟨fun e => if e = (0, 2) then Unlocked else Locked, fun _ => Unlocked⟩

def spinSecs (S : Holding) : Prop := S = ⟨0, 0, 0, some 2⟩ ∨ S = ⟨1, 1, 2, none⟩

theorem spinDemo_end (t : Nat) (h : 2 ≤ t) : spinDemo.prog t = [] := by simp [spinDemo, Run.of, h]

theorem spinDemo_valid : spinDemo.Valid := Check.valid (n := 2) spinDemo_end (by decide +kernel)

theorem spinDemo_items {Q : OpId → Item → Prop} (h0 : Q (0, 0) (.exchange .gccAtomic .acquire 0 1)) (h1 : Q (0, 1) (.user userStore 0))
    (h2 : Q (0, 2) (.op .gccAtomic .store .release 0 1)) (h3 : Q (1, 0) (.exchange .gccAtomic .relaxed 0 1))
    (h4 : Q (1, 1) (.exchange .gccAtomic .relaxed 0 1)) (h5 : Q (1, 2) (.fence .gccAtomic .acquire))
    (h6 : Q (1, 3) (.user userLoad 0)) : ∀ id it, At spinDemo id it → Q id it := by
  rintro ⟨t, i⟩ it h
  match t, i, h with
  | 0, 0, h => cases h; exact h0
  | 0, 1, h => cases h; exact h1
  | 0, 2, h => cases h; exact h2
  | 0, i + 3, h => cases h
  | 1, 0, h => cases h; exact h3
  | 1, 1, h => cases h; exact h4
  | 1, 2, h => cases h; exact h5
  | 1, 3, h => cases h; exact h6
  | 1, i + 4, h => cases h
  | t + 2, i, h => rw [At, spinDemo_end _ (by simp)] at h; cases h

theorem spinDemo_lock : Spinlock spinDemo spinDemo.ReadsFrom spinValues 1 spinSecs where
  init := rfl
  found := by
    rintro S (rfl | rfl)
    · exact ⟨Unlocked, by decide, (0, 0), none, one_ret _ rfl rfl rfl,
        readsFrom_none (n := 2) spinDemo_end rfl (by decide +kernel), rfl⟩
    · exact ⟨Unlocked, by decide, (1, 1), some (0, 2), one_ret _ rfl rfl rfl,
        readsFrom_some (n := 2) spinDemo_end rfl rfl rfl rfl (by decide) (by decide +kernel), rfl⟩
  lock := by
    rintro S (rfl | rfl)
    · exact .inl ⟨_, _, rfl, rfl⟩
    · exact .inr ⟨_, _, _, rfl, rfl, by decide⟩
  unlock := by
    rintro S u (rfl | rfl) h
    · cases h; exact ⟨by decide, _, _, rfl⟩
    · cases h
  apart := by rintro S S' (rfl | rfl) (rfl | rfl) h <;> first | exact .inl rfl | cases h
  others := by
    refine spinDemo_items ?_ ?_ ?_ ?_ ?_ ?_ ?_
    · exact fun _ _ => .inl ⟨_, _, _, rfl⟩
    · exact fun _ h => absurd h (by decide)
    · exact fun _ _ => .inr (.inl ⟨⟨0, 0, 0, some 2⟩, 2, .inl rfl, rfl, rfl⟩)
    · exact fun _ _ => .inl ⟨_, _, _, rfl⟩
    · exact fun _ _ => .inl ⟨_, _, _, rfl⟩
    · exact fun h => absurd h (by decide)
    · exact fun _ h => absurd h (by decide)
  locks := by
    intro id b o n h
    refine spinDemo_items (Q := fun id it => (∃ b o n, it = .exchange b o n 1) → Leaves spinDemo spinValues id Locked)
      ?_ ?_ ?_ ?_ ?_ ?_ ?_ id _ h ⟨_, _, _, rfl⟩
    · exact fun _ => one_leaves rfl rfl (by decide)
    · rintro ⟨_, _, _, ⟨⟩⟩
    · rintro ⟨_, _, _, ⟨⟩⟩
    · exact fun _ => one_leaves rfl rfl (by decide)
    · exact fun _ => one_leaves rfl rfl (by decide)
    · rintro ⟨_, _, _, ⟨⟩⟩
    · rintro ⟨_, _, _, ⟨⟩⟩
  unlocks := by
    rintro S u (rfl | rfl) h
    · cases h; exact one_leaves rfl rfl (by decide)
    · cases h

/-- The hypotheses of C61 hold for this execution, and the data written in the first section are read in the second one. -/
example : spinDemo.Valid ∧ spinDemo.Copies spinValues ∧ (∀ t, ∀ it ∈ spinDemo.prog t, it.accepts = true) ∧
    (∀ t, ∀ it ∈ spinDemo.prog t, ∀ b, it.backend = some b → b = .gccAtomic) ∧
    Spinlock spinDemo spinDemo.ReadsFrom spinValues 1 spinSecs ∧
    Section spinDemo spinDemo.HappensBefore ⟨0, 0, 0, some 2⟩ ⟨1, 1, 2, none⟩ ∧
    spinDemo.ReadsFrom (1, 3) (some (0, 1)) := by
  have items : ∀ {Q : Item → Prop}, (∀ it ∈ spinDemo.prog 0, Q it) → (∀ it ∈ spinDemo.prog 1, Q it) →
      ∀ t, ∀ it ∈ spinDemo.prog t, Q it := by
    intro Q h0 h1 t it h
    match t with
    | 0 => exact h0 it h
    | 1 => exact h1 it h
    | t + 2 => rw [spinDemo_end _ (by simp)] at h; cases h
  have hb : ∀ t, ∀ it ∈ spinDemo.prog t, ∀ b, it.backend = some b → b = .gccAtomic := items (by decide) (by decide)
  have hacc : ∀ t, ∀ it ∈ spinDemo.prog t, it.accepts = true := items (by decide) (by decide)
  have hc : spinDemo.Copies spinValues := copies_trivial spinDemo_end _ (by decide +kernel)
  refine ⟨spinDemo_valid, hc, hacc, hb, spinDemo_lock, ?_,
    readsFrom_some (n := 2) spinDemo_end rfl rfl rfl rfl (by decide) (by decide +kernel)⟩
  rcases C61_spinlock spinDemo spinDemo_valid spinValues hc hacc (fun t it h b hb' => by rw [hb t it h b hb']; decide) spinDemo_lock
    _ _ (.inl rfl) (.inr rfl) (by simp) with k | ⟨_, k, -⟩
  · exact k
  · cases k

/-! ### Reference counting -/

/-- In a thread, an operation happens before the later ones. -/
theorem opHb_sb {a b : OpId} (h1 : a.1 = b.1) (h2 : a.2 < b.2) : OpHb R R.HappensBefore a b :=
  fun _ _ _ _ he hf => .before (op_before he hf h1 h2)

/-- A release store and an acquire load that finds it. -/
theorem opHb_sync (hS : R.Sound) (hR : R.Valid) {a b u v : OpId} {be be' : Backend} {o o' : MO} {n n' x : Nat} {w r : Pos}
    (hu : At R u (.op be .store o n x)) (ho : o.isRelease = true) (hv : At R v (.op be' .load o' n' x)) (ho' : o'.isAcquire = true)
    (hw : R.Pub u w) (hr : R.Ret v r) (hrf : R.ReadsFrom r (some w)) (hne : u.1 ≠ v.1)
    (h1 : a.1 = u.1 ∧ a.2 < u.2) (h2 : v.1 = b.1 ∧ v.2 < b.2) : OpHb R R.HappensBefore a b := by
  intro e f it it' he hf
  obtain ⟨_, iw⟩ := pub_within hw
  obtain ⟨_, ir⟩ := ret_within hr
  refine (mca R hR hS).sync (Released.of_release hu rfl ho hw (.inr (op_before he iw h1.1 h1.2))) (pub_writes hu rfl hw) .head hrf
    (ret_reads hv rfl hr) ?_ (Acquired.of_acquire hv rfl ho' hr (.inr (op_before ir hf h2.1 h2.2)))
  rw [ir.bounds.1, iw.bounds.1]; exact hne.symm

/-- The same for the store itself. -/
theorem opHb_sync' (hS : R.Sound) (hR : R.Valid) {b u v : OpId} {be be' : Backend} {o o' : MO} {n n' x : Nat} {w r : Pos}
    (hu : At R u (.op be .store o n x)) (ho : o.isRelease = true) (hv : At R v (.op be' .load o' n' x)) (ho' : o'.isAcquire = true)
    (hw : R.Pub u w) (hr : R.Ret v r) (hrf : R.ReadsFrom r (some w)) (hne : u.1 ≠ v.1)
    (hlen : (Item.op be .store o n x).events.length = 1) (h2 : v.1 = b.1 ∧ v.2 < b.2) : OpHb R R.HappensBefore u b := by
  intro e f it it' he hf
  obtain ⟨_, iw⟩ := pub_within hw
  obtain ⟨_, ir⟩ := ret_within hr
  have h1 : e = w := by
    cases At.eq hu he.item
    have := he.bounds
    exact (Prod.ext this.1 (by simp only; omega) : e = (u.1, R.start u)).trans (one_pub hu hlen hw).symm
  refine (mca R hR hS).sync (Released.of_release hu rfl ho hw (.inl h1)) (pub_writes hu rfl hw) .head hrf
    (ret_reads hv rfl hr) ?_ (Acquired.of_acquire hv rfl ho' hr (.inr (op_before ir hf h2.1 h2.2)))
  rw [ir.bounds.1, iw.bounds.1]; exact hne.symm

/-- A thread makes two references to an object and passes one of them to another thread, which deletes the object. -/
def countDemo : Mca.Run .aarch64 := Run.of .aarch64
  [[.op .gccAtomic .rmw .relaxed 0 1, .op .gccAtomic .rmw .relaxed 0 1, .op .gccAtomic .store .release 0 2, .user userStore 3, .op .gccAtomic .rmw .release 0 1],
    [.op .gccAtomic .load .acquire 0 2, .user userStore 4, .op .gccAtomic .rmw .release 0 1, .fence .gccAtomic .acquire, .user userStore 0]]
  [[(2, 3), (4, 5), (0, 7), (0, 11), (14, 15)], [(8, 0), (0, 13), (16, 17), (0, 0), (0, 21)]]

theorem countDemo_end (t : Nat) (h : 2 ≤ t) : countDemo.prog t = [] := by simp [countDemo, Run.of, h]

theorem countDemo_valid : countDemo.Valid := Check.valid (n := 2) countDemo_end (by decide +kernel)

theorem countDemo_items {Q : OpId → Item → Prop} (h0 : Q (0, 0) (.op .gccAtomic .rmw .relaxed 0 1))
    (h1 : Q (0, 1) (.op .gccAtomic .rmw .relaxed 0 1))
    (h2 : Q (0, 2) (.op .gccAtomic .store .release 0 2))
    (h3 : Q (0, 3) (.user userStore 3))
    (h4 : Q (0, 4) (.op .gccAtomic .rmw .release 0 1))
    (h5 : Q (1, 0) (.op .gccAtomic .load .acquire 0 2))
    (h6 : Q (1, 1) (.user userStore 4))
    (h7 : Q (1, 2) (.op .gccAtomic .rmw .release 0 1))
    (h8 : Q (1, 3) (.fence .gccAtomic .acquire))
    (h9 : Q (1, 4) (.user userStore 0)) :
    ∀ id it, At countDemo id it → Q id it := by
  rintro ⟨t, i⟩ it h
  match t, i, h with
  | 0, 0, h => cases h; exact h0
  | 0, 1, h => cases h; exact h1
  | 0, 2, h => cases h; exact h2
  | 0, 3, h => cases h; exact h3
  | 0, 4, h => cases h; exact h4
  | 0, i + 5, h => cases h
  | 1, 0, h => cases h; exact h5
  | 1, 1, h => cases h; exact h6
  | 1, 2, h => cases h; exact h7
  | 1, 3, h => cases h; exact h8
  | 1, 4, h => cases h; exact h9
  | 1, i + 5, h => cases h
  | t + 2, i, h => rw [At, countDemo_end _ (by simp)] at h; cases h

theorem countDemo_gcc : (∀ t, ∀ it ∈ countDemo.prog t, it.accepts = true) ∧
    (∀ t, ∀ it ∈ countDemo.prog t, ∀ b, it.backend = some b → b = .gccAtomic) := by
  have items : ∀ {Q : Item → Prop}, (∀ it ∈ countDemo.prog 0, Q it) → (∀ it ∈ countDemo.prog 1, Q it) →
      ∀ t, ∀ it ∈ countDemo.prog t, Q it := by
    intro Q h0 h1 t it h
    match t with
    | 0 => exact h0 it h
    | 1 => exact h1 it h
    | t + 2 => rw [countDemo_end _ (by simp)] at h; cases h
  exact ⟨items (by decide) (by decide), items (by decide) (by decide)⟩

theorem countDemo_copies (V : Values) : countDemo.Copies V := copies_trivial countDemo_end _ (by decide +kernel)

def countValues : Values := ⟨fun e => if e = (0, 0) ∨ e = (0, 4) then 1 else if e = (0, 1) then 2 else 0, fun _ => 0⟩

/-- The two references. -/
def countRefs : Refs where
  Ref := Bool
  add p := (0, if p then 1 else 0)
  release p := some (if p then (1, 2) else (0, 4))
  root := false
  origin _ := false

theorem countDemo_sound : countDemo.Sound := fun t it h =>
  ⟨countDemo_gcc.1 t it h, Notify.fine fun b hb => by rw [countDemo_gcc.2 t it h b hb]; decide⟩

theorem countDemo_count : RefCount countDemo countDemo.ReadsFrom countDemo.HappensBefore countValues 1 32 countRefs where
  init := rfl
  add p := by cases p <;> exact ⟨_, _, _, .inl rfl, rfl⟩
  release p d h := by cases p <;> cases h <;> exact ⟨_, _, _, .inl rfl, rfl⟩
  added p := by
    cases p
    · exact ⟨0, ⟨(0, 0), none, one_ret _ rfl rfl rfl, readsFrom_none (n := 2) countDemo_end rfl (by decide +kernel), rfl⟩, by decide, one_leaves rfl rfl (by decide)⟩
    · exact ⟨1, ⟨(0, 1), some (0, 0), one_ret _ rfl rfl rfl, readsFrom_some (n := 2) countDemo_end rfl rfl rfl rfl (by decide) (by decide +kernel), rfl⟩, by decide, one_leaves rfl rfl (by decide)⟩
  subtracted p d h := by
    cases p <;> cases h
    · exact ⟨2, ⟨(0, 4), some (0, 1), one_ret _ rfl rfl rfl, readsFrom_some (n := 2) countDemo_end rfl rfl rfl rfl (by decide) (by decide +kernel), rfl⟩, one_leaves rfl rfl (by decide)⟩
    · exact ⟨1, ⟨(1, 2), some (0, 4), one_ret _ rfl rfl rfl, readsFrom_some (n := 2) countDemo_end rfl rfl rfl rfl (by decide) (by decide +kernel), rfl⟩, one_leaves rfl rfl (by decide)⟩
  add_inj p q h := by cases p <;> cases q <;> first | rfl | cases h
  release_inj p q d h h' := by cases p <;> cases q <;> first | rfl | (cases h; cases h')
  disjoint p q h := by cases p <;> cases q <;> cases h
  others := by
    refine countDemo_items ?_ ?_ ?_ ?_ ?_ ?_ ?_ ?_ ?_ ?_
    · exact fun _ _ => .inl ⟨false, rfl⟩
    · exact fun _ _ => .inl ⟨true, rfl⟩
    · exact fun _ h => absurd h (by decide)
    · exact fun _ h => absurd h (by decide)
    · exact fun _ _ => .inr (.inl ⟨false, rfl⟩)
    · exact fun _ h => absurd h (by decide)
    · exact fun _ h => absurd h (by decide)
    · exact fun _ _ => .inr (.inl ⟨true, rfl⟩)
    · exact fun h => absurd h (by decide)
    · exact fun _ h => absurd h (by decide)
  order p d h := by
    cases p <;> cases h
    · exact opHb_sb rfl (by decide)
    · exact opHb_sync countDemo_sound countDemo_valid (u := (0, 2)) (v := (1, 0)) (w := (0, 2)) (r := (1, 0)) rfl rfl rfl rfl
        ⟨.op .gccAtomic .store .release 0 2, _, within_of_bounds rfl rfl (by decide) (by decide), rfl, rfl⟩
        (one_ret _ rfl rfl rfl) (readsFrom_some (n := 2) countDemo_end rfl rfl rfl rfl (by decide) (by decide +kernel)) (by decide)
        ⟨rfl, by decide⟩ ⟨rfl, by decide⟩
  copied p h := by
    cases p
    · exact absurd rfl h
    · refine ⟨opHb_sb rfl (by decide), fun d hd => ?_⟩
      cases hd; exact opHb_sb rfl (by decide)

/-- The hypotheses of C60 hold for this execution, in which the second thread deletes the object. -/
example : countDemo.Valid ∧ countDemo.Copies countValues ∧ (∀ t, ∀ it ∈ countDemo.prog t, it.accepts = true) ∧
    (∀ t, ∀ it ∈ countDemo.prog t, ∀ b, it.backend = some b → b = .gccAtomic) ∧
    RefCount countDemo countDemo.ReadsFrom countDemo.HappensBefore countValues 1 32 countRefs ∧
    Deletes countDemo countDemo.ReadsFrom countValues 1 countRefs true (1, 2) 3 ∧ Until countDemo 0 4 (0, 3) ∧
    From countDemo 1 4 (1, 4) :=
  ⟨countDemo_valid, countDemo_copies _, countDemo_gcc.1, countDemo_gcc.2, countDemo_count,
    ⟨rfl, ⟨(1, 2), some (0, 4), one_ret _ rfl rfl rfl, readsFrom_some (n := 2) countDemo_end rfl rfl rfl rfl (by decide) (by decide +kernel), rfl⟩, ⟨_, rfl⟩, by decide⟩,
    ⟨(0, 3), .user userStore 3, within_of_bounds rfl rfl (by decide) (by decide), rfl, by decide⟩,
    ⟨(1, 4), .user userStore 0, within_of_bounds rfl rfl (by decide) (by decide), rfl, by decide⟩⟩

/-! ### Ring buffer -/

/-- Three elements are put into a ring buffer of size 2, which has room for one; two are taken out.  The first element of
the array is used twice.  Then the consumer finds the buffer empty, and the producer finds it full. -/
def ringDemo : Mca.Run .aarch64 := Run.of .aarch64
  [[.op .gccAtomic .load .relaxed 0 1, .op .gccAtomic .load .acquire 0 2, .user userStore 10, .op .gccAtomic .store .release 0 1, .op .gccAtomic .load .relaxed 0 1, .op .gccAtomic .load .acquire 0 2, .user userStore 11, .op .gccAtomic .store .release 0 1, .op .gccAtomic .load .relaxed 0 1, .op .gccAtomic .load .acquire 0 2, .user userStore 10, .op .gccAtomic .store .release 0 1, .op .gccAtomic .load .relaxed 0 1, .op .gccAtomic .load .acquire 0 2],
    [.op .gccAtomic .load .relaxed 0 2, .op .gccAtomic .load .acquire 0 1, .user userLoad 10, .op .gccAtomic .store .release 0 2, .op .gccAtomic .load .relaxed 0 2, .op .gccAtomic .load .acquire 0 1, .user userLoad 11, .op .gccAtomic .store .release 0 2, .op .gccAtomic .load .relaxed 0 2, .op .gccAtomic .load .acquire 0 1]]
  [[(2, 0), (4, 0), (0, 7), (0, 9), (18, 0), (20, 0), (0, 23), (0, 25), (38, 0), (40, 0), (0, 43), (0, 45), (46, 0), (48, 0)], [(10, 0), (12, 0), (14, 0), (0, 17), (26, 0), (28, 0), (30, 0), (0, 33), (34, 0), (36, 0)]]

theorem ringDemo_end (t : Nat) (h : 2 ≤ t) : ringDemo.prog t = [] := by simp [ringDemo, Run.of, h]

theorem ringDemo_valid : ringDemo.Valid := Check.valid (n := 2) ringDemo_end (by decide +kernel)

theorem ringDemo_items {Q : OpId → Item → Prop} (h0 : Q (0, 0) (.op .gccAtomic .load .relaxed 0 1))
    (h1 : Q (0, 1) (.op .gccAtomic .load .acquire 0 2))
    (h2 : Q (0, 2) (.user userStore 10))
    (h3 : Q (0, 3) (.op .gccAtomic .store .release 0 1))
    (h4 : Q (0, 4) (.op .gccAtomic .load .relaxed 0 1))
    (h5 : Q (0, 5) (.op .gccAtomic .load .acquire 0 2))
    (h6 : Q (0, 6) (.user userStore 11))
    (h7 : Q (0, 7) (.op .gccAtomic .store .release 0 1))
    (h8 : Q (0, 8) (.op .gccAtomic .load .relaxed 0 1))
    (h9 : Q (0, 9) (.op .gccAtomic .load .acquire 0 2))
    (h10 : Q (0, 10) (.user userStore 10))
    (h11 : Q (0, 11) (.op .gccAtomic .store .release 0 1))
    (h12 : Q (0, 12) (.op .gccAtomic .load .relaxed 0 1))
    (h13 : Q (0, 13) (.op .gccAtomic .load .acquire 0 2))
    (h14 : Q (1, 0) (.op .gccAtomic .load .relaxed 0 2))
    (h15 : Q (1, 1) (.op .gccAtomic .load .acquire 0 1))
    (h16 : Q (1, 2) (.user userLoad 10))
    (h17 : Q (1, 3) (.op .gccAtomic .store .release 0 2))
    (h18 : Q (1, 4) (.op .gccAtomic .load .relaxed 0 2))
    (h19 : Q (1, 5) (.op .gccAtomic .load .acquire 0 1))
    (h20 : Q (1, 6) (.user userLoad 11))
    (h21 : Q (1, 7) (.op .gccAtomic .store .release 0 2))
    (h22 : Q (1, 8) (.op .gccAtomic .load .relaxed 0 2))
    (h23 : Q (1, 9) (.op .gccAtomic .load .acquire 0 1)) :
    ∀ id it, At ringDemo id it → Q id it := by
  rintro ⟨t, i⟩ it h
  match t, i, h with
  | 0, 0, h => cases h; exact h0
  | 0, 1, h => cases h; exact h1
  | 0, 2, h => cases h; exact h2
  | 0, 3, h => cases h; exact h3
  | 0, 4, h => cases h; exact h4
  | 0, 5, h => cases h; exact h5
  | 0, 6, h => cases h; exact h6
  | 0, 7, h => cases h; exact h7
  | 0, 8, h => cases h; exact h8
  | 0, 9, h => cases h; exact h9
  | 0, 10, h => cases h; exact h10
  | 0, 11, h => cases h; exact h11
  | 0, 12, h => cases h; exact h12
  | 0, 13, h => cases h; exact h13
  | 0, i + 14, h => cases h
  | 1, 0, h => cases h; exact h14
  | 1, 1, h => cases h; exact h15
  | 1, 2, h => cases h; exact h16
  | 1, 3, h => cases h; exact h17
  | 1, 4, h => cases h; exact h18
  | 1, 5, h => cases h; exact h19
  | 1, 6, h => cases h; exact h20
  | 1, 7, h => cases h; exact h21
  | 1, 8, h => cases h; exact h22
  | 1, 9, h => cases h; exact h23
  | 1, i + 10, h => cases h
  | t + 2, i, h => rw [At, ringDemo_end _ (by simp)] at h; cases h

theorem ringDemo_gcc : (∀ t, ∀ it ∈ ringDemo.prog t, it.accepts = true) ∧
    (∀ t, ∀ it ∈ ringDemo.prog t, ∀ b, it.backend = some b → b = .gccAtomic) := by
  have items : ∀ {Q : Item → Prop}, (∀ it ∈ ringDemo.prog 0, Q it) → (∀ it ∈ ringDemo.prog 1, Q it) →
      ∀ t, ∀ it ∈ ringDemo.prog t, Q it := by
    intro Q h0 h1 t it h
    match t with
    | 0 => exact h0 it h
    | 1 => exact h1 it h
    | t + 2 => rw [ringDemo_end _ (by simp)] at h; cases h
  exact ⟨items (by decide) (by decide), items (by decide) (by decide)⟩

theorem ringDemo_copies (V : Values) : ringDemo.Copies V := copies_trivial ringDemo_end _ (by decide +kernel)

def ringValues : Values := ⟨fun e => if e = (0, 3) ∨ e = (0, 11) ∨ e = (1, 3) then 1 else 0, fun _ => 0⟩

def ringCell (i : Nat) : Nat := 10 + i

def ringCall (i : Nat) : RingCall := ⟨4 * i, 4 * i + 1, 4 * i + 2, 4 * i + 3⟩

theorem ringDemo_ring : Ring ringDemo ringDemo.ReadsFrom ringValues 2 1 2 ringCell 0 1 3 2 ringCall ringCall where
  threads := by decide
  cell_inj i j _ _ h := by simp only [ringCell] at h; omega
  vars := ⟨by decide, fun i _ => by simp only [ringCell]; omega⟩
  size_pos := by decide
  init := ⟨rfl, rfl⟩
  pushOk i hi := by
    have hi : i = 0 ∨ i = 1 ∨ i = 2 := by omega
    rcases hi with rfl | rfl | rfl
    · exact ⟨0, 0, ⟨by decide, by decide, by decide⟩, ⟨_, _, rfl⟩,
        ⟨(0, 0), none, one_ret _ rfl rfl rfl, readsFrom_none (n := 2) ringDemo_end rfl (by decide +kernel), rfl⟩,
        ⟨_, _, rfl⟩, ⟨(0, 1), none, one_ret _ rfl rfl rfl, readsFrom_none (n := 2) ringDemo_end rfl (by decide +kernel), rfl⟩,
        by decide, ⟨_, rfl, rfl, rfl⟩, ⟨_, _, rfl⟩, one_leaves rfl rfl (by decide)⟩
    · exact ⟨1, 1, ⟨by decide, by decide, by decide⟩, ⟨_, _, rfl⟩,
        ⟨(0, 4), some (0, 3), one_ret _ rfl rfl rfl, readsFrom_some (n := 2) ringDemo_end rfl rfl rfl rfl (by decide) (by decide +kernel), rfl⟩,
        ⟨_, _, rfl⟩, ⟨(0, 5), some (1, 3), one_ret _ rfl rfl rfl, readsFrom_some (n := 2) ringDemo_end rfl rfl rfl rfl (by decide) (by decide +kernel), rfl⟩,
        by decide, ⟨_, rfl, rfl, rfl⟩, ⟨_, _, rfl⟩, one_leaves rfl rfl (by decide)⟩
    · exact ⟨0, 0, ⟨by decide, by decide, by decide⟩, ⟨_, _, rfl⟩,
        ⟨(0, 8), some (0, 7), one_ret _ rfl rfl rfl, readsFrom_some (n := 2) ringDemo_end rfl rfl rfl rfl (by decide) (by decide +kernel), rfl⟩,
        ⟨_, _, rfl⟩, ⟨(0, 9), some (1, 7), one_ret _ rfl rfl rfl, readsFrom_some (n := 2) ringDemo_end rfl rfl rfl rfl (by decide) (by decide +kernel), rfl⟩,
        by decide, ⟨_, rfl, rfl, rfl⟩, ⟨_, _, rfl⟩, one_leaves rfl rfl (by decide)⟩
  popOk i hi := by
    have hi : i = 0 ∨ i = 1 := by omega
    rcases hi with rfl | rfl
    · exact ⟨0, 1, ⟨by decide, by decide, by decide⟩, ⟨_, _, rfl⟩,
        ⟨(1, 0), none, one_ret _ rfl rfl rfl, readsFrom_none (n := 2) ringDemo_end rfl (by decide +kernel), rfl⟩,
        ⟨_, _, rfl⟩, ⟨(1, 1), some (0, 3), one_ret _ rfl rfl rfl, readsFrom_some (n := 2) ringDemo_end rfl rfl rfl rfl (by decide) (by decide +kernel), rfl⟩,
        by decide, ⟨_, rfl, rfl, rfl⟩, ⟨_, _, rfl⟩, one_leaves rfl rfl (by decide)⟩
    · exact ⟨1, 0, ⟨by decide, by decide, by decide⟩, ⟨_, _, rfl⟩,
        ⟨(1, 4), some (1, 3), one_ret _ rfl rfl rfl, readsFrom_some (n := 2) ringDemo_end rfl rfl rfl rfl (by decide) (by decide +kernel), rfl⟩,
        ⟨_, _, rfl⟩, ⟨(1, 5), some (0, 7), one_ret _ rfl rfl rfl, readsFrom_some (n := 2) ringDemo_end rfl rfl rfl rfl (by decide) (by decide +kernel), rfl⟩,
        by decide, ⟨_, rfl, rfl, rfl⟩, ⟨_, _, rfl⟩, one_leaves rfl rfl (by decide)⟩
  pushed i hi := by simp only [ringCall]; omega
  popped i hi := by simp only [ringCall]; omega
  heads := by
    refine ringDemo_items ?_ ?_ ?_ ?_ ?_ ?_ ?_ ?_ ?_ ?_ ?_ ?_ ?_ ?_ ?_ ?_ ?_ ?_ ?_ ?_ ?_ ?_ ?_ ?_
    · exact fun _ _ => .inr ⟨_, _, _, _, .inl rfl, rfl⟩
    · exact fun _ h => absurd h (by decide)
    · exact fun _ h => absurd h (by decide)
    · exact fun _ _ => .inl ⟨0, by decide, rfl⟩
    · exact fun _ _ => .inr ⟨_, _, _, _, .inl rfl, rfl⟩
    · exact fun _ h => absurd h (by decide)
    · exact fun _ h => absurd h (by decide)
    · exact fun _ _ => .inl ⟨1, by decide, rfl⟩
    · exact fun _ _ => .inr ⟨_, _, _, _, .inl rfl, rfl⟩
    · exact fun _ h => absurd h (by decide)
    · exact fun _ h => absurd h (by decide)
    · exact fun _ _ => .inl ⟨2, by decide, rfl⟩
    · exact fun _ _ => .inr ⟨_, _, _, _, .inl rfl, rfl⟩
    · exact fun _ h => absurd h (by decide)
    · exact fun _ h => absurd h (by decide)
    · exact fun _ _ => .inr ⟨_, _, _, _, .inl rfl, rfl⟩
    · exact fun _ h => absurd h (by decide)
    · exact fun _ h => absurd h (by decide)
    · exact fun _ h => absurd h (by decide)
    · exact fun _ _ => .inr ⟨_, _, _, _, .inl rfl, rfl⟩
    · exact fun _ h => absurd h (by decide)
    · exact fun _ h => absurd h (by decide)
    · exact fun _ h => absurd h (by decide)
    · exact fun _ _ => .inr ⟨_, _, _, _, .inl rfl, rfl⟩
  tails := by
    refine ringDemo_items ?_ ?_ ?_ ?_ ?_ ?_ ?_ ?_ ?_ ?_ ?_ ?_ ?_ ?_ ?_ ?_ ?_ ?_ ?_ ?_ ?_ ?_ ?_ ?_
    · exact fun _ h => absurd h (by decide)
    · exact fun _ _ => .inr ⟨_, _, _, _, .inl rfl, rfl⟩
    · exact fun _ h => absurd h (by decide)
    · exact fun _ h => absurd h (by decide)
    · exact fun _ h => absurd h (by decide)
    · exact fun _ _ => .inr ⟨_, _, _, _, .inl rfl, rfl⟩
    · exact fun _ h => absurd h (by decide)
    · exact fun _ h => absurd h (by decide)
    · exact fun _ h => absurd h (by decide)
    · exact fun _ _ => .inr ⟨_, _, _, _, .inl rfl, rfl⟩
    · exact fun _ h => absurd h (by decide)
    · exact fun _ h => absurd h (by decide)
    · exact fun _ h => absurd h (by decide)
    · exact fun _ _ => .inr ⟨_, _, _, _, .inl rfl, rfl⟩
    · exact fun _ _ => .inr ⟨_, _, _, _, .inl rfl, rfl⟩
    · exact fun _ h => absurd h (by decide)
    · exact fun _ h => absurd h (by decide)
    · exact fun _ _ => .inl ⟨0, by decide, rfl⟩
    · exact fun _ _ => .inr ⟨_, _, _, _, .inl rfl, rfl⟩
    · exact fun _ h => absurd h (by decide)
    · exact fun _ h => absurd h (by decide)
    · exact fun _ _ => .inl ⟨1, by decide, rfl⟩
    · exact fun _ _ => .inr ⟨_, _, _, _, .inl rfl, rfl⟩
    · exact fun _ h => absurd h (by decide)
  cells id it c h := by
    refine ringDemo_items (Q := fun id it => ∀ c, it.isFence = false → c < 2 → it.loc = ringCell c →
      (∃ i, i < 3 ∧ id = (0, (ringCall i).access)) ∨ ∃ j, j < 2 ∧ id = (1, (ringCall j).access)) ?_ ?_ ?_ ?_ ?_ ?_ ?_ ?_ ?_ ?_ ?_ ?_ ?_ ?_ ?_ ?_ ?_ ?_ ?_ ?_ ?_ ?_ ?_ ?_ id it h c
    · exact fun c _ _ h => by simp [Item.loc, ringCell] at h; omega
    · exact fun c _ _ h => by simp [Item.loc, ringCell] at h; omega
    · exact fun c _ _ h => .inl ⟨0, by decide, rfl⟩
    · exact fun c _ _ h => by simp [Item.loc, ringCell] at h; omega
    · exact fun c _ _ h => by simp [Item.loc, ringCell] at h; omega
    · exact fun c _ _ h => by simp [Item.loc, ringCell] at h; omega
    · exact fun c _ _ h => .inl ⟨1, by decide, rfl⟩
    · exact fun c _ _ h => by simp [Item.loc, ringCell] at h; omega
    · exact fun c _ _ h => by simp [Item.loc, ringCell] at h; omega
    · exact fun c _ _ h => by simp [Item.loc, ringCell] at h; omega
    · exact fun c _ _ h => .inl ⟨2, by decide, rfl⟩
    · exact fun c _ _ h => by simp [Item.loc, ringCell] at h; omega
    · exact fun c _ _ h => by simp [Item.loc, ringCell] at h; omega
    · exact fun c _ _ h => by simp [Item.loc, ringCell] at h; omega
    · exact fun c _ _ h => by simp [Item.loc, ringCell] at h; omega
    · exact fun c _ _ h => by simp [Item.loc, ringCell] at h; omega
    · exact fun c _ _ h => .inr ⟨0, by decide, rfl⟩
    · exact fun c _ _ h => by simp [Item.loc, ringCell] at h; omega
    · exact fun c _ _ h => by simp [Item.loc, ringCell] at h; omega
    · exact fun c _ _ h => by simp [Item.loc, ringCell] at h; omega
    · exact fun c _ _ h => .inr ⟨1, by decide, rfl⟩
    · exact fun c _ _ h => by simp [Item.loc, ringCell] at h; omega
    · exact fun c _ _ h => by simp [Item.loc, ringCell] at h; omega
    · exact fun c _ _ h => by simp [Item.loc, ringCell] at h; omega

/-- The hypotheses of C62 hold for this execution. -/
example : ringDemo.Valid ∧ ringDemo.Copies ringValues ∧ (∀ t, ∀ it ∈ ringDemo.prog t, it.accepts = true) ∧
    (∀ t, ∀ it ∈ ringDemo.prog t, ∀ b, it.backend = some b → b = .gccAtomic) ∧
    Ring ringDemo ringDemo.ReadsFrom ringValues 2 1 2 ringCell 0 1 3 2 ringCall ringCall ∧
    ringDemo.ReadsFrom (1, 2) (some (0, 2)) ∧ ringDemo.ReadsFrom (1, 6) (some (0, 6)) :=
  ⟨ringDemo_valid, ringDemo_copies _, ringDemo_gcc.1, ringDemo_gcc.2, ringDemo_ring,
    readsFrom_some (n := 2) ringDemo_end rfl rfl rfl rfl (by decide) (by decide +kernel),
    readsFrom_some (n := 2) ringDemo_end rfl rfl rfl rfl (by decide) (by decide +kernel)⟩

theorem ringDemo_sound : ringDemo.Sound := fun t it h =>
  ⟨ringDemo_gcc.1 t it h, Notify.fine fun b hb => by rw [ringDemo_gcc.2 t it h b hb]; decide⟩

/-- In this execution calls fail. -/
example : PushFails ringDemo ringDemo.ReadsFrom ringValues 2 1 2 0 3 ringCall 3 12 13 ∧
    PopFails ringDemo ringDemo.ReadsFrom ringValues 1 2 1 2 ringCall 2 8 9 ∧
    OpHb ringDemo ringDemo.HappensBefore (1, (ringCall 1).store) (0, 13) ∧
    OpHb ringDemo ringDemo.HappensBefore (0, (ringCall 1).store) (1, 9) := by
  refine ⟨⟨by decide, fun k hk => by simp only [ringCall]; omega, by decide, fun k hk hk' => by omega, 1, ⟨_, _, rfl⟩,
      ⟨(0, 12), some (0, 11), one_ret _ rfl rfl rfl, readsFrom_some (n := 2) ringDemo_end rfl rfl rfl rfl (by decide) (by decide +kernel), rfl⟩, ⟨_, _, rfl⟩,
      ⟨(0, 13), some (1, 7), one_ret _ rfl rfl rfl, readsFrom_some (n := 2) ringDemo_end rfl rfl rfl rfl (by decide) (by decide +kernel), rfl⟩⟩,
    ⟨by decide, fun k hk => by simp only [ringCall]; omega, by decide, fun k hk hk' => by omega, 0, ⟨_, _, rfl⟩,
      ⟨(1, 8), some (1, 7), one_ret _ rfl rfl rfl, readsFrom_some (n := 2) ringDemo_end rfl rfl rfl rfl (by decide) (by decide +kernel), rfl⟩, ⟨_, _, rfl⟩,
      ⟨(1, 9), some (0, 7), one_ret _ rfl rfl rfl, readsFrom_some (n := 2) ringDemo_end rfl rfl rfl rfl (by decide) (by decide +kernel), rfl⟩⟩, ?_, ?_⟩
  · exact opHb_sync' ringDemo_sound ringDemo_valid (u := (1, 7)) (v := (0, 9)) (w := (1, 7)) (r := (0, 9)) rfl rfl rfl rfl
      ⟨.op .gccAtomic .store .release 0 2, _, within_of_bounds rfl rfl (by decide) (by decide), rfl, rfl⟩
      (one_ret _ rfl rfl rfl) (readsFrom_some (n := 2) ringDemo_end rfl rfl rfl rfl (by decide) (by decide +kernel)) (by decide)
      rfl ⟨rfl, by decide⟩
  · exact opHb_sync' ringDemo_sound ringDemo_valid (u := (0, 7)) (v := (1, 5)) (w := (0, 7)) (r := (1, 5)) rfl rfl rfl rfl
      ⟨.op .gccAtomic .store .release 0 1, _, within_of_bounds rfl rfl (by decide) (by decide), rfl, rfl⟩
      (one_ret _ rfl rfl rfl) (readsFrom_some (n := 2) ringDemo_end rfl rfl rfl rfl (by decide) (by decide +kernel)) (by decide)
      rfl ⟨rfl, by decide⟩

/-! ### Queue -/

/-- Two threads put the nodes 1 and 2 into a queue; a third one takes them out and goes along the list. -/
def queueDemo : Mca.Run .aarch64 := Run.of .aarch64
  [[.user userStore 11, .op .gccAtomic (.casOk .relaxed) .release 0 1],
    [.op .gccAtomic .load .relaxed 0 1, .user userStore 12, .op .gccAtomic (.casOk .relaxed) .release 0 1],
    [.exchange .gccAtomic .consume 0 1, .user userLoad 12, .user userStore 12, .user userLoad 11, .user userStore 11, .user userLoad 11, .user userLoad 12]]
  [[(0, 3), (4, 5)], [(6, 0), (0, 9), (10, 11)], [(12, 13), (14, 0), (0, 17), (18, 0), (0, 21), (22, 0), (24, 0)]]

theorem queueDemo_end (t : Nat) (h : 3 ≤ t) : queueDemo.prog t = [] := by simp [queueDemo, Run.of, h]

theorem queueDemo_valid : queueDemo.Valid := Check.valid (n := 3) queueDemo_end (by decide +kernel)

theorem queueDemo_items {Q : OpId → Item → Prop} (h0 : Q (0, 0) (.user userStore 11))
    (h1 : Q (0, 1) (.op .gccAtomic (.casOk .relaxed) .release 0 1))
    (h2 : Q (1, 0) (.op .gccAtomic .load .relaxed 0 1))
    (h3 : Q (1, 1) (.user userStore 12))
    (h4 : Q (1, 2) (.op .gccAtomic (.casOk .relaxed) .release 0 1))
    (h5 : Q (2, 0) (.exchange .gccAtomic .consume 0 1))
    (h6 : Q (2, 1) (.user userLoad 12))
    (h7 : Q (2, 2) (.user userStore 12))
    (h8 : Q (2, 3) (.user userLoad 11))
    (h9 : Q (2, 4) (.user userStore 11))
    (h10 : Q (2, 5) (.user userLoad 11))
    (h11 : Q (2, 6) (.user userLoad 12)) :
    ∀ id it, At queueDemo id it → Q id it := by
  rintro ⟨t, i⟩ it h
  match t, i, h with
  | 0, 0, h => cases h; exact h0
  | 0, 1, h => cases h; exact h1
  | 0, i + 2, h => cases h
  | 1, 0, h => cases h; exact h2
  | 1, 1, h => cases h; exact h3
  | 1, 2, h => cases h; exact h4
  | 1, i + 3, h => cases h
  | 2, 0, h => cases h; exact h5
  | 2, 1, h => cases h; exact h6
  | 2, 2, h => cases h; exact h7
  | 2, 3, h => cases h; exact h8
  | 2, 4, h => cases h; exact h9
  | 2, 5, h => cases h; exact h10
  | 2, 6, h => cases h; exact h11
  | 2, i + 7, h => cases h
  | t + 3, i, h => rw [At, queueDemo_end _ (by simp)] at h; cases h

theorem queueDemo_gcc : (∀ t, ∀ it ∈ queueDemo.prog t, it.accepts = true) ∧
    (∀ t, ∀ it ∈ queueDemo.prog t, ∀ b, it.backend = some b → b = .gccAtomic) := by
  have items : ∀ {Q : Item → Prop}, (∀ it ∈ queueDemo.prog 0, Q it) → (∀ it ∈ queueDemo.prog 1, Q it) → (∀ it ∈ queueDemo.prog 2, Q it) →
      ∀ t, ∀ it ∈ queueDemo.prog t, Q it := by
    intro Q h0 h1 h2 t it h
    match t with
    | 0 => exact h0 it h
    | 1 => exact h1 it h
    | 2 => exact h2 it h
    | t + 3 => rw [queueDemo_end _ (by simp)] at h; cases h
  exact ⟨items (by decide) (by decide) (by decide), items (by decide) (by decide) (by decide)⟩

theorem queueDemo_copies (V : Values) : queueDemo.Copies V := copies_trivial queueDemo_end _ (by decide +kernel)

def queueValues : Values := ⟨fun e => if e = (0, 1) ∨ e = (1, 1) then 1 else if e = (1, 2) ∨ e = (2, 4) then 2 else 0, fun _ => 0⟩

def queueNext (a : Nat) : Nat := 10 + a

def queuePushes (p : PushCall) : Prop := p = ⟨0, 0, 1, 1⟩ ∨ p = ⟨1, 1, 2, 2⟩

def queuePop : PopCall := ⟨0, true, [⟨2, 1, 1, 2⟩, ⟨1, 3, 0, 4⟩], 4, some 1⟩

theorem queueDemo_queue : Queue queueDemo queueDemo.ReadsFrom queueValues 1 queueNext 2 queuePushes (· = queuePop) where
  init := rfl
  push := by
    rintro p (rfl | rfl)
    · exact ⟨by decide, ⟨_, _, _, rfl⟩, one_leaves (it := .op .gccAtomic (.casOk .relaxed) .release 0 1) rfl rfl (by decide), 0,
        ⟨userStore, (0, 0), rfl, rfl, within_of_bounds rfl rfl (by decide) (by decide), by decide⟩,
        ⟨(0, 1), none, one_ret _ rfl rfl rfl, readsFrom_none (n := 3) queueDemo_end rfl (by decide +kernel), rfl⟩⟩
    · exact ⟨by decide, ⟨_, _, _, rfl⟩, one_leaves (it := .op .gccAtomic (.casOk .relaxed) .release 0 1) rfl rfl (by decide), 1,
        ⟨userStore, (1, 1), rfl, rfl, within_of_bounds rfl rfl (by decide) (by decide), by decide⟩,
        ⟨(1, 2), some (0, 1), one_ret _ rfl rfl rfl, readsFrom_some (n := 3) queueDemo_end rfl rfl rfl rfl (by decide) (by decide +kernel), rfl⟩⟩
  pop := by
    rintro c rfl
    refine ⟨by decide, ⟨_, _, rfl⟩, one_leaves (it := .exchange .gccAtomic .consume 0 1) rfl rfl (by decide), ?_, 2,
      ⟨(2, 0), some (1, 2), one_ret _ rfl rfl rfl, readsFrom_some (n := 3) queueDemo_end rfl rfl rfl rfl (by decide) (by decide +kernel), rfl⟩, fun _ => ?_,
      fun h => by cases h⟩
    · intro s hs
      simp only [queuePop, List.mem_cons, List.not_mem_nil, or_false] at hs
      rcases hs with rfl | rfl <;> decide
    · refine ⟨by decide, rfl, by decide, by decide, ⟨userLoad, (2, 1), some (1, 1), rfl, rfl, rfl, within_of_bounds rfl rfl (by decide) (by decide),
        readsFrom_some (n := 3) queueDemo_end rfl rfl rfl rfl (by decide) (by decide +kernel), by decide⟩,
        ⟨userStore, (2, 2), rfl, rfl, within_of_bounds rfl rfl (by decide) (by decide), by decide⟩, ?_⟩
      refine ⟨by decide, rfl, by decide, by decide, ⟨userLoad, (2, 3), some (0, 0), rfl, rfl, rfl, within_of_bounds rfl rfl (by decide) (by decide),
        readsFrom_some (n := 3) queueDemo_end rfl rfl rfl rfl (by decide) (by decide +kernel), by decide⟩,
        ⟨userStore, (2, 4), rfl, rfl, within_of_bounds rfl rfl (by decide) (by decide), by decide⟩, ?_⟩
      intro x hx; cases hx; exact ⟨rfl, rfl⟩
  heads := by
    refine queueDemo_items ?_ ?_ ?_ ?_ ?_ ?_ ?_ ?_ ?_ ?_ ?_ ?_
    · exact fun _ h => absurd h (by decide)
    · exact fun _ _ => .inl ⟨_, .inl rfl, rfl⟩
    · exact fun _ _ => .inr (.inr ⟨_, _, _, _, .inl rfl, rfl⟩)
    · exact fun _ h => absurd h (by decide)
    · exact fun _ _ => .inl ⟨_, .inr rfl, rfl⟩
    · exact fun _ _ => .inr (.inl ⟨_, rfl, rfl⟩)
    · exact fun _ h => absurd h (by decide)
    · exact fun _ h => absurd h (by decide)
    · exact fun _ h => absurd h (by decide)
    · exact fun _ h => absurd h (by decide)
    · exact fun _ h => absurd h (by decide)
    · exact fun _ h => absurd h (by decide)
  nodes := by rintro p (rfl | rfl) <;> decide
  fresh := by rintro p q (rfl | rfl) (rfl | rfl) h <;> first | rfl | cases h
  pushes := by rintro p q (rfl | rfl) (rfl | rfl) h <;> first | rfl | cases h
  pops := by rintro c c' rfl rfl _; rfl
  nexts := by
    rintro p (rfl | rfl)
    · refine queueDemo_items ?_ ?_ ?_ ?_ ?_ ?_ ?_ ?_ ?_ ?_ ?_ ?_
      · exact fun _ _ => .inl ⟨rfl, by decide, _, rfl⟩
      · exact fun _ h => absurd h (by decide)
      · exact fun _ h => absurd h (by decide)
      · exact fun _ h => absurd h (by decide)
      · exact fun _ h => absurd h (by decide)
      · exact fun _ h => absurd h (by decide)
      · exact fun _ h => absurd h (by decide)
      · exact fun _ h => absurd h (by decide)
      · exact fun _ _ => .inr (.inr ⟨_, rfl, rfl⟩)
      · exact fun _ _ => .inr (.inl ⟨queuePop, _, rfl, List.mem_cons_of_mem _ List.mem_cons_self, rfl, rfl⟩)
      · exact fun _ _ => .inr (.inr ⟨_, rfl, rfl⟩)
      · exact fun _ h => absurd h (by decide)
    · refine queueDemo_items ?_ ?_ ?_ ?_ ?_ ?_ ?_ ?_ ?_ ?_ ?_ ?_
      · exact fun _ h => absurd h (by decide)
      · exact fun _ h => absurd h (by decide)
      · exact fun _ h => absurd h (by decide)
      · exact fun _ _ => .inl ⟨rfl, by decide, _, rfl⟩
      · exact fun _ h => absurd h (by decide)
      · exact fun _ h => absurd h (by decide)
      · exact fun _ _ => .inr (.inr ⟨_, rfl, rfl⟩)
      · exact fun _ _ => .inr (.inl ⟨queuePop, _, rfl, List.mem_cons_self, rfl, rfl⟩)
      · exact fun _ h => absurd h (by decide)
      · exact fun _ h => absurd h (by decide)
      · exact fun _ h => absurd h (by decide)
      · exact fun _ _ => .inr (.inr ⟨_, rfl, rfl⟩)

/-- The hypotheses of C63 hold for this execution: the consumer comes to the nodes in the order in which they were put in. -/
example : queueDemo.Valid ∧ queueDemo.Copies queueValues ∧ (∀ t, ∀ it ∈ queueDemo.prog t, it.accepts = true) ∧
    (∀ t, ∀ it ∈ queueDemo.prog t, ∀ b, it.backend = some b → b = .gccAtomic) ∧
    Queue queueDemo queueDemo.ReadsFrom queueValues 1 queueNext 2 queuePushes (· = queuePop) ∧
    queuePop.result = some 1 ∧ Walk queueDemo queueDemo.ReadsFrom queueValues queueNext 2 queuePop.last 1 [1, 2] 0 :=
  ⟨queueDemo_valid, queueDemo_copies _, queueDemo_gcc.1, queueDemo_gcc.2, queueDemo_queue, rfl,
    .node (i := 5) (b := 2) (by decide) (by decide) ⟨userLoad, (2, 5), some (2, 4), rfl, rfl, rfl, within_of_bounds rfl rfl (by decide) (by decide),
        readsFrom_some (n := 3) queueDemo_end rfl rfl rfl rfl (by decide) (by decide +kernel), by decide⟩
      (.node (i := 6) (b := 0) (by decide) (by decide) ⟨userLoad, (2, 6), some (2, 2), rfl, rfl, rfl, within_of_bounds rfl rfl (by decide) (by decide),
        readsFrom_some (n := 3) queueDemo_end rfl rfl rfl rfl (by decide) (by decide +kernel), by decide⟩ .stop)⟩

/-! ### Singleton -/

/-- Two threads find that there is no object and lock the mutex, which is the spinlock 2; the first one creates the object.  A
third thread finds the object at once. -/
def onceDemo : Mca.Run .aarch64 := Run.of .aarch64
  [[.op .gccAtomic .load .consume 0 1, .exchange .gccAtomic .acquire 0 2, .op .gccAtomic .load .consume 0 1, .user userStore 0, .op .gccAtomic .store .release 0 1, .op .gccAtomic .store .release 0 2],
    [.op .gccAtomic .load .consume 0 1, .exchange .gccAtomic .acquire 0 2, .op .gccAtomic .load .consume 0 1, .user userLoad 0],
    [.op .gccAtomic .load .consume 0 1, .user userLoad 0]]
  [[(2, 0), (6, 7), (8, 0), (0, 11), (0, 13), (0, 15)], [(4, 0), (16, 17), (18, 0), (20, 0)], [(22, 0), (24, 0)]]

theorem onceDemo_end (t : Nat) (h : 3 ≤ t) : onceDemo.prog t = [] := by simp [onceDemo, Run.of, h]

theorem onceDemo_valid : onceDemo.Valid := Check.valid (n := 3) onceDemo_end (by decide +kernel)

theorem onceDemo_items {Q : OpId → Item → Prop} (h0 : Q (0, 0) (.op .gccAtomic .load .consume 0 1))
    (h1 : Q (0, 1) (.exchange .gccAtomic .acquire 0 2))
    (h2 : Q (0, 2) (.op .gccAtomic .load .consume 0 1))
    (h3 : Q (0, 3) (.user userStore 0))
    (h4 : Q (0, 4) (.op .gccAtomic .store .release 0 1))
    (h5 : Q (0, 5) (.op .gccAtomic .store .release 0 2))
    (h6 : Q (1, 0) (.op .gccAtomic .load .consume 0 1))
    (h7 : Q (1, 1) (.exchange .gccAtomic .acquire 0 2))
    (h8 : Q (1, 2) (.op .gccAtomic .load .consume 0 1))
    (h9 : Q (1, 3) (.user userLoad 0))
    (h10 : Q (2, 0) (.op .gccAtomic .load .consume 0 1))
    (h11 : Q (2, 1) (.user userLoad 0)) :
    ∀ id it, At onceDemo id it → Q id it := by
  rintro ⟨t, i⟩ it h
  match t, i, h with
  | 0, 0, h => cases h; exact h0
  | 0, 1, h => cases h; exact h1
  | 0, 2, h => cases h; exact h2
  | 0, 3, h => cases h; exact h3
  | 0, 4, h => cases h; exact h4
  | 0, 5, h => cases h; exact h5
  | 0, i + 6, h => cases h
  | 1, 0, h => cases h; exact h6
  | 1, 1, h => cases h; exact h7
  | 1, 2, h => cases h; exact h8
  | 1, 3, h => cases h; exact h9
  | 1, i + 4, h => cases h
  | 2, 0, h => cases h; exact h10
  | 2, 1, h => cases h; exact h11
  | 2, i + 2, h => cases h
  | t + 3, i, h => rw [At, onceDemo_end _ (by simp)] at h; cases h

theorem onceDemo_gcc : (∀ t, ∀ it ∈ onceDemo.prog t, it.accepts = true) ∧
    (∀ t, ∀ it ∈ onceDemo.prog t, ∀ b, it.backend = some b → b = .gccAtomic) := by
  have items : ∀ {Q : Item → Prop}, (∀ it ∈ onceDemo.prog 0, Q it) → (∀ it ∈ onceDemo.prog 1, Q it) → (∀ it ∈ onceDemo.prog 2, Q it) →
      ∀ t, ∀ it ∈ onceDemo.prog t, Q it := by
    intro Q h0 h1 h2 t it h
    match t with
    | 0 => exact h0 it h
    | 1 => exact h1 it h
    | 2 => exact h2 it h
    | t + 3 => rw [onceDemo_end _ (by simp)] at h; cases h
  exact ⟨items (by decide) (by decide) (by decide), items (by decide) (by decide) (by decide)⟩

theorem onceDemo_copies (V : Values) : onceDemo.Copies V := copies_trivial onceDemo_end _ (by decide +kernel)

def onceValues : Values := ⟨fun e => if e = (0, 4) then 7 else if e = (0, 5) then Unlocked else Locked,
  fun x => if x = 2 then Unlocked else 0⟩

def onceSecs (S : Holding) : Prop := S = ⟨0, 1, 1, some 5⟩ ∨ S = ⟨1, 1, 1, none⟩

theorem onceDemo_lock : Spinlock onceDemo onceDemo.ReadsFrom onceValues 2 onceSecs where
  init := rfl
  found := by
    rintro S (rfl | rfl)
    · exact ⟨Unlocked, by decide, ⟨(0, 1), none, one_ret _ rfl rfl rfl, readsFrom_none (n := 3) onceDemo_end rfl (by decide +kernel), rfl⟩⟩
    · exact ⟨Unlocked, by decide, ⟨(1, 1), some (0, 5), one_ret _ rfl rfl rfl, readsFrom_some (n := 3) onceDemo_end rfl rfl rfl rfl (by decide) (by decide +kernel), rfl⟩⟩
  lock := by rintro S (rfl | rfl) <;> exact .inl ⟨_, _, rfl, rfl⟩
  unlock := by
    rintro S u (rfl | rfl) h
    · cases h; exact ⟨by decide, _, _, rfl⟩
    · cases h
  apart := by rintro S S' (rfl | rfl) (rfl | rfl) h <;> first | exact .inl rfl | cases h
  others := by
    refine onceDemo_items ?_ ?_ ?_ ?_ ?_ ?_ ?_ ?_ ?_ ?_ ?_ ?_
    · exact fun _ h => absurd h (by decide)
    · exact fun _ _ => .inl ⟨_, _, _, rfl⟩
    · exact fun _ h => absurd h (by decide)
    · exact fun _ h => absurd h (by decide)
    · exact fun _ h => absurd h (by decide)
    · exact fun _ _ => .inr (.inl ⟨_, _, .inl rfl, rfl, rfl⟩)
    · exact fun _ h => absurd h (by decide)
    · exact fun _ _ => .inl ⟨_, _, _, rfl⟩
    · exact fun _ h => absurd h (by decide)
    · exact fun _ h => absurd h (by decide)
    · exact fun _ h => absurd h (by decide)
    · exact fun _ h => absurd h (by decide)
  locks := by
    intro id b o n h
    refine onceDemo_items (Q := fun id it => (∃ b o n, it = .exchange b o n 2) → Leaves onceDemo onceValues id Locked)
      ?_ ?_ ?_ ?_ ?_ ?_ ?_ ?_ ?_ ?_ ?_ ?_ id _ h ⟨_, _, _, rfl⟩
    · rintro ⟨_, _, _, ⟨⟩⟩
    · exact fun _ => one_leaves rfl rfl (by decide)
    · rintro ⟨_, _, _, ⟨⟩⟩
    · rintro ⟨_, _, _, ⟨⟩⟩
    · rintro ⟨_, _, _, ⟨⟩⟩
    · rintro ⟨_, _, _, ⟨⟩⟩
    · rintro ⟨_, _, _, ⟨⟩⟩
    · exact fun _ => one_leaves rfl rfl (by decide)
    · rintro ⟨_, _, _, ⟨⟩⟩
    · rintro ⟨_, _, _, ⟨⟩⟩
    · rintro ⟨_, _, _, ⟨⟩⟩
    · rintro ⟨_, _, _, ⟨⟩⟩
  unlocks := by
    rintro S u (rfl | rfl) h
    · cases h; exact one_leaves rfl rfl (by decide)
    · cases h

def onceCalls (c : InstanceCall) : Prop := c = ⟨0, 0, some 2, some 4, 6, 7⟩ ∨ c = ⟨1, 0, some 2, none, 3, 7⟩ ∨ c = ⟨2, 0, none, none, 1, 7⟩

/-- The section of the thread that creates the object comes first. -/
theorem onceDemo_section : Section onceDemo onceDemo.HappensBefore ⟨0, 1, 1, some 5⟩ ⟨1, 1, 1, none⟩ := by
  rcases C61_spinlock onceDemo onceDemo_valid onceValues (onceDemo_copies _) onceDemo_gcc.1
    (fun t it h b hb => by rw [onceDemo_gcc.2 t it h b hb]; decide) onceDemo_lock
    _ _ (.inl rfl) (.inr rfl) (by simp) with k | ⟨_, k, -⟩
  · exact k
  · cases k

theorem onceDemo_once : Singleton onceDemo onceDemo.ReadsFrom onceDemo.HappensBefore onceValues 1 onceCalls where
  init := rfl
  first := by
    rintro c (rfl | rfl | rfl)
    · exact ⟨by decide, ⟨_, _, rfl⟩, 0, ⟨(0, 0), none, one_ret _ rfl rfl rfl, readsFrom_none (n := 3) onceDemo_end rfl (by decide +kernel), rfl⟩, by decide, by decide⟩
    · exact ⟨by decide, ⟨_, _, rfl⟩, 0, ⟨(1, 0), none, one_ret _ rfl rfl rfl, readsFrom_none (n := 3) onceDemo_end rfl (by decide +kernel), rfl⟩, by decide, by decide⟩
    · exact ⟨by decide, ⟨_, _, rfl⟩, 7, ⟨(2, 0), some (0, 4), one_ret _ rfl rfl rfl, readsFrom_some (n := 3) onceDemo_end rfl rfl rfl rfl (by decide) (by decide +kernel), rfl⟩, by decide, by decide⟩
  second := by
    rintro c k (rfl | rfl | rfl) h <;> cases h
    · exact ⟨by decide, by decide, ⟨_, _, rfl⟩, 0, ⟨(0, 2), none, one_ret _ rfl rfl rfl, readsFrom_none (n := 3) onceDemo_end rfl (by decide +kernel), rfl⟩, by decide, by decide⟩
    · exact ⟨by decide, by decide, ⟨_, _, rfl⟩, 7, ⟨(1, 2), some (0, 4), one_ret _ rfl rfl rfl, readsFrom_some (n := 3) onceDemo_end rfl rfl rfl rfl (by decide) (by decide +kernel), rfl⟩, by decide, by decide⟩
  store := by
    rintro c s (rfl | rfl | rfl) h <;> cases h
    exact ⟨2, rfl, by decide, by decide, ⟨_, _, rfl⟩, one_leaves rfl rfl (by decide), by decide⟩
  others := by
    refine onceDemo_items ?_ ?_ ?_ ?_ ?_ ?_ ?_ ?_ ?_ ?_ ?_ ?_
    · exact fun _ _ => .inr ⟨_, _, _, _, .inl rfl, rfl⟩
    · exact fun _ h => absurd h (by decide)
    · exact fun _ _ => .inr ⟨_, _, _, _, .inl rfl, rfl⟩
    · exact fun _ h => absurd h (by decide)
    · exact fun _ _ => .inl ⟨_, _, .inl rfl, rfl, rfl⟩
    · exact fun _ h => absurd h (by decide)
    · exact fun _ _ => .inr ⟨_, _, _, _, .inl rfl, rfl⟩
    · exact fun _ h => absurd h (by decide)
    · exact fun _ _ => .inr ⟨_, _, _, _, .inl rfl, rfl⟩
    · exact fun _ h => absurd h (by decide)
    · exact fun _ _ => .inr ⟨_, _, _, _, .inl rfl, rfl⟩
    · exact fun _ h => absurd h (by decide)
  mutex := by
    have key : OpHb onceDemo onceDemo.HappensBefore (0, 4) (1, 2) := by
      obtain ⟨u, hu, hb⟩ := onceDemo_section
      cases hu
      exact fun e f it it' he hf => hb e f ⟨_, _, he, rfl, by decide⟩ ⟨_, _, hf, rfl, by decide⟩
    rintro c c' k k' (rfl | rfl | rfl) (rfl | rfl | rfl) hne h h' <;> cases h <;> cases h'
    · exact absurd rfl hne
    · exact .inl fun s hs => by cases hs; exact key
    · exact .inr fun s hs => by cases hs; exact key
    · exact absurd rfl hne

/-- The hypotheses of C64 hold for this execution, in which the object is created by the first thread and used by the others. -/
example : onceDemo.Valid ∧ onceDemo.Copies onceValues ∧ (∀ t, ∀ it ∈ onceDemo.prog t, it.accepts = true) ∧
    (∀ t, ∀ it ∈ onceDemo.prog t, ∀ b, it.backend = some b → b = .gccAtomic) ∧
    Singleton onceDemo onceDemo.ReadsFrom onceDemo.HappensBefore onceValues 1 onceCalls ∧
    onceDemo.ReadsFrom (1, 3) (some (0, 3)) ∧ onceDemo.ReadsFrom (2, 1) (some (0, 3)) :=
  ⟨onceDemo_valid, onceDemo_copies _, onceDemo_gcc.1, onceDemo_gcc.2, onceDemo_once,
    readsFrom_some (n := 3) onceDemo_end rfl rfl rfl rfl (by decide) (by decide +kernel),
    readsFrom_some (n := 3) onceDemo_end rfl rfl rfl rfl (by decide) (by decide +kernel)⟩


/-- And those of C64_spinlock: the mutex is the spinlock 2. -/
example : Instances onceDemo onceDemo.ReadsFrom onceValues 1 onceCalls ∧ Spinlock onceDemo onceDemo.ReadsFrom onceValues 2 onceSecs ∧
    Guarded onceCalls onceSecs (fun c => if c.thread = 0 then ⟨0, 1, 1, some 5⟩ else ⟨1, 1, 1, none⟩) := by
  refine ⟨onceDemo_once.toInstances, onceDemo_lock, ?_, ?_⟩
  · rintro c k (rfl | rfl | rfl) h <;> cases h
    · exact ⟨.inl rfl, rfl, by decide, fun u hu => by cases hu; exact ⟨by decide, fun s hs => by cases hs; decide⟩⟩
    · exact ⟨.inr rfl, rfl, by decide, fun u hu => by cases hu⟩
  · rintro c c' (rfl | rfl | rfl) (rfl | rfl | rfl) h h' he <;> first | rfl | exact absurd rfl h | exact absurd rfl h' | cases he

/-! ### Spinlock: other processors -/

theorem pub_leaves {n : Nat} {id : OpId} {it : Item} {v : Nat} (hn : ∀ t, n ≤ t → R.prog t = []) (hit : At R id it)
    (h : ∀ y ∈ R.all n, y.2.ins.pub = true → y.1.1 = id.1 → R.start id ≤ y.1.2 → y.1.2 < R.start id + it.events.length →
      V.val y.1 = v) : Leaves R V id v := by
  rintro w ⟨it', y, hin, hy, hp⟩
  cases At.eq hit hin.item
  have hb := hin.bounds
  exact h (w, y) ((mem_all hn).2 hy) hp hb.1 hb.2.1 hb.2.2

/-- One thread after the other takes the lock. -/
def spinTwo (cpu : Cpu) (b : Backend) (ts : List (List (Nat × Nat))) : Mca.Run cpu := Run.of cpu
  [[.exchange b .acquire 0 1, .user userStore 0, .op b .store .release 0 1], [.exchange b .acquire 0 1, .user userLoad 0]] ts

theorem spinTwo_end {cpu b ts} (t : Nat) (h : 2 ≤ t) : (spinTwo cpu b ts).prog t = [] := by simp [spinTwo, Run.of, h]

theorem spinTwo_items {cpu b ts} {Q : OpId → Item → Prop} (h0 : Q (0, 0) (.exchange b .acquire 0 1))
    (h1 : Q (0, 1) (.user userStore 0)) (h2 : Q (0, 2) (.op b .store .release 0 1)) (h3 : Q (1, 0) (.exchange b .acquire 0 1))
    (h4 : Q (1, 1) (.user userLoad 0)) : ∀ id it, At (spinTwo cpu b ts) id it → Q id it := by
  rintro ⟨t, i⟩ it h
  match t, i, h with
  | 0, 0, h => cases h; exact h0
  | 0, 1, h => cases h; exact h1
  | 0, 2, h => cases h; exact h2
  | 0, i + 3, h => cases h
  | 1, 0, h => cases h; exact h3
  | 1, 1, h => cases h; exact h4
  | 1, i + 2, h => cases h
  | t + 2, i, h => rw [At, spinTwo_end _ (by simp)] at h; cases h

theorem spinTwo_prog {cpu b ts} {Q : Item → Prop} (h0 : Q (.exchange b .acquire 0 1)) (h1 : Q (.user userStore 0))
    (h2 : Q (.op b .store .release 0 1)) (h4 : Q (.user userLoad 0)) : ∀ t, ∀ it ∈ (spinTwo cpu b ts).prog t, Q it := by
  intro t it h
  obtain ⟨i, hi⟩ := List.mem_iff_getElem?.1 h
  exact spinTwo_items (Q := fun _ it => Q it) h0 h1 h2 h0 h4 (t, i) it hi

def spinTwoSecs (S : Holding) : Prop := S = ⟨0, 0, 0, some 2⟩ ∨ S = ⟨1, 0, 0, none⟩

theorem spinTwo_lock {cpu b ts rf V} (hi : V.init 1 = Unlocked) (h0 : Finds (spinTwo cpu b ts) rf V (0, 0) 1 Unlocked)
    (h1 : Finds (spinTwo cpu b ts) rf V (1, 0) 1 Unlocked) (h2 : Leaves (spinTwo cpu b ts) V (0, 0) Locked)
    (h3 : Leaves (spinTwo cpu b ts) V (0, 2) Unlocked) (h4 : Leaves (spinTwo cpu b ts) V (1, 0) Locked) :
    Spinlock (spinTwo cpu b ts) rf V 1 spinTwoSecs where
  init := hi
  found := by
    rintro S (rfl | rfl)
    · exact ⟨Unlocked, by decide, h0⟩
    · exact ⟨Unlocked, by decide, h1⟩
  lock := by rintro S (rfl | rfl) <;> exact .inl ⟨_, _, rfl, rfl⟩
  unlock := by
    rintro S u (rfl | rfl) h <;> cases h
    exact ⟨by decide, _, _, rfl⟩
  apart := by rintro S S' (rfl | rfl) (rfl | rfl) h <;> first | exact .inl rfl | cases h
  others := by
    refine spinTwo_items ?_ ?_ ?_ ?_ ?_
    · exact fun _ _ => .inl ⟨_, _, _, rfl⟩
    · exact fun _ h => absurd h (by decide)
    · exact fun _ _ => .inr (.inl ⟨⟨0, 0, 0, some 2⟩, 2, .inl rfl, rfl, rfl⟩)
    · exact fun _ _ => .inl ⟨_, _, _, rfl⟩
    · exact fun _ h => absurd h (by decide)
  locks := by
    intro id c o n h
    refine spinTwo_items (Q := fun id it => (∃ b o n, it = .exchange b o n 1) → Leaves (spinTwo cpu b ts) V id Locked)
      (fun _ => h2) ?_ ?_ (fun _ => h4) ?_ id _ h ⟨_, _, _, rfl⟩ <;> rintro ⟨_, _, _, ⟨⟩⟩
  unlocks := by
    rintro S u (rfl | rfl) h <;> cases h
    exact h3

def spinTwoValues : Values := ⟨fun e => if e = (0, 5) then Unlocked else Locked, fun _ => Unlocked⟩

/-- PowerPC, where a write becomes visible to one thread after another: the hypotheses of C61 hold for this execution. -/
def spinPower : Mca.Run .power := spinTwo .power .ppc64
  [[(2, 0), (0, 3), (0, 0), (0, 5), (0, 0), (0, 7)], [(8, 0), (0, 9), (0, 0), (10, 0)]]

theorem spinPower_valid : spinPower.Valid := Check.valid (n := 2) spinTwo_end (by decide +kernel)

example : (Pow.Run.atOnce spinPower).Valid ∧ (∀ r c, ¬ spinPower.CopyOf r c) ∧ (∀ t, ∀ it ∈ spinPower.prog t, it.accepts = true) ∧
    (∀ t, ∀ it ∈ spinPower.prog t, it.backend ≠ some .linuxArm) ∧
    Spinlock spinPower (Pow.Run.atOnce spinPower).ReadsFrom spinTwoValues 1 spinTwoSecs := by
  refine ⟨Pow.Run.atOnce_valid spinPower_valid, ?_, spinTwo_prog rfl rfl rfl rfl, spinTwo_prog (by simp [Item.backend])
    (by simp [Item.backend]) (by simp [Item.backend]) (by simp [Item.backend]), spinTwo_lock rfl ?_ ?_ ?_ ?_ ?_⟩
  · rintro r c ⟨⟨-, y, d, hy, hd, -⟩, z, hz, hnp⟩
    have key : ∀ y ∈ spinPower.all 2, y.2.pair ≠ none → y.2.ins.pub = true := by decide +kernel
    rw [← hy.unique hz, key _ ((mem_all spinTwo_end).2 hy) (by simp [hd])] at hnp; cases hnp
  · exact ⟨(0, 0), none, ⟨.exchange .ppc64 .acquire 0 1, _, within_of_bounds rfl rfl (by decide) (by decide), rfl, rfl⟩,
      (Pow.Run.atOnce_reads spinPower_valid).2 (readsFrom_none (n := 2) spinTwo_end rfl (by decide +kernel)), rfl⟩
  · exact ⟨(1, 0), some (0, 5), ⟨.exchange .ppc64 .acquire 0 1, _, within_of_bounds rfl rfl (by decide) (by decide), rfl, rfl⟩,
      (Pow.Run.atOnce_reads spinPower_valid).2
        (readsFrom_some (n := 2) spinTwo_end rfl rfl rfl rfl (by decide) (by decide +kernel)), rfl⟩
  · exact pub_leaves (n := 2) spinTwo_end rfl (by decide +kernel)
  · exact pub_leaves (n := 2) spinTwo_end rfl (by decide +kernel)
  · exact pub_leaves (n := 2) spinTwo_end rfl (by decide +kernel)

/-- The guarantee does not hold for the spinlock on SPARC, as `exchange` with memory_order_acquire is too weak there (finding of
C19): the second thread takes the lock after the first one has left it, and does not find the data that were written in the
section of the first one. -/
theorem C61_violated : ∃ R : Mca.Run .sparc, R.Valid ∧ R.Copies spinTwoValues ∧ R.Only .sparc ∧
    (∀ t, ∀ it ∈ R.prog t, it.accepts = true) ∧ Spinlock R R.ReadsFrom spinTwoValues 1 spinTwoSecs ∧
    Finds R R.ReadsFrom spinTwoValues (1, 0) 1 Unlocked ∧ R.ReadsFrom (1, 1) (some (0, 5)) ∧
    R.Within (0, 3) (0, 1) (.user userStore 0) ∧ R.Within (1, 3) (1, 1) (.user userLoad 0) ∧ R.ReadsFrom (1, 3) none := by
  let R : Mca.Run .sparc := spinTwo .sparc .sparc
    [[(1, 0), (2, 3), (0, 0), (0, 10), (0, 0), (0, 12)], [(13, 0), (14, 15), (0, 0), (5, 0)]]
  have hv : R.Valid := Check.valid (n := 2) spinTwo_end (by decide +kernel)
  have h0 : Finds R R.ReadsFrom spinTwoValues (0, 0) 1 Unlocked :=
    ⟨(0, 1), none, ⟨.exchange .sparc .acquire 0 1, _, within_of_bounds rfl rfl (by decide) (by decide), rfl, rfl⟩,
      readsFrom_none (n := 2) spinTwo_end rfl (by decide +kernel), rfl⟩
  have hr : R.ReadsFrom (1, 1) (some (0, 5)) := readsFrom_some (n := 2) spinTwo_end rfl rfl rfl rfl (by decide) (by decide +kernel)
  have h1 : Finds R R.ReadsFrom spinTwoValues (1, 0) 1 Unlocked :=
    ⟨(1, 1), some (0, 5), ⟨.exchange .sparc .acquire 0 1, _, within_of_bounds rfl rfl (by decide) (by decide), rfl, rfl⟩, hr, rfl⟩
  refine ⟨R, hv, copies_trivial spinTwo_end _ (by decide +kernel), ?_, spinTwo_prog rfl rfl rfl rfl,
    spinTwo_lock rfl h0 h1 ?_ ?_ ?_, h1, hr, within_of_bounds rfl rfl (by decide) (by decide),
    within_of_bounds rfl rfl (by decide) (by decide), readsFrom_none (n := 2) spinTwo_end rfl (by decide +kernel)⟩
  · exact fun t it h => spinTwo_prog (Q := fun it => ∀ b, it.backend = some b → b = .sparc)
      (by rintro b ⟨⟩; rfl) nofun (by rintro b ⟨⟩; rfl) nofun t it h
  · exact pub_leaves (n := 2) spinTwo_end rfl (by decide +kernel)
  · exact pub_leaves (n := 2) spinTwo_end rfl (by decide +kernel)
  · exact pub_leaves (n := 2) spinTwo_end rfl (by decide +kernel)

/-! ### Ring buffer on SPARC -/

/-- One element is put into a ring buffer of size 2 and taken out. -/
def ringSparc : Mca.Run .sparc := Run.of .sparc
  [[.op .sparc .load .relaxed 0 1, .op .sparc .load .acquire 0 2, .user userStore 10, .op .sparc .store .release 0 1],
    [.op .sparc .load .relaxed 0 2, .op .sparc .load .acquire 0 1, .user userLoad 10, .op .sparc .store .release 0 2]]
  [[(1, 0), (2, 0), (0, 0), (0, 10), (0, 0), (0, 12)], [(13, 0), (14, 0), (0, 0), (5, 0), (0, 0), (0, 16)]]

theorem ringSparc_end (t : Nat) (h : 2 ≤ t) : ringSparc.prog t = [] := by simp [ringSparc, Run.of, h]

theorem ringSparc_items {Q : OpId → Item → Prop} (h0 : Q (0, 0) (.op .sparc .load .relaxed 0 1))
    (h1 : Q (0, 1) (.op .sparc .load .acquire 0 2)) (h2 : Q (0, 2) (.user userStore 10))
    (h3 : Q (0, 3) (.op .sparc .store .release 0 1)) (h4 : Q (1, 0) (.op .sparc .load .relaxed 0 2))
    (h5 : Q (1, 1) (.op .sparc .load .acquire 0 1)) (h6 : Q (1, 2) (.user userLoad 10))
    (h7 : Q (1, 3) (.op .sparc .store .release 0 2)) : ∀ id it, At ringSparc id it → Q id it := by
  rintro ⟨t, i⟩ it h
  match t, i, h with
  | 0, 0, h => cases h; exact h0
  | 0, 1, h => cases h; exact h1
  | 0, 2, h => cases h; exact h2
  | 0, 3, h => cases h; exact h3
  | 0, i + 4, h => cases h
  | 1, 0, h => cases h; exact h4
  | 1, 1, h => cases h; exact h5
  | 1, 2, h => cases h; exact h6
  | 1, 3, h => cases h; exact h7
  | 1, i + 4, h => cases h
  | t + 2, i, h => rw [At, ringSparc_end _ (by simp)] at h; cases h

def ringSparcValues : Values := ⟨fun _ => 1, fun _ => 0⟩

theorem ringSparc_ring : Ring ringSparc ringSparc.ReadsFrom ringSparcValues 2 1 2 ringCell 0 1 1 1 ringCall ringCall where
  threads := by decide
  cell_inj i j _ _ h := by simp only [ringCell] at h; omega
  vars := ⟨by decide, fun i _ => by simp only [ringCell]; omega⟩
  size_pos := by decide
  init := ⟨rfl, rfl⟩
  pushOk i hi := by
    obtain rfl : i = 0 := by omega
    exact ⟨0, 0, ⟨by decide, by decide, by decide⟩, ⟨_, _, rfl⟩,
      ⟨(0, 0), none, ⟨.op .sparc .load .relaxed 0 1, _, within_of_bounds rfl rfl (by decide) (by decide), rfl, rfl⟩,
        readsFrom_none (n := 2) ringSparc_end rfl (by decide +kernel), rfl⟩, ⟨_, _, rfl⟩,
      ⟨(0, 1), none, ⟨.op .sparc .load .acquire 0 2, _, within_of_bounds rfl rfl (by decide) (by decide), rfl, rfl⟩,
        readsFrom_none (n := 2) ringSparc_end rfl (by decide +kernel), rfl⟩,
      by decide, ⟨_, rfl, rfl, rfl⟩, ⟨_, _, rfl⟩, fun _ _ => rfl⟩
  popOk i hi := by
    obtain rfl : i = 0 := by omega
    exact ⟨0, 1, ⟨by decide, by decide, by decide⟩, ⟨_, _, rfl⟩,
      ⟨(1, 0), none, ⟨.op .sparc .load .relaxed 0 2, _, within_of_bounds rfl rfl (by decide) (by decide), rfl, rfl⟩,
        readsFrom_none (n := 2) ringSparc_end rfl (by decide +kernel), rfl⟩, ⟨_, _, rfl⟩,
      ⟨(1, 1), some (0, 5), ⟨.op .sparc .load .acquire 0 1, _, within_of_bounds rfl rfl (by decide) (by decide), rfl, rfl⟩,
        readsFrom_some (n := 2) ringSparc_end rfl rfl rfl rfl (by decide) (by decide +kernel), rfl⟩,
      by decide, ⟨_, rfl, rfl, rfl⟩, ⟨_, _, rfl⟩, fun _ _ => rfl⟩
  pushed i hi := by omega
  popped i hi := by omega
  heads := by
    refine ringSparc_items ?_ ?_ ?_ ?_ ?_ ?_ ?_ ?_
    · exact fun _ _ => .inr ⟨_, _, _, _, .inl rfl, rfl⟩
    · exact fun _ h => absurd h (by decide)
    · exact fun _ h => absurd h (by decide)
    · exact fun _ _ => .inl ⟨0, by decide, rfl⟩
    · exact fun _ h => absurd h (by decide)
    · exact fun _ _ => .inr ⟨_, _, _, _, .inl rfl, rfl⟩
    · exact fun _ h => absurd h (by decide)
    · exact fun _ h => absurd h (by decide)
  tails := by
    refine ringSparc_items ?_ ?_ ?_ ?_ ?_ ?_ ?_ ?_
    · exact fun _ h => absurd h (by decide)
    · exact fun _ _ => .inr ⟨_, _, _, _, .inl rfl, rfl⟩
    · exact fun _ h => absurd h (by decide)
    · exact fun _ h => absurd h (by decide)
    · exact fun _ _ => .inr ⟨_, _, _, _, .inl rfl, rfl⟩
    · exact fun _ h => absurd h (by decide)
    · exact fun _ h => absurd h (by decide)
    · exact fun _ _ => .inl ⟨0, by decide, rfl⟩
  cells id it c h := by
    refine ringSparc_items (Q := fun id it => ∀ c, it.isFence = false → c < 2 → it.loc = ringCell c →
      (∃ i, i < 1 ∧ id = (0, (ringCall i).access)) ∨ ∃ j, j < 1 ∧ id = (1, (ringCall j).access)) ?_ ?_ ?_ ?_ ?_ ?_ ?_ ?_ id it h c
    · exact fun c _ _ h => by simp [Item.loc, ringCell] at h; omega
    · exact fun c _ _ h => by simp [Item.loc, ringCell] at h; omega
    · exact fun c _ _ h => .inl ⟨0, by decide, rfl⟩
    · exact fun c _ _ h => by simp [Item.loc, ringCell] at h; omega
    · exact fun c _ _ h => by simp [Item.loc, ringCell] at h; omega
    · exact fun c _ _ h => by simp [Item.loc, ringCell] at h; omega
    · exact fun c _ _ h => .inr ⟨0, by decide, rfl⟩
    · exact fun c _ _ h => by simp [Item.loc, ringCell] at h; omega

/-- The guarantee does not hold for the ring buffer on SPARC, as `load` with memory_order_acquire is too weak there (finding of
C19): `pop` finds that an element has been put in, and reads what was in the array before. -/
theorem C62_violated : ∃ R : Mca.Run .sparc, R.Valid ∧ R.Copies ringSparcValues ∧ R.Only .sparc ∧
    (∀ t, ∀ it ∈ R.prog t, it.accepts = true) ∧
    Ring R R.ReadsFrom ringSparcValues 2 1 2 ringCell 0 1 1 1 ringCall ringCall ∧
    R.Within (1, 3) (1, (ringCall 0).access) (.user userLoad 10) ∧ R.ReadsFrom (1, 3) none ∧
    ∀ hb, ¬ Transfers R R.ReadsFrom hb 2 0 1 1 1 ringCall ringCall := by
  have hin : ringSparc.Within (1, 3) (1, 2) (.user userLoad 10) := within_of_bounds rfl rfl (by decide) (by decide)
  have hr : ringSparc.ReadsFrom (1, 3) none := readsFrom_none (n := 2) ringSparc_end rfl (by decide +kernel)
  have prog : ∀ {Q : Item → Prop}, (∀ it ∈ ringSparc.prog 0, Q it) → (∀ it ∈ ringSparc.prog 1, Q it) →
      ∀ t, ∀ it ∈ ringSparc.prog t, Q it := by
    intro Q h0 h1 t it h
    match t with
    | 0 => exact h0 it h
    | 1 => exact h1 it h
    | t + 2 => rw [ringSparc_end _ (by simp)] at h; cases h
  refine ⟨ringSparc, Check.valid (n := 2) ringSparc_end (by decide +kernel), copies_trivial ringSparc_end _ (by decide +kernel),
    prog (by decide) (by decide), prog (by decide) (by decide), ringSparc_ring, hin, hr, fun hb h => ?_⟩
  obtain ⟨e, _, h, -⟩ := h.fifo 0 (by decide) (1, 3) _ none hin hr
  cases h

end Verif.Idiom
