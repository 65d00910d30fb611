import Verif.Sleep.Check

/-
An execution in which two threads block in a condition and `notify_one` takes one of them from the queue, for the examples
in `Verif.Sleep.Props`.
-/

namespace Verif.Sleep

open Verif.Order Verif.Mca Verif.Mca.Run Verif.Locked

set_option synthInstance.maxSize 1024

/-- `wait(0)` for the object 1, up to blocking in the condition 4. -/
def soloWait : List Item :=
  [.op .gccArm (.casOk .relaxed) .acquire 0 0, .op .gccArm .load .relaxed 0 1, .user userLoad 2,
    .op .gccArm .load .relaxed 0 4, .user userStore 2, .op .gccArm (.casOk .relaxed) .release 0 0,
    .op .gccArm (.casOk .relaxed) .acquire 0 5, .op .gccArm .load .relaxed 0 4, .user userLoad 6, .user userStore 6,
    .op .gccArm (.casOk .relaxed) .release 0 5]

/-- On ARM: two threads wait, a third one stores 1 and calls `notify_one`.  The store takes effect after this thread has taken
the mutex. -/
def soloItems : List (List Item) :=
  [[.op .gccArm .store .relaxed 0 1, .op .gccArm (.casOk .relaxed) .acquire 0 0, .user userLoad 2,
    .op .gccArm .rmw .relaxed 0 4, .op .gccArm (.casOk .relaxed) .acquire 0 5, .user userLoad 6, .user userStore 6,
    .op .gccArm (.casOk .relaxed) .release 0 5, .op .gccArm (.casOk .relaxed) .release 0 0], soloWait, soloWait]

def solo : Mca.Run .arm := Run.of .arm soloItems
  [[(0, 33), (31, 0), (0, 32), (0, 0), (34, 0), (35, 0), (0, 36), (37, 0), (0, 38), (0, 0), (39, 0), (0, 40), (0, 0),
    (41, 0), (0, 42), (0, 0), (43, 0), (0, 44)],
  [(1, 0), (0, 2), (0, 0), (3, 0), (4, 0), (5, 0), (0, 6), (0, 0), (7, 0), (0, 8), (9, 0), (0, 10), (0, 0), (11, 0),
    (12, 0), (0, 13), (0, 0), (14, 0), (0, 15)],
  [(16, 0), (0, 17), (0, 0), (18, 0), (19, 0), (20, 0), (0, 21), (0, 0), (22, 0), (0, 23), (24, 0), (0, 25), (0, 0),
    (26, 0), (27, 0), (0, 28), (0, 0), (29, 0), (0, 30)]]

/-- What the instructions read from. -/
def soloSrc (r : Pos) : Option Pos :=
  ([((0, 1), (2, 9)), ((0, 4), (2, 6)), ((0, 7), (2, 18)), ((0, 10), (2, 15)), ((0, 13), (0, 8)), ((0, 16), (0, 2)),
    ((1, 8), (1, 1)), ((1, 17), (1, 11)), ((2, 0), (1, 9)), ((2, 4), (1, 6)), ((2, 8), (2, 1)), ((2, 10), (1, 18)),
    ((2, 14), (1, 15)), ((2, 17), (2, 11))] : List (Pos × Pos)).lookup r

/-- The values they write. -/
def soloValues : Values where
  val e := (([((0, 0), 1), ((0, 2), 9), ((0, 6), 1), ((0, 8), 1), ((0, 11), 2), ((0, 17), 12), ((1, 1), 1), ((1, 6), 65),
    ((1, 9), 4), ((1, 11), 1), ((1, 15), 1), ((2, 1), 5), ((2, 6), 67), ((2, 9), 8), ((2, 11), 1),
    ((2, 15), 3)] : List (Pos × Nat)).lookup e).getD 0
  init _ := 0

/-- The variable 2 is the entry of the object, and 6 is the queue of the condition, with the lock 5. -/
def soloGuard (x : Nat) : Option Nat := if x = 2 then some 0 else if x = 6 then some 5 else none

def soloMutex (S : Fin 6) : Nat := [0, 5, 0, 5, 0, 5].getD S.1 0
def soloTake (S : Fin 6) : OpId := [(1, 0), (1, 6), (2, 0), (2, 6), (0, 1), (0, 4)].getD S.1 default
def soloGive (S : Fin 6) : OpId := [(1, 5), (1, 10), (2, 5), (2, 10), (0, 8), (0, 7)].getD S.1 default

def soloSections : Sections where
  Sec := Fin 6
  mutex := soloMutex
  take := soloTake
  give := soloGive

/-- What the sections do for the object. -/
def soloUses (S : Fin 6) (x : Nat) : Option Use :=
  if x = 1 then match S with
    | 0 => some (.enter none 0 0 4 0)
    | 2 => some (.enter none 1 0 4 0)
    | 4 => some .notifyOne
    | _ => none
  else none

/-- The calls of the kernel. -/
def soloDoes (K : Fin 6) (c : Nat) : Option Notify.Call :=
  if c = 4 then match K with
    | 1 => some (.wait 0 0)
    | 3 => some (.wait 1 0)
    | 5 => some .notifyOne
    | _ => none
  else none

def soloEntry (x : Nat) : Nat := if x = 1 then 2 else 100
def soloQueue (c : Nat) : Nat := if c = 4 then 6 else 101

theorem solo_end (t : Nat) (h : 3 ≤ t) : solo.prog t = [] := by
  show soloItems.getD t [] = []
  rw [List.getD_eq_getElem?_getD, List.getElem?_eq_none (by simpa [soloItems] using h)]; rfl

theorem solo_valid : solo.Valid := Check.valid (n := 3) solo_end (by decide +kernel)

theorem solo_table : Table solo 3 soloSrc := table_of solo_end solo_valid (by decide +kernel) (by decide +kernel)
  (by decide +kernel)

theorem solo_lawful : soloSections.Lawful solo.prog soloGuard := by
  have at_ : ∀ {id : OpId} {it : Item}, (solo.prog id.1)[id.2]? = some it → id.1 < 3 ∧ id.2 < 11 := by
    intro id it h
    have h3 : id.1 < 3 := Nat.lt_of_not_le fun h' => by rw [solo_end _ h'] at h; cases h
    have hl := (List.getElem?_eq_some_iff.1 h).1
    have : ∀ t < 3, (solo.prog t).length ≤ 11 := by decide
    exact ⟨h3, Nat.lt_of_lt_of_le hl (this _ h3)⟩
  refine ⟨(by decide : ∀ S, (soloTake S).1 = (soloGive S).1 ∧ (soloTake S).2 < (soloGive S).2),
    (by decide : ∀ S S', soloTake S = soloTake S' → S = S'), ?_, ?_, ?_, ?_⟩
  · intro (S : Fin 6)
    match S with
    | 0 | 1 | 2 | 3 | 4 | 5 => exact ⟨_, _, rfl⟩
  · intro (S : Fin 6)
    match S with
    | 0 | 1 | 2 | 3 | 4 | 5 => exact ⟨_, _, rfl⟩
  · rintro ⟨t, i⟩ it S hit hf hl
    obtain ⟨h1, h2⟩ := at_ hit
    have key : ∀ t < 3, ∀ i < 11, (((solo.prog t)[i]?).map fun it => it.loc == 0 || it.loc == 5).getD false = true →
        (∃ S' : Fin 6, (t, i) = soloTake S') ∨ (∃ S' : Fin 6, (t, i) = soloGive S') := by decide +kernel
    have hS : ∀ S : Fin 6, soloMutex S = 0 ∨ soloMutex S = 5 := by decide
    rcases key t h1 i h2 (by
      simp only [hit, Option.map_some, Option.getD_some, hl, Bool.or_eq_true, beq_iff_eq]; exact hS S) with h | h
    · exact .inl h
    · exact .inr (.inl h)
  · rintro ⟨t, i⟩ it m hit hf hg
    obtain ⟨h1, h2⟩ := at_ hit
    have key : ∀ t < 3, ∀ i < 11, ∀ l ∈ (((solo.prog t)[i]?).map fun it => it.loc).toList, ∀ m ∈ (soloGuard l).toList,
        ∃ S : Fin 6, soloMutex S = m ∧ (t = (soloTake S).1 ∧ (soloTake S).2 < i ∧ i < (soloGive S).2) := by
      decide +kernel
    exact key t h1 i h2 it.loc (by simp [hit]) m (by simp [hg])

theorem solo_holds : soloSections.Holds solo solo.ReadsFrom soloValues := by
  refine ⟨?_, ?_, ?_, copies_trivial solo_end _ (by decide +kernel), fun S => rfl⟩
  · exact fun S => did_of solo_table ((by decide +kernel : ∀ S : Fin 6, ∀ r ∈ rets solo 3 (soloTake S),
      r ∈ ((solo.all 3).filter fun z => z.2.ins.has .rd).map Prod.fst ∧ ∀ w ∈ pubs solo 3 (soloTake S),
      (soloValues.of (soloMutex S) (soloSrc r)) % 2 = 0 ∧ soloValues.val w % 2 = 1) S)
  · exact fun S => did_of solo_table ((by decide +kernel : ∀ S : Fin 6, ∀ r ∈ rets solo 3 (soloGive S),
      r ∈ ((solo.all 3).filter fun z => z.2.ins.has .rd).map Prod.fst ∧ ∀ w ∈ pubs solo 3 (soloGive S),
      soloValues.val w % 2 = 0) S)
  · rintro ⟨t, i⟩ it S hit ⟨b, n, k, hk, rfl⟩
    have h3 : t < 3 := Nat.lt_of_not_le fun h' => by rw [solo_end _ h'] at hit; cases hit
    have hl := (List.getElem?_eq_some_iff.1 hit).1
    have h11 : ∀ t < 3, (solo.prog t).length ≤ 11 := by decide
    have key : ∀ t < 3, ∀ i < 11, ∀ p ∈ (((solo.prog t)[i]?).map fun it => (it.writeOrder, it.loc)).toList,
        p.1 = some .relaxed → p.2 ≠ 0 ∧ p.2 ≠ 5 := by decide +kernel
    have := key t h3 i (Nat.lt_of_lt_of_le hl (h11 t h3))
      ((Item.op b k .relaxed n (soloSections.mutex S)).writeOrder, soloSections.mutex S)
      (by rw [show (solo.prog t)[i]? = _ from hit]; exact List.mem_singleton.2 rfl)
    have hS : soloSections.mutex S = 0 ∨ soloSections.mutex S = 5 := (by decide : ∀ S : Fin 6, soloMutex S = 0 ∨ soloMutex S = 5) S
    simp only [List.mem_cons, List.not_mem_nil, or_false] at hk
    rcases hk with rfl | rfl | rfl <;> rcases hS with h | h <;> first | exact absurd h (this rfl).1 | exact absurd h (this rfl).2

/-- What is found and left in the entry of the object and in the queue. -/
theorem solo_tables : founds solo 3 soloSrc soloValues (soloTake 0) (soloGive 0) 2 = [0] ∧
    lefts solo 3 soloValues (soloTake 0) (soloGive 0) 2 = [65] ∧
    founds solo 3 soloSrc soloValues (soloTake 2) (soloGive 2) 2 = [65] ∧
    lefts solo 3 soloValues (soloTake 2) (soloGive 2) 2 = [67] ∧
    founds solo 3 soloSrc soloValues (soloTake 4) (soloGive 4) 2 = [67] ∧
    (∀ S : Fin 6, S ≠ 0 → S ≠ 2 → lefts solo 3 soloValues (soloTake S) (soloGive S) 2 = []) ∧
    (∀ S : Fin 6, lefts solo 3 soloValues (soloTake S) (soloGive S) 100 = []) ∧
    lefts solo 3 soloValues (soloTake 1) (soloGive 1) 6 = [1] ∧
    lefts solo 3 soloValues (soloTake 3) (soloGive 3) 6 = [3] ∧
    founds solo 3 soloSrc soloValues (soloTake 5) (soloGive 5) 6 = [3] ∧
    lefts solo 3 soloValues (soloTake 5) (soloGive 5) 6 = [2] ∧
    (∀ S : Fin 6, lefts solo 3 soloValues (soloTake S) (soloGive S) 6 ≠ [] →
      founds solo 3 soloSrc soloValues (soloTake S) (soloGive S) 6 ≠ []) ∧
    (∀ S : Fin 6, lefts solo 3 soloValues (soloTake S) (soloGive S) 101 = []) ∧
    ∀ S : Fin 6, ∀ v ∈ founds solo 3 soloSrc soloValues (soloTake S) (soloGive S) 6,
      ∀ v' ∈ lefts solo 3 soloValues (soloTake S) (soloGive S) 6, v.testBit 1 = true → v'.testBit 1 = true := by
  refine ⟨?_, ?_, ?_, ?_, ?_, ?_, ?_, ?_, ?_, ?_, ?_, ?_, ?_, ?_⟩ <;> decide +kernel

theorem solo_uses {S : Fin 6} {x : Nat} {u : Use} (h : soloUses S x = some u) : x = 1 ∧
    ((S = 0 ∧ u = .enter none 0 0 4 0) ∨ (S = 2 ∧ u = .enter none 1 0 4 0) ∨ (S = 4 ∧ u = .notifyOne)) := by
  unfold soloUses at h
  split at h
  · refine ⟨‹_›, ?_⟩
    match S with
    | 0 | 2 | 4 => cases h; simp
    | 1 | 3 | 5 => cases h
  · cases h

theorem solo_does {S : Fin 6} {c : Nat} {u : Notify.Call} (h : soloDoes S c = some u) : c = 4 ∧
    ((S = 1 ∧ u = .wait 0 0) ∨ (S = 3 ∧ u = .wait 1 0) ∨ (S = 5 ∧ u = .notifyOne)) := by
  unfold soloDoes at h
  split at h
  · refine ⟨‹_›, ?_⟩
    match S with
    | 1 | 3 | 5 => cases h; simp
    | 0 | 2 | 4 => cases h
  · cases h

theorem solo_conditions : Conditions solo solo.ReadsFrom soloValues soloGuard soloSections soloEntry (fun v => v % 16)
    (fun v => v / 16) soloUses soloDoes := by
  obtain ⟨f0, l0, f2, l2, f4, lo, lz, -⟩ := solo_tables
  have other : ∀ {S : Fin 6} {x v : Nat}, SectionLeft solo soloValues (soloTake S) (soloGive S) (soloEntry x) v →
      x = 1 ∧ (S = 0 ∨ S = 2) := by
    intro S x v h
    unfold soloEntry at h
    split at h
    · refine ⟨‹_›, ?_⟩
      by_cases e0 : S = 0
      · exact .inl e0
      · by_cases e2 : S = 2
        · exact .inr e2
        · exact absurd ((left_iff solo_table (lo S e0 e2)).1 h) (by simp)
    · exact absurd ((left_iff solo_table (lz S)).1 h) (by simp)
  refine ⟨?_, ?_, ?_, ?_, ?_, ?_⟩
  · intro S x u h
    obtain ⟨rfl, ⟨rfl, -⟩ | ⟨rfl, -⟩ | ⟨rfl, -⟩⟩ := solo_uses h <;> rfl
  · intro S x v _ h
    obtain ⟨rfl, rfl | rfl⟩ := other h
    · exact ⟨0, (found_iff solo_table f0).2 (by simp)⟩
    · exact ⟨65, (found_iff solo_table f2).2 (by simp)⟩
  · intro S x v v' _ _ h h1 h2
    obtain ⟨rfl, rfl | rfl⟩ := other h
    · exact absurd rfl (h1 none 0 0 4 0)
    · exact absurd rfl (h1 none 1 0 4 0)
  · intro S x j k old c p h
    obtain ⟨rfl, ⟨rfl, e⟩ | ⟨rfl, e⟩ | ⟨-, e⟩⟩ := solo_uses h <;> cases e
    · refine ⟨⟨0, 65, (found_iff solo_table f0).2 (by simp), (left_iff solo_table l0).2 (by simp), fun i => ?_, rfl,
          fun h => absurd rfl h⟩,
        ⟨(1, 3), none, _, Notify.inside_at 1 rfl rfl (by decide) (by decide) (by decide) (by decide), ⟨_, rfl, rfl⟩, rfl, rfl,
          reads_at solo_table rfl (by decide +kernel), rfl⟩,
        ⟨(1, 5), none, _, Notify.inside_at 3 rfl rfl (by decide) (by decide) (by decide) (by decide), ⟨_, rfl, rfl⟩, rfl, rfl,
          reads_at solo_table rfl (by decide +kernel), rfl⟩⟩
      simpa using bits_plus (v := 0) (v' := 1) (j := 0) (by decide) i
    · refine ⟨⟨65, 67, (found_iff solo_table f2).2 (by simp), (left_iff solo_table l2).2 (by simp), fun i => ?_, rfl,
          fun _ => rfl⟩,
        ⟨(2, 3), none, _, Notify.inside_at 1 rfl rfl (by decide) (by decide) (by decide) (by decide), ⟨_, rfl, rfl⟩, rfl, rfl,
          reads_at solo_table rfl (by decide +kernel), rfl⟩,
        ⟨(2, 5), none, _, Notify.inside_at 3 rfl rfl (by decide) (by decide) (by decide) (by decide), ⟨_, rfl, rfl⟩, rfl, rfl,
          reads_at solo_table rfl (by decide +kernel), rfl⟩⟩
      simpa using bits_plus (v := 1) (v' := 3) (j := 1) (by decide) i
  · intro S x k h
    obtain ⟨rfl, ⟨-, e⟩ | ⟨rfl, e⟩ | ⟨-, e⟩⟩ := solo_uses h <;> cases e
  · intro S x h
    have : S = (4 : Fin 6) ∧ x = 1 := by
      rcases h with h | h <;> obtain ⟨rfl, ⟨rfl, e⟩ | ⟨rfl, e⟩ | ⟨rfl, e⟩⟩ := solo_uses h <;> cases e
      exact ⟨rfl, rfl⟩
    obtain ⟨rfl, rfl⟩ := this
    refine ⟨67, (found_iff solo_table f4).2 (by simp), fun _ => ⟨(0, 3), (5 : Fin 6), (0, 5), (0, 6), none, _,
      ⟨by decide, by decide, by decide⟩, (mem_rets solo_end).2 (by decide +kernel), (mem_pubs solo_end).2 (by decide +kernel),
      ⟨_, rfl, rfl⟩, rfl, rfl, reads_at solo_table rfl (by decide +kernel), by decide, by decide, by decide,
      ⟨by decide, by decide, by decide⟩, rfl⟩⟩

theorem solo_records : Notify.Records solo solo.ReadsFrom soloValues soloGuard soloSections.mutex soloSections.take
    soloSections.give soloQueue soloDoes := by
  obtain ⟨-, -, -, -, -, -, -, l1, l3, f5, l5, lo, lz, -⟩ := solo_tables
  refine ⟨?_, ?_, ?_, ?_, ?_⟩
  · intro S x u h
    obtain ⟨rfl, ⟨rfl, -⟩ | ⟨rfl, -⟩ | ⟨rfl, -⟩⟩ := solo_does h <;> rfl
  · intro S x v h
    unfold soloQueue at h ⊢
    split at h
    · rename_i e
      rw [if_pos e]
      obtain ⟨u, hu⟩ := List.exists_mem_of_ne_nil _ (lo S fun e => absurd ((left_iff solo_table e).1 h) (by simp))
      exact ⟨u, (mem_founds solo_table).2 hu⟩
    · exact absurd ((left_iff solo_table (lz S)).1 h) (by simp)
  · intro S x k old h
    obtain ⟨rfl, ⟨rfl, e⟩ | ⟨rfl, e⟩ | ⟨-, e⟩⟩ := solo_does h <;> cases e
    · exact ⟨⟨1, (left_iff solo_table l1).2 (by simp), rfl⟩,
        ⟨(1, 13), none, _, Notify.inside_at 7 rfl rfl (by decide) (by decide) (by decide) (by decide), ⟨_, rfl, rfl⟩, rfl, rfl,
          reads_at solo_table rfl (by decide +kernel), rfl⟩⟩
    · exact ⟨⟨3, (left_iff solo_table l3).2 (by simp), rfl⟩,
        ⟨(2, 13), none, _, Notify.inside_at 7 rfl rfl (by decide) (by decide) (by decide) (by decide), ⟨_, rfl, rfl⟩, rfl, rfl,
          reads_at solo_table rfl (by decide +kernel), rfl⟩⟩
  · intro S x h
    obtain ⟨rfl, ⟨-, e⟩ | ⟨-, e⟩ | ⟨rfl, e⟩⟩ := solo_does h <;> cases e
    exact ⟨3, (found_iff solo_table f5).2 (by simp), .inr ⟨0, 2, rfl, (left_iff solo_table l5).2 (by simp),
      fun i => bits_minus (by decide) rfl i⟩⟩
  · intro S x h
    obtain ⟨rfl, ⟨-, e⟩ | ⟨-, e⟩ | ⟨-, e⟩⟩ := solo_does h <;> cases e

theorem solo_passes : Passes solo solo.ReadsFrom soloValues (fun w w' => solo.time w .wr < solo.time w' .wr) 4 0 := by
  intro r s w y z _ _ _ _ _ hz hl hw _
  have := writes_in solo_end (l := [(0, 6)]) hz hl hw (by decide +kernel)
  simp only [List.mem_cons, List.not_mem_nil, or_false] at this
  subst this
  decide

theorem solo_settles : Notify.Settles solo soloValues (fun w w' => solo.time w .wr < solo.time w' .wr) 1 0 (0, 0) := by
  refine ⟨⟨_, rfl, rfl⟩, ⟨_, rfl, rfl⟩, by decide, ?_⟩
  intro w y hy hl hw _
  have := writes_in solo_end (l := [(0, 0)]) hy hl hw (by decide +kernel)
  simp only [List.mem_cons, List.not_mem_nil, or_false] at this
  subst this
  decide

theorem solo_precedes : Notify.Precedes solo solo.HappensBefore (0, 0) (soloTake 4) :=
  ⟨(0, 0), (0, 0), _, within_of_bounds rfl rfl (by decide) (by decide), rfl, by decide, .inl rfl⟩

theorem solo_code {P : Item → Prop} (h : ∀ l ∈ soloItems, ∀ it ∈ l, P it) (t : Nat) : ∀ it ∈ solo.prog t, P it := by
  intro it hit
  have e : solo.prog t = soloItems.getD t [] := rfl
  rw [e, List.getD_eq_getElem?_getD] at hit
  cases ht : soloItems[t]? with
  | none => rw [ht] at hit; cases hit
  | some l => rw [ht] at hit; exact h l (List.mem_of_getElem? ht) it hit

/-- The second thread that waits is left in the queue. -/
theorem solo_left : LeftBlocked solo solo.ReadsFrom soloValues soloGuard soloSections soloQueue soloUses soloDoes (2 : Fin 6)
    (3 : Fin 6) 1 1 0 4 0 := by
  refine ⟨⟨none, rfl⟩, ⟨rfl, by decide, by decide⟩, ?_, ?_⟩
  · rintro B ⟨-, v, v', hv, hv', h1, h2⟩
    obtain ⟨-, -, -, -, -, -, -, -, -, -, -, -, -, key⟩ := solo_tables
    have := key B v ((mem_founds solo_table).1 hv) v' ((mem_lefts solo_table).1 hv') h1
    rw [this] at h2; cases h2
  · intro (D : Fin 6)
    match D with
    | 0 | 1 | 2 | 3 | 4 | 5 => exact id

end Verif.Sleep
