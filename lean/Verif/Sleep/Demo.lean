import Verif.Sleep.Check

/-
An execution in which threads block in the mutex and in a condition, for the examples in `Verif.Sleep.Props`.
-/

namespace Verif.Sleep

open Verif.Order Verif.Mca Verif.Mca.Run Verif.Locked

set_option synthInstance.maxSize 1024

/-- On ARM: the second thread calls `wait(0)` for the object 1 and blocks in the condition 4.  The first one stores 1 with
`memory_order_relaxed` and calls `notify_all`; the store takes effect after the first thread has taken the mutex.
Meanwhile the third one blocks in the mutex 0.  The notification moves the second thread to the queue of the mutex, where
now both are.  The first thread wakes the third one when it gives the mutex back, and the third one wakes the second. -/
def demoItems : List (List Item) :=
  [[.op .gccArm .store .relaxed 0 1, .op .gccArm (.casOk .relaxed) .acquire 0 0, .user userLoad 2,
    .op .gccArm .rmw .relaxed 0 4, .op .gccArm (.casOk .relaxed) .acquire 0 5, .user userLoad 6, .user userStore 6,
    .user userLoad 7, .user userStore 7, .op .gccArm (.casOk .relaxed) .release 0 5, .op .gccArm .rmw .relaxed 0 0,
    .op .gccArm (.casOk .relaxed) .release 0 0, .op .gccArm (.casOk .relaxed) .acquire 0 5, .user userLoad 7,
    .user userStore 7, .op .gccArm (.casOk .relaxed) .release 0 5],
  [.op .gccArm (.casOk .relaxed) .acquire 0 0, .op .gccArm .load .relaxed 0 1, .user userLoad 2,
    .op .gccArm .load .relaxed 0 4, .user userStore 2, .op .gccArm (.casOk .relaxed) .release 0 0,
    .op .gccArm (.casOk .relaxed) .acquire 0 5, .op .gccArm .load .relaxed 0 4, .user userLoad 6, .user userStore 6,
    .op .gccArm (.casOk .relaxed) .release 0 5, .op .gccArm (.casOk .relaxed) .acquire 0 5, .user userLoad 7,
    .op .gccArm (.casOk .relaxed) .release 0 5, .op .gccArm .load .relaxed 0 4,
    .op .gccArm (.casOk .relaxed) .acquire 0 0, .user userLoad 2, .user userStore 2,
    .op .gccArm (.casOk .relaxed) .release 0 0, .op .gccArm (.casOk .relaxed) .acquire 0 5, .user userLoad 7,
    .op .gccArm (.casOk .relaxed) .release 0 5, .op .gccArm (.casOk .relaxed) .relaxed 0 0],
  [.op .gccArm (.casOk .relaxed) .relaxed 0 0, .op .gccArm (.casOk .relaxed) .acquire 0 5, .op .gccArm .load .relaxed 0 0,
    .user userLoad 7, .user userStore 7, .op .gccArm (.casOk .relaxed) .release 0 5,
    .op .gccArm (.casOk .relaxed) .acquire 0 5, .user userLoad 7, .op .gccArm (.casOk .relaxed) .release 0 5,
    .op .gccArm (.casOk .relaxed) .acquire 0 0, .op .gccArm (.casOk .relaxed) .release 0 0,
    .op .gccArm (.casOk .relaxed) .acquire 0 5, .user userLoad 7, .user userStore 7,
    .op .gccArm (.casOk .relaxed) .release 0 5]]

def demo : Mca.Run .arm := Run.of .arm demoItems
  [[(0, 18), (16, 0), (0, 17), (0, 0), (19, 0), (29, 0), (0, 30), (31, 0), (0, 32), (0, 0), (33, 0), (0, 34), (35, 0),
    (0, 36), (0, 0), (37, 0), (0, 38), (39, 0), (0, 40), (0, 0), (41, 0), (0, 42), (43, 0), (0, 44), (0, 0), (45, 0),
    (0, 46), (0, 0), (47, 0), (0, 48)],
  [(1, 0), (0, 2), (0, 0), (3, 0), (4, 0), (5, 0), (0, 6), (0, 0), (7, 0), (0, 8), (9, 0), (0, 10), (0, 0), (11, 0),
    (12, 0), (0, 13), (0, 0), (14, 0), (0, 15), (64, 0), (0, 65), (0, 0), (66, 0), (0, 0), (67, 0), (0, 68), (69, 0),
    (70, 0), (0, 71), (0, 0), (72, 0), (0, 73), (0, 0), (74, 0), (0, 75), (76, 0), (0, 77), (0, 0), (78, 0), (0, 0),
    (79, 0), (0, 80), (81, 0), (0, 82)],
  [(20, 0), (0, 21), (22, 0), (0, 23), (0, 0), (24, 0), (25, 0), (0, 26), (0, 0), (27, 0), (0, 28), (49, 0), (0, 50),
    (0, 0), (51, 0), (0, 0), (52, 0), (0, 53), (54, 0), (0, 55), (0, 0), (0, 0), (56, 0), (0, 57), (58, 0), (0, 59),
    (0, 0), (60, 0), (0, 61), (0, 0), (62, 0), (0, 63)]]

/-- What the instructions read from. -/
def demoSrc (r : Pos) : Option Pos :=
  ([((0, 1), (1, 9)), ((0, 4), (1, 6)), ((0, 7), (2, 10)), ((0, 10), (1, 15)), ((0, 12), (2, 7)), ((0, 15), (0, 8)),
    ((0, 17), (2, 1)), ((0, 20), (0, 18)), ((0, 22), (0, 16)), ((0, 25), (0, 13)), ((0, 28), (0, 23)), ((1, 8), (1, 1)),
    ((1, 17), (1, 11)), ((1, 19), (2, 31)), ((1, 22), (2, 28)), ((1, 24), (1, 20)), ((1, 26), (0, 6)), ((1, 27), (2, 23)),
    ((1, 30), (1, 6)), ((1, 33), (1, 28)), ((1, 35), (1, 25)), ((1, 38), (2, 28)), ((1, 40), (1, 36)), ((1, 42), (1, 34)),
    ((2, 0), (0, 2)), ((2, 2), (1, 18)), ((2, 5), (2, 1)), ((2, 9), (2, 3)), ((2, 11), (0, 29)), ((2, 14), (0, 26)),
    ((2, 16), (2, 12)), ((2, 18), (0, 21)), ((2, 22), (2, 19)), ((2, 24), (2, 17)), ((2, 27), (0, 26)),
    ((2, 30), (2, 25))] : List (Pos × Pos)).lookup r

/-- The values they write. -/
def demoValues : Values where
  val e := (([((0, 0), 1), ((0, 2), 5), ((0, 6), 1), ((0, 8), 1), ((0, 13), 3), ((0, 18), 7), ((0, 21), 10), ((0, 23), 1),
    ((0, 26), 1), ((1, 1), 1), ((1, 6), 65), ((1, 9), 4), ((1, 11), 1), ((1, 15), 1), ((1, 20), 1), ((1, 28), 15),
    ((1, 31), 64), ((1, 34), 18), ((1, 36), 1), ((1, 43), 16), ((2, 1), 7), ((2, 3), 1), ((2, 7), 2), ((2, 12), 1),
    ((2, 19), 11), ((2, 23), 14), ((2, 25), 1)] : List (Pos × Nat)).lookup e).getD 0
  init _ := 0

/-- The variable 2 is the entry of the object, and 6 and 7 are the queues of the condition and of the mutex, with one lock,
the variable 5. -/
def demoGuard (x : Nat) : Option Nat := if x = 2 then some 0 else if x = 6 ∨ x = 7 then some 5 else none

/-- The sections: mutex, first and last operation. -/
def demoTable : List (Nat × OpId × OpId) :=
  [(0, (1, 0), (1, 5)), (5, (1, 6), (1, 10)), (5, (1, 11), (1, 13)), (0, (1, 15), (1, 18)), (5, (1, 19), (1, 21)),
    (0, (0, 1), (0, 11)), (5, (0, 4), (0, 9)), (5, (0, 12), (0, 15)), (5, (2, 1), (2, 5)), (5, (2, 6), (2, 8)),
    (0, (2, 9), (2, 10)), (5, (2, 11), (2, 14))]

def demoMutex (S : Fin 12) : Nat := (demoTable.getD S.1 default).1
def demoTake (S : Fin 12) : OpId := (demoTable.getD S.1 default).2.1
def demoGive (S : Fin 12) : OpId := (demoTable.getD S.1 default).2.2

def demoSections : Sections where
  Sec := Fin 12
  mutex := demoMutex
  take := demoTake
  give := demoGive

/-- The calls of the kernel, for the queue of the mutex. -/
def demoCalls (K : Fin 12) : Option (Syscall (Fin 12)) :=
  match K with
  | 4 => some (.signal 3)
  | 6 => some (.requeue 5 (0, 10))
  | 7 => some (.signal 5)
  | 8 => some (.park 1 (2, 0))
  | 11 => some (.signal 10)
  | _ => none

/-- What the sections do for the object. -/
def demoUses (S : Fin 12) (x : Nat) : Option Use :=
  if x = 1 then match S with
    | 0 => some (.enter none 0 0 4 0)
    | 3 => some (.leave 0)
    | 5 => some .notifyAll
    | _ => none
  else none

/-- The calls of the kernel, for the queue of the condition. -/
def demoDoes (K : Fin 12) (c : Nat) : Option Notify.Call :=
  if c = 4 then match K with
    | 1 => some (.wait 0 0)
    | 6 => some .notifyAll
    | _ => none
  else none

def demoEntry (x : Nat) : Nat := if x = 1 then 2 else 100
def demoQueue (c : Nat) : Nat := if c = 4 then 6 else 101

theorem demo_end (t : Nat) (h : 3 ≤ t) : demo.prog t = [] := by
  show demoItems.getD t [] = []
  rw [List.getD_eq_getElem?_getD, List.getElem?_eq_none (by simpa [demoItems] using h)]; rfl

theorem demo_valid : demo.Valid := Check.valid (n := 3) demo_end (by decide +kernel)

theorem demo_table : Table demo 3 demoSrc := table_of demo_end demo_valid (by decide +kernel) (by decide +kernel)
  (by decide +kernel)

theorem demo_lawful : demoSections.Lawful demo.prog demoGuard := by
  have at_ : ∀ {id : OpId} {it : Item}, (demo.prog id.1)[id.2]? = some it → id.1 < 3 ∧ id.2 < 23 := by
    intro id it h
    have h3 : id.1 < 3 := Nat.lt_of_not_le fun h' => by rw [demo_end _ h'] at h; cases h
    have hl := (List.getElem?_eq_some_iff.1 h).1
    have : ∀ t < 3, (demo.prog t).length ≤ 23 := by decide
    exact ⟨h3, Nat.lt_of_lt_of_le hl (this _ h3)⟩
  refine ⟨(by decide : ∀ S, (demoTake S).1 = (demoGive S).1 ∧ (demoTake S).2 < (demoGive S).2),
    (by decide : ∀ S S', demoTake S = demoTake S' → S = S'), ?_, ?_, ?_, ?_⟩
  · intro (S : Fin 12)
    match S with
    | 0 | 1 | 2 | 3 | 4 | 5 | 6 | 7 | 8 | 9 | 10 | 11 => exact ⟨_, _, rfl⟩
  · intro (S : Fin 12)
    match S with
    | 0 | 1 | 2 | 3 | 4 | 5 | 6 | 7 | 8 | 9 | 10 | 11 => exact ⟨_, _, rfl⟩
  · rintro ⟨t, i⟩ it S hit hf hl
    obtain ⟨h1, h2⟩ := at_ hit
    have key : ∀ t < 3, ∀ i < 23, (((demo.prog t)[i]?).map fun it => it.loc == 0 || it.loc == 5).getD false = true →
        (∃ S' : Fin 12, (t, i) = demoTake S') ∨ (∃ S' : Fin 12, (t, i) = demoGive S') ∨
          (t, i) ∈ [(0, 10), (1, 22), (2, 0), (2, 2)] := by decide +kernel
    have hS : ∀ S : Fin 12, demoMutex S = 0 ∨ demoMutex S = 5 := by decide
    rcases key t h1 i h2 (by
      simp only [hit, Option.map_some, Option.getD_some, hl, Bool.or_eq_true, beq_iff_eq]; exact hS S) with h | h | h
    · exact .inl h
    · exact .inr (.inl h)
    · right; right
      simp only [List.mem_cons, List.not_mem_nil, or_false, Prod.mk.injEq] at h
      rcases h with ⟨rfl, rfl⟩ | ⟨rfl, rfl⟩ | ⟨rfl, rfl⟩ | ⟨rfl, rfl⟩ <;> cases hit
      · exact .inr ⟨_, _, _, by simp, rfl⟩
      · exact .inr ⟨_, _, _, by simp, rfl⟩
      · exact .inr ⟨_, _, _, by simp, rfl⟩
      · exact .inl ⟨_, _, .inl rfl⟩
  · rintro ⟨t, i⟩ it m hit hf hg
    obtain ⟨h1, h2⟩ := at_ hit
    have key : ∀ t < 3, ∀ i < 23, ∀ l ∈ (((demo.prog t)[i]?).map fun it => it.loc).toList, ∀ m ∈ (demoGuard l).toList,
        ∃ S : Fin 12, demoMutex S = m ∧ (t = (demoTake S).1 ∧ (demoTake S).2 < i ∧ i < (demoGive S).2) := by
      decide +kernel
    exact key t h1 i h2 it.loc (by simp [hit]) m (by simp [hg])

/-- The operation is a relaxed read-modify-write operation. -/
def changing : Item → Bool
  | .op _ (.casOk .relaxed) .relaxed _ _ | .op _ .rmw .relaxed _ _ | .op _ .loop .relaxed _ _ => true
  | _ => false

/-- The operations that set or clear `contended`. -/
theorem demo_mark {id : OpId} {it : Item} {m : Nat} (hit : (demo.prog id.1)[id.2]? = some it) (hm : Mark m it) :
    m = 4 ∨ m = 0 ∧ (id = (0, 10) ∨ id = (1, 22) ∨ id = (2, 0)) := by
  obtain ⟨t, i⟩ := id
  have h3 : t < 3 := Nat.lt_of_not_le fun h' => by rw [demo_end _ h'] at hit; cases hit
  have hl := (List.getElem?_eq_some_iff.1 hit).1
  have h23 : ∀ t < 3, (demo.prog t).length ≤ 23 := by decide
  have key : ∀ t < 3, ∀ i < 23, ∀ p ∈ (((demo.prog t)[i]?).map fun it => (changing it, it.loc)).toList,
      p.1 = true → p.2 = 4 ∨ p.2 = 0 ∧ ((t, i) = (0, 10) ∨ (t, i) = (1, 22) ∨ (t, i) = (2, 0)) := by
    decide +kernel
  have := key t h3 i (Nat.lt_of_lt_of_le hl (h23 t h3)) (changing it, it.loc) (by simp [hit])
  obtain ⟨b, n, k, hk, rfl⟩ := hm
  simp only [List.mem_cons, List.not_mem_nil, or_false] at hk
  rcases hk with rfl | rfl | rfl <;> exact this rfl

theorem demo_holds : demoSections.Holds demo demo.ReadsFrom demoValues := by
  refine ⟨?_, ?_, ?_, copies_trivial demo_end _ (by decide +kernel), fun S => rfl⟩
  · exact fun S => did_of demo_table ((by decide +kernel : ∀ S : Fin 12, ∀ r ∈ rets demo 3 (demoTake S),
      r ∈ ((demo.all 3).filter fun z => z.2.ins.has .rd).map Prod.fst ∧ ∀ w ∈ pubs demo 3 (demoTake S),
      (demoValues.of (demoMutex S) (demoSrc r)) % 2 = 0 ∧ demoValues.val w % 2 = 1) S)
  · exact fun S => did_of demo_table ((by decide +kernel : ∀ S : Fin 12, ∀ r ∈ rets demo 3 (demoGive S),
      r ∈ ((demo.all 3).filter fun z => z.2.ins.has .rd).map Prod.fst ∧ ∀ w ∈ pubs demo 3 (demoGive S),
      demoValues.val w % 2 = 0) S)
  · intro id it S hit hM
    have hS : demoSections.mutex S ≠ 4 := (by decide : ∀ S : Fin 12, demoMutex S ≠ 4) S
    rcases demo_mark hit hM with h | ⟨h, h'⟩
    · exact absurd h hS
    · rw [h]
      rcases h' with rfl | rfl | rfl <;> exact did_of demo_table (by decide +kernel)

/-- The queue of the mutex is changed by the calls of the kernel. -/
theorem demo_queue : (∀ K : Fin 12, demoMutex K = 5 → ∀ v ∈ lefts demo 3 demoValues (demoTake K) (demoGive K) 7,
      (demoCalls K).isSome = true ∧ founds demo 3 demoSrc demoValues (demoTake K) (demoGive K) 7 ≠ []) ∧
    founds demo 3 demoSrc demoValues (demoTake 8) (demoGive 8) 7 = [0] ∧
    lefts demo 3 demoValues (demoTake 8) (demoGive 8) 7 = [2] ∧
    founds demo 3 demoSrc demoValues (demoTake 6) (demoGive 6) 7 = [2] ∧
    lefts demo 3 demoValues (demoTake 6) (demoGive 6) 7 = [3] ∧
    founds demo 3 demoSrc demoValues (demoTake 7) (demoGive 7) 7 = [3] ∧
    lefts demo 3 demoValues (demoTake 7) (demoGive 7) 7 = [1] ∧
    founds demo 3 demoSrc demoValues (demoTake 11) (demoGive 11) 7 = [1] ∧
    lefts demo 3 demoValues (demoTake 11) (demoGive 11) 7 = [0] ∧
    founds demo 3 demoSrc demoValues (demoTake 4) (demoGive 4) 7 = [0] ∧
    lefts demo 3 demoValues (demoTake 4) (demoGive 4) 7 = [] := by
  refine ⟨?_, ?_, ?_, ?_, ?_, ?_, ?_, ?_, ?_, ?_, ?_⟩ <;> decide +kernel

end Verif.Sleep
