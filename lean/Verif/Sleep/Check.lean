import Verif.Notify.Props
import Verif.Sleep.Model

/-
Finite tables for executions that are given explicitly: what operations and sections read and write.  They serve the
examples in `Verif.Sleep.Props`.
-/

namespace Verif.Sleep

open Verif.Order Verif.Mca Verif.Mca.Run Verif.Locked

variable {cpu : Cpu} {R : Mca.Run cpu} {n : Nat}

/-- The execution has `n` threads, and every instruction that reads, reads from `src`. -/
structure Table (R : Mca.Run cpu) (n : Nat) (src : Pos → Option Pos) : Prop where
  ends : ∀ t, n ≤ t → R.prog t = []
  valid : R.Valid
  reads : ∀ z ∈ R.all n, z.2.ins.has .rd = true → R.ReadsFrom z.1 (src z.1)

theorem table_of {src : Pos → Option Pos} (hn : ∀ t, n ≤ t → R.prog t = []) (hR : R.Valid)
    (h0 : ∀ z ∈ R.all n, z.2.ins.rd = true → src z.1 = none → ∀ w ∈ R.all n, w.2.ins.wr = true → z.2.loc = w.2.loc →
      ¬ (R.time w.1 .wr < R.time z.1 .rd ∨ (w.1.1 = z.1.1 ∧ w.1.2 < z.1.2)))
    (h1 : ∀ z ∈ R.all n, z.2.ins.rd = true → ∀ s ∈ (src z.1).toList, ∃ w ∈ R.all n, w.1 = s ∧ w.2.ins.wr = true ∧
      z.2.loc = w.2.loc ∧ (R.time s .wr < R.time z.1 .rd ∨ (s.1 = z.1.1 ∧ s.2 < z.1.2)))
    (h2 : ∀ z ∈ R.all n, z.2.ins.rd = true → ∀ s ∈ (src z.1).toList, ∀ v ∈ R.all n, v.2.ins.wr = true →
      z.2.loc = v.2.loc → (R.time v.1 .wr < R.time z.1 .rd ∨ (v.1.1 = z.1.1 ∧ v.1.2 < z.1.2)) →
      R.time v.1 .wr ≤ R.time s .wr) : Table R n src := by
  refine ⟨hn, hR, ?_⟩
  rintro ⟨e, y⟩ hz hrd
  cases hs : src e with
  | none => exact readsFrom_none hn ((mem_all hn).1 hz) (h0 _ hz hrd hs)
  | some s =>
    have hm : s ∈ (src (e, y).1).toList := by simp [hs]
    obtain ⟨⟨w, y'⟩, hw, rfl, i1, i2, i3⟩ := h1 _ hz hrd s hm
    exact readsFrom_some hn ((mem_all hn).1 hz) ((mem_all hn).1 hw) i1 i2 i3 (h2 _ hz hrd _ hm)

/-- The instruction is between the operations `a` and `b`. -/
def between (R : Mca.Run cpu) (a b : OpId) (e : Pos) : Bool :=
  e.1 == a.1 && decide (R.start (a.1, a.2 + 1) ≤ e.2) && decide (e.2 < R.start (a.1, b.2))

theorem inside_iff {a b : OpId} {e : Pos} {y : Ev} (hy : R.Is e y) : Inside R a b e ↔ between R a b e = true := by
  simp only [between, Bool.and_eq_true, beq_iff_eq, decide_eq_true_eq]
  constructor
  · intro h
    obtain ⟨h1, h2, h3⟩ := Notify.inside_bounds h
    exact ⟨⟨h1, h2⟩, h3⟩
  · rintro ⟨⟨h1, h2⟩, h3⟩
    obtain ⟨id, it, hin⟩ := exists_within hy
    obtain ⟨b1, b2, b3⟩ := hin.bounds
    have h0 : id.1 = a.1 := b1.symm.trans h1
    refine ⟨id, it, hin, h0, ?_, ?_⟩
    · refine Nat.lt_of_not_le fun h => ?_
      have := start_le (R := R) (a := id) (b := (a.1, a.2 + 1)) hin.item h0 (Nat.lt_succ_of_le h)
      omega
    · refine Nat.lt_of_not_le fun h => ?_
      rcases Nat.lt_or_eq_of_le h with h | h
      · have hlt : b.2 < (R.prog a.1).length := by
          have := (List.getElem?_eq_some_iff.1 hin.item).1
          rw [h0] at this
          omega
        have := start_le (R := R) (a := (a.1, b.2)) (b := id) (List.getElem?_eq_getElem hlt) h0.symm h
        omega
      · rw [show (a.1, b.2) = id from Prod.ext h0.symm h] at h3
        omega

/-- What the section found. -/
def founds (R : Mca.Run cpu) (n : Nat) (src : Pos → Option Pos) (V : Values) (a b : OpId) (x : Nat) : List Nat :=
  ((R.all n).filter fun z => z.2.ins.has .rd && z.2.loc == x && between R a b z.1 &&
    (R.all n).all fun w => !(w.2.ins.has .wr && w.2.loc == x && between R a b w.1 && decide (w.1.2 < z.1.2))).map
    fun z => V.of x (src z.1)

theorem mem_founds {src : Pos → Option Pos} (hT : Table R n src) {V : Values} {a b : OpId} {x v : Nat} :
    SectionFound R R.ReadsFrom V a b x v ↔ v ∈ founds R n src V a b x := by
  simp only [founds, List.mem_map, List.mem_filter, Bool.and_eq_true, beq_iff_eq, List.all_eq_true, Bool.not_eq_true',
    Bool.and_eq_false_iff]
  constructor
  · rintro ⟨r, s, y, hin, ⟨y', hy', hrd⟩, hy, hl, hrf, rfl, hno⟩
    cases hy'.unique hy
    have hm := (mem_all hT.ends).2 hy
    refine ⟨(r, y), ⟨hm, ⟨⟨hrd, hl⟩, (inside_iff hy).1 hin⟩, ?_⟩, ?_⟩
    · rintro ⟨w, z⟩ hz
      have hz' := (mem_all hT.ends).1 hz
      by_cases h1 : z.ins.has .wr = true
      · by_cases h2 : z.loc = x
        · by_cases h3 : between R a b w = true
          · right
            have h4 := hno w z ((inside_iff hz').2 h3) ⟨z, hz', h1⟩ hz' h2
            simp only [decide_eq_false_iff_not]
            intro h
            exact h4 ⟨((inside_bounds' h3).trans (inside_bounds' ((inside_iff hy).1 hin)).symm), h⟩
          · exact .inl (.inr (by simpa using h3))
        · exact .inl (.inl (.inr (by simpa using h2)))
      · exact .inl (.inl (.inl (by simpa using h1)))
    · rw [Notify.reads_unique hT.valid hrf (hT.reads (r, y) hm hrd)]
  · rintro ⟨⟨r, y⟩, ⟨hm, ⟨⟨hrd, hl⟩, hin⟩, hno⟩, rfl⟩
    have hy := (mem_all hT.ends).1 hm
    refine ⟨r, src r, y, (inside_iff hy).2 hin, ⟨y, hy, hrd⟩, hy, hl, hT.reads _ hm hrd, rfl, ?_⟩
    rintro w z hw ⟨z', hz', hwr⟩ hz hzl hb
    cases hz'.unique hz
    rcases hno (w, z) ((mem_all hT.ends).2 hz) with ((h | h) | h) | h
    · simp [hwr] at h
    · simp [hzl] at h
    · simp [(inside_iff hz).1 hw] at h
    · simp [hb.2] at h
where
  inside_bounds' {a b : OpId} {e : Pos} (h : between R a b e = true) : e.1 = a.1 := by
    simp only [between, Bool.and_eq_true, beq_iff_eq] at h
    exact h.1.1

/-- What the section left. -/
def lefts (R : Mca.Run cpu) (n : Nat) (V : Values) (a b : OpId) (x : Nat) : List Nat :=
  ((R.all n).filter fun z => z.2.ins.has .wr && z.2.loc == x && between R a b z.1 &&
    (R.all n).all fun w => !(w.2.ins.has .wr && w.2.loc == x && between R a b w.1 && decide (z.1.2 < w.1.2))).map
    fun z => V.val z.1

theorem mem_lefts {src : Pos → Option Pos} (hT : Table R n src) {V : Values} {a b : OpId} {x v : Nat} :
    SectionLeft R V a b x v ↔ v ∈ lefts R n V a b x := by
  simp only [lefts, List.mem_map, List.mem_filter, Bool.and_eq_true, beq_iff_eq, List.all_eq_true, Bool.not_eq_true',
    Bool.and_eq_false_iff]
  constructor
  · rintro ⟨r, y, hin, ⟨y', hy', hrd⟩, hy, hl, rfl, hno⟩
    cases hy'.unique hy
    have hm := (mem_all hT.ends).2 hy
    refine ⟨(r, y), ⟨hm, ⟨⟨hrd, hl⟩, (inside_iff hy).1 hin⟩, ?_⟩, rfl⟩
    rintro ⟨w, z⟩ hz
    have hz' := (mem_all hT.ends).1 hz
    by_cases h1 : z.ins.has .wr = true
    · by_cases h2 : z.loc = x
      · by_cases h3 : between R a b w = true
        · right
          have h4 := hno w z ((inside_iff hz').2 h3) ⟨z, hz', h1⟩ hz' h2
          simp only [decide_eq_false_iff_not]
          intro h
          exact h4 ⟨((mem_founds.inside_bounds' ((inside_iff hy).1 hin)).trans (mem_founds.inside_bounds' h3).symm), h⟩
        · exact .inl (.inr (by simpa using h3))
      · exact .inl (.inl (.inr (by simpa using h2)))
    · exact .inl (.inl (.inl (by simpa using h1)))
  · rintro ⟨⟨r, y⟩, ⟨hm, ⟨⟨hrd, hl⟩, hin⟩, hno⟩, rfl⟩
    have hy := (mem_all hT.ends).1 hm
    refine ⟨r, y, (inside_iff hy).2 hin, ⟨y, hy, hrd⟩, hy, hl, rfl, ?_⟩
    rintro w z hw ⟨z', hz', hwr⟩ hz hzl hb
    cases hz'.unique hz
    rcases hno (w, z) ((mem_all hT.ends).2 hz) with ((h | h) | h) | h
    · simp [hwr] at h
    · simp [hzl] at h
    · simp [(inside_iff hz).1 hw] at h
    · simp [hb.2] at h

/-- The instructions of an operation that deliver its result. -/
def rets (R : Mca.Run cpu) (n : Nat) (id : OpId) : List Pos :=
  ((R.all n).filter fun z => z.2.ins.ret && (z.1.1 == id.1 && decide (R.start id ≤ z.1.2) &&
    decide (z.1.2 < R.start (id.1, id.2 + 1)))).map Prod.fst

/-- The instructions of an operation that make its modification. -/
def pubs (R : Mca.Run cpu) (n : Nat) (id : OpId) : List Pos :=
  ((R.all n).filter fun z => z.2.ins.pub && (z.1.1 == id.1 && decide (R.start id ≤ z.1.2) &&
    decide (z.1.2 < R.start (id.1, id.2 + 1)))).map Prod.fst

theorem within_iff {id : OpId} {e : Pos} {y : Ev} (hy : R.Is e y) : (∃ it, R.Within e id it) ↔
    e.1 = id.1 ∧ R.start id ≤ e.2 ∧ e.2 < R.start (id.1, id.2 + 1) := by
  constructor
  · rintro ⟨it, h⟩
    obtain ⟨h1, h2, h3⟩ := h.bounds
    exact ⟨h1, h2, Nat.lt_of_lt_of_le h3 (start_le h.item rfl (Nat.lt_succ_self _))⟩
  · rintro ⟨h1, h2, h3⟩
    obtain ⟨id', it, hin⟩ := exists_within hy
    obtain ⟨b1, b2, b3⟩ := hin.bounds
    have h0 : id'.1 = id.1 := b1.symm.trans h1
    have e2 : id'.2 = id.2 := by
      rcases Nat.lt_trichotomy id'.2 id.2 with h | h | h
      · have := start_le (R := R) hin.item h0 h; omega
      · exact h
      · exfalso
        rcases Nat.lt_or_eq_of_le (Nat.succ_le_of_lt h) with h' | h'
        · have hlt : id.2 + 1 < (R.prog id.1).length := by
            have := (List.getElem?_eq_some_iff.1 hin.item).1
            rw [h0] at this
            omega
          have := start_le (R := R) (a := (id.1, id.2 + 1)) (b := id') (List.getElem?_eq_getElem hlt) h0.symm h'
          omega
        · rw [show (id.1, id.2 + 1) = id' from Prod.ext h0.symm h'] at h3
          omega
    obtain rfl : id' = id := Prod.ext h0 e2
    exact ⟨it, hin⟩

theorem mem_rets (hn : ∀ t, n ≤ t → R.prog t = []) {id : OpId} {e : Pos} : R.Ret id e ↔ e ∈ rets R n id := by
  simp only [rets, List.mem_map, List.mem_filter, Bool.and_eq_true, beq_iff_eq, decide_eq_true_eq]
  constructor
  · rintro ⟨it, x, hin, hx, hr⟩
    obtain ⟨h1, h2, h3⟩ := (within_iff hx).1 ⟨it, hin⟩
    exact ⟨(e, x), ⟨(mem_all hn).2 hx, hr, ⟨h1, h2⟩, h3⟩, rfl⟩
  · rintro ⟨⟨e, x⟩, ⟨hm, hr, ⟨h1, h2⟩, h3⟩, rfl⟩
    have hx := (mem_all hn).1 hm
    obtain ⟨it, h⟩ := (within_iff hx).2 ⟨h1, h2, h3⟩
    exact ⟨it, x, h, hx, hr⟩

theorem mem_pubs (hn : ∀ t, n ≤ t → R.prog t = []) {id : OpId} {e : Pos} : R.Pub id e ↔ e ∈ pubs R n id := by
  simp only [pubs, List.mem_map, List.mem_filter, Bool.and_eq_true, beq_iff_eq, decide_eq_true_eq]
  constructor
  · rintro ⟨it, x, hin, hx, hr⟩
    obtain ⟨h1, h2, h3⟩ := (within_iff hx).1 ⟨it, hin⟩
    exact ⟨(e, x), ⟨(mem_all hn).2 hx, hr, ⟨h1, h2⟩, h3⟩, rfl⟩
  · rintro ⟨⟨e, x⟩, ⟨hm, hr, ⟨h1, h2⟩, h3⟩, rfl⟩
    have hx := (mem_all hn).1 hm
    obtain ⟨it, h⟩ := (within_iff hx).2 ⟨h1, h2, h3⟩
    exact ⟨it, x, h, hx, hr⟩

/-- An operation that read and wrote as it should. -/
theorem did_of {src : Pos → Option Pos} (hT : Table R n src) {V : Values} {id : OpId} {m : Nat} {P : Nat → Nat → Prop}
    (h : ∀ r ∈ rets R n id, r ∈ ((R.all n).filter fun z => z.2.ins.has .rd).map Prod.fst ∧
      ∀ w ∈ pubs R n id, P (V.of m (src r)) (V.val w)) : Did R R.ReadsFrom V id m P := by
  intro r w hr hw
  obtain ⟨h1, h2⟩ := h r ((mem_rets hT.ends).1 hr)
  simp only [List.mem_map, List.mem_filter] at h1
  obtain ⟨⟨r', y⟩, ⟨hm, hrd⟩, rfl⟩ := h1
  exact ⟨src r', hT.reads _ hm hrd, h2 w ((mem_pubs hT.ends).1 hw)⟩

/-- The set without one element. -/
theorem bits_minus {v v' j : Nat} (h : v = v' ||| 2 ^ j) (h' : v'.testBit j = false) (i : Nat) :
    v'.testBit i = (v.testBit i && decide (i ≠ j)) := by
  subst h
  by_cases e : i = j
  · subst e; simp [h']
  · simp [Nat.testBit_or, e, Ne.symm e]

/-- The set with one element more. -/
theorem bits_plus {v v' j : Nat} (h : v' = v ||| 2 ^ j) (i : Nat) : v'.testBit i = (v.testBit i || decide (i = j)) := by
  subst h
  simp [Nat.testBit_or, Nat.testBit_two_pow, eq_comm]

theorem found_iff {src : Pos → Option Pos} (hT : Table R n src) {V : Values} {a b : OpId} {x v : Nat} {l : List Nat}
    (h : founds R n src V a b x = l) : SectionFound R R.ReadsFrom V a b x v ↔ v ∈ l := by
  rw [mem_founds hT, h]

theorem left_iff {src : Pos → Option Pos} (hT : Table R n src) {V : Values} {a b : OpId} {x v : Nat} {l : List Nat}
    (h : lefts R n V a b x = l) : SectionLeft R V a b x v ↔ v ∈ l := by
  rw [mem_lefts hT, h]

theorem reads_at {src : Pos → Option Pos} (hT : Table R n src) {r : Pos} {s : Option Pos} (h : s = src r)
    (hr : r ∈ ((R.all n).filter fun z => z.2.ins.has .rd).map Prod.fst) : R.ReadsFrom r s := by
  simp only [List.mem_map, List.mem_filter] at hr
  obtain ⟨z, ⟨hz, hrd⟩, rfl⟩ := hr
  rw [h]
  exact hT.reads z hz hrd

/-- The writes to a variable. -/
theorem writes_in (hn : ∀ t, n ≤ t → R.prog t = []) {w : Pos} {y : Ev} {x : Nat} {l : List Pos} (hy : R.Is w y) (hx : y.loc = x)
    (hw : R.Has w .wr) (hl : ((R.all n).filter fun z => z.2.ins.wr && z.2.loc == x).map Prod.fst = l) : w ∈ l := by
  obtain ⟨y', hy', hwr⟩ := hw
  cases hy'.unique hy
  rw [← hl, List.mem_map]
  refine ⟨(w, y), List.mem_filter.2 ⟨(mem_all hn).2 hy, ?_⟩, rfl⟩
  simp only [Bool.and_eq_true, beq_iff_eq]
  exact ⟨hwr, hx⟩

end Verif.Sleep
