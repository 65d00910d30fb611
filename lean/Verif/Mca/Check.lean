import Verif.Mca.Model

/-! Concrete executions with finitely many threads, and a check of the rules of the machine for them. -/

namespace Verif.Mca

open Verif.Order

instance (hw : Hw) (x : Instr) (p : Part) (b : List Instr) (y : Instr) (q : Part) :
    Decidable (HwKeeps hw x p b y q) := by unfold HwKeeps; infer_instance

instance (x : Instr) (b : List Instr) (y : Instr) : Decidable (CompKeeps x b y) := by
  unfold CompKeeps; infer_instance

/-- The execution of the given threads, with the moments of the read and the write of each instruction. -/
def Run.of (cpu : Cpu) (ps : List (List Item)) (ts : List (List (Nat × Nat))) : Run cpu where
  prog t := ps.getD t []
  time e p := match p with
    | .rd => ((ts.getD e.1 []).getD e.2 (0, 0)).1
    | .wr => ((ts.getD e.1 []).getD e.2 (0, 0)).2

namespace Run

variable {cpu : Cpu}

/-- All instructions of an execution of `n` threads. -/
def all (R : Run cpu) (n : Nat) : List (Pos × Ev) :=
  (List.range n).flatMap fun t => (R.code t).zipIdx.map fun x => ((t, x.2), x.1)

theorem mem_all {R : Run cpu} {n : Nat} (hn : ∀ t, n ≤ t → R.prog t = []) {e x} :
    (e, x) ∈ R.all n ↔ R.Is e x := by
  unfold all Is
  simp only [List.mem_flatMap, List.mem_range, List.mem_map, Prod.exists, Prod.mk.injEq]
  constructor
  · rintro ⟨t, -, y, i, hm, rfl, rfl⟩
    exact (List.mem_zipIdx_iff_getElem? (x := (y, i))).1 hm
  · intro h
    refine ⟨e.1, ?_, x, e.2, (List.mem_zipIdx_iff_getElem? (x := (x, e.2))).2 h, rfl, rfl⟩
    rcases Nat.lt_or_ge e.1 n with h' | h'
    · exact h'
    · rw [code, hn _ h'] at h; simp [events] at h

/-- The parts of an access. -/
def parts : List Part := [.rd, .wr]

theorem mem_parts (p : Part) : p ∈ parts := by cases p <;> decide

/-- The instructions between two instructions. -/
def between (R : Run cpu) (e f : Pos) : List Instr :=
  (((R.code e.1).drop (e.2 + 1)).take (f.2 - (e.2 + 1))).map Ev.ins

instance (cpu : Cpu) (it : Item) : Decidable (it.Fits cpu) :=
  match h : it.backend with
  | none => isTrue fun b hb => by rw [h] at hb; cases hb
  | some b => if hb : cpu.runs b = true then isTrue fun b' h' => by rw [h] at h'; cases h'; exact hb
      else isFalse fun H => hb (H b h)

/-- The rules for the accesses of one thread, for finitely many threads. -/
def LocalCheck (R : Run cpu) (n : Nat) : Prop :=
  (∀ t ∈ List.range n, ∀ it ∈ R.prog t, it.Fits cpu) ∧
  (∀ a ∈ R.all n, ∀ b ∈ R.all n, a.1.1 = b.1.1 → a.1.2 < b.1.2 → ∀ p ∈ parts, ∀ q ∈ parts,
    a.2.ins.has p = true → b.2.ins.has q = true →
    (CompKeeps a.2.ins (R.between a.1 b.1) b.2.ins ∧ HwKeeps cpu.hw a.2.ins p (R.between a.1 b.1) b.2.ins q) ∨
      (a.2.loc = b.2.loc ∧ ¬ (p = .wr ∧ q = .rd)) →
    R.time a.1 p < R.time b.1 q) ∧
  (∀ a ∈ R.all n, a.2.ins.rd = true → a.2.ins.wr = true → R.time a.1 .rd < R.time a.1 .wr)

set_option synthInstance.maxHeartbeats 400000 in
set_option synthInstance.maxSize 1024 in
instance (R : Run cpu) (n : Nat) : Decidable (R.LocalCheck n) := by
  unfold LocalCheck; infer_instance

/-- The rules of the machine, for finitely many threads. -/
def Check (R : Run cpu) (n : Nat) : Prop :=
  R.LocalCheck n ∧
  (∀ a ∈ R.all n, ∀ b ∈ R.all n, ∀ p ∈ parts, ∀ q ∈ parts, a.2.ins.has p = true → b.2.ins.has q = true →
    R.time a.1 p = R.time b.1 q → a.1 = b.1 ∧ p = q) ∧
  (∀ a ∈ R.all n, a.2.pair.isSome = true → ∀ v ∈ R.all n, v.2.ins.wr = true → v.2.loc = a.2.loc → v.1 ≠ a.1 →
    R.time v.1 .wr < R.time (a.1.1, a.1.2 - a.2.pair.getD 0) .rd ∨ R.time a.1 .wr < R.time v.1 .wr)

set_option synthInstance.maxHeartbeats 400000 in
set_option synthInstance.maxSize 1024 in
instance (R : Run cpu) (n : Nat) : Decidable (R.Check n) := by
  unfold Check; infer_instance

theorem LocalCheck.valid {R : Run cpu} {n : Nat} (hn : ∀ t, n ≤ t → R.prog t = []) (h : R.LocalCheck n) :
    R.Local := by
  obtain ⟨h1, h2, h3⟩ := h
  have m : ∀ {e x}, R.Is e x → (e, x) ∈ R.all n := fun h => (mem_all hn).2 h
  refine ⟨?_, ?_, ?_, ?_⟩
  · intro t it hit
    rcases Nat.lt_or_ge t n with h | h
    · exact h1 t (List.mem_range.2 h) it hit
    · rw [hn t h] at hit; cases hit
  · intro t a x b y c p q hc hp hq hk hh
    have hx : R.Is (t, a.length) x := by simp [Is, hc]
    have hy : R.Is (t, a.length + 1 + b.length) y := by
      simp only [Is, hc]
      rw [List.getElem?_append_right (by omega),
        show a.length + 1 + b.length - a.length = b.length + 1 by omega]
      simp
    have hb : R.between (t, a.length) (t, a.length + 1 + b.length) = b.map Ev.ins := by
      simp only [between, hc]
      have : a.length + 1 + b.length - (a.length + 1) = b.length := by omega
      rw [this]
      have : List.drop (a.length + 1) (a ++ x :: (b ++ y :: c)) = b ++ y :: c := by
        rw [List.drop_append]; simp
      rw [this]; simp
    exact h2 _ (m hx) _ (m hy) rfl (by simp; omega) p (mem_parts p) q (mem_parts q) hp hq
      (.inl ⟨by rw [hb]; exact hk, by rw [hb]; exact hh⟩)
  · rintro e f p q hb ⟨x', y', hx', hy', hl⟩ ⟨x, hx, hp⟩ ⟨y, hy, hq⟩ hpq
    unfold Is at hx hx' hy hy'
    rw [hx] at hx'; rw [hy] at hy'
    cases hx'; cases hy'
    exact h2 _ (m hx) _ (m hy) hb.1 hb.2 p (mem_parts p) q (mem_parts q) hp hq (.inr ⟨hl, hpq⟩)
  · rintro e ⟨x, hx, hp⟩ ⟨y, hy, hq⟩
    unfold Is at hx hy
    rw [hx] at hy; cases hy
    exact h3 _ (m hx) hp hq

theorem Check.valid {R : Run cpu} {n : Nat} (hn : ∀ t, n ≤ t → R.prog t = []) (h : R.Check n) : R.Valid := by
  obtain ⟨h0, h1, h4⟩ := h
  have m : ∀ {e x}, R.Is e x → (e, x) ∈ R.all n := fun h => (mem_all hn).2 h
  refine ⟨h0.valid hn, ?_, ?_⟩
  · rintro e p f q ⟨x, hx, hp⟩ ⟨y, hy, hq⟩ ht
    exact h1 _ (m hx) _ (m hy) p (mem_parts p) q (mem_parts q) hp hq ht
  · rintro r w v ⟨-, x, d, hx, hd, ht, hr⟩ ⟨y, hy, hyw⟩ ⟨y', x', hy', hx', hl⟩ hne
    unfold Is at hx hx' hy hy'
    rw [hx] at hx'; rw [hy] at hy'
    cases hx'; cases hy'
    have := h4 _ (m hx) (by simp [hd]) _ (m hy) hyw hl hne
    simp only [hd, Option.getD_some] at this
    have er : r = (w.1, w.2 - d) := by ext <;> simp [ht]; omega
    rw [er]; exact this

/-- What a read reads, for finitely many threads. -/
theorem readsFrom_none {R : Run cpu} {n : Nat} (hn : ∀ t, n ≤ t → R.prog t = []) {r : Pos} {x : Ev}
    (hr : R.Is r x)
    (h : ∀ w ∈ R.all n, w.2.ins.wr = true → x.loc = w.2.loc →
      ¬ (R.time w.1 .wr < R.time r .rd ∨ (w.1.1 = r.1 ∧ w.1.2 < r.2))) : R.ReadsFrom r none := by
  rintro w ⟨⟨y, hy, hyw⟩, ⟨x', y', hx', hy', hl⟩, hv⟩
  unfold Is at hr hx' hy hy'
  rw [hr] at hx'; rw [hy] at hy'
  cases hx'; cases hy'
  exact h _ ((mem_all hn).2 hy) hyw hl hv

theorem readsFrom_some {R : Run cpu} {n : Nat} (hn : ∀ t, n ≤ t → R.prog t = []) {r w : Pos} {x y : Ev}
    (hr : R.Is r x) (hw : R.Is w y) (hyw : y.ins.wr = true) (hl : x.loc = y.loc)
    (hv : R.time w .wr < R.time r .rd ∨ (w.1 = r.1 ∧ w.2 < r.2))
    (h : ∀ v ∈ R.all n, v.2.ins.wr = true → x.loc = v.2.loc →
      (R.time v.1 .wr < R.time r .rd ∨ (v.1.1 = r.1 ∧ v.1.2 < r.2)) → R.time v.1 .wr ≤ R.time w .wr) :
    R.ReadsFrom r (some w) := by
  refine ⟨⟨⟨y, hw, hyw⟩, ⟨x, y, hr, hw, hl⟩, hv⟩, ?_⟩
  rintro v ⟨⟨z, hz, hzw⟩, ⟨x', z', hx', hz', hl'⟩, hv'⟩
  unfold Is at hr hx' hz hz'
  rw [hr] at hx'; rw [hz] at hz'
  cases hx'; cases hz'
  exact h _ ((mem_all hn).2 hz) hzw hl' hv'

end Run
end Verif.Mca
