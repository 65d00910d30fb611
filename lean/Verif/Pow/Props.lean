import Verif.Pow.ScLemmas
import Verif.Pow.Check
import Verif.Mca.ScProps

/-!
C50 and C51 on processors on which a write becomes visible to one thread after another (PowerPC, ARM up to version 7) and
for the other back ends that order accesses by barriers.
-/

namespace Verif.Pow

open Verif.Order Verif.Mca Verif.Mca.Run

/-- In every execution of every program, happens-before has the meaning the C++ standard gives to it, also through
chains of threads: what a thread has seen when it releases is seen by the thread that acquires.  Operations and fences may
come from different back ends for the processor.  Excluded are programs with a failing compare-and-exchange of the kernel
helper back end (finding of C19). -/
theorem C50_happens_before_cumulative_partial {cpu : Cpu} (hcpu : cpu ∈ [.power, .arm, .alpha])
    (R : Pow.Run cpu) (hR : R.Valid) (hacc : ∀ t, ∀ it ∈ R.prog t, it.accepts = true)
    (hok : ∀ t f o n l, Item.op .linuxArm (.casFail f) o n l ∉ R.prog t) : R.actions.Coherent :=
  hR.coherent ⟨hcpu, hR.inThread.fits⟩ fun t it h =>
    ⟨hacc t it h, not_broken hcpu (hR.inThread.fits t it h) (by rintro f o n l rfl; exact hok _ _ _ _ _ h)⟩

/-- PowerPC, ARM and Alpha with inline assembly: without exception. -/
theorem C50_happens_before_cumulative {cpu : Cpu} (hcpu : cpu ∈ [.power, .arm, .alpha])
    (R : Pow.Run cpu) (hR : R.Valid) (hbe : ∀ t, ∀ it ∈ R.prog t, it.backend ≠ some .linuxArm)
    (hacc : ∀ t, ∀ it ∈ R.prog t, it.accepts = true) : R.actions.Coherent :=
  C50_happens_before_cumulative_partial hcpu R hR hacc fun t _ _ _ _ h => hbe t _ h rfl

/-- In every execution: if all operations on the objects `A` are seq_cst (and other objects may be used in any way),
there is one order of these operations, which contains the order of each thread, such that every operation finds the
value the last one before it left.  Excluded are failing compare-and-exchange operations of the kernel helper back end
on these objects (finding of C51). -/
theorem C51_seq_cst_total_order_cumulative_partial {cpu : Cpu} (hcpu : cpu ∈ [.power, .arm, .alpha])
    (R : Pow.Run cpu) (hR : R.Valid) (V : Values)
    (A : Nat → Prop) (hacc : ∀ t, ∀ it ∈ R.prog t, it.accepts = true)
    (hA : ∀ t, ∀ it ∈ R.prog t, A it.loc →
      match it with
      | .user _ _ => False
      | .op b (.casFail f) o _ _ => b ≠ .linuxArm ∧ o = .seqCst ∧ f = .seqCst
      | .op _ _ o _ _ | .exchange _ o _ _ | .clear _ o _ => o = .seqCst
      | .fence _ _ => True) :
    (R.observations V A).SequentiallyConsistent := by
  refine hR.total_order ⟨hcpu, hR.inThread.fits⟩ (fun t it h hl => ?_) V
  have hf := hR.inThread.fits t it h
  have := hA t it h hl
  cases it with
  | user => exact absurd this id
  | fence => exact .inr rfl
  | exchange b o n l =>
    left; simp only at this; subst this
    simp [Item.isSeqCst, not_sync hcpu (hf b rfl)]
  | clear b o l => left; simp only at this; subst this; rfl
  | op b k o n l =>
    left
    have sb := fun k => sc_fine (k := k) hcpu (hf b rfl)
    cases k with
    | casFail f =>
      simp only at this
      obtain ⟨h1, rfl, rfl⟩ := this
      rw [Item.isSeqCst, sb _ fun h => absurd h h1]; rfl
    | casOk f =>
      simp only at this; subst this
      have ha : (Kind.casOk f).accepts .seqCst = true := hacc t _ h
      rw [Item.isSeqCst, sb _ (by simp), ha]; rfl
    | _ => simp only at this; subst this; rw [Item.isSeqCst, sb _ (by simp)]; rfl

/-- PowerPC, ARM and Alpha with inline assembly: without exception. -/
theorem C51_seq_cst_total_order_cumulative {cpu : Cpu} (hcpu : cpu ∈ [.power, .arm, .alpha])
    (R : Pow.Run cpu) (hR : R.Valid) (hbe : ∀ t, ∀ it ∈ R.prog t, it.backend ≠ some .linuxArm) (V : Values)
    (A : Nat → Prop) (hacc : ∀ t, ∀ it ∈ R.prog t, it.accepts = true)
    (hA : ∀ t, ∀ it ∈ R.prog t, A it.loc →
      match it with
      | .user _ _ => False
      | .op _ (.casFail f) o _ _ => o = .seqCst ∧ f = .seqCst
      | .op _ _ o _ _ | .exchange _ o _ _ | .clear _ o _ => o = .seqCst
      | .fence _ _ => True) :
    (R.observations V A).SequentiallyConsistent := by
  refine C51_seq_cst_total_order_cumulative_partial hcpu R hR V A hacc fun t it h hl => ?_
  have := hA t it h hl
  have hb := hbe t it h
  cases it with
  | op b k o n l =>
    cases k with
    | casFail f => exact ⟨by rintro rfl; exact hb rfl, this⟩
    | _ => exact this
  | _ => exact this

/-! ### What it rules out -/

/-- Independent reads of independent writes: two threads cannot find two objects changed in different orders. -/
theorem Observations.independentReads {O : Observations} (h : O.SequentiallyConsistent) {r r' s s' : O.Op}
    (hr : O.earlier r r') (hs : O.earlier s s') (h1 : O.obj r = O.obj s') (h2 : O.obj s = O.obj r')
    (hn : ∀ c u, O.stored c u → u ≠ O.init (O.obj c)) {a b : Nat} (ha : a ≠ O.init (O.obj r))
    (hb : b ≠ O.init (O.obj s)) (hra : O.result r a) (hsb : O.result s b)
    (hr' : O.result r' (O.init (O.obj r'))) : ¬ O.result s' (O.init (O.obj s')) := by
  intro hs'
  obtain ⟨before, irr, tr, tot, hearl, hres⟩ := h
  have none : ∀ p, O.result p (O.init (O.obj p)) → ∀ q u, O.obj q = O.obj p → O.stored q u → ¬ before q p := by
    intro p hp q u hq hu hqp
    rcases hres p _ hp with ⟨c, -, hc, hst, -⟩ | ⟨-, hno⟩
    · exact hn c _ hst (by rw [hc])
    · exact hno q u hqp hq hu
  have some : ∀ p v, v ≠ O.init (O.obj p) → O.result p v → ∃ q, before q p ∧ O.obj q = O.obj p ∧ O.stored q v := by
    intro p v hv hp
    rcases hres p _ hp with ⟨c, h1, h2, h3, -⟩ | ⟨h, -⟩
    · exact ⟨c, h1, h2, h3⟩
    · exact absurd h hv
  obtain ⟨w, hw, hwo, hws⟩ := some r a ha hra
  obtain ⟨x, hx, hxo, hxs⟩ := some s b hb hsb
  have k1 := none r' hr' x b (hxo.trans h2) hxs
  have k2 := none s' hs' w a (hwo.trans h1) hws
  have e1 := tr _ _ _ hw (hearl _ _ hr)
  have e2 := tr _ _ _ hx (hearl _ _ hs)
  by_cases hxr : x = r'
  · subst hxr; exact k2 (tr _ _ _ e1 e2)
  · rcases tot x r' hxr with h | h
    · exact k1 h
    · exact k2 (tr _ _ _ e1 (tr _ _ _ h e2))

/-- On PowerPC, ARM and Alpha: objects used with seq_cst operations only, in a program that never writes their initial
values.  If one thread finds the one object changed and the other one not yet, no thread finds it the other way
round. -/
theorem C51_independent_reads {cpu : Cpu} (hcpu : cpu ∈ [.power, .arm, .alpha])
    (R : Pow.Run cpu) (hR : R.Valid) (hbe : ∀ t, ∀ it ∈ R.prog t, it.backend ≠ some .linuxArm) (V : Values) (A : Nat → Prop)
    (hacc : ∀ t, ∀ it ∈ R.prog t, it.accepts = true)
    (hA : ∀ t, ∀ it ∈ R.prog t, A it.loc →
      match it with
      | .user _ _ => False
      | .op _ (.casFail f) o _ _ => o = .seqCst ∧ f = .seqCst
      | .op _ _ o _ _ | .exchange _ o _ _ | .clear _ o _ => o = .seqCst
      | .fence _ _ => True)
    (hn : ∀ w l, V.val w ≠ V.init l) {r r' s s' : (R.observations V A).Op}
    (hr : r.1.1 = r'.1.1 ∧ r.1.2 < r'.1.2) (hs : s.1.1 = s'.1.1 ∧ s.1.2 < s'.1.2) {l m a b : Nat}
    (hrl : (R.observations V A).obj r = l) (hrm : (R.observations V A).obj r' = m)
    (hsm : (R.observations V A).obj s = m) (hsl : (R.observations V A).obj s' = l)
    (ha : (R.observations V A).result r a) (hb : (R.observations V A).result s b)
    (ha' : a ≠ V.init l) (hb' : b ≠ V.init m) (hr' : (R.observations V A).result r' (V.init m)) :
    ¬ (R.observations V A).result s' (V.init l) := by
  have hO := C51_seq_cst_total_order_cumulative hcpu R hR hbe V A hacc hA
  have := Observations.independentReads hO (r := r) (r' := r') (s := s) (s' := s') hr hs (hrl.trans hsl.symm)
    (hsm.trans hrm.symm) (by rintro c u ⟨w, -, rfl⟩; exact hn w _) (a := a) (b := b) (by rw [hrl]; exact ha')
    (by rw [hsm]; exact hb') ha hb (by rw [hrm]; exact hr')
  rw [hsl] at this
  exact this

/-! ### Executions -/

/-- Two threads write one object each, two others read them, in different order. -/
def independent (o o' : MO) (ts : List (List (Nat × Nat))) (arr : List (Pos × List (Option Nat))) : Pow.Run .power :=
  Run.of .power 4 [[.op .ppc64 .store o 0 0], [.op .ppc64 .store o 0 1], [.op .ppc64 .load o' 0 0, .op .ppc64 .load o' 0 1],
    [.op .ppc64 .load o' 0 1, .op .ppc64 .load o' 0 0]] ts arr

theorem independent_end {o o' ts arr} (t : Nat) (h : 4 ≤ t) : (independent o o' ts arr).prog t = [] := by
  simp [independent, Run.of, Mca.Run.of, h]

/-- With release stores and acquire loads the two readers can disagree: this machine is weaker than the one of
`Verif.Mca`. -/
def disagree : Pow.Run .power := independent .release .acquire
  [[(0, 0), (0, 1)], [(0, 0), (0, 2)], [(3, 0), (0, 0), (5, 0), (0, 0)], [(4, 0), (0, 0), (6, 0), (0, 0)]]
  [((0, 0), [some 0, some 0, some 0, some 0, some 0]), ((0, 1), [some 1, none, some 2, some 11, none]),
    ((1, 0), [some 0, some 0, some 0, some 0, some 0]), ((1, 1), [none, some 2, some 12, some 3, none])]

example : disagree.Valid ∧ disagree.ReadsFrom (2, 0) (some (0, 1)) ∧ disagree.ReadsFrom (2, 2) none ∧
    disagree.ReadsFrom (3, 0) (some (1, 1)) ∧ disagree.ReadsFrom (3, 2) none :=
  ⟨Run.Check.valid (n := 4) independent_end Run.of_simple (by decide +kernel),
    Run.readsFrom_only (n := 4) independent_end rfl rfl rfl rfl (by decide) (by decide +kernel),
    Run.readsFrom_none (n := 4) independent_end rfl (by decide +kernel),
    Run.readsFrom_only (n := 4) independent_end rfl rfl rfl rfl (by decide) (by decide +kernel),
    Run.readsFrom_none (n := 4) independent_end rfl (by decide +kernel)⟩

/-- With seq_cst operations: an execution in which the first write arrives late at the last thread. -/
def agree : Pow.Run .power := independent .seqCst .seqCst
  [[(0, 0), (0, 1)], [(0, 0), (0, 4)], [(0, 0), (3, 0), (0, 0), (0, 0), (6, 0), (0, 0)],
    [(0, 0), (7, 0), (0, 0), (0, 0), (9, 0), (0, 0)]]
  [((0, 0), [some 0, some 0, some 0, some 0, some 0]), ((0, 1), [some 1, some 1, some 1, some 4, some 2]),
    ((1, 0), [some 0, some 0, some 0, some 0, some 0]), ((1, 1), [some 4, some 4, some 8, some 5, some 4]),
    ((2, 0), [some 0, some 0, some 0, some 0, some 0]), ((2, 3), [some 5, some 5, some 5, some 5, some 5]),
    ((3, 0), [some 0, some 0, some 0, some 0, some 0]), ((3, 3), [some 8, some 8, some 9, some 8, some 8])]

example : agree.Valid ∧ (∀ t, ∀ it ∈ agree.prog t, it.accepts = true) ∧
    (∀ t, ∀ it ∈ agree.prog t, ∃ l, it = .op .ppc64 .store .seqCst 0 l ∨ it = .op .ppc64 .load .seqCst 0 l) ∧
    agree.ReadsFrom (2, 1) (some (0, 1)) ∧ agree.ReadsFrom (2, 4) none ∧
    agree.ReadsFrom (3, 1) (some (1, 1)) ∧ agree.ReadsFrom (3, 4) (some (0, 1)) := by
  have items : ∀ t, ∀ it ∈ agree.prog t, ∃ l, it = .op .ppc64 .store .seqCst 0 l ∨ it = .op .ppc64 .load .seqCst 0 l := by
    intro t it h
    match t with
    | 0 | 1 => simp [agree, independent, Run.of, Mca.Run.of] at h; subst h; exact ⟨_, .inl rfl⟩
    | 2 | 3 => simp [agree, independent, Run.of, Mca.Run.of] at h; rcases h with rfl | rfl <;> exact ⟨_, .inr rfl⟩
    | t + 4 => rw [show agree.prog (t + 4) = [] from independent_end _ (by omega)] at h; simp at h
  refine ⟨Run.Check.valid (n := 4) independent_end Run.of_simple (by decide +kernel), ?_, items,
    Run.readsFrom_only (n := 4) independent_end rfl rfl rfl rfl (by decide) (by decide +kernel),
    Run.readsFrom_none (n := 4) independent_end rfl (by decide +kernel),
    Run.readsFrom_only (n := 4) independent_end rfl rfl rfl rfl (by decide) (by decide +kernel),
    Run.readsFrom_only (n := 4) independent_end rfl rfl rfl rfl (by decide) (by decide +kernel)⟩
  intro t it h
  obtain ⟨l, rfl | rfl⟩ := items t it h <;> rfl

/-- A chain of three threads on PowerPC: data, a flag seen by the second thread, another flag seen by the third one. -/
def chain : Pow.Run .power := Run.of .power 3
  [[.user userStore 0, .op .ppc64 .store .release 0 1], [.op .ppc64 .load .acquire 0 1, .op .ppc64 .store .release 0 2],
    [.op .ppc64 .load .acquire 0 2, .user userLoad 0]]
  [[(0, 1), (0, 0), (0, 2)], [(5, 0), (0, 0), (0, 0), (0, 7)], [(13, 0), (0, 0), (14, 0)]]
  [((0, 0), [some 1, some 3, some 9, some 9]), ((0, 1), [some 2, some 4, some 10, none]),
    ((0, 2), [some 2, some 4, some 10, none]), ((1, 2), [none, some 6, some 11, none]),
    ((1, 3), [none, some 7, some 12, none])]

theorem chain_end (t : Nat) (h : 3 ≤ t) : chain.prog t = [] := by simp [chain, Run.of, Mca.Run.of, h]

example : chain.Valid ∧ (∀ t, ∀ it ∈ chain.prog t, it.accepts = true) ∧ chain.HappensBefore (0, 0) (2, 2) ∧
    chain.ReadsFrom (2, 2) (some (0, 0)) ∧ ¬ chain.Arrived (0, 0) 2 (chain.time (1, 0) .rd) := by
  have rf1 : chain.ReadsFrom (1, 0) (some (0, 2)) :=
    Run.readsFrom_only (n := 3) chain_end rfl rfl rfl rfl (by decide) (by decide +kernel)
  have rf2 : chain.ReadsFrom (2, 0) (some (1, 3)) :=
    Run.readsFrom_only (n := 3) chain_end rfl rfl rfl rfl (by decide) (by decide +kernel)
  refine ⟨Run.Check.valid (n := 3) chain_end Run.of_simple (by decide +kernel), ?_, ?_,
    Run.readsFrom_only (n := 3) chain_end rfl rfl rfl rfl (by decide) (by decide +kernel), by decide⟩
  · intro t it h
    match t with
    | 0 | 1 | 2 => simp [chain, Run.of, Mca.Run.of] at h; rcases h with rfl | rfl <;> rfl
    | t + 3 => rw [chain_end _ (by omega)] at h; simp at h
  · refine .trans (f := (1, 3)) (.sync ?_) (.sync ?_)
    · refine ⟨(0, 2), (0, 2), (1, 0), .inl ⟨?_, .inr ⟨rfl, by decide⟩⟩, ⟨_, rfl, rfl⟩, .head, rf1, ⟨_, rfl, rfl⟩,
        by decide, .inl ⟨?_, .inr ⟨rfl, by decide⟩⟩⟩
      · exact ⟨[.user userStore 0], .op .ppc64 .store .release 0 1, .release, _, ⟨⟨[], rfl⟩, by decide, by decide⟩, rfl,
          rfl, rfl, rfl⟩
      · exact ⟨[], .op .ppc64 .load .acquire 0 1, .acquire, _, ⟨⟨_, rfl⟩, by decide, by decide⟩, rfl, rfl, rfl, rfl⟩
    · refine ⟨(1, 3), (1, 3), (2, 0), .inl ⟨?_, .inl rfl⟩, ⟨_, rfl, rfl⟩, .head, rf2, ⟨_, rfl, rfl⟩,
        by decide, .inl ⟨?_, .inr ⟨rfl, by decide⟩⟩⟩
      · exact ⟨[.op .ppc64 .load .acquire 0 1], .op .ppc64 .store .release 0 2, .release, _, ⟨⟨[], rfl⟩, by decide, by decide⟩,
          rfl, rfl, rfl, rfl⟩
      · exact ⟨[], .op .ppc64 .load .acquire 0 2, .acquire, _, ⟨⟨_, rfl⟩, by decide, by decide⟩, rfl, rfl, rfl, rfl⟩

/-- The test "R" with a light and a heavy barrier, which the PowerPC architecture allows: the write of the object 1 by the
first thread comes before that of the second thread but never arrives there, and the second thread does not find the
object 0 changed. -/
def overtaken : Pow.Run .power := Run.of .power 2
  [[.op .ppc64 .store .relaxed 0 0, .op .ppc64 .store .release 0 1],
    [.op .ppc64 .store .relaxed 0 1, .fence .ppc64 .seqCst, .op .ppc64 .load .relaxed 0 0]]
  [[(0, 1), (0, 0), (0, 3)], [(0, 2), (0, 0), (7, 0)]]
  [((0, 0), [some 1, some 8, none]), ((0, 1), [some 2, none, none]), ((0, 2), [some 3, none, none]),
    ((1, 0), [some 4, some 2, some 2]), ((1, 1), [some 5, some 5, some 5])]

theorem overtaken_end (t : Nat) (h : 2 ≤ t) : overtaken.prog t = [] := by simp [overtaken, Run.of, Mca.Run.of, h]

example : overtaken.Valid ∧ overtaken.Co (0, 2) (1, 0) ∧ overtaken.ReadsFrom (1, 2) none :=
  ⟨Run.Check.valid (n := 2) overtaken_end Run.of_simple (by decide +kernel),
    ⟨⟨_, rfl, rfl⟩, ⟨_, rfl, rfl⟩, ⟨_, _, rfl, rfl, rfl⟩, by decide⟩,
    Run.readsFrom_none (n := 2) overtaken_end rfl (by decide +kernel)⟩

/-- Every execution of the machine of `Verif.Mca`, with the same reads, is an execution of this one. -/
theorem C50_machine_is_weaker {cpu : Cpu} (R : Mca.Run cpu) (hR : R.Valid) :
    ∃ R' : Pow.Run cpu, R'.toRun = R ∧ R'.Valid ∧ ∀ r s, R'.ReadsFrom r s ↔ R.ReadsFrom r s :=
  ⟨Run.atOnce R, rfl, Run.atOnce_valid hR, fun _ _ => Run.atOnce_reads hR⟩

end Verif.Pow
