import Verif.Pow.MixedLemmas
import Verif.Pow.Check

/-!
C52 on processors on which a write becomes visible to one thread after another, and for the other back ends that order
accesses by barriers.
-/

namespace Verif.Pow

open Verif.Order Verif.Mca Verif.Mca.Run

/-- In every execution of every program there is one order of the seq_cst operations and the seq_cst fences with the
properties of `Mixed.ScOrder`, and with the rule about coherence order as the C++20 standard has it.  Operations and fences
may come from different back ends for the processor.  Excluded are failing compare-and-exchange operations of the kernel
helper back end (finding of C19). -/
theorem C52_seq_cst_mixed_cumulative_partial {cpu : Cpu} (hcpu : cpu ∈ [.power, .arm, .alpha])
    (R : Pow.Run cpu) (hR : R.Valid) (hacc : ∀ t, ∀ it ∈ R.prog t, it.accepts = true)
    (hok : ∀ t f o n l, Item.op .linuxArm (.casFail f) o n l ∉ R.prog t) :
    ∃ before, R.mixed.ScOrder before ∧ R.mixed.Literal before := by
  have hfit := hR.inThread.fits
  refine hR.mixed_order ⟨hcpu, hfit⟩ (fun t it h => ⟨hacc t it h, ?_⟩) fun t it h hs => ?_
  · exact not_broken hcpu (hfit t it h) (by rintro f o n l rfl; exact hok _ _ _ _ _ h)
  · have hf := hfit t it h
    cases it with
    | op b k o n l =>
      have hb : scBroken b k = false :=
        sc_fine hcpu (hf b rfl) (by rintro rfl f rfl; exact hok _ _ _ _ _ h)
      have ha : k.accepts o = true := hacc t _ h
      simp only [Item.asksSeqCst] at hs
      simp [Item.isSeqCst, hs, ha, hb]
    | exchange b o n l => simpa [Item.isSeqCst, Item.asksSeqCst, not_sync hcpu (hf b rfl)] using hs
    | clear b o l => simpa [Item.isSeqCst, Item.asksSeqCst] using hs
    | _ => cases hs

/-- PowerPC, ARM and Alpha with inline assembly: without exception. -/
theorem C52_seq_cst_mixed_cumulative {cpu : Cpu} (hcpu : cpu ∈ [.power, .arm, .alpha])
    (R : Pow.Run cpu) (hR : R.Valid) (hbe : ∀ t, ∀ it ∈ R.prog t, it.backend ≠ some .linuxArm)
    (hacc : ∀ t, ∀ it ∈ R.prog t, it.accepts = true) :
    ∃ before, R.mixed.ScOrder before ∧ R.mixed.Literal before :=
  C52_seq_cst_mixed_cumulative_partial hcpu R hR hacc fun t _ _ _ _ h => hbe t _ h rfl

/-- Fences restore one order also where writes become visible to one thread after another.  Two threads read two objects in
opposite order, with a seq_cst fence between the reads; all orders of the reads and of the writes are allowed.  If the
first one finds the object `x` as `w` left it and misses the write `v` of the other object, then the second one does not
find `v` and miss `w`. -/
theorem C52_fence_independent_reads {cpu : Cpu} (hcpu : cpu ∈ [.power, .arm, .alpha])
    (R : Pow.Run cpu) (hR : R.Valid) (hbe : ∀ t, ∀ it ∈ R.prog t, it.backend ≠ some .linuxArm)
    (hacc : ∀ t, ∀ it ∈ R.prog t, it.accepts = true) {a x c b y d : OpId}
    (hax : R.mixed.sb a x) (hx : R.mixed.fence x) (hxc : R.mixed.sb x c)
    (hby : R.mixed.sb b y) (hy : R.mixed.fence y) (hyd : R.mixed.sb y d) {r r' s s' w v : R.mixed.Acc}
    (hr : R.mixed.of r a) (hr' : R.mixed.of r' c) (hs : R.mixed.of s b) (hs' : R.mixed.of s' d)
    (rr : R.mixed.read r) (rr' : R.mixed.read r') (rs : R.mixed.read s) (rs' : R.mixed.read s')
    (ww : R.mixed.write w) (wv : R.mixed.write v)
    (h1 : R.mixed.rf r (some w)) (h2 : R.mixed.Step r' v) : ¬ (R.mixed.rf s (some v) ∧ R.mixed.Step s' w) := by
  rintro ⟨h3, h4⟩
  obtain ⟨before, hO, -⟩ := C52_seq_cst_mixed_cumulative hcpu R hR hbe hacc
  have within : ∀ {A a}, R.mixed.of A a → ∃ it, R.Within A.1 a it := by
    rintro A a (⟨-, it, x, h, -⟩ | ⟨-, it, x, h, -⟩) <;> exact ⟨it, h⟩
  obtain ⟨_, ir⟩ := within hr
  obtain ⟨_, ir'⟩ := within hr'
  obtain ⟨_, is⟩ := within hs
  obtain ⟨_, is'⟩ := within hs'
  obtain ⟨⟨_, fx⟩, -⟩ := Run.fence_at (R := R) ⟨hcpu, hR.inThread.fits⟩ hx
  obtain ⟨⟨_, fy⟩, -⟩ := Run.fence_at (R := R) ⟨hcpu, hR.inThread.fits⟩ hy
  have k1 : before x y := hO.fence x r' s y ⟨.inl rr', .inr ⟨hx, _, _, fx, .before (fx.lt ir' hxc.1 hxc.2)⟩⟩
    (.step (.step .refl h2) (.rf wv rs h3)) ⟨_, _, fy, .before (is.lt fy hby.1 hby.2)⟩ hy
  have k2 : before y x := hO.fence y s' r x ⟨.inl rs', .inr ⟨hy, _, _, fy, .before (fy.lt is' hyd.1 hyd.2)⟩⟩
    (.step (.step .refl h4) (.rf ww rr h1)) ⟨_, _, fx, .before (ir.lt fx hax.1 hax.2)⟩ hx
  exact hO.irrefl _ (hO.trans _ _ _ k1 k2)

/-! ### Executions -/

/-- Two threads write one object each, two others read them with relaxed order, in different order, with a fence
between. -/
def fenced : Pow.Run .power := Run.of .power 4
  [[.op .ppc64 .store .relaxed 0 0], [.op .ppc64 .store .relaxed 0 1],
    [.op .ppc64 .load .relaxed 0 0, .fence .ppc64 .seqCst, .op .ppc64 .load .relaxed 0 1],
    [.op .ppc64 .load .relaxed 0 1, .fence .ppc64 .seqCst, .op .ppc64 .load .relaxed 0 0]]
  [[(0, 1)], [(0, 4)], [(3, 0), (0, 0), (6, 0)], [(7, 0), (0, 0), (9, 0)]]
  [((0, 0), [some 1, some 1, some 1, some 4, some 2]), ((1, 0), [some 4, some 4, some 8, some 5, some 4]),
    ((2, 1), [some 5, some 5, some 5, some 5, some 5]), ((3, 1), [some 8, some 8, some 9, some 8, some 8])]

theorem fenced_end (t : Nat) (h : 4 ≤ t) : fenced.prog t = [] := by simp [fenced, Run.of, Mca.Run.of, h]

/-- The hypotheses are met: the first reader finds the first object changed and not yet the second one, although the
second one was written before. -/
example : fenced.Valid ∧ (∀ t, ∀ it ∈ fenced.prog t, it.accepts = true) ∧ fenced.mixed.fence (2, 1) ∧
    fenced.mixed.fence (3, 1) ∧ fenced.mixed.sb (2, 0) (2, 1) ∧ fenced.mixed.sb (2, 1) (2, 2) ∧
    fenced.mixed.of ((2, 0), .rd) (2, 0) ∧ fenced.mixed.of ((2, 2), .rd) (2, 2) ∧
    fenced.mixed.rf ((2, 0), .rd) (some ((0, 0), .wr)) ∧ fenced.mixed.Step ((2, 2), .rd) ((1, 0), .wr) ∧
    fenced.mixed.rf ((3, 0), .rd) (some ((1, 0), .wr)) ∧ fenced.mixed.rf ((3, 2), .rd) (some ((0, 0), .wr)) := by
  have rf3 : fenced.ReadsFrom (2, 2) none := Run.readsFrom_none (n := 4) fenced_end rfl (by decide +kernel)
  refine ⟨Run.Check.valid (n := 4) fenced_end Run.of_simple (by decide +kernel), ?_, ⟨_, rfl⟩, ⟨_, rfl⟩, ⟨rfl, by decide⟩,
    ⟨rfl, by decide⟩, .inl ⟨rfl, .op .ppc64 .load .relaxed 0 0, _, ⟨[], rfl, rfl, ⟨_, rfl⟩, by decide, by decide⟩, rfl, rfl⟩,
    .inl ⟨rfl, .op .ppc64 .load .relaxed 0 1, _, ⟨[.op .ppc64 .load .relaxed 0 0, .fence .ppc64 .seqCst], rfl, rfl, ⟨_, rfl⟩, by decide,
      by decide⟩, rfl, rfl⟩,
    Run.readsFrom_only (n := 4) fenced_end rfl rfl rfl rfl (by decide) (by decide +kernel),
    .fr (s := none) ⟨rfl, _, rfl, rfl⟩ ⟨rfl, _, rfl, rfl⟩ rfl rf3 (by intro v h; cases h),
    Run.readsFrom_only (n := 4) fenced_end rfl rfl rfl rfl (by decide) (by decide +kernel),
    Run.readsFrom_only (n := 4) fenced_end rfl rfl rfl rfl (by decide) (by decide +kernel)⟩
  intro t it h
  match t with
  | 0 | 1 => simp [fenced, Run.of, Mca.Run.of] at h; subst h; rfl
  | 2 | 3 => simp [fenced, Run.of, Mca.Run.of] at h; rcases h with rfl | rfl | rfl <;> rfl
  | t + 4 => rw [fenced_end _ (by omega)] at h; simp at h

/-- A program that mixes seq_cst operations, seq_cst fences and others. -/
def mix : Pow.Run .power := Run.of .power 2
  [[.op .ppc64 .store .seqCst 0 0, .op .ppc64 .store .relaxed 0 1, .fence .ppc64 .seqCst, .op .ppc64 .load .relaxed 0 2],
    [.op .ppc64 .rmw .seqCst 0 2, .fence .ppc64 .seqCst, .op .ppc64 .load .acquire 0 0]]
  [[(0, 0), (0, 1), (0, 2), (0, 0), (6, 0)], [(0, 0), (3, 0), (0, 4), (0, 0), (0, 0), (7, 0), (0, 0)]]
  [((0, 0), [some 0, some 0, some 0]), ((0, 1), [some 1, some 4, some 1]), ((0, 2), [some 2, some 3, some 3]),
    ((0, 3), [some 4, some 5, some 4]), ((1, 0), [some 0, some 0, some 0]), ((1, 2), [some 5, some 4, some 5]),
    ((1, 3), [some 5, some 5, some 5]), ((1, 4), [some 6, some 6, some 6])]

theorem mix_end (t : Nat) (h : 2 ≤ t) : mix.prog t = [] := by simp [mix, Run.of, Mca.Run.of, h]

example : mix.Valid ∧ (∀ t, ∀ it ∈ mix.prog t, it.accepts = true) ∧ mix.mixed.Strong (0, 0) ∧
    mix.mixed.Strong (0, 2) ∧ mix.mixed.Strong (1, 0) := by
  refine ⟨Run.Check.valid (n := 2) mix_end Run.of_simple (by decide +kernel), ?_, .inl ⟨_, rfl, rfl⟩, .inr ⟨_, rfl⟩,
    .inl ⟨_, rfl, rfl⟩⟩
  intro t it h
  match t with
  | 0 => simp [mix, Run.of, Mca.Run.of] at h; rcases h with rfl | rfl | rfl | rfl <;> rfl
  | 1 => simp [mix, Run.of, Mca.Run.of] at h; rcases h with rfl | rfl | rfl <;> rfl
  | t + 2 => rw [mix_end _ (by omega)] at h; simp at h

end Verif.Pow
