import Verif.Mca.ScLemmas
import Verif.Mca.Check

/-
C51: objects that are used with memory_order_seq_cst only behave as if the operations of all threads on them were
executed one after another.
-/

namespace Verif.Mca

open Verif.Order Run

/-- In every execution, on every back end: if all operations on the objects `A` are seq_cst (and other objects may be
used in any way), there is one order of these operations, which contains the order of each thread, such that every
operation finds the value the last one before it left.  Not covered (see `Item.isSeqCst`): `exchange`,
`test_and_set` and stores of wide objects of the `__sync` back end, and failed compare-and-exchange operations of the
kernel helper back end.  On
PowerPC writes do not become visible to all other processors at once: see `Verif.Pow`. -/
theorem C51_seq_cst_total_order_partial {cpu : Cpu} (R : Run cpu) (hR : R.Valid) (V : Values) (hV : R.Copies V)
    (A : Nat → Prop)
    (hA : ∀ t, ∀ it ∈ R.prog t, A it.loc → it.isSeqCst = true ∨ it.isFence = true) :
    (R.observations V A).SequentiallyConsistent :=
  hR.total_order hA hV

/-- Back ends of which nothing is left out. -/
theorem C51_seq_cst_total_order {cpu : Cpu}
    (R : Run cpu) (hR : R.Valid) (V : Values) (hV : R.Copies V) (A : Nat → Prop)
    (hbe : ∀ t, ∀ it ∈ R.prog t, ∀ b, it.backend = some b → b ∉ [.gccSync, .gccSyncWide, .linuxArm, .ppc64, .ppc32])
    (hacc : ∀ t, ∀ it ∈ R.prog t, it.accepts = true)
    (hA : ∀ t, ∀ it ∈ R.prog t, A it.loc →
      match it with
      | .user _ _ => False
      | .op _ (.casFail f) o _ _ => o = .seqCst ∧ f = .seqCst
      | .op _ _ o _ _ | .exchange _ o _ _ | .clear _ o _ => o = .seqCst
      | .fence _ _ => True) :
    (R.observations V A).SequentiallyConsistent := by
  refine C51_seq_cst_total_order_partial R hR V hV A fun t it h hl => ?_
  have := hA t it h hl
  have hbe := hbe t it h
  have sc : ∀ b, it.backend = some b → ∀ k, scBroken b k = false := by
    intro b hb k
    have := hbe b hb
    cases b <;> first | rfl | simp at this
  cases it with
  | user => exact absurd this id
  | fence => exact .inr rfl
  | exchange b o n l =>
    left; simp only at this; subst this
    have := hbe b rfl
    have : b.isSync = false := by cases b <;> first | rfl | simp at this
    simp [Item.isSeqCst, this]
  | clear b o l => left; simp only at this; subst this; rfl
  | op b k o n l =>
    left
    have sb : ∀ k, scBroken b k = false := sc b rfl
    cases k with
    | casFail f =>
      simp only at this
      obtain ⟨rfl, rfl⟩ := this
      simp only [Item.isSeqCst, sb]; rfl
    | casOk f =>
      simp only at this; subst this
      have ha : (Kind.casOk f).accepts .seqCst = true := hacc t _ h
      simp only [Item.isSeqCst, sb, ha]; rfl
    | _ => simp only at this; subst this; simp only [Item.isSeqCst, sb]; rfl

/-! ### What it rules out -/

/-- Store buffering: two threads each write one object and then read the other one; they cannot both find the initial
value. -/
theorem Observations.storeBuffering {O : Observations} (h : O.SequentiallyConsistent) {w r x s : O.Op}
    (hwr : O.earlier w r) (hxs : O.earlier x s) (hrx : O.obj x = O.obj r) (hsw : O.obj w = O.obj s) {a b : Nat}
    (hw : O.stored w a) (hx : O.stored x b) (hn : ∀ c u, O.stored c u → u ≠ O.init (O.obj c))
    (hr : O.result r (O.init (O.obj r))) : ¬ O.result s (O.init (O.obj s)) := by
  intro hs
  obtain ⟨before, irr, tr, tot, hearl, hres⟩ := h
  have key : ∀ p q u, O.result p (O.init (O.obj p)) → O.obj q = O.obj p → O.stored q u → ¬ before q p := by
    intro p q u hp hq hu hb
    rcases hres p _ hp with ⟨c, -, hc, hst, -⟩ | ⟨-, hno⟩
    · exact hn c _ hst (by rw [hc])
    · exact hno q u hb hq hu
  have h1 := key r x b hr hrx hx
  have h2 := key s w a hs hsw hw
  have e1 := hearl w r hwr
  have e2 := hearl x s hxs
  have hrx' : r ≠ x := by rintro rfl; exact h2 (tr _ _ _ e1 e2)
  rcases tot r x hrx' with h | h
  · exact h2 (tr _ _ _ e1 (tr _ _ _ h e2))
  · exact h1 h

/-- Publication: a thread writes data and then a flag; another one that finds the flag and then reads the data does not
find the initial value. -/
theorem Observations.publication {O : Observations} (h : O.SequentiallyConsistent) {w f g r : O.Op}
    (hwf : O.earlier w f) (hgr : O.earlier g r) (hwr : O.obj w = O.obj r) {a b : Nat} (hw : O.stored w a)
    (hn : ∀ c u, O.stored c u → u ≠ O.init (O.obj c)) (hf : ∀ c, O.obj c = O.obj g → O.stored c b → c = f)
    (hb : b ≠ O.init (O.obj g)) (hg : O.result g b) : ¬ O.result r (O.init (O.obj r)) := by
  intro hr
  obtain ⟨before, irr, tr, tot, hearl, hres⟩ := h
  rcases hres g _ hg with ⟨c, hcg, hc, hst, -⟩ | ⟨h, -⟩
  · obtain rfl := hf c hc hst
    have := tr _ _ _ (hearl _ _ hwf) (tr _ _ _ hcg (hearl _ _ hgr))
    rcases hres r _ hr with ⟨c', -, hc', hst', -⟩ | ⟨-, hno⟩
    · exact hn c' _ hst' (by rw [hc'])
    · exact hno w a this hwr hw
  · exact hb h

/-- Store buffering with seq_cst stores and loads, with the code of any back ends: two threads store into one atomic object each and
then load the other one.  Never do both loads return the initial value, however the threads are scheduled.  (Stores of
objects wider than a pointer by the `__sync` intrinsics are different, see `C51_gcc_sync_wide_store_violated`.) -/
theorem C51_store_buffering {cpu : Cpu} {b₁ b₂ b₃ b₄ : Backend} (R : Run cpu) (hR : R.Valid) (V : Values) (hV : R.Copies V)
    (h₁ : b₁ ≠ .gccSyncWide) (h₃ : b₃ ≠ .gccSyncWide)
    (n m : Nat) (h0 : R.prog 0 = [.op b₁ .store .seqCst n 0, .op b₂ .load .seqCst m 1])
    (h1 : R.prog 1 = [.op b₃ .store .seqCst n 1, .op b₄ .load .seqCst m 0]) (h2 : ∀ t, 2 ≤ t → R.prog t = [])
    (hv : ∀ t w, R.Pub (t, 0) w → V.val w ≠ V.init t)
    {r s : Pos} {a b : Option Pos} (hr : R.Ret (0, 1) r) (hs : R.Ret (1, 1) s)
    (ha : R.ReadsFrom r a) (hb : R.ReadsFrom s b) :
    ¬ (V.of 1 a = V.init 1 ∧ V.of 0 b = V.init 0) := by
  have sl : ∀ b, scBroken b .load = false := by intro b; cases b <;> rfl
  have ss : ∀ b, b ≠ .gccSyncWide → scBroken b .store = false := by
    intro b hb; cases b <;> first | rfl | exact absurd rfl hb
  have hO := C51_seq_cst_total_order_partial R hR V hV (fun _ => True) (by
    intro t it h _
    left
    have : it = .op b₁ .store .seqCst n 0 ∨ it = .op b₂ .load .seqCst m 1 ∨ it = .op b₃ .store .seqCst n 1 ∨
        it = .op b₄ .load .seqCst m 0 := by
      match t with
      | 0 => rw [h0] at h; simp at h; rcases h with rfl | rfl <;> simp
      | 1 => rw [h1] at h; simp at h; rcases h with rfl | rfl <;> simp
      | t + 2 => rw [h2 (t + 2) (by omega)] at h; simp at h
    rcases this with rfl | rfl | rfl | rfl <;> simp [Item.isSeqCst, sl, ss, h₁, h₃] <;> decide)
  rintro ⟨ea, eb⟩
  have i00 : (R.prog 0)[0]? = some (.op b₁ .store .seqCst n 0) := by rw [h0]; rfl
  have i01 : (R.prog 0)[1]? = some (.op b₂ .load .seqCst m 1) := by rw [h0]; rfl
  have i10 : (R.prog 1)[0]? = some (.op b₃ .store .seqCst n 1) := by rw [h1]; rfl
  have i11 : (R.prog 1)[1]? = some (.op b₄ .load .seqCst m 0) := by rw [h1]; rfl
  let O := R.observations V fun _ => True
  let w0 : O.Op := ⟨(0, 0), _, i00, trivial, rfl⟩
  let r0 : O.Op := ⟨(0, 1), _, i01, trivial, rfl⟩
  let w1 : O.Op := ⟨(1, 0), _, i10, trivial, rfl⟩
  let r1 : O.Op := ⟨(1, 1), _, i11, trivial, rfl⟩
  have oo : O.obj w0 = 0 ∧ O.obj r0 = 1 ∧ O.obj w1 = 1 ∧ O.obj r1 = 0 := by
    simp [O, observations, w0, r0, w1, r1, i00, i01, i10, i11, Item.loc]
  have vals : ∀ c u, O.stored c u → u ≠ O.init (O.obj c) := by
    rintro ⟨⟨t, i⟩, it, hit, _, hf⟩ u hst
    obtain ⟨w, hp, hu⟩ : ∃ w, R.Pub (t, i) w ∧ u = V.val w := hst
    rw [hu]
    match t, i, hit, hp with
    | 0, 0, hit, hp =>
      have : O.obj ⟨(0, 0), it, hit, trivial, hf⟩ = 0 := oo.1
      rw [this]; exact hv 0 w hp
    | 1, 0, hit, hp =>
      have : O.obj ⟨(1, 0), it, hit, trivial, hf⟩ = 1 := oo.2.2.1
      rw [this]; exact hv 1 w hp
    | 0, 1, _, hp => exact absurd hp (load_no_pub (id := (0, 1)) i01 w)
    | 1, 1, _, hp => exact absurd hp (load_no_pub (id := (1, 1)) i11 w)
    | 0, j + 2, hit, _ => rw [h0] at hit; simp at hit
    | 1, j + 2, hit, _ => rw [h1] at hit; simp at hit
    | t + 2, j, hit, _ => rw [h2 (t + 2) (by omega)] at hit; simp at hit
  obtain ⟨p0, hp0⟩ := store_pub (R := R) (id := (0, 0)) i00
  obtain ⟨p1, hp1⟩ := store_pub (R := R) (id := (1, 0)) i10
  refine Observations.storeBuffering hO (w := w0) (r := r0) (x := w1) (s := r1) ⟨rfl, Nat.zero_lt_one⟩ ⟨rfl, Nat.zero_lt_one⟩
    (oo.2.2.1.trans oo.2.1.symm) (oo.1.trans oo.2.2.2.symm) ⟨p0, hp0, rfl⟩ ⟨p1, hp1, rfl⟩ vals
    ⟨r, _, a, i01, hr, ha, ?_⟩ ⟨s, _, b, i11, hs, hb, ?_⟩
  · show V.init (O.obj r0) = _
    rw [oo.2.1]; exact ea.symm
  · show V.init (O.obj r1) = _
    rw [oo.2.2.2]; exact eb.symm

/-! ### Executions -/

/-- Two threads. -/
def pair (cpu : Cpu) (p q : List Item) (ts : List (List (Nat × Nat))) : Run cpu := Run.of cpu [p, q] ts

theorem pair_end {cpu : Cpu} {p q ts} (t : Nat) (h : 2 ≤ t) : (pair cpu p q ts).prog t = [] := by
  simp [pair, Run.of, h]

/-- Store buffering on ARM; the two stores are followed by the two loads. -/
def buffering : Run .arm := pair .arm [.op .gccArm .store .seqCst 0 0, .op .gccArm .load .seqCst 0 1]
  [.op .gccArm .store .seqCst 0 1, .op .gccArm .load .seqCst 0 0]
  [[(0, 0), (0, 1), (0, 0), (3, 0)], [(0, 0), (0, 2), (0, 0), (4, 0)]]

/-- Both write 1. -/
def ones : Values := ⟨fun _ => 1, fun _ => 0⟩

theorem copies_trivial {cpu : Cpu} {R : Run cpu} {n : Nat} (hn : ∀ t, n ≤ t → R.prog t = []) (V : Values)
    (h : ∀ w ∈ R.all n, w.2.pair ≠ none → w.2.ins.pub = true) : R.Copies V := by
  rintro r c x ⟨⟨-, y, d, hy, hd, -⟩, z, hz, hnp⟩ -
  rw [← hy.unique hz, h _ ((mem_all hn).2 hy) (by simp [hd])] at hnp; cases hnp

example : buffering.Valid ∧ buffering.Copies ones ∧ buffering.Ret (0, 1) (0, 3) ∧
    buffering.ReadsFrom (0, 3) (some (1, 1)) ∧ ∀ t w, buffering.Pub (t, 0) w → ones.val w ≠ ones.init t :=
  ⟨Check.valid (n := 2) pair_end (by decide +kernel), copies_trivial pair_end _ (by decide +kernel),
    ⟨.op .gccArm .load .seqCst 0 1, _, ⟨[.op .gccArm .store .seqCst 0 0], rfl, rfl, ⟨[], rfl⟩, by decide, by decide⟩, rfl, rfl⟩,
    readsFrom_some (n := 2) pair_end rfl rfl rfl rfl (by decide) (by decide +kernel),
    fun _ _ _ => by simp [ones]⟩

/-- The same on Windows, where a load is an interlocked addition of 0. -/
example : ∃ R : Run .x86, R.Valid ∧ R.Copies ones ∧ R.CopyOf (0, 4) (0, 4) ∧
    R.prog 0 = [.op (.windows true) .store .seqCst 0 0, .op (.windows true) .load .seqCst 0 1] := by
  let R : Run .x86 := pair .x86 [.op (.windows true) .store .seqCst 0 0, .op (.windows true) .load .seqCst 0 1]
    [.op (.windows true) .store .seqCst 0 1, .op (.windows true) .load .seqCst 0 0] 
    [[(0, 0), (0, 1), (0, 0), (0, 0), (4, 5)], [(0, 0), (2, 3), (0, 0), (0, 0), (6, 7)]]
  refine ⟨R, Check.valid (n := 2) pair_end (by decide +kernel), ?_, 
    ⟨⟨⟨_, _, rfl, rfl, rfl⟩, _, 0, rfl, rfl, rfl, rfl⟩, _, rfl, rfl⟩, rfl⟩
  rintro r c x ⟨⟨-, y, d, hy, hd, h1, h2⟩, z, hz, hnp⟩ hx
  have key : ∀ y ∈ R.all 2, y.2.pair ≠ none → y.2.ins.pub = false →
      y.2.pair = some 0 ∧ (y.1 = (0, 4) ∨ y.1 = (1, 4)) := by
    decide +kernel
  rw [← hy.unique hz] at hnp
  obtain ⟨e, hc⟩ := key (c, y) ((mem_all pair_end).2 hy) (by simp [hd]) hnp
  cases hd.symm.trans e
  obtain rfl : r = c := Prod.ext h1 h2
  rcases hc with rfl | rfl <;> cases hx
  · exact ⟨some (1, 1), readsFrom_some (n := 2) pair_end rfl rfl rfl rfl (by decide) (by decide +kernel), rfl⟩
  · exact ⟨some (0, 1), readsFrom_some (n := 2) pair_end rfl rfl rfl rfl (by decide) (by decide +kernel), rfl⟩

/-- The same with 16-byte objects on AArch64, whose loads write back what they read with the second instruction, and with
back ends mixed on x86. -/
example : ∃ R : Run .aarch64, R.Valid ∧ R.Copies ones ∧ R.CopyOf (0, 2) (0, 3) ∧
    R.prog 0 = [.op .aarch64Wide .store .seqCst 0 0, .op .aarch64Wide .load .seqCst 0 1] ∧
    R.prog 1 = [.op .aarch64Wide .store .seqCst 0 1, .op .aarch64Wide .load .seqCst 0 0] := by
  let R : Run .aarch64 := pair .aarch64 [.op .aarch64Wide .store .seqCst 0 0, .op .aarch64Wide .load .seqCst 0 1]
    [.op .aarch64Wide .store .seqCst 0 1, .op .aarch64Wide .load .seqCst 0 0]
    [[(1, 0), (0, 2), (5, 0), (0, 6)], [(3, 0), (0, 4), (7, 0), (0, 8)]]
  refine ⟨R, Check.valid (n := 2) pair_end (by decide +kernel), ?_,
    ⟨⟨⟨_, _, rfl, rfl, rfl⟩, _, 1, rfl, rfl, rfl, rfl⟩, _, rfl, rfl⟩, rfl, rfl⟩
  rintro r c x ⟨⟨-, y, d, hy, hd, h1, h2⟩, z, hz, hnp⟩ hx
  have key : ∀ y ∈ R.all 2, y.2.pair ≠ none → y.2.ins.pub = false →
      y.2.pair = some 1 ∧ (y.1 = (0, 3) ∨ y.1 = (1, 3)) := by
    decide +kernel
  rw [← hy.unique hz] at hnp
  obtain ⟨e, hc⟩ := key (c, y) ((mem_all pair_end).2 hy) (by simp [hd]) hnp
  cases hd.symm.trans e
  rcases hc with rfl | rfl <;> cases hx
  · obtain rfl : r = (0, 2) := Prod.ext h1 (by simpa using h2)
    exact ⟨some (1, 1), readsFrom_some (n := 2) pair_end rfl rfl rfl rfl (by decide) (by decide +kernel), rfl⟩
  · obtain rfl : r = (1, 2) := Prod.ext h1 (by simpa using h2)
    exact ⟨some (0, 1), readsFrom_some (n := 2) pair_end rfl rfl rfl rfl (by decide) (by decide +kernel), rfl⟩

example : ∃ R : Run .x86, R.Valid ∧ R.Copies ones ∧
    R.prog 0 = [.op (.x86Wide false true) .store .seqCst 1 0, .op .gccX86 .load .seqCst 0 1] ∧
    R.prog 1 = [.op .gccAtomicX86 .loop .seqCst 1 1, .op (.x86Wide true true) .load .seqCst 0 0] := by
  let R : Run .x86 := pair .x86 [.op (.x86Wide false true) .store .seqCst 1 0, .op .gccX86 .load .seqCst 0 1]
    [.op .gccAtomicX86 .loop .seqCst 1 1, .op (.x86Wide true true) .load .seqCst 0 0]
    [[(1, 0), (2, 0), (3, 4), (9, 0), (0, 0)], [(5, 0), (6, 0), (7, 8), (10, 0), (0, 0)]]
  exact ⟨R, Check.valid (n := 2) pair_end (by decide +kernel), copies_trivial pair_end _ (by decide +kernel), rfl, rfl⟩

/-- The `__sync` back end: `exchange` is `__sync_lock_test_and_set` after a fence, which does not keep a later load from
being performed before its write.  Store buffering with seq_cst `exchange` and `load`: both loads return the initial
value, although all operations are seq_cst. -/
theorem C51_gcc_sync_exchange_violated :
    ∃ (R : Run .sync) (V : Values), R.Valid ∧ R.Copies V ∧
      (∀ t, ∀ it ∈ R.prog t, ∃ l, it = .exchange .gccSync .seqCst 0 l ∨ it = .op .gccSync .load .seqCst 0 l) ∧
      ¬ (R.observations V fun _ => True).SequentiallyConsistent := by
  let R : Run .sync := pair .sync [.exchange .gccSync .seqCst 0 0, .op .gccSync .load .seqCst 0 1]
    [.exchange .gccSync .seqCst 0 1, .op .gccSync .load .seqCst 0 0] [[(0, 0), (1, 5), (3, 0)], [(0, 0), (2, 6), (4, 0)]]
  refine ⟨R, ones, Check.valid (n := 2) pair_end (by decide +kernel), copies_trivial pair_end _ (by decide +kernel),
    ?_, fun h => ?_⟩
  · intro t it h
    match t with
    | 0 => simp [R, pair, Run.of] at h; rcases h with rfl | rfl <;> simp
    | 1 => simp [R, pair, Run.of] at h; rcases h with rfl | rfl <;> simp
    | t + 2 => simp [R, pair, Run.of] at h
  · let O := R.observations ones fun _ => True
    let w0 : O.Op := ⟨(0, 0), _, rfl, trivial, rfl⟩
    let r0 : O.Op := ⟨(0, 1), _, rfl, trivial, rfl⟩
    let w1 : O.Op := ⟨(1, 0), _, rfl, trivial, rfl⟩
    let r1 : O.Op := ⟨(1, 1), _, rfl, trivial, rfl⟩
    refine Observations.storeBuffering h (w := w0) (r := r0) (x := w1) (s := r1) ⟨rfl, by decide⟩ ⟨rfl, by decide⟩
      rfl rfl ⟨(0, 1), ?_, rfl⟩ ⟨(1, 1), ?_, rfl⟩ ?_ ⟨(0, 2), _, none, rfl, ?_, ?_, rfl⟩ ⟨(1, 2), _, none, rfl, ?_, ?_, rfl⟩
    · exact ⟨.exchange .gccSync .seqCst 0 0, _, ⟨[], rfl, rfl, ⟨_, rfl⟩, by decide, by decide⟩, rfl, rfl⟩
    · exact ⟨.exchange .gccSync .seqCst 0 1, _, ⟨[], rfl, rfl, ⟨_, rfl⟩, by decide, by decide⟩, rfl, rfl⟩
    · rintro c u ⟨w, -, rfl⟩; simp [observations, ones]
    · exact ⟨.op .gccSync .load .seqCst 0 1, _, ⟨[.exchange .gccSync .seqCst 0 0], rfl, rfl, ⟨[], rfl⟩, by decide, by decide⟩, rfl, rfl⟩
    · exact readsFrom_none (n := 2) pair_end rfl (by decide +kernel)
    · exact ⟨.op .gccSync .load .seqCst 0 0, _, ⟨[.exchange .gccSync .seqCst 0 1], rfl, rfl, ⟨[], rfl⟩, by decide, by decide⟩, rfl, rfl⟩
    · exact readsFrom_none (n := 2) pair_end rfl (by decide +kernel)

/-- The `__sync` back end with an object wider than a pointer, which is stored by `exchange`: one thread stores it and then
loads another object, a second thread stores this one and then loads the first.  Both loads return the initial value,
although all operations are seq_cst. -/
theorem C51_gcc_sync_wide_store_violated :
    ∃ (R : Run .sync) (V : Values), R.Valid ∧ R.Copies V ∧
      R.prog 0 = [.op .gccSyncWide .store .seqCst 0 0, .op .gccSync .load .seqCst 0 1] ∧
      R.prog 1 = [.op .gccSync .store .seqCst 0 1, .op .gccSyncWide .load .seqCst 0 0] ∧
      ¬ (R.observations V fun _ => True).SequentiallyConsistent := by
  let R : Run .sync := pair .sync [.op .gccSyncWide .store .seqCst 0 0, .op .gccSync .load .seqCst 0 1]
    [.op .gccSync .store .seqCst 0 1, .op .gccSyncWide .load .seqCst 0 0]
    [[(0, 0), (1, 7), (2, 0), (0, 0)], [(0, 0), (0, 3), (0, 0), (4, 0)]]
  refine ⟨R, ones, Check.valid (n := 2) pair_end (by decide +kernel), copies_trivial pair_end _ (by decide +kernel),
    rfl, rfl, fun h => ?_⟩
  let O := R.observations ones fun _ => True
  let w0 : O.Op := ⟨(0, 0), _, rfl, trivial, rfl⟩
  let r0 : O.Op := ⟨(0, 1), _, rfl, trivial, rfl⟩
  let w1 : O.Op := ⟨(1, 0), _, rfl, trivial, rfl⟩
  let r1 : O.Op := ⟨(1, 1), _, rfl, trivial, rfl⟩
  refine Observations.storeBuffering h (w := w0) (r := r0) (x := w1) (s := r1) ⟨rfl, by decide⟩ ⟨rfl, by decide⟩
    rfl rfl ⟨(0, 1), ?_, rfl⟩ ⟨(1, 1), ?_, rfl⟩ ?_ ⟨(0, 2), _, none, rfl, ?_, ?_, rfl⟩ ⟨(1, 3), _, none, rfl, ?_, ?_, rfl⟩
  · exact ⟨.op .gccSyncWide .store .seqCst 0 0, _, ⟨[], rfl, rfl, ⟨_, rfl⟩, by decide, by decide⟩, rfl, rfl⟩
  · exact ⟨.op .gccSync .store .seqCst 0 1, _, ⟨[], rfl, rfl, ⟨_, rfl⟩, by decide, by decide⟩, rfl, rfl⟩
  · rintro c u ⟨w, -, rfl⟩; simp [observations, ones]
  · exact ⟨.op .gccSync .load .seqCst 0 1, _, ⟨[.op .gccSyncWide .store .seqCst 0 0], rfl, rfl, ⟨[], rfl⟩, by decide, by decide⟩, rfl, rfl⟩
  · exact readsFrom_none (n := 2) pair_end rfl (by decide +kernel)
  · exact ⟨.op .gccSyncWide .load .seqCst 0 0, _, ⟨[.op .gccSync .store .seqCst 0 1], rfl, rfl, ⟨[], rfl⟩, by decide, by decide⟩, rfl, rfl⟩
  · exact readsFrom_none (n := 2) pair_end rfl (by decide +kernel)

/-- The kernel helper back end: a failed compare-and-exchange ends with a load that nothing follows.  Publication with
seq_cst operations only: a thread finds the flag by a compare-and-exchange that fails, and then loads the initial
value of the data. -/
theorem C51_linux_arm_cas_violated :
    ∃ (R : Run .arm) (V : Values), R.Valid ∧ R.Copies V ∧
      (∀ t, ∀ it ∈ R.prog t, ∃ l, it = .op .linuxArm .store .seqCst 0 l ∨ it = .op .linuxArm .load .seqCst 0 l ∨
        it = .op .linuxArm (.casFail .seqCst) .seqCst 0 l) ∧
      ¬ (R.observations V fun _ => True).SequentiallyConsistent := by
  let R : Run .arm := pair .arm [.op .linuxArm .store .seqCst 0 0, .op .linuxArm .store .seqCst 0 1]
    [.op .linuxArm (.casFail .seqCst) .seqCst 0 1, .op .linuxArm .load .seqCst 0 0]
    [[(0, 0), (0, 3), (0, 0), (0, 0), (0, 4), (0, 0)], [(0, 0), (1, 0), (0, 0), (5, 0), (2, 0), (0, 0)]]
  let V : Values := ⟨fun e => if e = (0, 1) then 1 else 2, fun _ => 0⟩
  refine ⟨R, V, Check.valid (n := 2) pair_end (by decide +kernel), copies_trivial pair_end _ (by decide +kernel),
    ?_, fun h => ?_⟩
  · intro t it h
    match t with
    | 0 => simp [R, pair, Run.of] at h; rcases h with rfl | rfl <;> simp
    | 1 => simp [R, pair, Run.of] at h; rcases h with rfl | rfl <;> simp
    | t + 2 => simp [R, pair, Run.of] at h
  · let O := R.observations V fun _ => True
    let w : O.Op := ⟨(0, 0), _, rfl, trivial, rfl⟩
    let f : O.Op := ⟨(0, 1), _, rfl, trivial, rfl⟩
    let g : O.Op := ⟨(1, 0), _, rfl, trivial, rfl⟩
    let r : O.Op := ⟨(1, 1), _, rfl, trivial, rfl⟩
    have hf : R.Pub (0, 1) (0, 4) :=
      ⟨.op .linuxArm .store .seqCst 0 1, _, ⟨[.op .linuxArm .store .seqCst 0 0], rfl, rfl, ⟨[], rfl⟩, by decide, by decide⟩, rfl, rfl⟩
    refine Observations.publication h (w := w) (f := f) (g := g) (r := r) (a := 1) (b := 2) ⟨rfl, by decide⟩
      ⟨rfl, by decide⟩ rfl ⟨(0, 1), ?_, rfl⟩ ?_ ?_ (by decide) ⟨(1, 3), _, some (0, 4), rfl, ?_, ?_, rfl⟩
      ⟨(1, 4), _, none, rfl, ?_, ?_, rfl⟩
    · exact ⟨.op .linuxArm .store .seqCst 0 0, _, ⟨[], rfl, rfl, ⟨_, rfl⟩, by decide, by decide⟩, rfl, rfl⟩
    · rintro c u ⟨e, -, rfl⟩
      show (if e = (0, 1) then 1 else 2) ≠ 0
      split <;> simp
    · rintro c - ⟨e, ⟨it, x, hin, hx, hp⟩, hv⟩
      have he : e = (0, 4) := by
        have key : ∀ y ∈ R.all 2, y.2.ins.pub = true → 2 = V.val y.1 → y.1 = (0, 4) := by decide +kernel
        exact key (e, x) ((mem_all pair_end).2 hx) hp hv
      subst he
      obtain ⟨it', _, hin', -, -⟩ := hf
      exact Subtype.ext (hin.unique hin').1
    · exact ⟨.op .linuxArm (.casFail .seqCst) .seqCst 0 1, _, ⟨[], rfl, rfl, ⟨_, rfl⟩, by decide, by decide⟩, rfl, rfl⟩
    · exact readsFrom_some (n := 2) pair_end rfl rfl rfl rfl (by decide) (by decide +kernel)
    · exact ⟨.op .linuxArm .load .seqCst 0 0, _, ⟨[.op .linuxArm (.casFail .seqCst) .seqCst 0 1], rfl, rfl, ⟨[], rfl⟩, by decide,
        by decide⟩, rfl, rfl⟩
    · exact readsFrom_none (n := 2) pair_end rfl (by decide +kernel)

end Verif.Mca
