import Verif.Await.Lemmas
import Verif.Locked.Props
import Verif.Notify.Props
import Verif.Target.Props
import Verif.Wait.Props

/-
C59: a thread that has waited sees what was written before the modification that ended the wait, on processors that
reorder accesses.
-/

namespace Verif.Await

open Verif.Order Verif.Mca Verif.Mca.Run Verif.Locked Verif.Wait

theorem chain_of {cpu : Cpu} {R : Mca.Run cpu} {u w : Pos} (h : R.ReleaseSequence u w) : Chain R R.ReadsFrom u w := by
  induction h with
  | head => exact .head
  | rmw _ h1 h2 h3 h4 ih => exact .rmw ih h1 h2 h3 h4

theorem chain_of' {cpu : Cpu} {R : Pow.Run cpu} {u w : Pos} (h : R.ReleaseSequence u w) : Chain R.toRun R.ReadsFrom u w := by
  induction h with
  | head => exact .head
  | rmw _ h1 h2 h3 h4 ih => exact .rmw ih h1 h2 h3 h4

/-! ### Lock-free objects -/

section Mca

variable {cpu : Cpu} (R : Mca.Run cpu) (hR : R.Valid) (V : Values) (hV : R.Copies V)
  (hacc : ∀ t, ∀ it ∈ R.prog t, it.accepts = true)

include hR hV hacc

/-- Every waiting function, timed or not, reports a timeout exactly if it returns the old value.  The value it returns is
the initial one or that of a modification of the object; and a call with an acquire order, or followed by an acquire fence,
synchronises with this modification: whatever the modification, or an earlier one whose release sequence it belongs to,
releases happens before everything after the call (and the fence).  In every execution of every program on every back end
whose processor has one shared memory.  Excluded are programs with an operation or fence that the back end makes too weak
(findings of C19 and C22). -/
theorem C59_synchronizes_partial (hok : ∀ t, ∀ it ∈ R.prog t, it.broken = false) {x old : Nat} {o : MO} {f : Func} {C : Call}
    (h : Performs R R.ReadsFrom V x o old f C) :
    (C.timedOut = true ↔ C.value = old) ∧
    (C.value = V.init x ∨ ∃ w, Modifies R w x ∧ V.val w = C.value ∧
      ∀ e u, u.1 ≠ C.thread → R.Has u .wr → R.Released e u → R.ReleaseSequence u w →
        ∀ g, (o.isAcquire = true ∧ C.Then R g) ∨ C.FenceThen R g → R.HappensBefore e g) := by
  have hS : R.Sound := fun t it h => ⟨hacc t it h, hok t it h⟩
  obtain ⟨h1, h2⟩ := saw (M := mca R hR hS) hV h
  refine ⟨h1, ?_⟩
  rcases h2 with h2 | ⟨w, h2, h3, h4⟩
  · exact .inl h2
  · exact .inr ⟨w, h2, h3, fun e u u1 u2 u3 u4 g hg => h4 e u u1 u2 u3 (chain_of u4) g hg⟩

/-- The object has the value `old` until a thread that has written data before gives it another one, by a release
operation (or after a release fence).  Another thread waits for this with an acquire order (or executes an acquire fence
afterwards).  When the wait has returned without a timeout, the thread sees the data: a read after the call finds what was
written, or something written later. -/
theorem C59_sees_partial (hok : ∀ t, ∀ it ∈ R.prog t, it.broken = false) {x old : Nat} {o : MO} {f : Func} {C : Call}
    (h : Performs R R.ReadsFrom V x o old f C) (hret : C.timedOut = false) (hinit : V.init x = old) {e g : Pos}
    (hpub : Published R R.ReleaseSequence V x (· ≠ old) C.thread e)
    (hg : (o.isAcquire = true ∧ C.Then R g) ∨ C.FenceThen R g)
    (he : R.Has e .wr) (hr : R.Has g .rd) (hl : R.SameLoc e g) {s : Option Pos} (hs : R.ReadsFrom g s) :
    s = some e ∨ ∃ w, s = some w ∧ R.time e .wr < R.time w .wr := by
  have hS : R.Sound := fun t it h => ⟨hacc t it h, hok t it h⟩
  refine (mca R hR hS).writeRead ?_ he hr hl hs
  refine sees (M := mca R hR hS) (p := (· ≠ old)) hV h (fun e => ?_) (fun e => e hinit) ?_ hg
  · rw [h.load.2.2 e] at hret; cases hret
  · intro w h1 h2
    obtain ⟨u, u1, u2, u3, u4⟩ := hpub w h1 h2
    exact ⟨u, u1, u2, u3, chain_of u4⟩

/-- Without exceptions for programs made of the following back ends. -/
theorem C59_sees (hbe : ∀ t, ∀ it ∈ R.prog t, ∀ b, it.backend = some b →
      b ∈ [.msvcX86, .x86Wide true true, .x86Wide true false, .msvcArm, .gccArm, .gccArmWide, .alpha, .gccAtomic,
        .gccAtomicX86, .windows true])
    {x old : Nat} {o : MO} {f : Func} {C : Call}
    (h : Performs R R.ReadsFrom V x o old f C) (hret : C.timedOut = false) (hinit : V.init x = old) {e g : Pos}
    (hpub : Published R R.ReleaseSequence V x (· ≠ old) C.thread e)
    (hg : (o.isAcquire = true ∧ C.Then R g) ∨ C.FenceThen R g)
    (he : R.Has e .wr) (hr : R.Has g .rd) (hl : R.SameLoc e g) {s : Option Pos} (hs : R.ReadsFrom g s) :
    s = some e ∨ ∃ w, s = some w ∧ R.time e .wr < R.time w .wr :=
  C59_sees_partial R hR V hV hacc (fun t it h => Notify.fine (hbe t it h)) h hret hinit hpub hg he hr hl hs

end Mca

/-- The same where a write becomes visible to one thread after another. -/
theorem C59_synchronizes_cumulative_partial {cpu : Cpu} (hcpu : cpu ∈ [.power, .arm, .alpha]) (R : Pow.Run cpu) (hR : R.Valid)
    (V : Values) (hV : ∀ r c y, R.CopyOf r c → R.Is c y → ∃ s, R.ReadsFrom r s ∧ V.val c = V.of y.loc s)
    (hacc : ∀ t, ∀ it ∈ R.prog t, it.accepts = true)
    (hok : ∀ t f o n l, Item.op .linuxArm (.casFail f) o n l ∉ R.prog t)
    {x old : Nat} {o : MO} {f : Func} {C : Call} (h : Performs R.toRun R.ReadsFrom V x o old f C) :
    (C.timedOut = true ↔ C.value = old) ∧
    (C.value = V.init x ∨ ∃ w, Modifies R.toRun w x ∧ V.val w = C.value ∧
      ∀ e u, u.1 ≠ C.thread → R.Has u .wr → R.Released e u → R.ReleaseSequence u w →
        ∀ g, (o.isAcquire = true ∧ C.Then R.toRun g) ∨ C.FenceThen R.toRun g → R.HappensBefore e g) := by
  have hS := sound_cumulative hcpu R hR hacc hok
  obtain ⟨h1, h2⟩ := saw (M := pow R hR ⟨hcpu, hR.inThread.fits⟩ hS) hV h
  refine ⟨h1, ?_⟩
  rcases h2 with h2 | ⟨w, h2, h3, h4⟩
  · exact .inl h2
  · exact .inr ⟨w, h2, h3, fun e u u1 u2 u3 u4 g hg => h4 e u u1 u2 u3 (chain_of' u4) g hg⟩

theorem C59_sees_cumulative_partial {cpu : Cpu} (hcpu : cpu ∈ [.power, .arm, .alpha]) (R : Pow.Run cpu) (hR : R.Valid)
    (V : Values) (hV : ∀ r c y, R.CopyOf r c → R.Is c y → ∃ s, R.ReadsFrom r s ∧ V.val c = V.of y.loc s)
    (hacc : ∀ t, ∀ it ∈ R.prog t, it.accepts = true)
    (hok : ∀ t f o n l, Item.op .linuxArm (.casFail f) o n l ∉ R.prog t)
    {x old : Nat} {o : MO} {f : Func} {C : Call}
    (h : Performs R.toRun R.ReadsFrom V x o old f C) (hret : C.timedOut = false) (hinit : V.init x = old) {e g : Pos}
    (hpub : Published R.toRun R.ReleaseSequence V x (· ≠ old) C.thread e)
    (hg : (o.isAcquire = true ∧ C.Then R.toRun g) ∨ C.FenceThen R.toRun g)
    (he : R.Has e .wr) (hr : R.Has g .rd) (hl : R.SameLoc e g) {s : Option Pos} (hs : R.ReadsFrom g s) :
    s = some e ∨ ∃ w, s = some w ∧ R.Co e w := by
  have hS := sound_cumulative hcpu R hR hacc hok
  refine (pow R hR ⟨hcpu, hR.inThread.fits⟩ hS).writeRead ?_ he hr hl hs
  refine sees (M := pow R hR ⟨hcpu, hR.inThread.fits⟩ hS) (p := (· ≠ old)) hV h (fun e => ?_) (fun e => e hinit) ?_ hg
  · rw [h.load.2.2 e] at hret; cases hret
  · intro w h1 h2
    obtain ⟨u, u1, u2, u3, u4⟩ := hpub w h1 h2
    exact ⟨u, u1, u2, u3, chain_of' u4⟩

/-- PowerPC, ARM and Alpha with inline assembly: without exception. -/
theorem C59_sees_cumulative {cpu : Cpu} (hcpu : cpu ∈ [.power, .arm, .alpha]) (R : Pow.Run cpu) (hR : R.Valid)
    (V : Values) (hV : ∀ r c y, R.CopyOf r c → R.Is c y → ∃ s, R.ReadsFrom r s ∧ V.val c = V.of y.loc s)
    (hacc : ∀ t, ∀ it ∈ R.prog t, it.accepts = true)
    (hbe : ∀ t, ∀ it ∈ R.prog t, it.backend ≠ some .linuxArm)
    {x old : Nat} {o : MO} {f : Func} {C : Call}
    (h : Performs R.toRun R.ReadsFrom V x o old f C) (hret : C.timedOut = false) (hinit : V.init x = old) {e g : Pos}
    (hpub : Published R.toRun R.ReleaseSequence V x (· ≠ old) C.thread e)
    (hg : (o.isAcquire = true ∧ C.Then R.toRun g) ∨ C.FenceThen R.toRun g)
    (he : R.Has e .wr) (hr : R.Has g .rd) (hl : R.SameLoc e g) {s : Option Pos} (hs : R.ReadsFrom g s) :
    s = some e ∨ ∃ w, s = some w ∧ R.Co e w :=
  C59_sees_cumulative_partial hcpu R hR V hV hacc (fun t _ _ _ _ h => hbe t _ h rfl) h hret hinit hpub hg he hr hl hs

/-! ### Programs compiled for a target -/

/-- Whatever the library selects for a target: `C59_sees_partial` for programs none of whose calls is in the table
`Target.Weak`. -/
theorem C59_sees_target_partial {t : Target.Target} {obj : Nat → Target.Obj} {prog : Nat → List Target.Call}
    (R : Mca.Run t.cpu) (hR : R.Valid) (V : Values) (hV : R.Copies V)
    (hprog : ∀ i, t.Compiled obj (prog i) (R.prog i)) (hal : ∀ i, ∀ c ∈ prog i, c.Allowed)
    (hw : ∀ i, ∀ c ∈ prog i, ¬ t.Weak obj c) {x old : Nat} {o : MO} {f : Func} {C : Call}
    (h : Performs R R.ReadsFrom V x o old f C) (hret : C.timedOut = false) (hinit : V.init x = old) {e g : Pos}
    (hpub : Published R R.ReleaseSequence V x (· ≠ old) C.thread e)
    (hg : (o.isAcquire = true ∧ C.Then R g) ∨ C.FenceThen R g)
    (he : R.Has e .wr) (hr : R.Has g .rd) (hl : R.SameLoc e g) {s : Option Pos} (hs : R.ReadsFrom g s) :
    s = some e ∨ ∃ w, s = some w ∧ R.time e .wr < R.time w .wr := by
  refine C59_sees_partial R hR V hV (fun i it h => ?_) (fun i it h => ?_) h hret hinit hpub hg he hr hl hs <;>
    obtain ⟨c, hc, he⟩ := Target.compiled_mem (hprog i) h
  · exact Target.accepts he (hal i c hc)
  · exact Target.not_broken he (hal i c hc) (hw i c hc)

/-! ### Objects of the lock pool -/

/-- An object that is not lock-free: the wait synchronises with the modification whatever the orders, since both are made
while the mutex of the object is held. -/
theorem C59_pool_partial {cpu : Cpu} (R : Mca.Run cpu) (hR : R.Valid) (V : Values)
    (P : Nat → List Piece) (guard : Nat → Option Nat) (hP : ∀ t, R.prog t = code (P t)) (hL : Lawful P guard)
    (hF : Follows R R.ReadsFrom V P)
    (hacc : ∀ t, ∀ it ∈ R.prog t, it.accepts = true) (hok : ∀ t, ∀ it ∈ R.prog t, it.broken = false)
    {m x old : Nat} {f : PoolFunc} {C : Call}
    (h : PerformsInside R R.ReadsFrom V (fun S : Sec P => S.sec.mutex) Sec.take Sec.give m x old f C) :
    (C.timedOut = true ↔ C.value = old) ∧ ∀ e g, C.timedOut = false → V.init x = old →
      PublishedInside R R.HappensBefore V (fun S : Sec P => S.sec.mutex) Sec.take Sec.give m x (· ≠ old) C.thread e →
      C.Then R g → R.HappensBefore e g ∧ (R.Has e .wr → R.Has g .rd → R.SameLoc e g → ∀ s, R.ReadsFrom g s →
        s = some e ∨ ∃ w, s = some w ∧ R.time e .wr < R.time w .wr) := by
  have hS : R.Sound := fun t it h => ⟨hacc t it h, hok t it h⟩
  let L := locks (mca R hR hS) hP hL hF fun r c h => h.reads
  refine ⟨h.load.2, fun e g hret hinit hpub hg => ?_⟩
  have hhb : R.HappensBefore e g :=
    sees_inside (L := L) (p := (· ≠ old)) hF.copies h (fun e => by rw [h.load.2.2 e] at hret; cases hret)
      (fun e => e hinit) hpub hg
  exact ⟨hhb, fun he hr hl s hs => (mca R hR hS).writeRead hhb he hr hl hs⟩

theorem C59_pool_cumulative_partial {cpu : Cpu} (hcpu : cpu ∈ [.power, .arm, .alpha]) (R : Pow.Run cpu) (hR : R.Valid)
    (V : Values)
    (P : Nat → List Piece) (guard : Nat → Option Nat) (hP : ∀ t, R.prog t = code (P t)) (hL : Lawful P guard)
    (hF : Follows R.toRun R.ReadsFrom V P)
    (hacc : ∀ t, ∀ it ∈ R.prog t, it.accepts = true)
    (hok : ∀ t f o n l, Item.op .linuxArm (.casFail f) o n l ∉ R.prog t)
    {m x old : Nat} {f : PoolFunc} {C : Call}
    (h : PerformsInside R.toRun R.ReadsFrom V (fun S : Sec P => S.sec.mutex) Sec.take Sec.give m x old f C) :
    (C.timedOut = true ↔ C.value = old) ∧ ∀ e g, C.timedOut = false → V.init x = old →
      PublishedInside R.toRun R.HappensBefore V (fun S : Sec P => S.sec.mutex) Sec.take Sec.give m x (· ≠ old) C.thread e →
      C.Then R.toRun g → R.HappensBefore e g ∧ (R.Has e .wr → R.Has g .rd → R.SameLoc e g → ∀ s, R.ReadsFrom g s →
        s = some e ∨ ∃ w, s = some w ∧ R.Co e w) := by
  have hS := sound_cumulative hcpu R hR hacc hok
  let L := locks (pow R hR ⟨hcpu, hR.inThread.fits⟩ hS) hP hL hF fun r c h => h.reads
  refine ⟨h.load.2, fun e g hret hinit hpub hg => ?_⟩
  have hhb : R.HappensBefore e g :=
    sees_inside (L := L) (p := (· ≠ old)) hF.copies h (fun e => by rw [h.load.2.2 e] at hret; cases hret)
      (fun e => e hinit) hpub hg
  exact ⟨hhb, fun he hr hl s hs => (pow R hR ⟨hcpu, hR.inThread.fits⟩ hS).writeRead hhb he hr hl hs⟩

/-! ### Examples -/

/-- A thread writes data and stores 1 to an object; another thread loads the object twice and then reads the data. -/
def wakeup (cpu : Cpu) (ts : List (List (Nat × Nat))) (A B : Item) : Mca.Run cpu :=
  Run.of cpu [[.user userStore 0, A], [B, B, .user userLoad 0]] ts

theorem wakeup_end {cpu ts A B} (t : Nat) (h : 2 ≤ t) : (wakeup cpu ts A B).prog t = [] := by simp [wakeup, Run.of, h]

theorem wakeup_items {cpu ts A B} {Q : Item → Prop} (hA : Q A) (hB : Q B) (h1 : Q (.user userStore 0))
    (h2 : Q (.user userLoad 0)) : ∀ t, ∀ it ∈ (wakeup cpu ts A B).prog t, Q it := by
  intro t it h
  match t with
  | 0 => simp [wakeup, Run.of] at h; rcases h with rfl | rfl <;> assumption
  | 1 => simp [wakeup, Run.of] at h; rcases h with rfl | rfl <;> assumption
  | t + 2 => rw [wakeup_end _ (by simp)] at h; cases h

def wakeupValues : Values := ⟨fun _ => 1, fun _ => 0⟩

/-- `wait(0)` with native support finds 0, blocks, and finds 1. -/
theorem native_runs : Runs exW (Func.native.prog 0) 0 7 [.load 1 0, .block .none 1, .load 7 1] (1, false) := by
  refine ⟨1, 7, [.load 1 0, .block .none 1, .load 7 1], [], ?_, ⟨rfl, rfl, rfl⟩, rfl⟩
  refine ⟨0, 1, [.load 1 0], [.block .none 1, .load 7 1], ⟨by decide, rfl, rfl⟩, ?_, rfl⟩
  refine LoopRuns.next (s' := 1) (j := 7) (tr := [.block .none 1, .load 7 1]) (tr' := []) ?_ (.done ⟨rfl, rfl, rfl⟩)
  exact ⟨.ok, 6, [.block .none 1], [.load 7 1], ⟨by decide, rfl, fun h => nomatch h⟩,
    ⟨1, 7, [.load 7 1], [], ⟨by decide, rfl, rfl⟩, ⟨rfl, rfl, rfl⟩, rfl⟩, rfl⟩

/-- `wait(0)` by conditions of the lock pool finds 0, and finds 1 after it has taken the mutex. -/
theorem pool_runs (p : Pool) : Runs exW ((Func.pool p).prog 0) 0 7 [.load 1 0, .load 7 1] (1, false) := by
  refine ⟨1, 7, [.load 1 0, .load 7 1], [], ?_, ⟨rfl, rfl, rfl⟩, rfl⟩
  refine ⟨0, 1, [.load 1 0], [.load 7 1], ⟨by decide, rfl, rfl⟩, ?_, rfl⟩
  exact ⟨1, 7, [.load 7 1], [], ⟨by decide, rfl, rfl⟩, .done ⟨rfl, rfl, rfl⟩, rfl⟩

/-- `wait(0)` on an object that is not lock-free finds 0, blocks, and finds 1. -/
theorem inside_runs : Runs exW ((PoolFunc.wait .windows).prog 0) 0 7 [.load 1 0, .block .none 1, .load 7 1] (1, false) := by
  refine ⟨1, 7, [.load 1 0, .block .none 1, .load 7 1], [], ?_, ⟨rfl, rfl, rfl⟩, rfl⟩
  refine ⟨0, 1, [.load 1 0], [.block .none 1, .load 7 1], ⟨by decide, rfl, rfl⟩, ?_, rfl⟩
  refine LoopRuns.next (s' := 1) (j := 7) (tr := [.block .none 1, .load 7 1]) (tr' := []) ?_ (.done ⟨rfl, rfl, rfl⟩)
  refine ⟨(), 6, [.block .none 1], [.load 7 1], ?_, ⟨1, 7, [.load 7 1], [], ⟨by decide, rfl, rfl⟩, ⟨rfl, rfl, rfl⟩, rfl⟩, rfl⟩
  exact ⟨.ok, 6, [.block .none 1], [], ⟨by decide, rfl, fun h => nomatch h⟩, ⟨rfl, rfl, rfl⟩, rfl⟩

/-- The call `wait(0)` of the second thread of `wakeup`, which has the first two operations of the thread and returns 1. -/
def wakeupCall : Call := ⟨1, 0, 2, 1, false⟩

theorem wakeup_performs {cpu ts A b o n f r s} {W i j tr}
    (hr : Runs W (Func.prog 0 f) i j tr (1, false)) (hl : loaded tr = [0, 1])
    (h1 : (wakeup cpu ts A (.op b .load o n 1)).Ret (1, 0) r)
    (h2 : (wakeup cpu ts A (.op b .load o n 1)).ReadsFrom r none)
    (h3 : (wakeup cpu ts A (.op b .load o n 1)).Ret (1, 1) s) {w : Pos}
    (h4 : (wakeup cpu ts A (.op b .load o n 1)).ReadsFrom s (some w)) :
    Performs (wakeup cpu ts A (.op b .load o n 1)) (wakeup cpu ts A (.op b .load o n 1)).ReadsFrom wakeupValues 1 o 0 f
      wakeupCall := by
  refine ⟨show 2 ≤ 3 by decide, [(0, 0), (1, 1)], by decide, fun k u h => ?_, W, i, j, tr, hr, hl⟩
  simp only [List.mem_cons, List.not_mem_nil, or_false, Prod.mk.injEq] at h
  rcases h with ⟨rfl, rfl⟩ | ⟨rfl, rfl⟩
  · exact ⟨by decide, by decide, ⟨b, n, rfl⟩, r, none, h1, h2, rfl⟩
  · exact ⟨by decide, by decide, ⟨b, n, rfl⟩, s, some w, h3, h4, rfl⟩

/-- GCC intrinsics on AArch64. -/
def woken : Mca.Run .aarch64 := wakeup .aarch64 [[(0, 2), (0, 3)], [(1, 0), (4, 0), (5, 0)]]
  (.op .gccAtomic .store .release 0 1) (.op .gccAtomic .load .acquire 0 1)

theorem woken_valid : woken.Valid := Check.valid (n := 2) wakeup_end (by decide +kernel)

theorem woken_performs : Performs woken woken.ReadsFrom wakeupValues 1 .acquire 0 .native wakeupCall :=
  wakeup_performs (r := (1, 0)) (s := (1, 1)) (w := (0, 1)) native_runs rfl
    ⟨.op .gccAtomic .load .acquire 0 1, _, within_of_bounds rfl rfl (by decide) (by decide), rfl, rfl⟩
    (readsFrom_none (n := 2) wakeup_end rfl (by decide +kernel))
    ⟨.op .gccAtomic .load .acquire 0 1, _, within_of_bounds rfl rfl (by decide) (by decide), rfl, rfl⟩
    (readsFrom_some (n := 2) wakeup_end rfl rfl rfl rfl (by decide) (by decide +kernel))

theorem woken_published : Published woken woken.ReleaseSequence wakeupValues 1 (· ≠ 0) 1 (0, 0) := by
  rintro w ⟨⟨y, hy, hw⟩, -, y', hy', hl⟩ -
  have key : ∀ y ∈ woken.all 2, y.2.ins.has .wr = true → y.2.loc = 1 → y.1 = (0, 1) := by decide +kernel
  cases hy'.unique hy
  cases key (w, _) ((mem_all wakeup_end).2 hy) hw hl
  exact ⟨(0, 1), by decide, ⟨_, rfl, rfl⟩, .inl ⟨⟨[.user userStore 0], .op .gccAtomic .store .release 0 1, .release, _,
    ⟨⟨[], rfl⟩, by decide, by decide⟩, rfl, rfl, rfl, rfl⟩, .inr ⟨rfl, by decide⟩⟩, .head⟩

/-- The hypotheses hold for this execution, in which the read after the call finds the data. -/
example : woken.Valid ∧ woken.Copies wakeupValues ∧ (∀ t, ∀ it ∈ woken.prog t, it.accepts = true) ∧
    (∀ t, ∀ it ∈ woken.prog t, ∀ b, it.backend = some b → b = .gccAtomic) ∧
    Performs woken woken.ReadsFrom wakeupValues 1 .acquire 0 .native wakeupCall ∧
    Published woken woken.ReleaseSequence wakeupValues 1 (· ≠ 0) wakeupCall.thread (0, 0) ∧ wakeupCall.Then woken (1, 2) ∧
    woken.Has (0, 0) .wr ∧ woken.Has (1, 2) .rd ∧ woken.SameLoc (0, 0) (1, 2) ∧ woken.ReadsFrom (1, 2) (some (0, 0)) :=
  ⟨woken_valid, copies_trivial wakeup_end _ (by decide +kernel), wakeup_items rfl rfl rfl rfl,
    wakeup_items (by rintro b ⟨⟩; rfl) (by rintro b ⟨⟩; rfl) nofun nofun, woken_performs, woken_published,
    ⟨(1, 2), .user userLoad 0, within_of_bounds rfl rfl (by decide) (by decide), rfl, by decide⟩,
    ⟨_, rfl, rfl⟩, ⟨_, rfl, rfl⟩, ⟨_, _, rfl, rfl, rfl⟩,
    readsFrom_some (n := 2) wakeup_end rfl rfl rfl rfl (by decide) (by decide +kernel)⟩

/-- The same with relaxed loads and a fence after the call, and with a fence before a relaxed store, on PowerPC, where a
write becomes visible to one thread after another. -/
def wokenFences : Mca.Run .power := Run.of .power
  [[.user userStore 0, .fence .ppc64 .release, .op .ppc64 .store .relaxed 0 1],
    [.op .ppc64 .load .relaxed 0 1, .op .ppc64 .load .relaxed 0 1, .fence .ppc64 .acquire, .user userLoad 0]]
  [[(0, 2), (0, 0), (0, 3)], [(1, 0), (4, 0), (0, 0), (5, 0)]]

theorem wokenFences_end (t : Nat) (h : 2 ≤ t) : wokenFences.prog t = [] := by simp [wokenFences, Run.of, h]

theorem wokenFences_valid : wokenFences.Valid := Check.valid (n := 2) wokenFences_end (by decide +kernel)

example : (Pow.Run.atOnce wokenFences).Valid ∧ (∀ t, ∀ it ∈ wokenFences.prog t, it.accepts = true) ∧
    (∀ t, ∀ it ∈ wokenFences.prog t, ∀ b, it.backend = some b → b = .ppc64) ∧
    (∀ r c, ¬ wokenFences.CopyOf r c) ∧
    Performs wokenFences (Pow.Run.atOnce wokenFences).ReadsFrom wakeupValues 1 .relaxed 0 (.pool .windows) wakeupCall ∧
    Published wokenFences (Pow.Run.atOnce wokenFences).ReleaseSequence wakeupValues 1 (· ≠ 0) wakeupCall.thread (0, 0) ∧
    wakeupCall.FenceThen wokenFences (1, 3) ∧ wokenFences.Has (0, 0) .wr ∧ wokenFences.Has (1, 3) .rd ∧
    wokenFences.SameLoc (0, 0) (1, 3) := by
  have items : ∀ {Q : Item → Prop}, (∀ it ∈ wokenFences.prog 0, Q it) → (∀ it ∈ wokenFences.prog 1, Q it) →
      ∀ t, ∀ it ∈ wokenFences.prog t, Q it := by
    intro Q h0 h1 t it h
    match t with
    | 0 => exact h0 it h
    | 1 => exact h1 it h
    | t + 2 => rw [wokenFences_end _ (by simp)] at h; cases h
  refine ⟨Pow.Run.atOnce_valid wokenFences_valid, items (by decide) (by decide), items (by decide) (by decide), ?_, ?_, ?_,
    ⟨2, .ppc64, .acquire, (1, 3), .user userLoad 0, rfl, rfl, by decide, within_of_bounds rfl rfl (by decide) (by decide), rfl,
      by decide⟩, ⟨_, rfl, rfl⟩, ⟨_, rfl, rfl⟩, ⟨_, _, rfl, rfl, rfl⟩⟩
  · rintro r c ⟨⟨-, y, d, hy, hd, -⟩, -⟩
    have key : ∀ y ∈ wokenFences.all 2, y.2.pair = none := by decide +kernel
    rw [key _ ((mem_all wokenFences_end).2 hy)] at hd
    cases hd
  · refine ⟨by decide, [(0, 0), (1, 1)], by decide, fun k u h => ?_, exW, 0, 7, _, pool_runs _, rfl⟩
    simp only [List.mem_cons, List.not_mem_nil, or_false, Prod.mk.injEq] at h
    rcases h with ⟨rfl, rfl⟩ | ⟨rfl, rfl⟩
    · exact ⟨by decide, by decide, ⟨.ppc64, 0, rfl⟩, (1, 0), none,
        ⟨.op .ppc64 .load .relaxed 0 1, _, within_of_bounds rfl rfl (by decide) (by decide), rfl, rfl⟩,
        (Pow.Run.atOnce_reads wokenFences_valid).2 (readsFrom_none (n := 2) wokenFences_end rfl (by decide +kernel)), rfl⟩
    · exact ⟨by decide, by decide, ⟨.ppc64, 0, rfl⟩, (1, 1), some (0, 2),
        ⟨.op .ppc64 .load .relaxed 0 1, _, within_of_bounds rfl rfl (by decide) (by decide), rfl, rfl⟩,
        (Pow.Run.atOnce_reads wokenFences_valid).2
          (readsFrom_some (n := 2) wokenFences_end rfl rfl rfl rfl (by decide) (by decide +kernel)), rfl⟩
  · rintro w ⟨⟨y, hy, hw⟩, -, y', hy', hl⟩ -
    have key : ∀ y ∈ wokenFences.all 2, y.2.ins.has .wr = true → y.2.loc = 1 → y.1 = (0, 2) := by decide +kernel
    cases hy'.unique hy
    cases key (w, _) ((mem_all wokenFences_end).2 hy) hw hl
    exact ⟨(0, 2), by decide, ⟨_, rfl, rfl⟩, .inr ⟨rfl, [.user userStore 0], .ppc64, .release, [_], rfl, rfl, by decide,
      by decide⟩, .head⟩

/-- GCC on x86-64. -/
example : ∃ R : Mca.Run Target.gccX64.cpu, R.Valid ∧ R.Copies wakeupValues ∧
    (∀ i, Target.gccX64.Compiled (fun _ => ⟨4, false⟩) (Target.twoThreads [.user userStore 0, .store .release 1]
      [.load .acquire 1, .load .acquire 1, .user userLoad 0] i) (R.prog i)) ∧
    (∀ i, ∀ c ∈ Target.twoThreads [.user userStore 0, .store .release 1]
      [.load .acquire 1, .load .acquire 1, .user userLoad 0] i, c.Allowed ∧ ¬ Target.gccX64.Weak (fun _ => ⟨4, false⟩) c) ∧
    Performs R R.ReadsFrom wakeupValues 1 .acquire 0 .native wakeupCall ∧
    Published R R.ReleaseSequence wakeupValues 1 (· ≠ 0) wakeupCall.thread (0, 0) ∧ wakeupCall.Then R (1, 4) := by
  let R : Mca.Run .x86 := wakeup .x86 [[(0, 2), (0, 0), (0, 3)], [(1, 0), (0, 0), (4, 0), (0, 0), (5, 0)]]
    (.op .gccAtomicX86 .store .release 0 1) (.op .gccAtomicX86 .load .acquire 0 1)
  have hv : R.Valid := Check.valid (n := 2) wakeup_end (by decide +kernel)
  refine ⟨R, hv, copies_trivial wakeup_end _ (by decide +kernel), ?_, ?_, ?_, ?_,
    ⟨(1, 2), .user userLoad 0, within_of_bounds rfl rfl (by decide) (by decide), rfl, by decide⟩⟩
  · intro i
    match i with
    | 0 => exact Target.compiled_cons (.user _ _) (Target.compiled_cons (.store (c := 4) (by decide) (by decide)) Target.compiled_nil)
    | 1 =>
      exact Target.compiled_cons (.load (c := 4) (by decide) (by decide)) (Target.compiled_cons
        (.load (c := 4) (by decide) (by decide)) (Target.compiled_cons (.user _ _) Target.compiled_nil))
    | i + 2 => exact Target.compiled_nil
  · intro i c hc
    refine ⟨?_, (Target.C53_no_exceptions (t := Target.gccX64) ⟨trivial, trivial⟩ c
      (Or.inr (Or.inr (Or.inr (Or.inr (Or.inr (Or.inr (Or.inl ⟨⟨true, Or.inr rfl⟩, _, rfl⟩)))))))).1⟩
    match i with
    | 0 | 1 => simp [Target.twoThreads] at hc; rcases hc with rfl | rfl <;> simp [Target.Call.Allowed]
    | i + 2 => simp [Target.twoThreads] at hc
  · exact wakeup_performs (r := (1, 0)) (s := (1, 2)) (w := (0, 2)) native_runs rfl
      ⟨.op .gccAtomicX86 .load .acquire 0 1, _, within_of_bounds rfl rfl (by decide) (by decide), rfl, rfl⟩
      (readsFrom_none (n := 2) wakeup_end rfl (by decide +kernel))
      ⟨.op .gccAtomicX86 .load .acquire 0 1, _, within_of_bounds rfl rfl (by decide) (by decide), rfl, rfl⟩
      (readsFrom_some (n := 2) wakeup_end rfl rfl rfl rfl (by decide) (by decide +kernel))
  · rintro w ⟨⟨y, hy, hw⟩, -, y', hy', hl⟩ -
    have key : ∀ y ∈ R.all 2, y.2.ins.has .wr = true → y.2.loc = 1 → y.1 = (0, 2) := by decide +kernel
    cases hy'.unique hy
    cases key (w, _) ((mem_all wakeup_end).2 hy) hw hl
    exact ⟨(0, 2), by decide, ⟨_, rfl, rfl⟩, .inl ⟨⟨[.user userStore 0], .op .gccAtomicX86 .store .release 0 1, .release, _,
      ⟨⟨[], rfl⟩, by decide, by decide⟩, rfl, rfl, rfl, rfl⟩, .inr ⟨rfl, by decide⟩⟩, .head⟩

/-! ### The exceptions -/

/-- The guarantee does not hold for a wait with memory_order_acquire on SPARC, and for a wait on an object of 8 bytes on
ARMv8 in 32-bit mode: the call returns 1, the read after it does not find the data that was written before the object
was set to 1 by a release operation. -/
theorem C59_violated : ∀ bf ∈ [(Backend.sparc, Func.native), (.aarch32 true, .pool .windows)],
    ∃ R : Mca.Run (Backend.cpu bf.1), R.Valid ∧ R.Copies wakeupValues ∧ R.Only bf.1 ∧
      (∀ t, ∀ it ∈ R.prog t, it.accepts = true) ∧ ∃ C g,
      Performs R R.ReadsFrom wakeupValues 1 .acquire 0 bf.2 C ∧ C.timedOut = false ∧ wakeupValues.init 1 = 0 ∧
      Published R R.ReleaseSequence wakeupValues 1 (· ≠ 0) C.thread (0, 0) ∧ C.Then R g ∧
      R.Has (0, 0) .wr ∧ R.Has g .rd ∧ R.SameLoc (0, 0) g ∧ R.ReadsFrom g none := by
  intro bf hbf
  simp only [List.mem_cons, List.not_mem_nil, or_false] at hbf
  rcases hbf with rfl | rfl
  · let R : Mca.Run .sparc := wakeup .sparc [[(0, 3), (0, 0), (0, 4)], [(1, 0), (0, 0), (5, 0), (0, 0), (2, 0)]]
      (.op .sparc .store .release 0 1) (.op .sparc .load .acquire 0 1)
    have hv : R.Valid := Check.valid (n := 2) wakeup_end (by decide +kernel)
    refine ⟨R, hv, copies_trivial wakeup_end _ (by decide +kernel),
      fun t it h => wakeup_items (Q := fun it => ∀ b, it.backend = some b → b = .sparc)
        (by rintro b ⟨⟩; rfl) (by rintro b ⟨⟩; rfl) nofun nofun t it h,
      wakeup_items rfl rfl rfl rfl, wakeupCall, (1, 4), ?_, rfl, rfl, ?_,
      ⟨(1, 2), .user userLoad 0, within_of_bounds rfl rfl (by decide) (by decide), rfl, by decide⟩,
      ⟨_, rfl, rfl⟩, ⟨_, rfl, rfl⟩, ⟨_, _, rfl, rfl, rfl⟩, readsFrom_none (n := 2) wakeup_end rfl (by decide +kernel)⟩
    · exact wakeup_performs (r := (1, 0)) (s := (1, 2)) (w := (0, 2)) native_runs rfl
        ⟨.op .sparc .load .acquire 0 1, _, within_of_bounds rfl rfl (by decide) (by decide), rfl, rfl⟩
        (readsFrom_none (n := 2) wakeup_end rfl (by decide +kernel))
        ⟨.op .sparc .load .acquire 0 1, _, within_of_bounds rfl rfl (by decide) (by decide), rfl, rfl⟩
        (readsFrom_some (n := 2) wakeup_end rfl rfl rfl rfl (by decide) (by decide +kernel))
    · rintro w ⟨⟨y, hy, hw⟩, -, y', hy', hl⟩ -
      have key : ∀ y ∈ R.all 2, y.2.ins.has .wr = true → y.2.loc = 1 → y.1 = (0, 2) := by decide +kernel
      cases hy'.unique hy
      cases key (w, _) ((mem_all wakeup_end).2 hy) hw hl
      exact ⟨(0, 2), by decide, ⟨_, rfl, rfl⟩, .inl ⟨⟨[.user userStore 0], .op .sparc .store .release 0 1, .release, _,
        ⟨⟨[], rfl⟩, by decide, by decide⟩, rfl, rfl, rfl, rfl⟩, .inr ⟨rfl, by decide⟩⟩, .head⟩
  · let R : Mca.Run .aarch32 := wakeup .aarch32 [[(0, 3), (0, 0), (0, 4)], [(1, 0), (5, 0), (2, 0)]]
      (.op (.aarch32 true) .store .release 0 1) (.op (.aarch32 true) .load .acquire 0 1)
    have hv : R.Valid := Check.valid (n := 2) wakeup_end (by decide +kernel)
    refine ⟨R, hv, copies_trivial wakeup_end _ (by decide +kernel),
      fun t it h => wakeup_items (Q := fun it => ∀ b, it.backend = some b → b = .aarch32 true)
        (by rintro b ⟨⟩; rfl) (by rintro b ⟨⟩; rfl) nofun nofun t it h,
      wakeup_items rfl rfl rfl rfl, wakeupCall, (1, 2), ?_, rfl, rfl, ?_,
      ⟨(1, 2), .user userLoad 0, within_of_bounds rfl rfl (by decide) (by decide), rfl, by decide⟩,
      ⟨_, rfl, rfl⟩, ⟨_, rfl, rfl⟩, ⟨_, _, rfl, rfl, rfl⟩, readsFrom_none (n := 2) wakeup_end rfl (by decide +kernel)⟩
    · exact wakeup_performs (r := (1, 0)) (s := (1, 1)) (w := (0, 2)) (pool_runs _) rfl
        ⟨.op (.aarch32 true) .load .acquire 0 1, _, within_of_bounds rfl rfl (by decide) (by decide), rfl, rfl⟩
        (readsFrom_none (n := 2) wakeup_end rfl (by decide +kernel))
        ⟨.op (.aarch32 true) .load .acquire 0 1, _, within_of_bounds rfl rfl (by decide) (by decide), rfl, rfl⟩
        (readsFrom_some (n := 2) wakeup_end rfl rfl rfl rfl (by decide) (by decide +kernel))
    · rintro w ⟨⟨y, hy, hw⟩, -, y', hy', hl⟩ -
      have key : ∀ y ∈ R.all 2, y.2.ins.has .wr = true → y.2.loc = 1 → y.1 = (0, 2) := by decide +kernel
      cases hy'.unique hy
      cases key (w, _) ((mem_all wakeup_end).2 hy) hw hl
      exact ⟨(0, 2), by decide, ⟨_, rfl, rfl⟩, .inl ⟨⟨[.user userStore 0], .op (.aarch32 true) .store .release 0 1, .release, _,
        ⟨⟨[], rfl⟩, by decide, by decide⟩, rfl, rfl, rfl, rfl⟩, .inr ⟨rfl, by decide⟩⟩, .head⟩

/-! ### The lock pool: example -/

/-- A `store` of an object that is not lock-free, and a section of `wait` that reads it. -/
def setting (body : List Item) : Section where
  mutex := 0
  spin := []
  take := .op .gccArm (.casOk .relaxed) .acquire 0 0
  body := body
  leave := [.op .gccArm .load .relaxed 0 0]
  give := .op .gccArm (.casOk .relaxed) .release 0 0
  wake := []

/-- On ARM a thread writes data, and then sets the object 1, which is not lock-free.  Another thread calls `wait(0)`, which
finds 0, blocks, and finds 1 when it has the mutex again; then it reads the data. -/
def insidePieces : List (List Piece) :=
  [[.plain (.user userStore 5), .locked (setting [.user userStore 1])],
    [.locked (setting [.user userLoad 1]), .locked (setting [.user userLoad 1]), .plain (.user userLoad 5)]]

abbrev insideP (t : Nat) : List Piece := insidePieces.getD t []

def inside : Mca.Run .arm := runOf .arm insidePieces
  [[(0, 10), (8, 0), (0, 9), (0, 0), (0, 11), (12, 0), (0, 0), (13, 0), (0, 14)],
    [(1, 0), (0, 2), (0, 0), (3, 0), (4, 0), (0, 0), (5, 0), (0, 6),
      (15, 0), (0, 16), (0, 0), (17, 0), (18, 0), (0, 0), (20, 0), (0, 21), (19, 0)]]

def insideValues : Values where
  val e := if e = (1, 1) then 1 else if e = (1, 7) then 4 else if e = (0, 2) then 5 else if e = (0, 8) then 8 else
    if e = (1, 9) then 9 else if e = (1, 15) then 12 else if e = (0, 4) then 1 else 7
  init _ := 0

theorem inside_end (t : Nat) (h : 2 ≤ t) : inside.prog t = [] := by
  rw [inside, runOf_prog, List.getD_eq_getElem?_getD, List.getElem?_eq_none (by simpa [insidePieces] using h)]; rfl

theorem inside_valid : inside.Valid := Check.valid (n := 2) inside_end (by decide +kernel)

theorem inside_sec (S : Sec insideP) : (S.take = (0, 1) ∧ S.give = (0, 4) ∨ S.take = (1, 0) ∧ S.give = (1, 3) ∨
    S.take = (1, 4) ∧ S.give = (1, 7)) ∧ S.sec.mutex = 0 := by
  obtain ⟨⟨⟨t, i⟩, s⟩, hs⟩ := S
  match t, i, hs with
  | 0, 1, hs => cases hs; exact ⟨.inl ⟨rfl, rfl⟩, rfl⟩
  | 1, 0, hs => cases hs; exact ⟨.inr (.inl ⟨rfl, rfl⟩), rfl⟩
  | 1, 1, hs => cases hs; exact ⟨.inr (.inr ⟨rfl, rfl⟩), rfl⟩
  | 0, 0, hs => cases hs
  | 1, 2, hs => cases hs
  | 0, i + 2, hs => cases hs
  | 1, i + 3, hs => cases hs
  | t + 2, i, hs => cases hs

theorem inside_mutex {m} (h : IsMutex insideP m) : m = 0 := by
  obtain ⟨t, s, hs, rfl⟩ := h
  obtain ⟨i, hi⟩ := List.getElem?_of_mem hs
  exact (inside_sec ⟨((t, i), s), hi⟩).2

theorem inside_mem {t s} (h : Piece.locked s ∈ insideP t) :
    s = setting [.user userStore 1] ∨ s = setting [.user userLoad 1] := by
  match t with
  | 0 => simp [insidePieces] at h; exact .inl h
  | 1 => simp [insidePieces] at h; exact .inr h
  | t + 2 => simp [insidePieces] at h

theorem inside_lawful : Lawful insideP oneGuard := by
  have watch : Watch 0 (.op .gccArm .load .relaxed 0 0) := ⟨.gccArm, 0, .inl rfl⟩
  refine ⟨?_, ?_, ?_, ?_⟩
  · intro t s hs
    rcases inside_mem hs with rfl | rfl <;>
      exact ⟨by simp [setting], ⟨_, _, rfl⟩, by simpa [setting] using watch, ⟨_, _, rfl⟩, by simp [setting]⟩
  · intro t it hit
    right
    match t with
    | 0 => simp [insidePieces] at hit; subst hit; exact ⟨fun h => absurd (inside_mutex h) (by decide), rfl⟩
    | 1 => simp [insidePieces] at hit; subst hit; exact ⟨fun h => absurd (inside_mutex h) (by decide), rfl⟩
    | t + 2 => simp [insidePieces] at hit
  · intro t s it hs hit
    right; right
    rcases inside_mem hs with rfl | rfl <;> simp [setting] at hit <;> subst hit <;>
      exact ⟨fun h => absurd (inside_mutex h) (by decide), fun m h => by cases h; rfl⟩
  · intro m hm; cases inside_mutex hm; rfl

theorem inside_follows : Follows inside inside.ReadsFrom insideValues insideP := by
  refine ⟨?_, ?_, ?_, ?_, fun _ _ => rfl⟩
  · intro S r w hr hw
    obtain ⟨h, h'⟩ := inside_sec S
    rw [h']
    rcases h with ⟨h, -⟩ | ⟨h, -⟩ | ⟨h, -⟩ <;> rw [h] at hr hw
    · rw [ret_only (n := 2) inside_end (r₀ := (0, 1)) (by decide +kernel) hr,
        pub_only (n := 2) inside_end (r₀ := (0, 2)) (by decide +kernel) hw]
      exact ⟨some (1, 7), readsFrom_some (n := 2) inside_end rfl rfl rfl rfl (by decide) (by decide +kernel), by decide⟩
    · rw [ret_only (n := 2) inside_end (r₀ := (1, 0)) (by decide +kernel) hr,
        pub_only (n := 2) inside_end (r₀ := (1, 1)) (by decide +kernel) hw]
      exact ⟨none, readsFrom_none (n := 2) inside_end rfl (by decide +kernel), by decide⟩
    · rw [ret_only (n := 2) inside_end (r₀ := (1, 8)) (by decide +kernel) hr,
        pub_only (n := 2) inside_end (r₀ := (1, 9)) (by decide +kernel) hw]
      exact ⟨some (0, 8), readsFrom_some (n := 2) inside_end rfl rfl rfl rfl (by decide) (by decide +kernel), by decide⟩
  · intro S r w hr hw
    obtain ⟨h, h'⟩ := inside_sec S
    rw [h']
    rcases h with ⟨-, h⟩ | ⟨-, h⟩ | ⟨-, h⟩ <;> rw [h] at hr hw
    · rw [ret_only (n := 2) inside_end (r₀ := (0, 7)) (by decide +kernel) hr,
        pub_only (n := 2) inside_end (r₀ := (0, 8)) (by decide +kernel) hw]
      exact ⟨some (0, 2), readsFrom_some (n := 2) inside_end rfl rfl rfl rfl (by decide) (by decide +kernel), by decide⟩
    · rw [ret_only (n := 2) inside_end (r₀ := (1, 6)) (by decide +kernel) hr,
        pub_only (n := 2) inside_end (r₀ := (1, 7)) (by decide +kernel) hw]
      exact ⟨some (1, 1), readsFrom_some (n := 2) inside_end rfl rfl rfl rfl (by decide) (by decide +kernel), by decide⟩
    · rw [ret_only (n := 2) inside_end (r₀ := (1, 14)) (by decide +kernel) hr,
        pub_only (n := 2) inside_end (r₀ := (1, 15)) (by decide +kernel) hw]
      exact ⟨some (1, 9), readsFrom_some (n := 2) inside_end rfl rfl rfl rfl (by decide) (by decide +kernel), by decide⟩
  · intro id it m hit hm hM
    exfalso
    cases inside_mutex hm
    obtain ⟨b, n, k, hk, rfl⟩ := hM
    rw [inside, runOf_prog] at hit
    have hmem := List.mem_of_getElem? hit
    obtain ⟨t, i⟩ := id
    simp only [List.mem_cons, List.not_mem_nil, or_false] at hk
    match t with
    | 0 => simp [insidePieces, Locked.code, setting, Piece.items, Section.items] at hmem; simp [hmem] at hk
    | 1 => simp [insidePieces, Locked.code, setting, Piece.items, Section.items] at hmem; simp [hmem] at hk
    | t + 2 => simp [insidePieces, Locked.code] at hmem
  · exact copies_trivial inside_end _ (by decide +kernel)

def insideCall : Call := ⟨1, 0, 8, 1, false⟩

theorem inside_performs : PerformsInside inside inside.ReadsFrom insideValues (fun S : Sec insideP => S.sec.mutex) Sec.take
    Sec.give 0 1 0 (.wait .windows) insideCall := by
  refine ⟨by decide, [((1, 3), 0), ((1, 11), 1)], by simp [Before], fun r u h => ?_, exW, 0, 7, _, inside_runs, rfl⟩
  simp only [List.mem_cons, List.not_mem_nil, or_false, Prod.mk.injEq] at h
  rcases h with ⟨rfl, rfl⟩ | ⟨rfl, rfl⟩
  · refine ⟨⟨(1, 1), .user userLoad 1, within_of_bounds rfl rfl (by decide) (by decide), rfl, by decide, by decide⟩,
      ⟨⟨((1, 0), _), rfl⟩, rfl, rfl, (1, 1), .user userLoad 1, within_of_bounds rfl rfl (by decide) (by decide), rfl, by decide,
        by decide⟩, ⟨_, rfl, rfl⟩, ⟨_, rfl, rfl⟩, none, readsFrom_none (n := 2) inside_end rfl (by decide +kernel), rfl⟩
  · refine ⟨⟨(1, 5), .user userLoad 1, within_of_bounds rfl rfl (by decide) (by decide), rfl, by decide, by decide⟩,
      ⟨⟨((1, 1), _), rfl⟩, rfl, rfl, (1, 5), .user userLoad 1, within_of_bounds rfl rfl (by decide) (by decide), rfl, by decide,
        by decide⟩, ⟨_, rfl, rfl⟩, ⟨_, rfl, rfl⟩, some (0, 4),
      readsFrom_some (n := 2) inside_end rfl rfl rfl rfl (by decide) (by decide +kernel), rfl⟩

theorem inside_published : PublishedInside inside inside.HappensBefore insideValues (fun S : Sec insideP => S.sec.mutex)
    Sec.take Sec.give 0 1 (· ≠ 0) 1 (0, 0) := by
  rintro w ⟨⟨y, hy, hw⟩, -, y', hy', hl⟩ -
  have key : ∀ y ∈ inside.all 2, y.2.ins.has .wr = true → y.2.loc = 1 → y.1 = (0, 4) := by decide +kernel
  cases hy'.unique hy
  cases key (w, _) ((mem_all inside_end).2 hy) hw hl
  exact ⟨⟨((0, 1), _), rfl⟩, (0, 0), .user userStore 5, (0, 0), rfl, by decide,
    ⟨(0, 2), .user userStore 1, within_of_bounds rfl rfl (by decide) (by decide), rfl, by decide, by decide⟩,
    within_of_bounds rfl rfl (by decide) (by decide), rfl, by decide, .inl rfl⟩

theorem inside_items {Q : Item → Prop} (h0 : ∀ it ∈ inside.prog 0, Q it) (h1 : ∀ it ∈ inside.prog 1, Q it) :
    ∀ t, ∀ it ∈ inside.prog t, Q it := by
  intro t it h
  match t with
  | 0 => exact h0 it h
  | 1 => exact h1 it h
  | t + 2 => rw [inside_end _ (by simp)] at h; cases h

/-- The hypotheses hold for this execution, in which the data is written after the mutex has been taken and read before it is
given back. -/
example : inside.Valid ∧ (∀ t, inside.prog t = code (insideP t)) ∧ Lawful insideP oneGuard ∧
    Follows inside inside.ReadsFrom insideValues insideP ∧ (∀ t, ∀ it ∈ inside.prog t, it.accepts = true) ∧
    (∀ t, ∀ it ∈ inside.prog t, it.broken = false) ∧
    PerformsInside inside inside.ReadsFrom insideValues (fun S : Sec insideP => S.sec.mutex) Sec.take Sec.give 0 1 0
      (.wait .windows) insideCall ∧
    PublishedInside inside inside.HappensBefore insideValues (fun S : Sec insideP => S.sec.mutex) Sec.take Sec.give 0 1 (· ≠ 0)
      insideCall.thread (0, 0) ∧
    insideCall.Then inside (1, 16) ∧ inside.SameLoc (0, 0) (1, 16) ∧ inside.ReadsFrom (1, 16) (some (0, 0)) :=
  ⟨inside_valid, runOf_prog, inside_lawful, inside_follows, inside_items (by decide) (by decide),
    inside_items (by decide) (by decide), inside_performs, inside_published,
    ⟨(1, 8), .user userLoad 5, within_of_bounds rfl rfl (by decide) (by decide), rfl, by decide⟩, ⟨_, _, rfl, rfl, rfl⟩,
    readsFrom_some (n := 2) inside_end rfl rfl rfl rfl (by decide) (by decide +kernel)⟩

/-- The same execution, on the machine on which writes become visible to one thread after another. -/
example : (Pow.Run.atOnce inside).Valid ∧
    Follows (Pow.Run.atOnce inside).toRun (Pow.Run.atOnce inside).ReadsFrom insideValues insideP ∧
    PerformsInside (Pow.Run.atOnce inside).toRun (Pow.Run.atOnce inside).ReadsFrom insideValues
      (fun S : Sec insideP => S.sec.mutex) Sec.take Sec.give 0 1 0 (.wait .windows) insideCall := by
  have e : (Pow.Run.atOnce inside).ReadsFrom = inside.ReadsFrom :=
    funext fun r => funext fun s => propext (Pow.Run.atOnce_reads inside_valid)
  exact ⟨Pow.Run.atOnce_valid inside_valid, by rw [e]; exact inside_follows, by rw [e]; exact inside_performs⟩

end Verif.Await
