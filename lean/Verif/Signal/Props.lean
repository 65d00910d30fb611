import Verif.Signal.Lemmas
import Verif.Signal.Check

/-
C71: a thread and the signal handlers executed in it synchronise by operations and by `atomic_signal_fence`.
-/

namespace Verif.Signal

open Verif.Order Verif.Mca

/-- C71, with the exceptions of `movable` (for which see `C71_violated`).  In every execution of a thread and any number
of handlers, on every back end: the coherence rules of the C++ standard hold, with the happens-before that release and
acquire operations, thread fences and signal fences establish. -/
theorem C71_happens_before_partial {cpu : Cpu} (R : Run cpu) (hR : R.Valid)
    (hacc : ∀ t, ∀ s ∈ R.prog t, s.accepts = true) (hok : ∀ t, ∀ s ∈ R.prog t, movable s = false) :
    R.actions.Coherent :=
  hR.coherent fun t s h => ⟨hacc t s h, hok t s h⟩

/-- C71, without exceptions, for programs that synchronise by signal fences: operations are relaxed, and there are no
thread fences. -/
theorem C71_signal_fences {cpu : Cpu} (R : Run cpu) (hR : R.Valid)
    (hacc : ∀ t, ∀ s ∈ R.prog t, s.accepts = true)
    (hrel : ∀ t it, .item it ∈ R.prog t → (∀ o, it.readOrder = some o → o = .relaxed) ∧ ∀ b o, it ≠ .fence b o) :
    R.actions.Coherent := by
  refine C71_happens_before_partial R hR hacc ?_
  intro t s h
  cases s with
  | signalFence => rfl
  | item it =>
    obtain ⟨h2, h3⟩ := hrel t it h
    cases it with
    | op b k o n l => have := h2 _ rfl; simp [movable, this, MO.isAcquire]
    | fence b o => exact absurd rfl (h3 b o)
    | _ => rfl

/-- C71, without exceptions, for all back ends but three: the one with inline assembly for x86, that for 8-byte objects
on AArch32, and the one with the kernel's helper functions. -/
theorem C71_happens_before {cpu : Cpu} (R : Run cpu) (hR : R.Valid)
    (hacc : ∀ t, ∀ s ∈ R.prog t, s.accepts = true)
    (hbe : ∀ t it b, .item it ∈ R.prog t → it.backend = some b →
      b ≠ .gccX86 ∧ (∀ v, b ≠ .x86Wide false v) ∧ b ≠ .aarch32 true ∧ b ≠ .linuxArm) :
    R.actions.Coherent := by
  refine C71_happens_before_partial R hR hacc ?_
  intro t s h
  cases s with
  | signalFence => rfl
  | item it =>
    cases it with
    | op b k o n l =>
      obtain ⟨-, -, h3, h4⟩ := hbe t _ b h rfl
      unfold movable
      simp only [Bool.and_eq_false_iff]
      right
      cases b <;> first | rfl | exact absurd rfl h4 | skip
      case aarch32 wide =>
        cases wide
        · cases k <;> rfl
        · exact absurd rfl h3
    | fence b o =>
      obtain ⟨h1, h2, -, -⟩ := hbe t _ b h rfl
      cases b <;> first | rfl | exact absurd rfl h1 | skip
      case x86Wide msvc vec =>
        cases msvc
        · exact absurd rfl (h2 vec)
        · rfl
    | _ => rfl

/-- C71 for every program for x86 without consume fences of threads. -/
theorem C71_happens_before_x86 (R : Run .x86) (hR : R.Valid)
    (hacc : ∀ t, ∀ s ∈ R.prog t, s.accepts = true) (hf : ∀ t b, .item (.fence b .consume) ∉ R.prog t) :
    R.actions.Coherent := by
  refine C71_happens_before_partial R hR hacc ?_
  intro t s h
  cases s with
  | signalFence => rfl
  | item it =>
    have hfit := hR.fits t it (List.mem_flatMap.2 ⟨_, h, by simp [Step.items]⟩)
    cases it with
    | op b k o n l =>
      have := hfit b rfl
      unfold movable
      simp only [Bool.and_eq_false_iff]
      right
      cases b <;> first | rfl | cases this
    | fence b o =>
      cases o with
      | consume => exact absurd h (hf t b)
      | _ => cases b <;> (try (rename_i m v; cases m)) <;> rfl
    | _ => rfl

/-! ### Executions -/

/-- An access of the program itself. -/
def store : Instr := { wr := true }
def load : Instr := { rd := true }

/-- On ARM: a thread writes data and sets a flag; it is interrupted after that by a handler, which finds the flag set
and reads the data; operations are relaxed, and there are signal fences. -/
def handled : Run .arm := Run.of .arm
  [[.item (.user store 0), .signalFence .gccArm .release, .item (.op .gccArm .store .relaxed 0 1), .item (.user store 2)],
    [.item (.op .gccArm .load .relaxed 0 1), .signalFence .gccArm .acquire, .item (.user load 0)]]
  [[(0, 1), (0, 0), (0, 2), (0, 9)], [(3, 0), (0, 0), (4, 0)]]

theorem handled_end (t : Nat) (h : 2 ≤ t) : handled.prog t = [] := by simp [handled, Run.of, h]

/-- The hypotheses of the theorems are met; the write of the data happens before its read, which finds it. -/
example : handled.Valid ∧ handled.Nested ∧ (∀ t, ∀ s ∈ handled.prog t, s.accepts = true) ∧
    (∀ t it, .item it ∈ handled.prog t → (∀ o, it.readOrder = some o → o = .relaxed) ∧ ∀ b o, it ≠ .fence b o) ∧
    handled.HappensBefore (0, 0) (1, 2) ∧ handled.ReadsFrom (1, 2) (some (0, 0)) := by
  have hrf : handled.ReadsFrom (1, 0) (some (0, 2)) :=
    Run.readsFrom_some (n := 2) handled_end rfl rfl rfl rfl (by decide) (by decide +kernel)
  refine ⟨Run.Check.valid (n := 2) handled_end (by decide +kernel), Run.nested_of (n := 2) handled_end (by decide +kernel),
    ?_, ?_, ?_, Run.readsFrom_some (n := 2) handled_end rfl rfl rfl rfl (by decide) (by decide +kernel)⟩
  · intro t s h
    match t with
    | 0 => simp [handled, Run.of] at h; rcases h with rfl | rfl | rfl | rfl <;> rfl
    | 1 => simp [handled, Run.of] at h; rcases h with rfl | rfl | rfl <;> rfl
    | t + 2 => simp [handled, Run.of] at h
  · intro t it h
    match t with
    | 0 =>
      simp [handled, Run.of] at h
      rcases h with rfl | rfl | rfl <;> simp [Item.readOrder, Kind.readOrder]
    | 1 =>
      simp [handled, Run.of] at h
      rcases h with rfl | rfl <;> simp [Item.readOrder, Kind.readOrder]
    | t + 2 => simp [handled, Run.of] at h
  · refine .sync ⟨(0, 2), (0, 2), (1, 0), .inr ?_, ⟨_, rfl, rfl⟩, .head, hrf, ⟨_, rfl, rfl⟩, by decide, .inr ?_⟩
    · exact ⟨rfl, [.item (.user store 0)], .signalFence .gccArm .release, .release, _, rfl, rfl, rfl, by decide, by decide⟩
    · exact ⟨rfl, [.item (.op .gccArm .load .relaxed 0 1)], .signalFence .gccArm .acquire, .acquire, _, rfl, rfl, rfl,
        by decide, by decide⟩

/-- On x86: a handler that interrupts a thread writes data and sets a flag with release; the thread finds the flag set
with acquire and reads the data.  The hypotheses of the other theorems are met. -/
example : ∃ R : Run .x86, R.Valid ∧ R.Nested ∧ (∀ t, ∀ s ∈ R.prog t, s.accepts = true) ∧
    (∀ t, ∀ s ∈ R.prog t, movable s = false) ∧ (∀ t b, .item (.fence b .consume) ∉ R.prog t) ∧
    (∀ t it b, .item it ∈ R.prog t → it.backend = some b →
      b ≠ .gccX86 ∧ (∀ v, b ≠ .x86Wide false v) ∧ b ≠ .aarch32 true ∧ b ≠ .linuxArm) ∧
    R.ReadsFrom (0, 1) (some (1, 2)) ∧ R.HappensBefore (1, 0) (0, 3) ∧ R.ReadsFrom (0, 3) (some (1, 0)) := by
  let R : Run .x86 := Run.of .x86
    [[.item (.user store 2), .item (.op .gccAtomicX86 .load .acquire 0 1), .item (.user load 0)],
      [.item (.user store 0), .item (.op .gccAtomicX86 .store .release 0 1)]]
    [[(0, 1), (4, 0), (0, 0), (5, 0)], [(0, 2), (0, 0), (0, 3)]]
  have hn : ∀ t, 2 ≤ t → R.prog t = [] := fun t h => by simp [R, Run.of, h]
  have hrf : R.ReadsFrom (0, 1) (some (1, 2)) :=
    Run.readsFrom_some (n := 2) hn rfl rfl rfl rfl (by decide) (by decide +kernel)
  refine ⟨R, Run.Check.valid (n := 2) hn (by decide +kernel), Run.nested_of (n := 2) hn (by decide +kernel), ?_, ?_, ?_, ?_,
    hrf, ?_, Run.readsFrom_some (n := 2) hn rfl rfl rfl rfl (by decide) (by decide +kernel)⟩
  · intro t s h
    match t with
    | 0 => simp [R, Run.of] at h; rcases h with rfl | rfl | rfl <;> rfl
    | 1 => simp [R, Run.of] at h; rcases h with rfl | rfl <;> rfl
    | t + 2 => simp [R, Run.of] at h
  · intro t s h
    match t with
    | 0 => simp [R, Run.of] at h; rcases h with rfl | rfl | rfl <;> rfl
    | 1 => simp [R, Run.of] at h; rcases h with rfl | rfl <;> rfl
    | t + 2 => simp [R, Run.of] at h
  · intro t b h
    match t with
    | 0 => simp [R, Run.of] at h
    | 1 => simp [R, Run.of] at h
    | t + 2 => simp [R, Run.of] at h
  · intro t it b h hb
    match t with
    | 0 => simp [R, Run.of] at h; rcases h with rfl | rfl | rfl <;> simp [Item.backend] at hb <;> subst hb <;> simp
    | 1 => simp [R, Run.of] at h; rcases h with rfl | rfl <;> simp [Item.backend] at hb <;> subst hb <;> simp
    | t + 2 => simp [R, Run.of] at h
  · refine .sync ⟨(1, 2), (1, 2), (0, 1), .inl ⟨?_, .inr ⟨rfl, by decide⟩⟩, ⟨_, rfl, rfl⟩, .head, hrf, ⟨_, rfl, rfl⟩,
      by decide, .inl ⟨?_, .inr ⟨rfl, by decide⟩⟩⟩
    · exact ⟨[.user store 0], .op .gccAtomicX86 .store .release 0 1, .release, _, ⟨⟨_, rfl⟩, by decide, by decide⟩, rfl, rfl,
        rfl, rfl⟩
    · exact ⟨[.user store 2], .op .gccAtomicX86 .load .acquire 0 1, .acquire, _, ⟨⟨_, rfl⟩, by decide, by decide⟩, rfl, rfl,
        rfl, rfl⟩

/-- Without the fences the compiler may write the data last; a handler that runs before that finds the flag set and not
the data. -/
example : ∃ R : Run .arm, R.Valid ∧ R.Nested ∧
    R.prog 0 = [.item (.user store 0), .item (.op .gccArm .store .relaxed 0 1)] ∧
    R.prog 1 = [.item (.op .gccArm .load .relaxed 0 1), .signalFence .gccArm .acquire, .item (.user load 0)] ∧
    R.ReadsFrom (1, 0) (some (0, 1)) ∧ R.ReadsFrom (1, 2) none := by
  let R : Run .arm := Run.of .arm
    [[.item (.user store 0), .item (.op .gccArm .store .relaxed 0 1)],
      [.item (.op .gccArm .load .relaxed 0 1), .signalFence .gccArm .acquire, .item (.user load 0)]]
    [[(0, 9), (0, 2)], [(3, 0), (0, 0), (4, 0)]]
  have hn : ∀ t, 2 ≤ t → R.prog t = [] := fun t h => by simp [R, Run.of, h]
  exact ⟨R, Run.Check.valid (n := 2) hn (by decide +kernel), Run.nested_of (n := 2) hn (by decide +kernel), rfl, rfl,
    Run.readsFrom_some (n := 2) hn rfl rfl rfl rfl (by decide) (by decide +kernel),
    Run.readsFrom_none (n := 2) hn rfl (by decide +kernel)⟩

/-- A thread that takes a flag with `B` and then reads data, interrupted by a handler that writes the data and sets the
flag, with a signal fence between. -/
def interrupted (cpu : Cpu) (b : Backend) (B : List Step) (ts : List (List (Nat × Nat))) : Run cpu := Run.of cpu
  [B ++ [.item (.user load 0)], [.item (.user store 0), .signalFence b .release, .item (.op b .store .relaxed 0 1)]] ts

theorem interrupted_end {cpu b B ts} (t : Nat) (h : 2 ≤ t) : (interrupted cpu b B ts).prog t = [] := by
  simp [interrupted, Run.of, h]

theorem not_coherent {cpu : Cpu} {R : Run cpu} {d f : Pos} (h : R.Synchronizes d f) (hd : R.flat.Has d .wr)
    (hf : R.flat.Has f .rd) (hl : R.actions.loc d = R.actions.loc f) (hrf : R.ReadsFrom f none) :
    ¬ R.actions.Coherent := by
  intro hc
  rcases hc.writeRead d f none (.sync h) hd hf hl hrf with h | ⟨_, h, _⟩ <;> cases h

/-- The exceptions are real: with each of the three the compiler may read the data before the flag, and a handler that
runs in between makes the thread find the flag set and old data. -/
theorem C71_violated :
    (∃ R : Run .x86, R.Valid ∧ R.Nested ∧ ¬ R.actions.Coherent ∧
      R.prog 0 = [.item (.op .gccX86 .load .relaxed 0 1), .item (.fence .gccX86 .consume), .item (.user load 0)]) ∧
    (∃ R : Run .aarch32, R.Valid ∧ R.Nested ∧ ¬ R.actions.Coherent ∧
      R.prog 0 = [.item (.op (.aarch32 true) .load .acquire 0 1), .item (.user load 0)]) ∧
    (∃ R : Run .arm, R.Valid ∧ R.Nested ∧ ¬ R.actions.Coherent ∧
      R.prog 0 = [.item (.op .linuxArm (.casFail .acquire) .acquire 0 1), .item (.user load 0)]) := by
  refine ⟨?_, ?_, ?_⟩
  · let B : List Step := [.item (.op .gccX86 .load .relaxed 0 1), .item (.fence .gccX86 .consume)]
    let ts := [[(3, 0), (0, 0)], [(0, 1), (0, 0), (0, 2)]]
    have hn := @interrupted_end .x86 .gccX86 B ts
    have hrf : (interrupted .x86 .gccX86 B ts).ReadsFrom (0, 0) (some (1, 2)) :=
      Run.readsFrom_some (n := 2) hn rfl rfl rfl rfl (by decide) (by decide +kernel)
    refine ⟨interrupted .x86 .gccX86 B ts, Run.Check.valid (n := 2) hn (by decide +kernel),
      Run.nested_of (n := 2) hn (by decide +kernel),
      not_coherent (d := (1, 0)) (f := (0, 1)) ?_ ⟨_, rfl, rfl⟩ ⟨_, rfl, rfl⟩ rfl
        (Run.readsFrom_none (n := 2) hn rfl (by decide +kernel)), rfl⟩
    refine ⟨(1, 2), (1, 2), (0, 0), .inr ?_, ⟨_, rfl, rfl⟩, .head, hrf, ⟨_, rfl, rfl⟩, by decide, .inr ?_⟩
    · exact ⟨rfl, [.item (.user store 0)], .signalFence .gccX86 .release, .release, _, rfl, rfl, rfl, by decide, by decide⟩
    · exact ⟨rfl, [.item (.op .gccX86 .load .relaxed 0 1)], .item (.fence .gccX86 .consume), .consume, _, rfl, rfl, rfl,
        by decide, by decide⟩
  · let B : List Step := [.item (.op (.aarch32 true) .load .acquire 0 1)]
    let ts := [[(4, 0), (0, 0)], [(0, 1), (0, 0), (2, 0), (0, 3)]]
    have hn := @interrupted_end .aarch32 (.aarch32 true) B ts
    have hrf : (interrupted .aarch32 (.aarch32 true) B ts).ReadsFrom (0, 0) (some (1, 3)) :=
      Run.readsFrom_some (n := 2) hn rfl rfl rfl rfl (by decide) (by decide +kernel)
    refine ⟨interrupted .aarch32 (.aarch32 true) B ts, Run.Check.valid (n := 2) hn (by decide +kernel),
      Run.nested_of (n := 2) hn (by decide +kernel),
      not_coherent (d := (1, 0)) (f := (0, 1)) ?_ ⟨_, rfl, rfl⟩ ⟨_, rfl, rfl⟩ rfl
        (Run.readsFrom_none (n := 2) hn rfl (by decide +kernel)), rfl⟩
    refine ⟨(1, 3), (1, 3), (0, 0), .inr ?_, ⟨_, rfl, rfl⟩, .head, hrf, ⟨_, rfl, rfl⟩, by decide,
      .inl ⟨?_, .inr ⟨rfl, by decide⟩⟩⟩
    · exact ⟨rfl, [.item (.user store 0)], .signalFence (.aarch32 true) .release, .release, _, rfl, rfl, rfl, by decide,
        by decide⟩
    · exact ⟨[], .op (.aarch32 true) .load .acquire 0 1, .acquire, _, ⟨⟨_, rfl⟩, by decide, by decide⟩, rfl, rfl, rfl, rfl⟩
  · let B : List Step := [.item (.op .linuxArm (.casFail .acquire) .acquire 0 1)]
    let ts := [[(0, 0), (0, 0), (0, 0), (5, 0), (1, 0)], [(0, 2), (0, 0), (0, 3)]]
    have hn := @interrupted_end .arm .linuxArm B ts
    have hrf : (interrupted .arm .linuxArm B ts).ReadsFrom (0, 3) (some (1, 2)) :=
      Run.readsFrom_some (n := 2) hn rfl rfl rfl rfl (by decide) (by decide +kernel)
    refine ⟨interrupted .arm .linuxArm B ts, Run.Check.valid (n := 2) hn (by decide +kernel),
      Run.nested_of (n := 2) hn (by decide +kernel),
      not_coherent (d := (1, 0)) (f := (0, 4)) ?_ ⟨_, rfl, rfl⟩ ⟨_, rfl, rfl⟩ rfl
        (Run.readsFrom_none (n := 2) hn rfl (by decide +kernel)), rfl⟩
    refine ⟨(1, 2), (1, 2), (0, 3), .inr ?_, ⟨_, rfl, rfl⟩, .head, hrf, ⟨_, rfl, rfl⟩, by decide,
      .inl ⟨?_, .inr ⟨rfl, by decide⟩⟩⟩
    · exact ⟨rfl, [.item (.user store 0)], .signalFence .linuxArm .release, .release, _, rfl, rfl, rfl, by decide,
        by decide⟩
    · exact ⟨[], .op .linuxArm (.casFail .acquire) .acquire 0 1, .acquire, _, ⟨⟨_, rfl⟩, by decide, by decide⟩, rfl, rfl,
        rfl, rfl⟩

end Verif.Signal
