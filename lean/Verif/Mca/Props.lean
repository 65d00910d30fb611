import Verif.Mca.Shape
import Verif.Mca.Check

/-!
C50: threads that synchronise through atomic objects see each other's writes, on every back end and although compiler
and processor reorder accesses.
-/

namespace Verif.Mca

open Verif.Order Verif.Mca.Run

/-- In every execution of every program, happens-before – made by release and acquire operations and fences, release
sequences included – has the meaning the C++ standard gives to it: whatever happens before a read is seen by it, and no
two threads disagree on the order of what happens one after the other.  Excluded are programs with an operation or fence
that the back end makes too weak (`Item.broken`, findings of C19 and C22). -/
theorem C50_happens_before_partial {cpu : Cpu} (R : Run cpu) (hR : R.Valid)
    (hacc : ∀ t, ∀ it ∈ R.prog t, it.accepts = true)
    (hok : ∀ t, ∀ it ∈ R.prog t, it.broken = false) : R.actions.Coherent :=
  hR.coherent (fun t it h => ⟨hacc t it h, hok t it h⟩) fun _ _ => Rmw.paired

/-- Without exceptions for programs made of the following back ends: Microsoft's compilers on x86 (objects of two words
included) and ARM, inline assembly on ARM (8-byte objects included) and Alpha, the `__sync` (wide objects included) and
`__atomic` intrinsics, and the Windows back end on x86. -/
theorem C50_happens_before {cpu : Cpu} (R : Run cpu) (hR : R.Valid)
    (hbe : ∀ t, ∀ it ∈ R.prog t, ∀ b, it.backend = some b →
      b ∈ [.msvcX86, .x86Wide true true, .x86Wide true false, .msvcArm, .gccArm, .gccArmWide, .alpha, .gccSync,
        .gccSyncWide, .gccAtomic, .gccAtomicX86, .windows true])
    (hacc : ∀ t, ∀ it ∈ R.prog t, it.accepts = true) : R.actions.Coherent := by
  refine C50_happens_before_partial R hR hacc fun t it h => ?_
  have hbe := hbe t it h
  cases it with
  | op b k o n l =>
    have := hbe b rfl
    simp only [List.mem_cons, List.not_mem_nil, or_false] at this
    rcases this with rfl | rfl | rfl | rfl | rfl | rfl | rfl | rfl | rfl | rfl | rfl | rfl <;>
      simp [Item.broken, acquireBroken]
  | exchange b o n l =>
    have := hbe b rfl
    simp only [List.mem_cons, List.not_mem_nil, or_false] at this
    rcases this with rfl | rfl | rfl | rfl | rfl | rfl | rfl | rfl | rfl | rfl | rfl | rfl <;>
      simp [Item.broken, acquireBroken]
  | fence b o =>
    have := hbe b rfl
    simp only [List.mem_cons, List.not_mem_nil, or_false] at this
    rcases this with rfl | rfl | rfl | rfl | rfl | rfl | rfl | rfl | rfl | rfl | rfl | rfl <;>
      cases o <;> rfl
  | user => rfl
  | clear => rfl

/-- x86, with code of any of its back ends: all programs without a consume fence by inline assembly. -/
theorem C50_happens_before_x86 (R : Run .x86) (hR : R.Valid)
    (hacc : ∀ t, ∀ it ∈ R.prog t, it.accepts = true)
    (hf : ∀ t b, Item.fence b .consume ∈ R.prog t → b ≠ .gccX86 ∧ ∀ v, b ≠ .x86Wide false v) :
    R.actions.Coherent := by
  refine C50_happens_before_partial R hR hacc fun t it h => ?_
  have hfit := hR.fits t it h
  have x86 : ∀ b, Cpu.x86.runs b = true → b = .gccX86 ∨ b = .msvcX86 ∨ b = .windows true ∨ b = .gccAtomicX86 ∨
      ∃ m v, b = .x86Wide m v := by
    intro b hb; cases b <;> first | (cases hb; done) | (simp; done) | (cases ‹Bool› <;> first | (cases hb; done) | simp)
  cases it with
  | op b k o n l => rcases x86 b (hfit b rfl) with rfl | rfl | rfl | rfl | ⟨m, v, rfl⟩ <;> simp [Item.broken, acquireBroken]
  | exchange b o n l => rcases x86 b (hfit b rfl) with rfl | rfl | rfl | rfl | ⟨m, v, rfl⟩ <;> simp [Item.broken, acquireBroken]
  | fence b o =>
    rcases x86 b (hfit b rfl) with rfl | rfl | rfl | rfl | ⟨m, v, rfl⟩
    case inl => cases o <;> first | rfl | exact absurd rfl (hf t _ h).1
    case inr.inr.inr.inr => cases m <;> cases o <;> first | rfl | exact absurd rfl ((hf t _ h).2 v)
    all_goals cases o <;> rfl
  | user => rfl
  | clear => rfl

/-- 64-bit ARM, with inline assembly and `__atomic` intrinsics: all programs without a compare-and-exchange by inline
assembly with order release and failure order acquire or consume. -/
theorem C50_happens_before_aarch64 (R : Run .aarch64) (hR : R.Valid)
    (hacc : ∀ t, ∀ it ∈ R.prog t, it.accepts = true)
    (hc : ∀ t b f n l, Item.op b (.casFail f) .release n l ∈ R.prog t → f = .relaxed ∨ b = .gccAtomic) :
    R.actions.Coherent := by
  refine C50_happens_before_partial R hR hacc fun t it h => ?_
  have hfit := hR.fits t it h
  have arm : ∀ b, Cpu.aarch64.runs b = true → (∃ lse rcpc, b = .aarch64 lse rcpc) ∨ b = .aarch64Wide ∨ b = .gccAtomic := by
    intro b hb; cases b <;> first | (cases hb; done) | simp
  cases it with
  | op b k o n l =>
    rcases arm b (hfit b rfl) with ⟨lse, rcpc, rfl⟩ | rfl | rfl
    case inr.inr => simp [Item.broken, acquireBroken]
    all_goals
      cases k with
      | casFail f =>
        simp only [Item.broken, acquireBroken, Kind.readOrder, Bool.and_eq_false_iff]
        by_cases ho : o = .release
        · subst ho; left
          rcases hc t _ f n l h with rfl | h'
          · rfl
          · cases h'
        · right; left; simpa using ho
      | _ => simp [Item.broken, acquireBroken]
  | exchange b o n l => rcases arm b (hfit b rfl) with ⟨lse, rcpc, rfl⟩ | rfl | rfl <;> simp [Item.broken, acquireBroken]
  | fence b o => rcases arm b (hfit b rfl) with ⟨lse, rcpc, rfl⟩ | rfl | rfl <;> cases o <;> rfl
  | user => rfl
  | clear => rfl

/-! ### Executions -/

/-- Publication: a thread writes data and sets a flag, another one sees the flag and reads the data. -/
def publication (cpu : Cpu) (ts : List (List (Nat × Nat))) (A B : Item) : Run cpu :=
  Run.of cpu [[.user userStore 0, A], [B, .user userLoad 0]] ts

theorem publication_end {cpu : Cpu} {ts A B} (t : Nat) (h : 2 ≤ t) : (publication cpu ts A B).prog t = [] := by
  simp [publication, Run.of, h]

/-- On ARM, an execution in which the data is seen. -/
def seen : Run .arm := publication .arm [[(0, 1), (0, 0), (0, 2)], [(3, 0), (0, 0), (4, 0)]]
  (.op .gccArm .store .release 0 1) (.op .gccArm .load .acquire 0 1)

example : seen.Valid ∧ (∀ t, ∀ it ∈ seen.prog t, it.accepts = true) ∧ seen.HappensBefore (0, 0) (1, 2) ∧
    seen.ReadsFrom (1, 2) (some (0, 0)) := by
  have hrf : seen.ReadsFrom (1, 0) (some (0, 2)) :=
    readsFrom_some (n := 2) publication_end rfl rfl rfl rfl (by decide) (by decide +kernel)
  refine ⟨Check.valid (n := 2) publication_end (by decide +kernel), ?_, ?_, ?_⟩
  · intro t it h
    match t with
    | 0 | 1 => simp [seen, publication, Run.of] at h; rcases h with rfl | rfl <;> rfl
    | t + 2 => simp [seen, publication, Run.of] at h
  · refine .sync ⟨(0, 2), (0, 2), (1, 0), .inl ⟨?_, .inr ⟨rfl, by decide⟩⟩, ⟨_, rfl, rfl⟩, .head, hrf,
      ⟨_, rfl, rfl⟩, by decide, .inl ⟨?_, .inr ⟨rfl, by decide⟩⟩⟩
    · exact ⟨[.user userStore 0], .op .gccArm .store .release 0 1, .release, _, ⟨⟨[], rfl⟩, by decide, by decide⟩, rfl,
        rfl, rfl, rfl⟩
    · exact ⟨[], .op .gccArm .load .acquire 0 1, .acquire, _, ⟨⟨_, rfl⟩, by decide, by decide⟩, rfl, rfl, rfl, rfl⟩
  · exact readsFrom_some (n := 2) publication_end rfl rfl rfl rfl (by decide) (by decide +kernel)

/-- If the flag is read with acquire and the data is the initial value, the execution is not coherent. -/
theorem not_coherent {cpu : Cpu} {ts A B} {w r : Nat} {o o' : MO} {xw xr : Ev}
    (hw : (publication cpu ts A B).Is (0, w) xw) (hwp : xw.ins.pub = true) (hww : xw.ins.wr = true) (hw1 : 1 ≤ w)
    (hA : A.writeOrder = some o) (ho : o.isRelease = true)
    (hr : (publication cpu ts A B).Is (1, r) xr) (hrp : xr.ins.ret = true) (hrr : xr.ins.rd = true)
    (hrl : r < (B.code).length)
    (hB : B.readOrder = some o') (ho' : o'.isAcquire = true)
    (hrf : (publication cpu ts A B).ReadsFrom (1, r) (some (0, w)))
    (hd : (publication cpu ts A B).ReadsFrom (1, (B.code).length) none) :
    ¬ (publication cpu ts A B).actions.Coherent := by
  intro hc
  have hwl : w < 1 + (A.code).length := by
    have := (List.getElem?_eq_some_iff.1 hw).1
    simpa [code, publication, Run.of, events, Item.events, Item.code, Nat.add_comm] using this
  have hlast : (publication cpu ts A B).Is (1, (B.code).length) ⟨userLoad, 0, none⟩ := by
    simp [Is, code, publication, Run.of, events, Item.events, Item.code, Item.loc, Item.pairOf]
  have hfirst : (publication cpu ts A B).Is (0, 0) ⟨userStore, 0, none⟩ := by
    simp [Is, code, publication, Run.of, events, Item.events, Item.code, Item.loc, Item.pairOf]
  have hb : (publication cpu ts A B).HappensBefore (0, 0) (1, (B.code).length) := by
    refine .sync ⟨(0, w), (0, w), (1, r), .inl ⟨?_, .inr ⟨rfl, by show 0 < w; omega⟩⟩, ⟨_, hw, hww⟩, .head, hrf,
      ⟨_, hr, hrr⟩, by simp, .inl ⟨?_, .inr ⟨rfl, hrl⟩⟩⟩
    · exact ⟨[.user userStore 0], A, o, xw, ⟨⟨[], rfl⟩, by simp [events, Item.events, Item.code]; omega,
        by simp [events, Item.events, Item.code]; exact hwl⟩, hw, hwp, hA, ho⟩
    · exact ⟨[], B, o', xr, ⟨⟨_, rfl⟩, by simp [events], by simpa [events, Item.events] using hrl⟩, hr, hrp, hB, ho'⟩
  have := hc.writeRead (0, 0) (1, (B.code).length) none hb ⟨_, hfirst, rfl⟩ ⟨_, hlast, rfl⟩
    (by unfold Is at hfirst hlast; simp [actions, hfirst, hlast]) hd
  simp at this

/-- The exceptions are real: on each of these back ends there is a program, with accepted orders only, in which a thread
sees the flag another thread set after writing data, and does not see the data.
SPARC in RMO mode: acquire loads.  AArch64 without and with LSE: a failing compare-and-exchange with orders release and
acquire.  AArch32: acquire loads of 8 bytes (reordered by the compiler).  Kernel helpers on ARM: a failing
compare-and-exchange. -/
theorem C50_publication_violated :
    ∀ b ∈ [.sparc, .aarch64 false false, .aarch64 false true, .aarch64 true false, .aarch64 true true, .aarch32 true,
        .linuxArm],
      ∃ R : Run (Backend.cpu b), R.Valid ∧ R.Only b ∧ (∀ t, ∀ it ∈ R.prog t, it.accepts = true) ∧
        ¬ R.actions.Coherent := by
  have acc : ∀ {cpu ts A B}, A.accepts = true → B.accepts = true →
      ∀ t, ∀ it ∈ (publication cpu ts A B).prog t, it.accepts = true := by
    intro cpu ts A B hA hB t it h
    match t with
    | 0 | 1 =>
      simp [publication, Run.of] at h
      rcases h with rfl | rfl <;> first | assumption | rfl
    | t + 2 => simp [publication, Run.of] at h
  have only : ∀ {cpu ts A B b}, A.backend = some b → B.backend = some b → (publication cpu ts A B).Only b := by
    intro cpu ts A B b hA hB t it h b' hb'
    match t with
    | 0 =>
      simp [publication, Run.of] at h
      rcases h with rfl | rfl
      · cases hb'
      · rw [hA] at hb'; exact (Option.some.inj hb').symm
    | 1 =>
      simp [publication, Run.of] at h
      rcases h with rfl | rfl
      · rw [hB] at hb'; exact (Option.some.inj hb').symm
      · cases hb'
    | t + 2 => simp [publication, Run.of] at h
  have arm : ∀ lse rcpc, ∃ R : Run .aarch64, R.Valid ∧ R.Only (.aarch64 lse rcpc) ∧
      (∀ t, ∀ it ∈ R.prog t, it.accepts = true) ∧ ¬ R.actions.Coherent := by
    intro lse rcpc
    refine ⟨publication .aarch64 [[(0, 2), (0, 3)], [(4, 0), (1, 0)]]
      (.op (.aarch64 lse rcpc) .store .release 0 1) (.op (.aarch64 lse rcpc) (.casFail .acquire) .release 0 1), ?_⟩
    refine ⟨Check.valid (n := 2) publication_end (by cases lse <;> cases rcpc <;> decide +kernel), only rfl rfl,
      acc rfl rfl, ?_⟩
    cases lse
    all_goals
      refine not_coherent (w := 1) (r := 0) rfl rfl rfl (by decide) rfl rfl rfl rfl rfl (by cases rcpc <;> decide) rfl rfl ?_ ?_
      · exact readsFrom_some (n := 2) publication_end rfl rfl rfl rfl
          (by cases rcpc <;> decide) (by cases rcpc <;> decide +kernel)
      · exact readsFrom_none (n := 2) publication_end rfl (by cases rcpc <;> decide +kernel)
  intro b hb
  simp only [List.mem_cons, List.not_mem_nil, or_false] at hb
  rcases hb with rfl | rfl | rfl | rfl | rfl | rfl | rfl
  · suffices ∃ R : Run .sparc, R.Valid ∧ R.Only .sparc ∧ (∀ t, ∀ it ∈ R.prog t, it.accepts = true) ∧
      ¬ R.actions.Coherent from this
    refine ⟨publication .sparc [[(0, 2), (0, 0), (0, 3)], [(4, 0), (0, 0), (1, 0)]]
      (.op .sparc .store .release 0 1) (.op .sparc .load .acquire 0 1),
      Check.valid (n := 2) publication_end (by decide +kernel), only rfl rfl, acc rfl rfl,
      not_coherent (w := 2) (r := 0) rfl rfl rfl (by decide) rfl rfl rfl rfl rfl (by decide) rfl rfl ?_ ?_⟩
    · exact readsFrom_some (n := 2) publication_end rfl rfl rfl rfl (by decide) (by decide +kernel)
    · exact readsFrom_none (n := 2) publication_end rfl (by decide +kernel)
  · exact arm false false
  · exact arm false true
  · exact arm true false
  · exact arm true true
  · suffices ∃ R : Run .aarch32, R.Valid ∧ R.Only (.aarch32 true) ∧ (∀ t, ∀ it ∈ R.prog t, it.accepts = true) ∧
      ¬ R.actions.Coherent from this
    refine ⟨publication .aarch32 [[(0, 2), (0, 0), (0, 3)], [(4, 0), (1, 0)]]
      (.op (.aarch32 true) .store .release 0 1) (.op (.aarch32 true) .load .acquire 0 1), ?_, only rfl rfl, acc rfl rfl,
      not_coherent (w := 2) (r := 0) rfl rfl rfl (by decide) rfl rfl rfl rfl rfl (by decide) rfl rfl ?_ ?_⟩
    · exact Check.valid (n := 2) publication_end (by decide +kernel)
    · exact readsFrom_some (n := 2) publication_end rfl rfl rfl rfl (by decide) (by decide +kernel)
    · exact readsFrom_none (n := 2) publication_end rfl (by decide +kernel)
  · suffices ∃ R : Run .arm, R.Valid ∧ R.Only .linuxArm ∧ (∀ t, ∀ it ∈ R.prog t, it.accepts = true) ∧
      ¬ R.actions.Coherent from this
    refine ⟨publication .arm [[(0, 2), (0, 0), (0, 3)], [(0, 0), (0, 0), (0, 0), (4, 0), (1, 0)]]
      (.op .linuxArm .store .release 0 1) (.op .linuxArm (.casFail .acquire) .acquire 0 1), ?_, only rfl rfl,
      acc rfl rfl,
      not_coherent (w := 2) (r := 3) rfl rfl rfl (by decide) rfl rfl rfl rfl rfl (by decide) rfl rfl ?_ ?_⟩
    · exact Check.valid (n := 2) publication_end (by decide +kernel)
    · exact readsFrom_some (n := 2) publication_end rfl rfl rfl rfl (by decide) (by decide +kernel)
    · exact readsFrom_none (n := 2) publication_end rfl (by decide +kernel)

/-- x86 with inline assembly: a consume fence emits nothing, and the compiler may read the data before the flag. -/
theorem C50_consume_fence_violated :
    ∃ R : Run .x86, R.Valid ∧ R.Only .gccX86 ∧ (∀ t, ∀ it ∈ R.prog t, it.accepts = true) ∧ ¬ R.actions.Coherent := by
  let R : Run .x86 := Run.of .x86
    [[.user userStore 0, .op .gccX86 .store .release 0 1], [.op .gccX86 .load .relaxed 0 1, .fence .gccX86 .consume, .user userLoad 0]]
    [[(0, 2), (0, 0), (0, 3)], [(4, 0), (1, 0)]]
  have hn : ∀ t, 2 ≤ t → R.prog t = [] := fun t h => by simp [R, Run.of, h]
  refine ⟨R, Check.valid (n := 2) hn (by decide +kernel), ?_, ?_, fun hc => ?_⟩
  · intro t it h b hb
    match t with
    | 0 => simp [R, Run.of] at h; rcases h with rfl | rfl <;> cases hb; rfl
    | 1 => simp [R, Run.of] at h; rcases h with rfl | rfl | rfl <;> cases hb <;> rfl
    | t + 2 => simp [R, Run.of] at h
  · intro t it h
    match t with
    | 0 => simp [R, Run.of] at h; rcases h with rfl | rfl <;> rfl
    | 1 => simp [R, Run.of] at h; rcases h with rfl | rfl | rfl <;> rfl
    | t + 2 => simp [R, Run.of] at h
  · have hrf : R.ReadsFrom (1, 0) (some (0, 2)) :=
      readsFrom_some (n := 2) hn rfl rfl rfl rfl (by decide) (by decide +kernel)
    have hd : R.ReadsFrom (1, 1) none := readsFrom_none (n := 2) hn rfl (by decide +kernel)
    have hb : R.HappensBefore (0, 0) (1, 1) := by
      refine .sync ⟨(0, 2), (0, 2), (1, 0), .inl ⟨?_, .inr ⟨rfl, by decide⟩⟩, ⟨_, rfl, rfl⟩, .head, hrf,
        ⟨_, rfl, rfl⟩, by decide, .inr ⟨rfl, [.op .gccX86 .load .relaxed 0 1], .gccX86, .consume, _, rfl, rfl, by decide, by decide⟩⟩
      exact ⟨[.user userStore 0], .op .gccX86 .store .release 0 1, .release, _, ⟨⟨[], rfl⟩, by decide, by decide⟩, rfl,
        rfl, rfl, rfl⟩
    have := hc.writeRead (0, 0) (1, 1) none hb ⟨_, rfl, rfl⟩ ⟨_, rfl, rfl⟩ rfl hd
    simp at this

end Verif.Mca
