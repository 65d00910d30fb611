import Verif.Order.Props

/-
The lists of exceptions of C19 and C22 are exact.
-/

namespace Verif.Order

/-- An operation with an accepted order that has acquire meaning has this meaning if and only if it is not in the list
`acquireBroken`, whatever the number of rounds of its loop. -/
theorem C19_acquire_exact (be : Backend) (k : Kind) (o : MO) (n : Nat)
    (hacc : k.accepts o = true) (ho : (k.readOrder o).isAcquire = true) :
    AcquireHolds be.hw (trace be k o n) ↔ acquireBroken be k o = false := by
  refine ⟨fun h => ?_, C19_acquire_partial be k o n hacc ho⟩
  cases hb : acquireBroken be k o
  · rfl
  · exact absurd h (C19_acquire_violated be k o n hacc ho hb)

/-- A seq_cst operation keeps its place before all seq_cst operations that follow it in the thread, from whatever back ends of
the processor, if and only if it is not in the list `scBroken`. -/
theorem C19_seq_cst_exact {cpu : Cpu} {b : Backend} (c : cpu.runs b = true) (k : Kind) (o : MO) (n : Nat)
    (h : k.isSeqCst o = true) :
    (∀ b' k' o' n', cpu.runs b' = true → k'.isSeqCst o' = true → InOrder cpu.hw (trace b k o n) (trace b' k' o' n')) ↔
      scBroken b k = false := by
  refine ⟨fun H => ?_, fun hb b' k' o' n' c' h' => C19_seq_cst_partial c c' k k' o o' n n' h h' hb⟩
  cases hb : scBroken b k
  · rfl
  exfalso
  cases b with
  | linuxArm =>
    cases k with
    | casFail f =>
      simp only [Kind.isSeqCst, Bool.and_eq_true, beq_iff_eq] at h
      obtain ⟨rfl, rfl⟩ := h
      have hw : cpu.hw = .weak := by cases cpu <;> first | rfl | cases c
      have := H .linuxArm .load .seqCst 0 c rfl (khCas false) vload.asRet [] rfl .rd rfl [] vload.asRet [fullFence] rfl .rd rfl []
      have := (ordered_no_access this (by simp)).2
      simp [HwKeeps, Hw.base, hw, Instr.asRet, vload] at this
    | _ => cases hb
  | gccSyncWide =>
    cases k with
    | store =>
      obtain rfl : o = .seqCst := by simpa [Kind.isSeqCst] using h
      have hw : cpu.hw = .weak := by cases cpu <;> first | rfl | cases c
      have c' : cpu.runs .gccSync = true := by cases cpu <;> first | rfl | cases c
      have := H .gccSync .load .seqCst 0 c' rfl [fullFence] lockTestAndSet.asPub [] rfl .wr rfl [] vload.asRet [fullFence] rfl .rd rfl []
      have := (ordered_no_access this (by simp)).2
      simp [HwKeeps, Hw.base, hw, Instr.asRet, Instr.asPub, vload, lockTestAndSet] at this
    | _ => cases hb
  | _ => cases hb

/-- `atomic_thread_fence` has the meaning of its order if and only if it is not in the list `fenceBroken`. -/
theorem C22_thread_fence_exact (be : Backend) (o : MO) :
    ((o.isAcquire = true → FenceAcquires be.hw (threadFence be o)) ∧
      (o.isRelease = true → FenceReleases be.hw (threadFence be o)) ∧
      (o = .seqCst → FenceFull be.hw (threadFence be o))) ↔ fenceBroken be o = false := by
  refine ⟨fun h => ?_, C22_thread_fence_partial be o⟩
  cases hb : fenceBroken be o
  · rfl
  exfalso
  have x86 : ¬ FenceAcquires .tso [] := by
    intro H
    have := (ordered_no_access (H userLoad userLoad .rd [] [] rfl rfl) (by simp)).1
    simp [CompKeeps, userLoad] at this
  obtain ⟨h1, h2, -⟩ := h
  cases be with
  | gccX86 =>
    cases o <;> first | (cases hb; done) | skip
    exact x86 (h1 rfl)
  | x86Wide m v =>
    cases m <;> cases o <;> first | (cases hb; done) | skip
    exact x86 (h1 rfl)
  | windows w =>
    cases w
    · cases o
      · cases hb
      · exact C22_windows_fence_violated.1 _ rfl (by decide) (h1 rfl)
      · exact C22_windows_fence_violated.1 _ rfl (by decide) (h1 rfl)
      · exact C22_windows_fence_violated.2 _ rfl (by decide) (h2 rfl)
      · exact C22_windows_fence_violated.1 _ rfl (by decide) (h1 rfl)
      · cases hb
    · cases hb
  | _ => cases hb

/-- Both directions have instances: SPARC and PowerPC for acquire operations, the kernel helper and ARM's instructions for
seq_cst, x86 and PowerPC for fences. -/
example : Kind.rmw.accepts .acquire = true ∧ acquireBroken .sparc .rmw .acquire = true ∧
    acquireBroken .ppc64 .rmw .acquire = false ∧ Cpu.arm.runs .linuxArm = true ∧
    (Kind.casFail .seqCst).isSeqCst .seqCst = true ∧ scBroken .linuxArm (.casFail .seqCst) = true ∧
    scBroken .gccArm (.casFail .seqCst) = false ∧ fenceBroken .gccX86 .consume = true ∧ fenceBroken .ppc64 .consume = false := by
  decide

end Verif.Order
