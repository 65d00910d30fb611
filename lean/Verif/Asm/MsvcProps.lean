import Verif.Asm.MsvcLemmas

/-
Atomic objects on Windows.
What is proved about them: `C48_*`, that each function does what its operation prescribes, for all arguments and all
interference; `C49_*`, that an object on which any number of cores execute all operations is linearizable.
-/

set_option linter.unusedSimpArgs false
set_option linter.unusedVariables false

namespace Verif.Asm

/-! ### The `__asm` blocks -/

/-- 32-bit x86, `__asm` blocks for objects of 1 byte: each function does what its operation prescribes. -/
theorem C48_msvc_asm_1 :
    Msvc1.fetchAdd.Implements Integral.spec .fetchAdd ∧
    Msvc1.exchange.Implements Integral.spec .exchange ∧
    Msvc1.compareExchangeStrong.Implements Integral.spec (fun a => .casStrong a.1 a.2) ∧
    Msvc1.fetchAnd.Implements Integral.spec .fetchAnd ∧
    Msvc1.fetchOr.Implements Integral.spec .fetchOr ∧
    Msvc1.fetchXor.Implements Integral.spec .fetchXor ∧
    Msvc1.fetchNegate.Implements Integral.spec (fun _ => .fetchNegate) ∧
    Msvc1.negate.Implements Integral.spec (fun _ => .negate) ∧
    Msvc1.negateAndTest.Implements Integral.spec (fun _ => .negateAndTest) ∧
    Msvc1.opaqueNegate.Implements Integral.spec (fun _ => .opaqueNegate) ∧
    Msvc1.bitwiseAnd.Implements Integral.spec .bitwiseAnd ∧
    Msvc1.bitwiseOr.Implements Integral.spec .bitwiseOr ∧
    Msvc1.bitwiseXor.Implements Integral.spec .bitwiseXor ∧
    Msvc1.fetchComplement.Implements Integral.spec (fun _ => .fetchComplement) ∧
    Msvc1.bitwiseComplement.Implements Integral.spec (fun _ => .bitwiseComplement) ∧
    Msvc1.complementAndTest.Implements Integral.spec (fun _ => .complementAndTest) ∧
    Msvc1.opaqueComplement.Implements Integral.spec (fun _ => .opaqueComplement) ∧
    Msvc1.opaqueAdd.Implements Integral.spec .opaqueAdd ∧
    Msvc1.opaqueSub.Implements Integral.spec .opaqueSub ∧
    Msvc1.opaqueNegateLock.Implements Integral.spec (fun _ => .opaqueNegate) ∧
    Msvc1.opaqueAnd.Implements Integral.spec .opaqueAnd ∧
    Msvc1.opaqueOr.Implements Integral.spec .opaqueOr ∧
    Msvc1.opaqueXor.Implements Integral.spec .opaqueXor ∧
    Msvc1.opaqueComplementLock.Implements Integral.spec (fun _ => .opaqueComplement) ∧
    Msvc1.addAndTest.Implements Integral.spec .addAndTest ∧
    Msvc1.subAndTest.Implements Integral.spec .subAndTest ∧
    Msvc1.andAndTest.Implements Integral.spec .andAndTest ∧
    Msvc1.orAndTest.Implements Integral.spec .orAndTest ∧
    Msvc1.xorAndTest.Implements Integral.spec .xorAndTest :=
  ⟨Msvc1.fetchAdd_ok, Msvc1.exchange_ok, Msvc1.compareExchangeStrong_ok, Msvc1.fetchAnd_ok, Msvc1.fetchOr_ok,
    Msvc1.fetchXor_ok, Msvc1.fetchNegate_ok, Msvc1.negate_ok, Msvc1.negateAndTest_ok, Msvc1.opaqueNegate_ok,
    Msvc1.bitwiseAnd_ok, Msvc1.bitwiseOr_ok, Msvc1.bitwiseXor_ok, Msvc1.fetchComplement_ok,
    Msvc1.bitwiseComplement_ok, Msvc1.complementAndTest_ok, Msvc1.opaqueComplement_ok, Msvc1.opaqueAdd_ok,
    Msvc1.opaqueSub_ok, Msvc1.opaqueNegateLock_ok, Msvc1.opaqueAnd_ok, Msvc1.opaqueOr_ok, Msvc1.opaqueXor_ok,
    Msvc1.opaqueComplementLock_ok, Msvc1.addAndTest_ok, Msvc1.subAndTest_ok, Msvc1.andAndTest_ok,
    Msvc1.orAndTest_ok, Msvc1.xorAndTest_ok⟩

/-- 32-bit x86, `__asm` blocks for objects of 2 bytes: each function does what its operation prescribes. -/
theorem C48_msvc_asm_2 :
    Msvc2.fetchAdd.Implements Integral.spec .fetchAdd ∧
    Msvc2.exchange.Implements Integral.spec .exchange ∧
    Msvc2.compareExchangeStrong.Implements Integral.spec (fun a => .casStrong a.1 a.2) ∧
    Msvc2.fetchAnd.Implements Integral.spec .fetchAnd ∧
    Msvc2.fetchOr.Implements Integral.spec .fetchOr ∧
    Msvc2.fetchXor.Implements Integral.spec .fetchXor ∧
    Msvc2.fetchNegate.Implements Integral.spec (fun _ => .fetchNegate) ∧
    Msvc2.negate.Implements Integral.spec (fun _ => .negate) ∧
    Msvc2.negateAndTest.Implements Integral.spec (fun _ => .negateAndTest) ∧
    Msvc2.opaqueNegate.Implements Integral.spec (fun _ => .opaqueNegate) ∧
    Msvc2.bitwiseAnd.Implements Integral.spec .bitwiseAnd ∧
    Msvc2.bitwiseOr.Implements Integral.spec .bitwiseOr ∧
    Msvc2.bitwiseXor.Implements Integral.spec .bitwiseXor ∧
    Msvc2.fetchComplement.Implements Integral.spec (fun _ => .fetchComplement) ∧
    Msvc2.bitwiseComplement.Implements Integral.spec (fun _ => .bitwiseComplement) ∧
    Msvc2.complementAndTest.Implements Integral.spec (fun _ => .complementAndTest) ∧
    Msvc2.opaqueComplement.Implements Integral.spec (fun _ => .opaqueComplement) ∧
    Msvc2.opaqueAdd.Implements Integral.spec .opaqueAdd ∧
    Msvc2.opaqueSub.Implements Integral.spec .opaqueSub ∧
    Msvc2.opaqueNegateLock.Implements Integral.spec (fun _ => .opaqueNegate) ∧
    Msvc2.opaqueAnd.Implements Integral.spec .opaqueAnd ∧
    Msvc2.opaqueOr.Implements Integral.spec .opaqueOr ∧
    Msvc2.opaqueXor.Implements Integral.spec .opaqueXor ∧
    Msvc2.opaqueComplementLock.Implements Integral.spec (fun _ => .opaqueComplement) ∧
    Msvc2.addAndTest.Implements Integral.spec .addAndTest ∧
    Msvc2.subAndTest.Implements Integral.spec .subAndTest ∧
    Msvc2.andAndTest.Implements Integral.spec .andAndTest ∧
    Msvc2.orAndTest.Implements Integral.spec .orAndTest ∧
    Msvc2.xorAndTest.Implements Integral.spec .xorAndTest ∧
    Msvc2.bitTestAndSet.Implements Integral.spec .bitTestAndSet ∧
    Msvc2.bitTestAndReset.Implements Integral.spec .bitTestAndReset ∧
    Msvc2.bitTestAndComplement.Implements Integral.spec .bitTestAndComplement :=
  ⟨Msvc2.fetchAdd_ok, Msvc2.exchange_ok, Msvc2.compareExchangeStrong_ok, Msvc2.fetchAnd_ok, Msvc2.fetchOr_ok,
    Msvc2.fetchXor_ok, Msvc2.fetchNegate_ok, Msvc2.negate_ok, Msvc2.negateAndTest_ok, Msvc2.opaqueNegate_ok,
    Msvc2.bitwiseAnd_ok, Msvc2.bitwiseOr_ok, Msvc2.bitwiseXor_ok, Msvc2.fetchComplement_ok,
    Msvc2.bitwiseComplement_ok, Msvc2.complementAndTest_ok, Msvc2.opaqueComplement_ok, Msvc2.opaqueAdd_ok,
    Msvc2.opaqueSub_ok, Msvc2.opaqueNegateLock_ok, Msvc2.opaqueAnd_ok, Msvc2.opaqueOr_ok, Msvc2.opaqueXor_ok,
    Msvc2.opaqueComplementLock_ok, Msvc2.addAndTest_ok, Msvc2.subAndTest_ok, Msvc2.andAndTest_ok,
    Msvc2.orAndTest_ok, Msvc2.xorAndTest_ok, Msvc2.bitTestAndSet_ok, Msvc2.bitTestAndReset_ok,
    Msvc2.bitTestAndComplement_ok⟩

/-- 32-bit x86, `__asm` blocks for objects of 4 bytes: each function does what its operation prescribes. -/
theorem C48_msvc_asm_4 :
    Msvc4.fetchNegate.Implements Integral.spec (fun _ => .fetchNegate) ∧
    Msvc4.negate.Implements Integral.spec (fun _ => .negate) ∧
    Msvc4.negateAndTest.Implements Integral.spec (fun _ => .negateAndTest) ∧
    Msvc4.opaqueNegate.Implements Integral.spec (fun _ => .opaqueNegate) ∧
    Msvc4.bitwiseAnd.Implements Integral.spec .bitwiseAnd ∧
    Msvc4.bitwiseOr.Implements Integral.spec .bitwiseOr ∧
    Msvc4.bitwiseXor.Implements Integral.spec .bitwiseXor ∧
    Msvc4.fetchComplement.Implements Integral.spec (fun _ => .fetchComplement) ∧
    Msvc4.bitwiseComplement.Implements Integral.spec (fun _ => .bitwiseComplement) ∧
    Msvc4.complementAndTest.Implements Integral.spec (fun _ => .complementAndTest) ∧
    Msvc4.opaqueComplement.Implements Integral.spec (fun _ => .opaqueComplement) ∧
    Msvc4.opaqueAdd.Implements Integral.spec .opaqueAdd ∧
    Msvc4.opaqueSub.Implements Integral.spec .opaqueSub ∧
    Msvc4.opaqueNegateLock.Implements Integral.spec (fun _ => .opaqueNegate) ∧
    Msvc4.opaqueAnd.Implements Integral.spec .opaqueAnd ∧
    Msvc4.opaqueOr.Implements Integral.spec .opaqueOr ∧
    Msvc4.opaqueXor.Implements Integral.spec .opaqueXor ∧
    Msvc4.opaqueComplementLock.Implements Integral.spec (fun _ => .opaqueComplement) ∧
    Msvc4.addAndTest.Implements Integral.spec .addAndTest ∧
    Msvc4.subAndTest.Implements Integral.spec .subAndTest ∧
    Msvc4.andAndTest.Implements Integral.spec .andAndTest ∧
    Msvc4.orAndTest.Implements Integral.spec .orAndTest ∧
    Msvc4.xorAndTest.Implements Integral.spec .xorAndTest ∧
    Msvc4.bitTestAndComplement.Implements Integral.spec .bitTestAndComplement ∧
    Msvc4.bitTestAndSet.Implements Integral.spec .bitTestAndSet ∧
    Msvc4.bitTestAndReset.Implements Integral.spec .bitTestAndReset :=
  ⟨Msvc4.fetchNegate_ok, Msvc4.negate_ok, Msvc4.negateAndTest_ok, Msvc4.opaqueNegate_ok, Msvc4.bitwiseAnd_ok,
    Msvc4.bitwiseOr_ok, Msvc4.bitwiseXor_ok, Msvc4.fetchComplement_ok, Msvc4.bitwiseComplement_ok,
    Msvc4.complementAndTest_ok, Msvc4.opaqueComplement_ok, Msvc4.opaqueAdd_ok, Msvc4.opaqueSub_ok,
    Msvc4.opaqueNegateLock_ok, Msvc4.opaqueAnd_ok, Msvc4.opaqueOr_ok, Msvc4.opaqueXor_ok,
    Msvc4.opaqueComplementLock_ok, Msvc4.addAndTest_ok, Msvc4.subAndTest_ok, Msvc4.andAndTest_ok,
    Msvc4.orAndTest_ok, Msvc4.xorAndTest_ok, Msvc4.bitTestAndComplement_ok, Msvc4.bitTestAndSet_ok,
    Msvc4.bitTestAndReset_ok⟩

/-- 32-bit x86, `__asm` blocks for objects of 8 bytes: each function does what its operation prescribes. -/
theorem C48_msvc_asm_8 :
    Msvc8.storeAvx.Implements Integral.spec .store ∧
    Msvc8.storeSse2.Implements Integral.spec .store ∧
    Msvc8.storeX87.Implements Integral.spec .store ∧
    Msvc8.storeLoop.Implements Integral.spec .store ∧
    Msvc8.loadAvx.Implements Integral.spec (fun _ => .load) ∧
    Msvc8.loadSse2.Implements Integral.spec (fun _ => .load) ∧
    Msvc8.loadX87.Implements Integral.spec (fun _ => .load) ∧
    Msvc8.loadCas.Implements Integral.spec (fun _ => .load) ∧
    Msvc8.cas.Implements Integral.spec (fun a => .casStrong a.1 a.2) ∧
    Msvc8.exchange.Implements Integral.spec .exchange :=
  ⟨Msvc8.storeAvx_ok, Msvc8.storeSse2_ok, Msvc8.storeX87_ok, Msvc8.storeLoop_ok, Msvc8.loadAvx_ok,
    Msvc8.loadSse2_ok, Msvc8.loadX87_ok, Msvc8.loadCas_ok, Msvc8.cas_ok, Msvc8.exchange_ok⟩

/-! ### Which interlocked functions are called -/

open Interlocked

/-- ARM: every operation of the object that is not a load or a store calls the interlocked function for its type and
the operation, with the arguments given, and that function guarantees the order demanded. -/
theorem C48_msvc_arm_calls {cc : Compiler} (hcc : OnArm cc) {N : Nat} (hN : N ∈ widths) (o f : Order.MO) :
    (∀ g : Fetch, ∃ s : Strength,
      resolve cc (Arm.use N o.val g) = some (⟨⟨g.prim, N, s⟩, [.param 0 N, .param 1 N]⟩, [0, 1]) ∧ s.covers o.val) ∧
    (∃ s : Strength, resolve cc (Arm.compareExchangeStrong N (Order.casCommonVal o f)) =
      some (⟨⟨.compareExchange, N, s⟩, [.param 0 N, .param 1 N, .param 2 N]⟩, [0, 2, 3]) ∧ s.covers o.val ∧ s.covers f.val) ∧
    (∃ s : Strength, resolve cc (ArmExtra.bitTestAndSet 32 o.val) =
      some (⟨⟨.bts, 32, s⟩, [.param 0 32, .param 1 32]⟩, [0, 1]) ∧ s.covers o.val) ∧
    (∃ s : Strength, resolve cc (ArmExtra.bitTestAndReset 32 o.val) =
      some (⟨⟨.btr, 32, s⟩, [.param 0 32, .param 1 32]⟩, [0, 1]) ∧ s.covers o.val) := by
  refine ⟨Arm.fetch_right hcc hN o, ?_, (Arm.bit_right hcc o).1, (Arm.bit_right hcc o).2⟩
  obtain ⟨s, hs, hc⟩ := Arm.cas_right hcc hN o f
  exact ⟨s, hs, by revert hc; cases o <;> cases f <;> cases s <;> decide⟩

/-! ### Linearizability -/

/-- ARM, objects of 1, 2, 4 and 8 bytes: concurrent calls of all operations are linearizable. -/
theorem C49_msvc_arm {cc : Compiler} (hcc : OnArm cc) {R N : Nat} (hN : N ∈ widths) (h : N ≤ R) :
    AtomicCalls fun _ => Arm.routine R N cc :=
  fun _ v₀ hb => linearizable_of_routines (fun c => Arm.routine_ok hcc hN h c) hb v₀

/-- 64-bit x86, objects of 1, 2, 4 and 8 bytes. -/
theorem C49_msvc_amd64 {ver R N : Nat} (hN : N ∈ widths) (hver : since64 N ≤ ver) (h : N ≤ R) :
    AtomicCalls fun _ => X86.routine64 R N (.msvc .amd64 ver) :=
  fun _ v₀ hb => linearizable_of_routines (fun c => X86.routine64_ok hN hver h c) hb v₀

/-- 64-bit x86, objects of 16 bytes. -/
theorem C49_msvc_amd64_16 {ver : Nat} (hver : since64 128 ≤ ver) (avx : Bool) :
    AtomicCalls (X86.routine16 128 (.msvc .amd64 ver) avx) :=
  fun base v₀ hb => linearizable_of_routines
    (fun c => (X86.core16_ok hver avx base (c.order = .seqCst)).routine true c.op) hb v₀

/-- 32-bit x86, objects of 1 byte. -/
theorem C49_msvc_x86_1 (o : MsvcCfg) (ver : Nat) : AtomicCalls fun _ => Msvc1.object o (.msvc .x86 ver) :=
  fun _ v₀ hb => linearizable_of_routines (fun c => Msvc1.routine_ok o (Msvc1.select_ok ver _) c.op) hb v₀

/-- 32-bit x86, objects of 2 bytes. -/
theorem C49_msvc_x86_2 (o : MsvcCfg) (ver : Nat) : AtomicCalls fun _ => Msvc2.object o (.msvc .x86 ver) :=
  fun _ v₀ hb => linearizable_of_routines (fun c => Msvc2.routine_ok o (Msvc2.select_ok ver _) c.op) hb v₀

/-- 32-bit x86, objects of 4 bytes. -/
theorem C49_msvc_x86_4 (o : MsvcCfg) (ver : Nat) : AtomicCalls fun _ => Msvc4.object o (.msvc .x86 ver) :=
  fun _ v₀ hb => linearizable_of_routines (fun c => Msvc4.routine_ok o (Msvc4.core_ok ver _) c.op) hb v₀

/-- 32-bit x86, objects of 8 bytes, aligned or not. -/
theorem C49_msvc_x86_8 (ver : Nat) (u : Msvc8.Unit8) : AtomicCalls (Msvc8.routine (.msvc .x86 ver) u) :=
  fun base v₀ hb => linearizable_of_routines
    (fun c => (Msvc8.core_ok ver u base (c.order = .seqCst)).routine true c.op) hb v₀

/-- Other processors, objects of 4 bytes, for all compilers. -/
theorem C49_windows {R : Nat} (h : 32 ≤ R) (cc : Compiler) : AtomicCalls fun _ => Windows.routine R cc :=
  fun _ v₀ hb => linearizable_of_routines (fun c => (Windows.core_ok h cc).routine false c.op) hb v₀

/-! ### The hypotheses -/

example : OnArm (.msvc .arm64 1944) := ⟨.arm64, 1944, rfl, .inr (.inl rfl), by decide⟩
example : 16 ∈ widths ∧ since64 16 ≤ 1900 ∧ ¬ since64 16 ≤ 1500 := by decide
/-- The oldest compilers for 32-bit x86 use `__asm` for 1 byte and loops for `fetch_and` of 4 bytes; the newest do
not. -/
example : ((Compiler.msvc .x86 1310).call ⟨.compareExchange, 8, .full⟩).isSome = false ∧
    ((Compiler.msvc .x86 1944).call ⟨.compareExchange, 8, .full⟩).isSome = true ∧
    (resolve (.msvc .x86 1310) (X86.fetchAnd 32)).isSome = false ∧
    (resolve (.msvc .x86 1944) (X86.fetchAnd 32)).isSome = true := by decide +kernel
/-- `covers` is not trivial: a function that only acquires does not do for `memory_order_release`. -/
example : Strength.acquire.covers Order.MO.acquire.val = true ∧ Strength.acquire.covers Order.MO.release.val = false ∧
    Strength.acquire.covers Order.MO.seqCst.val = false ∧ Strength.relaxed.covers Order.MO.consume.val = false := by decide

end Verif.Asm
