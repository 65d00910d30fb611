import Verif.Asm.X86DcasOps
import Verif.Asm.X86DcasProofs
import Verif.Asm.LoopLemmas

/-
Atomic objects on x86 of the size of two registers: 8 bytes in 32-bit mode, 16 bytes in 64-bit mode.
What is proved about them: `C48_*`, that each function does what its operation prescribes, for all arguments,
all register assignments the compiler may choose and all interference; `C49_*`, that an object on which any number
of cores execute all operations is linearizable, whether it is aligned or not.
-/

set_option linter.unusedSimpArgs false
set_option linter.unusedVariables false

namespace Verif.Asm

open X86

theorem X86.aligned8 {base : BitVec 32} (h : (base &&& 7 == 0) = true) : base.toNat % 8 = 0 := by
  have h := congrArg BitVec.toNat (eq_of_beq h)
  rw [BitVec.toNat_and] at h
  change base.toNat &&& (2 ^ 3 - 1) = 0 at h
  rwa [Nat.and_two_pow_sub_one_eq_mod] at h

theorem X86.aligned16 {base : BitVec 64} (h : (base &&& 15 == 0) = true) : base.toNat % 16 = 0 := by
  have h := congrArg BitVec.toNat (eq_of_beq h)
  rw [BitVec.toNat_and] at h
  change base.toNat &&& (2 ^ 4 - 1) = 0 at h
  rwa [Nat.and_two_pow_sub_one_eq_mod] at h

/-! ### 8 bytes -/

theorem X86d8.storePicDeclared_ok : X86d8.storePicDeclared.Implements Integral.spec .store := by
  intro a
  asm_pair [X86d8.storePicDeclared, X86d8.storePic] half64 [0, 4]
    (fun pc x r => r 1 = x 1 ∧ r 2 = x 2 ∧ if pc = 0 then r 0 = x 0 ∧ r 43 = x 43 else r 43 = x 0 ∧ r 46 = x 43) [43] 8

/-- x86, objects of 8 bytes in 32-bit mode: each function does what its operation prescribes. -/
theorem C48_x86_dcas_8 :
    X86d8.storeAvx.Implements Integral.spec .store ∧
    X86d8.storeSse2.Implements Integral.spec .store ∧
    X86d8.storeSse.Implements Integral.spec .store ∧
    X86d8.storeX87.Implements Integral.spec .store ∧
    X86d8.storeLoop.Implements Integral.spec .store ∧
    X86d8.loadAvx.Implements Integral.spec (fun _ => .load) ∧
    X86d8.loadSse2.Implements Integral.spec (fun _ => .load) ∧
    X86d8.loadSse.Implements Integral.spec (fun _ => .load) ∧
    X86d8.loadX87.Implements Integral.spec (fun _ => .load) ∧
    X86d8.loadCas.Implements Integral.spec (fun _ => .load) ∧
    X86d8.loadCasBits.Implements Integral.spec (fun _ => .load) ∧
    X86d8.cas.Implements Integral.spec (fun a => .casStrong a.1 a.2) ∧
    X86d8.casSet.Implements Integral.spec (fun a => .casStrong a.1 a.2) ∧
    X86d8.casPic.Implements Integral.spec (fun a => .casStrong a.1 a.2) ∧
    X86d8.casPicSet.Implements Integral.spec (fun a => .casStrong a.1 a.2) ∧
    X86d8.exchange.Implements Integral.spec .exchange ∧
    X86d8.exchangeBits.Implements Integral.spec .exchange ∧
    X86d8.exchangeMinGw.Implements Integral.spec .exchange ∧
    X86d8.exchangePic.Implements Integral.spec .exchange ∧
    X86d8.exchangePicBits.Implements Integral.spec .exchange :=
  ⟨X86d8.storeAvx_ok, X86d8.storeSse2_ok, X86d8.storeSse_ok, X86d8.storeX87_ok, X86d8.storeLoop_ok,
    X86d8.loadAvx_ok, X86d8.loadSse2_ok, X86d8.loadSse_ok, X86d8.loadX87_ok, X86d8.loadCas_ok,
    X86d8.loadCasBits_ok, X86d8.cas_ok, X86d8.casSet_ok, X86d8.casPic_ok, X86d8.casPicSet_ok,
    X86d8.exchange_ok, X86d8.exchangeBits_ok, X86d8.exchangeMinGw_ok, X86d8.exchangePic_ok,
    X86d8.exchangePicBits_ok⟩

/-- The remaining block, `store` in code that preserves `ebx`, does so if `eax` and `esi` are declared as changed.
Missing: they are not, see `C48_x86_dcas_8_violated`. -/
theorem C48_x86_dcas_8_store_partial : X86d8.storePicDeclared.Implements Integral.spec .store :=
  X86d8.storePicDeclared_ok

theorem X86d8.core_ok (o : X86d8.Cfg) (base : BitVec 32) (seqCst : Bool) : (X86d8.core o base seqCst).Ok := by
  refine casBased_ok (Code.Does.once ?_) (fun v => Code.Does.once ?_) (fun v => Code.Does.once ?_) fun e d => ?_
  · unfold X86d8.load
    split
    · next h =>
      simp only [vector, aligned8 h, if_true]
      cases o.unit
      · exact X86d8.loadAvx_ok ()
      · exact X86d8.loadSse2_ok ()
      · exact X86d8.loadSse_ok ()
      · exact X86d8.loadX87_ok ()
    · split
      · exact X86d8.loadCasBits_ok ()
      · exact X86d8.loadCas_ok ()
  · unfold X86d8.store
    split
    · next h =>
      simp only [Bool.and_eq_true] at h
      simp only [vector, aligned8 h.2, if_true]
      cases o.unit
      · exact X86d8.storeAvx_ok v
      · exact X86d8.storeSse2_ok v
      · exact X86d8.storeSse_ok v
      · exact X86d8.storeX87_ok v
    · split
      · exact X86d8.storePicDeclared_ok v
      · exact X86d8.storeLoop_ok v
  · unfold X86d8.exchange_
    split
    · split
      · exact X86d8.exchangePicBits_ok v
      · exact X86d8.exchangePic_ok v
    · split
      · exact X86d8.exchangeMinGw_ok v
      · split
        · exact X86d8.exchangeBits_ok v
        · exact X86d8.exchange_ok v
  · unfold X86d8.compareExchange
    split
    · split
      · exact X86d8.casPic_ok (e, d)
      · exact X86d8.casPicSet_ok (e, d)
    · split
      · exact X86d8.cas_ok (e, d)
      · exact X86d8.casSet_ok (e, d)

/-- x86, objects of 8 bytes in 32-bit mode: concurrent calls of all operations are linearizable. -/
theorem C49_x86_dcas_8 (o : X86d8.Cfg) (ho : o.preserve = false) : X86.AtomicAt (X86d8.core o) := by
  intro base v₀ hb
  exact linearizable_of_routines (fun c => (X86d8.core_ok o base c.seqCst).routine true c.op) hb v₀

/-- The same in code that preserves `ebx`, with `store` corrected as in `C48_x86_dcas_8_store_partial`. -/
theorem C49_x86_dcas_8_preserve_partial (o : X86d8.Cfg) (ho : o.preserve = true) : X86.AtomicAt (X86d8.core o) := by
  intro base v₀ hb
  exact linearizable_of_routines (fun c => (X86d8.core_ok o base c.seqCst).routine true c.op) hb v₀

/-! ### 16 bytes -/

/-- x86, objects of 16 bytes in 64-bit mode: each function does what its operation prescribes. -/
theorem C48_x86_dcas_16 :
    X86d16.storeAvx.Implements Integral.spec .store ∧
    X86d16.storeLoop.Implements Integral.spec .store ∧
    X86d16.loadAvx.Implements Integral.spec (fun _ => .load) ∧
    X86d16.loadCas.Implements Integral.spec (fun _ => .load) ∧
    X86d16.loadCasBits.Implements Integral.spec (fun _ => .load) ∧
    X86d16.cas.Implements Integral.spec (fun a => .casStrong a.1 a.2) ∧
    X86d16.casSet.Implements Integral.spec (fun a => .casStrong a.1 a.2) ∧
    X86d16.casBits.Implements Integral.spec (fun a => .casStrong a.1 a.2) ∧
    X86d16.exchange.Implements Integral.spec .exchange ∧
    X86d16.exchangeBits.Implements Integral.spec .exchange :=
  ⟨X86d16.storeAvx_ok, X86d16.storeLoop_ok, X86d16.loadAvx_ok, X86d16.loadCas_ok, X86d16.loadCasBits_ok,
    X86d16.cas_ok, X86d16.casSet_ok, X86d16.casBits_ok, X86d16.exchange_ok, X86d16.exchangeBits_ok⟩

theorem X86d16.core_ok (o : X86d16.Cfg) (base : BitVec 64) (seqCst : Bool) : (X86d16.core o base seqCst).Ok := by
  refine casBased_ok (Code.Does.once ?_) (fun v => Code.Does.once ?_) (fun v => Code.Does.once ?_) fun e d => ?_
  · unfold X86d16.load
    split
    · next h =>
      simp only [Bool.and_eq_true] at h
      simp only [vector, aligned16 h.2, if_true]
      exact X86d16.loadAvx_ok ()
    · split
      · exact X86d16.loadCasBits_ok ()
      · exact X86d16.loadCas_ok ()
  · unfold X86d16.store
    split
    · next h =>
      simp only [Bool.and_eq_true] at h
      simp only [vector, aligned16 h.2, if_true]
      exact X86d16.storeAvx_ok v
    · exact X86d16.storeLoop_ok v
  · unfold X86d16.exchange_
    split
    · exact X86d16.exchangeBits_ok v
    · exact X86d16.exchange_ok v
  · unfold X86d16.compareExchange
    split
    · exact X86d16.casBits_ok (e, d)
    · split
      · exact X86d16.cas_ok (e, d)
      · exact X86d16.casSet_ok (e, d)

/-- x86, objects of 16 bytes in 64-bit mode: concurrent calls of all operations are linearizable. -/
theorem C49_x86_dcas_16 (o : X86d16.Cfg) : X86.AtomicAt (X86d16.core o) := by
  intro base v₀ hb
  exact linearizable_of_routines (fun c => (X86d16.core_ok o base c.seqCst).routine true c.op) hb v₀

end Verif.Asm
