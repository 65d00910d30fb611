import Verif.Asm.X86Ops
import Verif.Asm.LoopLemmas
import Verif.Asm.X86Proofs

/-
Atomic objects on x86 of the size of a register.
What is proved about them: `C48_*`, that each function does what its operation prescribes, for all arguments,
all register assignments the compiler may choose and all interference; `C49_*`, that an object on which any number
of cores execute these functions is linearizable.  Written by tools/asmgen.py.
-/

namespace Verif.Asm

theorem X86x1.code_ok {R : Nat} (hR : 32 ≤ R) (set : Bool) : ∀ c : X86.Call 8, (X86x1.code R set c).Does c.op
  | ⟨.load, const, seqCst⟩ => by
    simp only [X86x1.code]
    exact plainLoad_ok (by omega) ()
  | ⟨.store v, const, seqCst⟩ => by
    simp only [X86x1.code]
    exact match seqCst with
      | true => Code.Does.store (show ((X86x1.exchange R).code v).Does (.exchange v) from X86x1.exchange_ok hR v)
      | false => plainStore_ok v
  | ⟨.exchange v, const, seqCst⟩ => by
    simp only [X86x1.code]
    exact X86x1.exchange_ok hR v
  | ⟨.casWeak e d, const, seqCst⟩ => by
    simp only [X86x1.code]
    refine Code.Does.weak (e := e) (d := d) ?_
    exact match set with | false => X86x1.compareExchangeStrong_ok hR (e, d) | true => X86x1.compareExchangeStrongSet_ok hR (e, d)
  | ⟨.casStrong e d, const, seqCst⟩ => by
    simp only [X86x1.code]
    exact match set with | false => X86x1.compareExchangeStrong_ok hR (e, d) | true => X86x1.compareExchangeStrongSet_ok hR (e, d)
  | ⟨.fetchAdd v, const, seqCst⟩ => by
    simp only [X86x1.code]
    exact X86x1.fetchAdd_ok hR v
  | ⟨.fetchSub v, const, seqCst⟩ => by
    simp only [X86x1.code]
    exact Code.Does.minus (show ((X86x1.fetchAdd R).code (-v)).Does (.fetchAdd (-v)) from X86x1.fetchAdd_ok hR (-v))
  | ⟨.fetchAnd v, const, seqCst⟩ => by
    simp only [X86x1.code]
    exact X86x1.fetchAnd_ok hR v
  | ⟨.fetchOr v, const, seqCst⟩ => by
    simp only [X86x1.code]
    exact X86x1.fetchOr_ok hR v
  | ⟨.fetchXor v, const, seqCst⟩ => by
    simp only [X86x1.code]
    exact X86x1.fetchXor_ok hR v
  | ⟨.fetchNegate, const, seqCst⟩ => by
    simp only [X86x1.code]
    exact X86x1.fetchNegate_ok hR ()
  | ⟨.fetchComplement, const, seqCst⟩ => by
    simp only [X86x1.code]
    exact X86x1.fetchComplement_ok hR ()
  | ⟨.add v, const, seqCst⟩ => by
    simp only [X86x1.code]
    exact Code.Does.map (show ((X86x1.fetchAdd R).code v).Does (.fetchAdd v) from X86x1.fetchAdd_ok hR v) fun _ _ _ hs => ⟨hs.1, by simp [newVal, value, hs.1, hs.2]⟩
  | ⟨.sub v, const, seqCst⟩ => by
    simp only [X86x1.code]
    exact Code.Does.map (Code.Does.minus (show ((X86x1.fetchAdd R).code (-v)).Does (.fetchAdd (-v)) from X86x1.fetchAdd_ok hR (-v))) fun _ _ _ hs => ⟨hs.1, by simp [newVal, value, hs.1, hs.2]⟩
  | ⟨.negate, const, seqCst⟩ => by
    simp only [X86x1.code]
    exact X86x1.negate_ok hR ()
  | ⟨.bitwiseAnd v, const, seqCst⟩ => by
    simp only [X86x1.code]
    exact X86x1.bitwiseAnd_ok hR v
  | ⟨.bitwiseOr v, const, seqCst⟩ => by
    simp only [X86x1.code]
    exact X86x1.bitwiseOr_ok hR v
  | ⟨.bitwiseXor v, const, seqCst⟩ => by
    simp only [X86x1.code]
    exact X86x1.bitwiseXor_ok hR v
  | ⟨.bitwiseComplement, const, seqCst⟩ => by
    simp only [X86x1.code]
    exact X86x1.bitwiseComplement_ok hR ()
  | ⟨.opaqueAdd v, const, seqCst⟩ => by
    simp only [X86x1.code]
    split
    · rename_i h; rw [h.2]; exact X86x1.opaqueAddOne_ok hR ()
    · exact X86x1.opaqueAdd_ok hR v
  | ⟨.opaqueSub v, const, seqCst⟩ => by
    simp only [X86x1.code]
    split
    · rename_i h; rw [h.2]; exact X86x1.opaqueSubOne_ok hR ()
    · exact X86x1.opaqueSub_ok hR v
  | ⟨.opaqueNegate, const, seqCst⟩ => by
    simp only [X86x1.code]
    exact X86x1.opaqueNegate_ok hR ()
  | ⟨.opaqueAnd v, const, seqCst⟩ => by
    simp only [X86x1.code]
    exact X86x1.opaqueAnd_ok hR v
  | ⟨.opaqueOr v, const, seqCst⟩ => by
    simp only [X86x1.code]
    exact X86x1.opaqueOr_ok hR v
  | ⟨.opaqueXor v, const, seqCst⟩ => by
    simp only [X86x1.code]
    exact X86x1.opaqueXor_ok hR v
  | ⟨.opaqueComplement, const, seqCst⟩ => by
    simp only [X86x1.code]
    exact X86x1.opaqueComplement_ok hR ()
  | ⟨.addAndTest v, const, seqCst⟩ => by
    simp only [X86x1.code]
    split
    · rename_i h; rw [h.2]; exact match set with | false => X86x1.addAndTestOne_ok hR () | true => X86x1.addAndTestOneSet_ok hR ()
    · exact match set with | false => X86x1.addAndTest_ok hR v | true => X86x1.addAndTestSet_ok hR v
  | ⟨.subAndTest v, const, seqCst⟩ => by
    simp only [X86x1.code]
    split
    · rename_i h; rw [h.2]; exact match set with | false => X86x1.subAndTestOne_ok hR () | true => X86x1.subAndTestOneSet_ok hR ()
    · exact match set with | false => X86x1.subAndTest_ok hR v | true => X86x1.subAndTestSet_ok hR v
  | ⟨.negateAndTest, const, seqCst⟩ => by
    simp only [X86x1.code]
    exact Code.Does.map (show ((X86x1.negate R).code ()).Does (.negate) from X86x1.negate_ok hR ()) fun _ _ _ hs => ⟨hs.1, by rw [hs.2]; simp [test, value]; rfl⟩
  | ⟨.andAndTest v, const, seqCst⟩ => by
    simp only [X86x1.code]
    exact match set with | false => X86x1.andAndTest_ok hR v | true => X86x1.andAndTestSet_ok hR v
  | ⟨.orAndTest v, const, seqCst⟩ => by
    simp only [X86x1.code]
    exact match set with | false => X86x1.orAndTest_ok hR v | true => X86x1.orAndTestSet_ok hR v
  | ⟨.xorAndTest v, const, seqCst⟩ => by
    simp only [X86x1.code]
    exact match set with | false => X86x1.xorAndTest_ok hR v | true => X86x1.xorAndTestSet_ok hR v
  | ⟨.complementAndTest, const, seqCst⟩ => by
    simp only [X86x1.code]
    exact Code.Does.map (show ((X86x1.bitwiseComplement R).code ()).Does (.bitwiseComplement) from X86x1.bitwiseComplement_ok hR ()) fun _ _ _ hs => ⟨hs.1, by rw [hs.2]; simp [test, value]; rfl⟩
  | ⟨.bitTestAndSet b, const, seqCst⟩ => by
    simp only [X86x1.code]
    exact Code.Does.map (show ((X86x1.fetchOr R).code (bit b)).Does (.fetchOr (bit b)) from X86x1.fetchOr_ok hR (bit b)) fun m _ _ hs => ⟨by rw [hs.1]; exact Integral.setsBit_or m b, by
        rw [hs.2]; simp only [testBit, value, bit, bit_and]⟩
  | ⟨.bitTestAndReset b, const, seqCst⟩ => by
    simp only [X86x1.code]
    exact Code.Does.map (show ((X86x1.fetchAnd R).code (~~~ bit b)).Does (.fetchAnd (~~~ bit b)) from X86x1.fetchAnd_ok hR (~~~ bit b)) fun m _ _ hs => ⟨by rw [hs.1]; exact Integral.setsBit_reset m b, by
        rw [hs.2]; simp only [testBit, value, bit, bit_and]⟩
  | ⟨.bitTestAndComplement b, const, seqCst⟩ => by
    simp only [X86x1.code]
    exact Code.Does.map (show ((X86x1.fetchXor R).code (bit b)).Does (.fetchXor (bit b)) from X86x1.fetchXor_ok hR (bit b)) fun m _ _ hs => ⟨by rw [hs.1]; exact Integral.setsBit_xor m b, by
        rw [hs.2]; simp only [testBit, value, bit, bit_and]⟩

/-- x86, objects of 1 byte: each function does what its operation prescribes. -/
theorem C48_x86_1 {R : Nat} (hR : 32 ≤ R) :
    (X86x1.fetchAdd R).Implements Integral.spec .fetchAdd ∧
    (X86x1.exchange R).Implements Integral.spec .exchange ∧
    (X86x1.compareExchangeStrong R).Implements Integral.spec (fun a => .casStrong a.1 a.2) ∧
    (X86x1.fetchAnd R).Implements Integral.spec .fetchAnd ∧
    (X86x1.fetchOr R).Implements Integral.spec .fetchOr ∧
    (X86x1.fetchXor R).Implements Integral.spec .fetchXor ∧
    (X86x1.fetchNegate R).Implements Integral.spec (fun _ => .fetchNegate) ∧
    (X86x1.fetchComplement R).Implements Integral.spec (fun _ => .fetchComplement) ∧
    (X86x1.negate R).Implements Integral.spec (fun _ => .negate) ∧
    (X86x1.bitwiseComplement R).Implements Integral.spec (fun _ => .bitwiseComplement) ∧
    (X86x1.bitwiseAnd R).Implements Integral.spec .bitwiseAnd ∧
    (X86x1.bitwiseOr R).Implements Integral.spec .bitwiseOr ∧
    (X86x1.bitwiseXor R).Implements Integral.spec .bitwiseXor ∧
    (X86x1.opaqueAddOne R).Implements Integral.spec (fun _ => .opaqueAdd 1) ∧
    (X86x1.opaqueAdd R).Implements Integral.spec .opaqueAdd ∧
    (X86x1.opaqueSubOne R).Implements Integral.spec (fun _ => .opaqueSub 1) ∧
    (X86x1.opaqueSub R).Implements Integral.spec .opaqueSub ∧
    (X86x1.opaqueNegate R).Implements Integral.spec (fun _ => .opaqueNegate) ∧
    (X86x1.opaqueAnd R).Implements Integral.spec .opaqueAnd ∧
    (X86x1.opaqueOr R).Implements Integral.spec .opaqueOr ∧
    (X86x1.opaqueXor R).Implements Integral.spec .opaqueXor ∧
    (X86x1.opaqueComplement R).Implements Integral.spec (fun _ => .opaqueComplement) ∧
    (X86x1.addAndTestOne R).Implements Integral.spec (fun _ => .addAndTest 1) ∧
    (X86x1.addAndTest R).Implements Integral.spec .addAndTest ∧
    (X86x1.subAndTestOne R).Implements Integral.spec (fun _ => .subAndTest 1) ∧
    (X86x1.subAndTest R).Implements Integral.spec .subAndTest ∧
    (X86x1.andAndTest R).Implements Integral.spec .andAndTest ∧
    (X86x1.orAndTest R).Implements Integral.spec .orAndTest ∧
    (X86x1.xorAndTest R).Implements Integral.spec .xorAndTest ∧
    (X86x1.compareExchangeStrongSet R).Implements Integral.spec (fun a => .casStrong a.1 a.2) ∧
    (X86x1.addAndTestOneSet R).Implements Integral.spec (fun _ => .addAndTest 1) ∧
    (X86x1.addAndTestSet R).Implements Integral.spec .addAndTest ∧
    (X86x1.subAndTestOneSet R).Implements Integral.spec (fun _ => .subAndTest 1) ∧
    (X86x1.subAndTestSet R).Implements Integral.spec .subAndTest ∧
    (X86x1.andAndTestSet R).Implements Integral.spec .andAndTest ∧
    (X86x1.orAndTestSet R).Implements Integral.spec .orAndTest ∧
    (X86x1.xorAndTestSet R).Implements Integral.spec .xorAndTest :=
  ⟨X86x1.fetchAdd_ok hR,
    X86x1.exchange_ok hR,
    X86x1.compareExchangeStrong_ok hR,
    X86x1.fetchAnd_ok hR,
    X86x1.fetchOr_ok hR,
    X86x1.fetchXor_ok hR,
    X86x1.fetchNegate_ok hR,
    X86x1.fetchComplement_ok hR,
    X86x1.negate_ok hR,
    X86x1.bitwiseComplement_ok hR,
    X86x1.bitwiseAnd_ok hR,
    X86x1.bitwiseOr_ok hR,
    X86x1.bitwiseXor_ok hR,
    X86x1.opaqueAddOne_ok hR,
    X86x1.opaqueAdd_ok hR,
    X86x1.opaqueSubOne_ok hR,
    X86x1.opaqueSub_ok hR,
    X86x1.opaqueNegate_ok hR,
    X86x1.opaqueAnd_ok hR,
    X86x1.opaqueOr_ok hR,
    X86x1.opaqueXor_ok hR,
    X86x1.opaqueComplement_ok hR,
    X86x1.addAndTestOne_ok hR,
    X86x1.addAndTest_ok hR,
    X86x1.subAndTestOne_ok hR,
    X86x1.subAndTest_ok hR,
    X86x1.andAndTest_ok hR,
    X86x1.orAndTest_ok hR,
    X86x1.xorAndTest_ok hR,
    X86x1.compareExchangeStrongSet_ok hR,
    X86x1.addAndTestOneSet_ok hR,
    X86x1.addAndTestSet_ok hR,
    X86x1.subAndTestOneSet_ok hR,
    X86x1.subAndTestSet_ok hR,
    X86x1.andAndTestSet_ok hR,
    X86x1.orAndTestSet_ok hR,
    X86x1.xorAndTestSet_ok hR⟩

/-- x86, objects of 1 byte: concurrent calls of all operations are linearizable. -/
theorem C49_x86_1 {R : Nat} (hR : 32 ≤ R) (set : Bool) : X86.Atomic (X86x1.code R set) := by
  intro base v₀ hb
  refine linearizable_of_correct (fun c => ?_) hb v₀
  have := X86x1.code_ok hR set c
  exact ⟨this.labels, this.loads, this.sound, this.ends⟩

theorem X86x2.code_ok {R : Nat} (hR : 32 ≤ R) (set : Bool) : ∀ c : X86.Call 16, (X86x2.code R set c).Does c.op
  | ⟨.load, const, seqCst⟩ => by
    simp only [X86x2.code]
    exact plainLoad_ok (by omega) ()
  | ⟨.store v, const, seqCst⟩ => by
    simp only [X86x2.code]
    exact match seqCst with
      | true => Code.Does.store (show ((X86x2.exchange R).code v).Does (.exchange v) from X86x2.exchange_ok hR v)
      | false => plainStore_ok v
  | ⟨.exchange v, const, seqCst⟩ => by
    simp only [X86x2.code]
    exact X86x2.exchange_ok hR v
  | ⟨.casWeak e d, const, seqCst⟩ => by
    simp only [X86x2.code]
    refine Code.Does.weak (e := e) (d := d) ?_
    exact match set with | false => X86x2.compareExchangeStrong_ok hR (e, d) | true => X86x2.compareExchangeStrongSet_ok hR (e, d)
  | ⟨.casStrong e d, const, seqCst⟩ => by
    simp only [X86x2.code]
    exact match set with | false => X86x2.compareExchangeStrong_ok hR (e, d) | true => X86x2.compareExchangeStrongSet_ok hR (e, d)
  | ⟨.fetchAdd v, const, seqCst⟩ => by
    simp only [X86x2.code]
    exact X86x2.fetchAdd_ok hR v
  | ⟨.fetchSub v, const, seqCst⟩ => by
    simp only [X86x2.code]
    exact Code.Does.minus (show ((X86x2.fetchAdd R).code (-v)).Does (.fetchAdd (-v)) from X86x2.fetchAdd_ok hR (-v))
  | ⟨.fetchAnd v, const, seqCst⟩ => by
    simp only [X86x2.code]
    exact X86x2.fetchAnd_ok hR v
  | ⟨.fetchOr v, const, seqCst⟩ => by
    simp only [X86x2.code]
    exact X86x2.fetchOr_ok hR v
  | ⟨.fetchXor v, const, seqCst⟩ => by
    simp only [X86x2.code]
    exact X86x2.fetchXor_ok hR v
  | ⟨.fetchNegate, const, seqCst⟩ => by
    simp only [X86x2.code]
    exact X86x2.fetchNegate_ok hR ()
  | ⟨.fetchComplement, const, seqCst⟩ => by
    simp only [X86x2.code]
    exact X86x2.fetchComplement_ok hR ()
  | ⟨.add v, const, seqCst⟩ => by
    simp only [X86x2.code]
    exact Code.Does.map (show ((X86x2.fetchAdd R).code v).Does (.fetchAdd v) from X86x2.fetchAdd_ok hR v) fun _ _ _ hs => ⟨hs.1, by simp [newVal, value, hs.1, hs.2]⟩
  | ⟨.sub v, const, seqCst⟩ => by
    simp only [X86x2.code]
    exact Code.Does.map (Code.Does.minus (show ((X86x2.fetchAdd R).code (-v)).Does (.fetchAdd (-v)) from X86x2.fetchAdd_ok hR (-v))) fun _ _ _ hs => ⟨hs.1, by simp [newVal, value, hs.1, hs.2]⟩
  | ⟨.negate, const, seqCst⟩ => by
    simp only [X86x2.code]
    exact X86x2.negate_ok hR ()
  | ⟨.bitwiseAnd v, const, seqCst⟩ => by
    simp only [X86x2.code]
    exact X86x2.bitwiseAnd_ok hR v
  | ⟨.bitwiseOr v, const, seqCst⟩ => by
    simp only [X86x2.code]
    exact X86x2.bitwiseOr_ok hR v
  | ⟨.bitwiseXor v, const, seqCst⟩ => by
    simp only [X86x2.code]
    exact X86x2.bitwiseXor_ok hR v
  | ⟨.bitwiseComplement, const, seqCst⟩ => by
    simp only [X86x2.code]
    exact X86x2.bitwiseComplement_ok hR ()
  | ⟨.opaqueAdd v, const, seqCst⟩ => by
    simp only [X86x2.code]
    split
    · rename_i h; rw [h.2]; exact X86x2.opaqueAddOne_ok hR ()
    · exact X86x2.opaqueAdd_ok hR v
  | ⟨.opaqueSub v, const, seqCst⟩ => by
    simp only [X86x2.code]
    split
    · rename_i h; rw [h.2]; exact X86x2.opaqueSubOne_ok hR ()
    · exact X86x2.opaqueSub_ok hR v
  | ⟨.opaqueNegate, const, seqCst⟩ => by
    simp only [X86x2.code]
    exact X86x2.opaqueNegate_ok hR ()
  | ⟨.opaqueAnd v, const, seqCst⟩ => by
    simp only [X86x2.code]
    exact X86x2.opaqueAnd_ok hR v
  | ⟨.opaqueOr v, const, seqCst⟩ => by
    simp only [X86x2.code]
    exact X86x2.opaqueOr_ok hR v
  | ⟨.opaqueXor v, const, seqCst⟩ => by
    simp only [X86x2.code]
    exact X86x2.opaqueXor_ok hR v
  | ⟨.opaqueComplement, const, seqCst⟩ => by
    simp only [X86x2.code]
    exact X86x2.opaqueComplement_ok hR ()
  | ⟨.addAndTest v, const, seqCst⟩ => by
    simp only [X86x2.code]
    split
    · rename_i h; rw [h.2]; exact match set with | false => X86x2.addAndTestOne_ok hR () | true => X86x2.addAndTestOneSet_ok hR ()
    · exact match set with | false => X86x2.addAndTest_ok hR v | true => X86x2.addAndTestSet_ok hR v
  | ⟨.subAndTest v, const, seqCst⟩ => by
    simp only [X86x2.code]
    split
    · rename_i h; rw [h.2]; exact match set with | false => X86x2.subAndTestOne_ok hR () | true => X86x2.subAndTestOneSet_ok hR ()
    · exact match set with | false => X86x2.subAndTest_ok hR v | true => X86x2.subAndTestSet_ok hR v
  | ⟨.negateAndTest, const, seqCst⟩ => by
    simp only [X86x2.code]
    exact Code.Does.map (show ((X86x2.negate R).code ()).Does (.negate) from X86x2.negate_ok hR ()) fun _ _ _ hs => ⟨hs.1, by rw [hs.2]; simp [test, value]; rfl⟩
  | ⟨.andAndTest v, const, seqCst⟩ => by
    simp only [X86x2.code]
    exact match set with | false => X86x2.andAndTest_ok hR v | true => X86x2.andAndTestSet_ok hR v
  | ⟨.orAndTest v, const, seqCst⟩ => by
    simp only [X86x2.code]
    exact match set with | false => X86x2.orAndTest_ok hR v | true => X86x2.orAndTestSet_ok hR v
  | ⟨.xorAndTest v, const, seqCst⟩ => by
    simp only [X86x2.code]
    exact match set with | false => X86x2.xorAndTest_ok hR v | true => X86x2.xorAndTestSet_ok hR v
  | ⟨.complementAndTest, const, seqCst⟩ => by
    simp only [X86x2.code]
    exact Code.Does.map (show ((X86x2.bitwiseComplement R).code ()).Does (.bitwiseComplement) from X86x2.bitwiseComplement_ok hR ()) fun _ _ _ hs => ⟨hs.1, by rw [hs.2]; simp [test, value]; rfl⟩
  | ⟨.bitTestAndSet b, const, seqCst⟩ => by
    simp only [X86x2.code]
    exact match set with | false => X86x2.bitTestAndSet_ok hR b | true => X86x2.bitTestAndSetSet_ok hR b
  | ⟨.bitTestAndReset b, const, seqCst⟩ => by
    simp only [X86x2.code]
    exact match set with | false => X86x2.bitTestAndReset_ok hR b | true => X86x2.bitTestAndResetSet_ok hR b
  | ⟨.bitTestAndComplement b, const, seqCst⟩ => by
    simp only [X86x2.code]
    exact match set with | false => X86x2.bitTestAndComplement_ok hR b | true => X86x2.bitTestAndComplementSet_ok hR b

/-- x86, objects of 2 bytes: each function does what its operation prescribes. -/
theorem C48_x86_2 {R : Nat} (hR : 32 ≤ R) :
    (X86x2.fetchAdd R).Implements Integral.spec .fetchAdd ∧
    (X86x2.exchange R).Implements Integral.spec .exchange ∧
    (X86x2.compareExchangeStrong R).Implements Integral.spec (fun a => .casStrong a.1 a.2) ∧
    (X86x2.fetchAnd R).Implements Integral.spec .fetchAnd ∧
    (X86x2.fetchOr R).Implements Integral.spec .fetchOr ∧
    (X86x2.fetchXor R).Implements Integral.spec .fetchXor ∧
    (X86x2.fetchNegate R).Implements Integral.spec (fun _ => .fetchNegate) ∧
    (X86x2.fetchComplement R).Implements Integral.spec (fun _ => .fetchComplement) ∧
    (X86x2.negate R).Implements Integral.spec (fun _ => .negate) ∧
    (X86x2.bitwiseComplement R).Implements Integral.spec (fun _ => .bitwiseComplement) ∧
    (X86x2.bitwiseAnd R).Implements Integral.spec .bitwiseAnd ∧
    (X86x2.bitwiseOr R).Implements Integral.spec .bitwiseOr ∧
    (X86x2.bitwiseXor R).Implements Integral.spec .bitwiseXor ∧
    (X86x2.opaqueAddOne R).Implements Integral.spec (fun _ => .opaqueAdd 1) ∧
    (X86x2.opaqueAdd R).Implements Integral.spec .opaqueAdd ∧
    (X86x2.opaqueSubOne R).Implements Integral.spec (fun _ => .opaqueSub 1) ∧
    (X86x2.opaqueSub R).Implements Integral.spec .opaqueSub ∧
    (X86x2.opaqueNegate R).Implements Integral.spec (fun _ => .opaqueNegate) ∧
    (X86x2.opaqueAnd R).Implements Integral.spec .opaqueAnd ∧
    (X86x2.opaqueOr R).Implements Integral.spec .opaqueOr ∧
    (X86x2.opaqueXor R).Implements Integral.spec .opaqueXor ∧
    (X86x2.opaqueComplement R).Implements Integral.spec (fun _ => .opaqueComplement) ∧
    (X86x2.addAndTestOne R).Implements Integral.spec (fun _ => .addAndTest 1) ∧
    (X86x2.addAndTest R).Implements Integral.spec .addAndTest ∧
    (X86x2.subAndTestOne R).Implements Integral.spec (fun _ => .subAndTest 1) ∧
    (X86x2.subAndTest R).Implements Integral.spec .subAndTest ∧
    (X86x2.andAndTest R).Implements Integral.spec .andAndTest ∧
    (X86x2.orAndTest R).Implements Integral.spec .orAndTest ∧
    (X86x2.xorAndTest R).Implements Integral.spec .xorAndTest ∧
    (X86x2.bitTestAndSet R).Implements Integral.spec .bitTestAndSet ∧
    (X86x2.bitTestAndReset R).Implements Integral.spec .bitTestAndReset ∧
    (X86x2.bitTestAndComplement R).Implements Integral.spec .bitTestAndComplement ∧
    (X86x2.compareExchangeStrongSet R).Implements Integral.spec (fun a => .casStrong a.1 a.2) ∧
    (X86x2.addAndTestOneSet R).Implements Integral.spec (fun _ => .addAndTest 1) ∧
    (X86x2.addAndTestSet R).Implements Integral.spec .addAndTest ∧
    (X86x2.subAndTestOneSet R).Implements Integral.spec (fun _ => .subAndTest 1) ∧
    (X86x2.subAndTestSet R).Implements Integral.spec .subAndTest ∧
    (X86x2.andAndTestSet R).Implements Integral.spec .andAndTest ∧
    (X86x2.orAndTestSet R).Implements Integral.spec .orAndTest ∧
    (X86x2.xorAndTestSet R).Implements Integral.spec .xorAndTest ∧
    (X86x2.bitTestAndSetSet R).Implements Integral.spec .bitTestAndSet ∧
    (X86x2.bitTestAndResetSet R).Implements Integral.spec .bitTestAndReset ∧
    (X86x2.bitTestAndComplementSet R).Implements Integral.spec .bitTestAndComplement :=
  ⟨X86x2.fetchAdd_ok hR,
    X86x2.exchange_ok hR,
    X86x2.compareExchangeStrong_ok hR,
    X86x2.fetchAnd_ok hR,
    X86x2.fetchOr_ok hR,
    X86x2.fetchXor_ok hR,
    X86x2.fetchNegate_ok hR,
    X86x2.fetchComplement_ok hR,
    X86x2.negate_ok hR,
    X86x2.bitwiseComplement_ok hR,
    X86x2.bitwiseAnd_ok hR,
    X86x2.bitwiseOr_ok hR,
    X86x2.bitwiseXor_ok hR,
    X86x2.opaqueAddOne_ok hR,
    X86x2.opaqueAdd_ok hR,
    X86x2.opaqueSubOne_ok hR,
    X86x2.opaqueSub_ok hR,
    X86x2.opaqueNegate_ok hR,
    X86x2.opaqueAnd_ok hR,
    X86x2.opaqueOr_ok hR,
    X86x2.opaqueXor_ok hR,
    X86x2.opaqueComplement_ok hR,
    X86x2.addAndTestOne_ok hR,
    X86x2.addAndTest_ok hR,
    X86x2.subAndTestOne_ok hR,
    X86x2.subAndTest_ok hR,
    X86x2.andAndTest_ok hR,
    X86x2.orAndTest_ok hR,
    X86x2.xorAndTest_ok hR,
    X86x2.bitTestAndSet_ok hR,
    X86x2.bitTestAndReset_ok hR,
    X86x2.bitTestAndComplement_ok hR,
    X86x2.compareExchangeStrongSet_ok hR,
    X86x2.addAndTestOneSet_ok hR,
    X86x2.addAndTestSet_ok hR,
    X86x2.subAndTestOneSet_ok hR,
    X86x2.subAndTestSet_ok hR,
    X86x2.andAndTestSet_ok hR,
    X86x2.orAndTestSet_ok hR,
    X86x2.xorAndTestSet_ok hR,
    X86x2.bitTestAndSetSet_ok hR,
    X86x2.bitTestAndResetSet_ok hR,
    X86x2.bitTestAndComplementSet_ok hR⟩

/-- x86, objects of 2 bytes: concurrent calls of all operations are linearizable. -/
theorem C49_x86_2 {R : Nat} (hR : 32 ≤ R) (set : Bool) : X86.Atomic (X86x2.code R set) := by
  intro base v₀ hb
  refine linearizable_of_correct (fun c => ?_) hb v₀
  have := X86x2.code_ok hR set c
  exact ⟨this.labels, this.loads, this.sound, this.ends⟩

theorem X86x4.code_ok {R : Nat} (hR : 32 ≤ R) (set : Bool) : ∀ c : X86.Call 32, (X86x4.code R set c).Does c.op
  | ⟨.load, const, seqCst⟩ => by
    simp only [X86x4.code]
    exact plainLoad_ok (by omega) ()
  | ⟨.store v, const, seqCst⟩ => by
    simp only [X86x4.code]
    exact match seqCst with
      | true => Code.Does.store (show ((X86x4.exchange R).code v).Does (.exchange v) from X86x4.exchange_ok hR v)
      | false => plainStore_ok v
  | ⟨.exchange v, const, seqCst⟩ => by
    simp only [X86x4.code]
    exact X86x4.exchange_ok hR v
  | ⟨.casWeak e d, const, seqCst⟩ => by
    simp only [X86x4.code]
    refine Code.Does.weak (e := e) (d := d) ?_
    exact match set with | false => X86x4.compareExchangeStrong_ok hR (e, d) | true => X86x4.compareExchangeStrongSet_ok hR (e, d)
  | ⟨.casStrong e d, const, seqCst⟩ => by
    simp only [X86x4.code]
    exact match set with | false => X86x4.compareExchangeStrong_ok hR (e, d) | true => X86x4.compareExchangeStrongSet_ok hR (e, d)
  | ⟨.fetchAdd v, const, seqCst⟩ => by
    simp only [X86x4.code]
    exact X86x4.fetchAdd_ok hR v
  | ⟨.fetchSub v, const, seqCst⟩ => by
    simp only [X86x4.code]
    exact Code.Does.minus (show ((X86x4.fetchAdd R).code (-v)).Does (.fetchAdd (-v)) from X86x4.fetchAdd_ok hR (-v))
  | ⟨.fetchAnd v, const, seqCst⟩ => by
    simp only [X86x4.code]
    exact X86x4.fetchAnd_ok hR v
  | ⟨.fetchOr v, const, seqCst⟩ => by
    simp only [X86x4.code]
    exact X86x4.fetchOr_ok hR v
  | ⟨.fetchXor v, const, seqCst⟩ => by
    simp only [X86x4.code]
    exact X86x4.fetchXor_ok hR v
  | ⟨.fetchNegate, const, seqCst⟩ => by
    simp only [X86x4.code]
    exact X86x4.fetchNegate_ok hR ()
  | ⟨.fetchComplement, const, seqCst⟩ => by
    simp only [X86x4.code]
    exact X86x4.fetchComplement_ok hR ()
  | ⟨.add v, const, seqCst⟩ => by
    simp only [X86x4.code]
    exact Code.Does.map (show ((X86x4.fetchAdd R).code v).Does (.fetchAdd v) from X86x4.fetchAdd_ok hR v) fun _ _ _ hs => ⟨hs.1, by simp [newVal, value, hs.1, hs.2]⟩
  | ⟨.sub v, const, seqCst⟩ => by
    simp only [X86x4.code]
    exact Code.Does.map (Code.Does.minus (show ((X86x4.fetchAdd R).code (-v)).Does (.fetchAdd (-v)) from X86x4.fetchAdd_ok hR (-v))) fun _ _ _ hs => ⟨hs.1, by simp [newVal, value, hs.1, hs.2]⟩
  | ⟨.negate, const, seqCst⟩ => by
    simp only [X86x4.code]
    exact X86x4.negate_ok hR ()
  | ⟨.bitwiseAnd v, const, seqCst⟩ => by
    simp only [X86x4.code]
    exact X86x4.bitwiseAnd_ok hR v
  | ⟨.bitwiseOr v, const, seqCst⟩ => by
    simp only [X86x4.code]
    exact X86x4.bitwiseOr_ok hR v
  | ⟨.bitwiseXor v, const, seqCst⟩ => by
    simp only [X86x4.code]
    exact X86x4.bitwiseXor_ok hR v
  | ⟨.bitwiseComplement, const, seqCst⟩ => by
    simp only [X86x4.code]
    exact X86x4.bitwiseComplement_ok hR ()
  | ⟨.opaqueAdd v, const, seqCst⟩ => by
    simp only [X86x4.code]
    split
    · rename_i h; rw [h.2]; exact X86x4.opaqueAddOne_ok hR ()
    · exact X86x4.opaqueAdd_ok hR v
  | ⟨.opaqueSub v, const, seqCst⟩ => by
    simp only [X86x4.code]
    split
    · rename_i h; rw [h.2]; exact X86x4.opaqueSubOne_ok hR ()
    · exact X86x4.opaqueSub_ok hR v
  | ⟨.opaqueNegate, const, seqCst⟩ => by
    simp only [X86x4.code]
    exact X86x4.opaqueNegate_ok hR ()
  | ⟨.opaqueAnd v, const, seqCst⟩ => by
    simp only [X86x4.code]
    exact X86x4.opaqueAnd_ok hR v
  | ⟨.opaqueOr v, const, seqCst⟩ => by
    simp only [X86x4.code]
    exact X86x4.opaqueOr_ok hR v
  | ⟨.opaqueXor v, const, seqCst⟩ => by
    simp only [X86x4.code]
    exact X86x4.opaqueXor_ok hR v
  | ⟨.opaqueComplement, const, seqCst⟩ => by
    simp only [X86x4.code]
    exact X86x4.opaqueComplement_ok hR ()
  | ⟨.addAndTest v, const, seqCst⟩ => by
    simp only [X86x4.code]
    split
    · rename_i h; rw [h.2]; exact match set with | false => X86x4.addAndTestOne_ok hR () | true => X86x4.addAndTestOneSet_ok hR ()
    · exact match set with | false => X86x4.addAndTest_ok hR v | true => X86x4.addAndTestSet_ok hR v
  | ⟨.subAndTest v, const, seqCst⟩ => by
    simp only [X86x4.code]
    split
    · rename_i h; rw [h.2]; exact match set with | false => X86x4.subAndTestOne_ok hR () | true => X86x4.subAndTestOneSet_ok hR ()
    · exact match set with | false => X86x4.subAndTest_ok hR v | true => X86x4.subAndTestSet_ok hR v
  | ⟨.negateAndTest, const, seqCst⟩ => by
    simp only [X86x4.code]
    exact Code.Does.map (show ((X86x4.negate R).code ()).Does (.negate) from X86x4.negate_ok hR ()) fun _ _ _ hs => ⟨hs.1, by rw [hs.2]; simp [test, value]; rfl⟩
  | ⟨.andAndTest v, const, seqCst⟩ => by
    simp only [X86x4.code]
    exact match set with | false => X86x4.andAndTest_ok hR v | true => X86x4.andAndTestSet_ok hR v
  | ⟨.orAndTest v, const, seqCst⟩ => by
    simp only [X86x4.code]
    exact match set with | false => X86x4.orAndTest_ok hR v | true => X86x4.orAndTestSet_ok hR v
  | ⟨.xorAndTest v, const, seqCst⟩ => by
    simp only [X86x4.code]
    exact match set with | false => X86x4.xorAndTest_ok hR v | true => X86x4.xorAndTestSet_ok hR v
  | ⟨.complementAndTest, const, seqCst⟩ => by
    simp only [X86x4.code]
    exact Code.Does.map (show ((X86x4.bitwiseComplement R).code ()).Does (.bitwiseComplement) from X86x4.bitwiseComplement_ok hR ()) fun _ _ _ hs => ⟨hs.1, by rw [hs.2]; simp [test, value]; rfl⟩
  | ⟨.bitTestAndSet b, const, seqCst⟩ => by
    simp only [X86x4.code]
    exact match set with | false => X86x4.bitTestAndSet_ok hR b | true => X86x4.bitTestAndSetSet_ok hR b
  | ⟨.bitTestAndReset b, const, seqCst⟩ => by
    simp only [X86x4.code]
    exact match set with | false => X86x4.bitTestAndReset_ok hR b | true => X86x4.bitTestAndResetSet_ok hR b
  | ⟨.bitTestAndComplement b, const, seqCst⟩ => by
    simp only [X86x4.code]
    exact match set with | false => X86x4.bitTestAndComplement_ok hR b | true => X86x4.bitTestAndComplementSet_ok hR b

/-- x86, objects of 4 bytes: each function does what its operation prescribes. -/
theorem C48_x86_4 {R : Nat} (hR : 32 ≤ R) :
    (X86x4.fetchAdd R).Implements Integral.spec .fetchAdd ∧
    (X86x4.exchange R).Implements Integral.spec .exchange ∧
    (X86x4.compareExchangeStrong R).Implements Integral.spec (fun a => .casStrong a.1 a.2) ∧
    (X86x4.fetchAnd R).Implements Integral.spec .fetchAnd ∧
    (X86x4.fetchOr R).Implements Integral.spec .fetchOr ∧
    (X86x4.fetchXor R).Implements Integral.spec .fetchXor ∧
    (X86x4.fetchNegate R).Implements Integral.spec (fun _ => .fetchNegate) ∧
    (X86x4.fetchComplement R).Implements Integral.spec (fun _ => .fetchComplement) ∧
    (X86x4.negate R).Implements Integral.spec (fun _ => .negate) ∧
    (X86x4.bitwiseComplement R).Implements Integral.spec (fun _ => .bitwiseComplement) ∧
    (X86x4.bitwiseAnd R).Implements Integral.spec .bitwiseAnd ∧
    (X86x4.bitwiseOr R).Implements Integral.spec .bitwiseOr ∧
    (X86x4.bitwiseXor R).Implements Integral.spec .bitwiseXor ∧
    (X86x4.opaqueAddOne R).Implements Integral.spec (fun _ => .opaqueAdd 1) ∧
    (X86x4.opaqueAdd R).Implements Integral.spec .opaqueAdd ∧
    (X86x4.opaqueSubOne R).Implements Integral.spec (fun _ => .opaqueSub 1) ∧
    (X86x4.opaqueSub R).Implements Integral.spec .opaqueSub ∧
    (X86x4.opaqueNegate R).Implements Integral.spec (fun _ => .opaqueNegate) ∧
    (X86x4.opaqueAnd R).Implements Integral.spec .opaqueAnd ∧
    (X86x4.opaqueOr R).Implements Integral.spec .opaqueOr ∧
    (X86x4.opaqueXor R).Implements Integral.spec .opaqueXor ∧
    (X86x4.opaqueComplement R).Implements Integral.spec (fun _ => .opaqueComplement) ∧
    (X86x4.addAndTestOne R).Implements Integral.spec (fun _ => .addAndTest 1) ∧
    (X86x4.addAndTest R).Implements Integral.spec .addAndTest ∧
    (X86x4.subAndTestOne R).Implements Integral.spec (fun _ => .subAndTest 1) ∧
    (X86x4.subAndTest R).Implements Integral.spec .subAndTest ∧
    (X86x4.andAndTest R).Implements Integral.spec .andAndTest ∧
    (X86x4.orAndTest R).Implements Integral.spec .orAndTest ∧
    (X86x4.xorAndTest R).Implements Integral.spec .xorAndTest ∧
    (X86x4.bitTestAndSet R).Implements Integral.spec .bitTestAndSet ∧
    (X86x4.bitTestAndReset R).Implements Integral.spec .bitTestAndReset ∧
    (X86x4.bitTestAndComplement R).Implements Integral.spec .bitTestAndComplement ∧
    (X86x4.compareExchangeStrongSet R).Implements Integral.spec (fun a => .casStrong a.1 a.2) ∧
    (X86x4.addAndTestOneSet R).Implements Integral.spec (fun _ => .addAndTest 1) ∧
    (X86x4.addAndTestSet R).Implements Integral.spec .addAndTest ∧
    (X86x4.subAndTestOneSet R).Implements Integral.spec (fun _ => .subAndTest 1) ∧
    (X86x4.subAndTestSet R).Implements Integral.spec .subAndTest ∧
    (X86x4.andAndTestSet R).Implements Integral.spec .andAndTest ∧
    (X86x4.orAndTestSet R).Implements Integral.spec .orAndTest ∧
    (X86x4.xorAndTestSet R).Implements Integral.spec .xorAndTest ∧
    (X86x4.bitTestAndSetSet R).Implements Integral.spec .bitTestAndSet ∧
    (X86x4.bitTestAndResetSet R).Implements Integral.spec .bitTestAndReset ∧
    (X86x4.bitTestAndComplementSet R).Implements Integral.spec .bitTestAndComplement :=
  ⟨X86x4.fetchAdd_ok hR,
    X86x4.exchange_ok hR,
    X86x4.compareExchangeStrong_ok hR,
    X86x4.fetchAnd_ok hR,
    X86x4.fetchOr_ok hR,
    X86x4.fetchXor_ok hR,
    X86x4.fetchNegate_ok hR,
    X86x4.fetchComplement_ok hR,
    X86x4.negate_ok hR,
    X86x4.bitwiseComplement_ok hR,
    X86x4.bitwiseAnd_ok hR,
    X86x4.bitwiseOr_ok hR,
    X86x4.bitwiseXor_ok hR,
    X86x4.opaqueAddOne_ok hR,
    X86x4.opaqueAdd_ok hR,
    X86x4.opaqueSubOne_ok hR,
    X86x4.opaqueSub_ok hR,
    X86x4.opaqueNegate_ok hR,
    X86x4.opaqueAnd_ok hR,
    X86x4.opaqueOr_ok hR,
    X86x4.opaqueXor_ok hR,
    X86x4.opaqueComplement_ok hR,
    X86x4.addAndTestOne_ok hR,
    X86x4.addAndTest_ok hR,
    X86x4.subAndTestOne_ok hR,
    X86x4.subAndTest_ok hR,
    X86x4.andAndTest_ok hR,
    X86x4.orAndTest_ok hR,
    X86x4.xorAndTest_ok hR,
    X86x4.bitTestAndSet_ok hR,
    X86x4.bitTestAndReset_ok hR,
    X86x4.bitTestAndComplement_ok hR,
    X86x4.compareExchangeStrongSet_ok hR,
    X86x4.addAndTestOneSet_ok hR,
    X86x4.addAndTestSet_ok hR,
    X86x4.subAndTestOneSet_ok hR,
    X86x4.subAndTestSet_ok hR,
    X86x4.andAndTestSet_ok hR,
    X86x4.orAndTestSet_ok hR,
    X86x4.xorAndTestSet_ok hR,
    X86x4.bitTestAndSetSet_ok hR,
    X86x4.bitTestAndResetSet_ok hR,
    X86x4.bitTestAndComplementSet_ok hR⟩

/-- x86, objects of 4 bytes: concurrent calls of all operations are linearizable. -/
theorem C49_x86_4 {R : Nat} (hR : 32 ≤ R) (set : Bool) : X86.Atomic (X86x4.code R set) := by
  intro base v₀ hb
  refine linearizable_of_correct (fun c => ?_) hb v₀
  have := X86x4.code_ok hR set c
  exact ⟨this.labels, this.loads, this.sound, this.ends⟩

theorem X86x8.code_ok (set : Bool) : ∀ c : X86.Call 64, (X86x8.code set c).Does c.op
  | ⟨.load, const, seqCst⟩ => by
    simp only [X86x8.code]
    exact plainLoad_ok (by decide) ()
  | ⟨.store v, const, seqCst⟩ => by
    simp only [X86x8.code]
    exact match seqCst with
      | true => Code.Does.store (show ((X86x8.exchange).code v).Does (.exchange v) from X86x8.exchange_ok v)
      | false => plainStore_ok v
  | ⟨.exchange v, const, seqCst⟩ => by
    simp only [X86x8.code]
    exact X86x8.exchange_ok v
  | ⟨.casWeak e d, const, seqCst⟩ => by
    simp only [X86x8.code]
    refine Code.Does.weak (e := e) (d := d) ?_
    exact match set with | false => X86x8.compareExchangeStrong_ok (e, d) | true => X86x8.compareExchangeStrongSet_ok (e, d)
  | ⟨.casStrong e d, const, seqCst⟩ => by
    simp only [X86x8.code]
    exact match set with | false => X86x8.compareExchangeStrong_ok (e, d) | true => X86x8.compareExchangeStrongSet_ok (e, d)
  | ⟨.fetchAdd v, const, seqCst⟩ => by
    simp only [X86x8.code]
    exact X86x8.fetchAdd_ok v
  | ⟨.fetchSub v, const, seqCst⟩ => by
    simp only [X86x8.code]
    exact Code.Does.minus (show ((X86x8.fetchAdd).code (-v)).Does (.fetchAdd (-v)) from X86x8.fetchAdd_ok (-v))
  | ⟨.fetchAnd v, const, seqCst⟩ => by
    simp only [X86x8.code]
    exact X86x8.fetchAnd_ok v
  | ⟨.fetchOr v, const, seqCst⟩ => by
    simp only [X86x8.code]
    exact X86x8.fetchOr_ok v
  | ⟨.fetchXor v, const, seqCst⟩ => by
    simp only [X86x8.code]
    exact X86x8.fetchXor_ok v
  | ⟨.fetchNegate, const, seqCst⟩ => by
    simp only [X86x8.code]
    exact X86x8.fetchNegate_ok ()
  | ⟨.fetchComplement, const, seqCst⟩ => by
    simp only [X86x8.code]
    exact X86x8.fetchComplement_ok ()
  | ⟨.add v, const, seqCst⟩ => by
    simp only [X86x8.code]
    exact Code.Does.map (show ((X86x8.fetchAdd).code v).Does (.fetchAdd v) from X86x8.fetchAdd_ok v) fun _ _ _ hs => ⟨hs.1, by simp [newVal, value, hs.1, hs.2]⟩
  | ⟨.sub v, const, seqCst⟩ => by
    simp only [X86x8.code]
    exact Code.Does.map (Code.Does.minus (show ((X86x8.fetchAdd).code (-v)).Does (.fetchAdd (-v)) from X86x8.fetchAdd_ok (-v))) fun _ _ _ hs => ⟨hs.1, by simp [newVal, value, hs.1, hs.2]⟩
  | ⟨.negate, const, seqCst⟩ => by
    simp only [X86x8.code]
    exact X86x8.negate_ok ()
  | ⟨.bitwiseAnd v, const, seqCst⟩ => by
    simp only [X86x8.code]
    exact X86x8.bitwiseAnd_ok v
  | ⟨.bitwiseOr v, const, seqCst⟩ => by
    simp only [X86x8.code]
    exact X86x8.bitwiseOr_ok v
  | ⟨.bitwiseXor v, const, seqCst⟩ => by
    simp only [X86x8.code]
    exact X86x8.bitwiseXor_ok v
  | ⟨.bitwiseComplement, const, seqCst⟩ => by
    simp only [X86x8.code]
    exact X86x8.bitwiseComplement_ok ()
  | ⟨.opaqueAdd v, const, seqCst⟩ => by
    simp only [X86x8.code]
    split
    · rename_i h; rw [h.2]; exact X86x8.opaqueAddOne_ok ()
    · exact X86x8.opaqueAdd_ok v
  | ⟨.opaqueSub v, const, seqCst⟩ => by
    simp only [X86x8.code]
    split
    · rename_i h; rw [h.2]; exact X86x8.opaqueSubOne_ok ()
    · exact X86x8.opaqueSub_ok v
  | ⟨.opaqueNegate, const, seqCst⟩ => by
    simp only [X86x8.code]
    exact X86x8.opaqueNegate_ok ()
  | ⟨.opaqueAnd v, const, seqCst⟩ => by
    simp only [X86x8.code]
    exact X86x8.opaqueAnd_ok v
  | ⟨.opaqueOr v, const, seqCst⟩ => by
    simp only [X86x8.code]
    exact X86x8.opaqueOr_ok v
  | ⟨.opaqueXor v, const, seqCst⟩ => by
    simp only [X86x8.code]
    exact X86x8.opaqueXor_ok v
  | ⟨.opaqueComplement, const, seqCst⟩ => by
    simp only [X86x8.code]
    exact X86x8.opaqueComplement_ok ()
  | ⟨.addAndTest v, const, seqCst⟩ => by
    simp only [X86x8.code]
    split
    · rename_i h; rw [h.2]; exact match set with | false => X86x8.addAndTestOne_ok () | true => X86x8.addAndTestOneSet_ok ()
    · exact match set with | false => X86x8.addAndTest_ok v | true => X86x8.addAndTestSet_ok v
  | ⟨.subAndTest v, const, seqCst⟩ => by
    simp only [X86x8.code]
    split
    · rename_i h; rw [h.2]; exact match set with | false => X86x8.subAndTestOne_ok () | true => X86x8.subAndTestOneSet_ok ()
    · exact match set with | false => X86x8.subAndTest_ok v | true => X86x8.subAndTestSet_ok v
  | ⟨.negateAndTest, const, seqCst⟩ => by
    simp only [X86x8.code]
    exact Code.Does.map (show ((X86x8.negate).code ()).Does (.negate) from X86x8.negate_ok ()) fun _ _ _ hs => ⟨hs.1, by rw [hs.2]; simp [test, value]; rfl⟩
  | ⟨.andAndTest v, const, seqCst⟩ => by
    simp only [X86x8.code]
    exact match set with | false => X86x8.andAndTest_ok v | true => X86x8.andAndTestSet_ok v
  | ⟨.orAndTest v, const, seqCst⟩ => by
    simp only [X86x8.code]
    exact match set with | false => X86x8.orAndTest_ok v | true => X86x8.orAndTestSet_ok v
  | ⟨.xorAndTest v, const, seqCst⟩ => by
    simp only [X86x8.code]
    exact match set with | false => X86x8.xorAndTest_ok v | true => X86x8.xorAndTestSet_ok v
  | ⟨.complementAndTest, const, seqCst⟩ => by
    simp only [X86x8.code]
    exact Code.Does.map (show ((X86x8.bitwiseComplement).code ()).Does (.bitwiseComplement) from X86x8.bitwiseComplement_ok ()) fun _ _ _ hs => ⟨hs.1, by rw [hs.2]; simp [test, value]; rfl⟩
  | ⟨.bitTestAndSet b, const, seqCst⟩ => by
    simp only [X86x8.code]
    exact match set with | false => X86x8.bitTestAndSet_ok b | true => X86x8.bitTestAndSetSet_ok b
  | ⟨.bitTestAndReset b, const, seqCst⟩ => by
    simp only [X86x8.code]
    exact match set with | false => X86x8.bitTestAndReset_ok b | true => X86x8.bitTestAndResetSet_ok b
  | ⟨.bitTestAndComplement b, const, seqCst⟩ => by
    simp only [X86x8.code]
    exact match set with | false => X86x8.bitTestAndComplement_ok b | true => X86x8.bitTestAndComplementSet_ok b

/-- x86, objects of 8 bytes: each function does what its operation prescribes. -/
theorem C48_x86_8 :
    X86x8.fetchAdd.Implements Integral.spec .fetchAdd ∧
    X86x8.exchange.Implements Integral.spec .exchange ∧
    X86x8.compareExchangeStrong.Implements Integral.spec (fun a => .casStrong a.1 a.2) ∧
    X86x8.fetchAnd.Implements Integral.spec .fetchAnd ∧
    X86x8.fetchOr.Implements Integral.spec .fetchOr ∧
    X86x8.fetchXor.Implements Integral.spec .fetchXor ∧
    X86x8.fetchNegate.Implements Integral.spec (fun _ => .fetchNegate) ∧
    X86x8.fetchComplement.Implements Integral.spec (fun _ => .fetchComplement) ∧
    X86x8.negate.Implements Integral.spec (fun _ => .negate) ∧
    X86x8.bitwiseComplement.Implements Integral.spec (fun _ => .bitwiseComplement) ∧
    X86x8.bitwiseAnd.Implements Integral.spec .bitwiseAnd ∧
    X86x8.bitwiseOr.Implements Integral.spec .bitwiseOr ∧
    X86x8.bitwiseXor.Implements Integral.spec .bitwiseXor ∧
    X86x8.opaqueAddOne.Implements Integral.spec (fun _ => .opaqueAdd 1) ∧
    X86x8.opaqueAdd.Implements Integral.spec .opaqueAdd ∧
    X86x8.opaqueSubOne.Implements Integral.spec (fun _ => .opaqueSub 1) ∧
    X86x8.opaqueSub.Implements Integral.spec .opaqueSub ∧
    X86x8.opaqueNegate.Implements Integral.spec (fun _ => .opaqueNegate) ∧
    X86x8.opaqueAnd.Implements Integral.spec .opaqueAnd ∧
    X86x8.opaqueOr.Implements Integral.spec .opaqueOr ∧
    X86x8.opaqueXor.Implements Integral.spec .opaqueXor ∧
    X86x8.opaqueComplement.Implements Integral.spec (fun _ => .opaqueComplement) ∧
    X86x8.addAndTestOne.Implements Integral.spec (fun _ => .addAndTest 1) ∧
    X86x8.addAndTest.Implements Integral.spec .addAndTest ∧
    X86x8.subAndTestOne.Implements Integral.spec (fun _ => .subAndTest 1) ∧
    X86x8.subAndTest.Implements Integral.spec .subAndTest ∧
    X86x8.andAndTest.Implements Integral.spec .andAndTest ∧
    X86x8.orAndTest.Implements Integral.spec .orAndTest ∧
    X86x8.xorAndTest.Implements Integral.spec .xorAndTest ∧
    X86x8.bitTestAndSet.Implements Integral.spec .bitTestAndSet ∧
    X86x8.bitTestAndReset.Implements Integral.spec .bitTestAndReset ∧
    X86x8.bitTestAndComplement.Implements Integral.spec .bitTestAndComplement ∧
    X86x8.compareExchangeStrongSet.Implements Integral.spec (fun a => .casStrong a.1 a.2) ∧
    X86x8.addAndTestOneSet.Implements Integral.spec (fun _ => .addAndTest 1) ∧
    X86x8.addAndTestSet.Implements Integral.spec .addAndTest ∧
    X86x8.subAndTestOneSet.Implements Integral.spec (fun _ => .subAndTest 1) ∧
    X86x8.subAndTestSet.Implements Integral.spec .subAndTest ∧
    X86x8.andAndTestSet.Implements Integral.spec .andAndTest ∧
    X86x8.orAndTestSet.Implements Integral.spec .orAndTest ∧
    X86x8.xorAndTestSet.Implements Integral.spec .xorAndTest ∧
    X86x8.bitTestAndSetSet.Implements Integral.spec .bitTestAndSet ∧
    X86x8.bitTestAndResetSet.Implements Integral.spec .bitTestAndReset ∧
    X86x8.bitTestAndComplementSet.Implements Integral.spec .bitTestAndComplement :=
  ⟨X86x8.fetchAdd_ok,
    X86x8.exchange_ok,
    X86x8.compareExchangeStrong_ok,
    X86x8.fetchAnd_ok,
    X86x8.fetchOr_ok,
    X86x8.fetchXor_ok,
    X86x8.fetchNegate_ok,
    X86x8.fetchComplement_ok,
    X86x8.negate_ok,
    X86x8.bitwiseComplement_ok,
    X86x8.bitwiseAnd_ok,
    X86x8.bitwiseOr_ok,
    X86x8.bitwiseXor_ok,
    X86x8.opaqueAddOne_ok,
    X86x8.opaqueAdd_ok,
    X86x8.opaqueSubOne_ok,
    X86x8.opaqueSub_ok,
    X86x8.opaqueNegate_ok,
    X86x8.opaqueAnd_ok,
    X86x8.opaqueOr_ok,
    X86x8.opaqueXor_ok,
    X86x8.opaqueComplement_ok,
    X86x8.addAndTestOne_ok,
    X86x8.addAndTest_ok,
    X86x8.subAndTestOne_ok,
    X86x8.subAndTest_ok,
    X86x8.andAndTest_ok,
    X86x8.orAndTest_ok,
    X86x8.xorAndTest_ok,
    X86x8.bitTestAndSet_ok,
    X86x8.bitTestAndReset_ok,
    X86x8.bitTestAndComplement_ok,
    X86x8.compareExchangeStrongSet_ok,
    X86x8.addAndTestOneSet_ok,
    X86x8.addAndTestSet_ok,
    X86x8.subAndTestOneSet_ok,
    X86x8.subAndTestSet_ok,
    X86x8.andAndTestSet_ok,
    X86x8.orAndTestSet_ok,
    X86x8.xorAndTestSet_ok,
    X86x8.bitTestAndSetSet_ok,
    X86x8.bitTestAndResetSet_ok,
    X86x8.bitTestAndComplementSet_ok⟩

/-- x86, objects of 8 bytes: concurrent calls of all operations are linearizable. -/
theorem C49_x86_8 (set : Bool) : X86.Atomic (X86x8.code set) := by
  intro base v₀ hb
  refine linearizable_of_correct (fun c => ?_) hb v₀
  have := X86x8.code_ok set c
  exact ⟨this.labels, this.loads, this.sound, this.ends⟩

end Verif.Asm
