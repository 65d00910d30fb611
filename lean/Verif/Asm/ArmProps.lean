import Verif.Asm.ArmOps
import Verif.Asm.OpsLemmas
import Verif.Asm.Arm1Proofs
import Verif.Asm.Arm2Proofs
import Verif.Asm.Arm4Proofs
import Verif.Asm.Arm8Proofs
import Verif.Asm.ArmWordProofs

/-
Atomic objects on ARM (ARMv6 and ARMv7).
What is proved about them: `C48_*`, that each function does what its operation prescribes, for all arguments,
all register assignments the compiler may choose and all interference; `C49_*`, that an object on which any number
of cores execute these functions is linearizable.  Written by tools/asmgen.py.
-/

namespace Verif.Asm

theorem Arm1.prims_ok (thumb : Bool) (ordered : Bool) : (Arm1.prims thumb ordered).Ok (fun _ d => d ≠ 0) where
  load := plainLoad_ok (by decide) ()
  store := plainStore_ok
  exchange := fun v => Arm1.exchange_ok thumb v
  casWeak := fun e d h => Arm1.compareExchangeWeak_ok thumb (e, d) h
  casStrong := fun e d h => Arm1.compareExchangeStrong_ok thumb (e, d) h
  fetchAdd := fun v => Arm1.fetchAdd_ok thumb v
  fetchSub := fun v => Arm1.fetchSub_ok thumb v
  fetchAnd := fun v => Arm1.fetchAnd_ok thumb v
  fetchOr := fun v => Arm1.fetchOr_ok thumb v
  fetchXor := fun v => Arm1.fetchXor_ok thumb v
  fetchNegate := Arm1.fetchNegate_ok thumb ()
  fetchComplement := Arm1.fetchComplement_ok thumb ()
  add := fun v => Arm1.add__ok thumb v
  sub := fun v => Arm1.sub__ok thumb v
  negate := Arm1.negate_ok thumb ()
  bitwiseAnd := fun v => Arm1.bitwiseAnd_ok thumb v
  bitwiseOr := fun v => Arm1.bitwiseOr_ok thumb v
  bitwiseXor := fun v => Arm1.bitwiseXor_ok thumb v
  bitwiseComplement := Arm1.bitwiseComplement_ok thumb ()

/-- ARM, objects of 1 byte: each function does what its operation prescribes. -/
theorem C48_arm_1 (thumb : Bool) :
    (Arm1.exchange thumb).Implements Integral.spec .exchange ∧
    (Arm1.fetchAdd thumb).Implements Integral.spec .fetchAdd ∧
    (Arm1.fetchSub thumb).Implements Integral.spec .fetchSub ∧
    (Arm1.fetchAnd thumb).Implements Integral.spec .fetchAnd ∧
    (Arm1.fetchOr thumb).Implements Integral.spec .fetchOr ∧
    (Arm1.fetchXor thumb).Implements Integral.spec .fetchXor ∧
    (Arm1.fetchNegate thumb).Implements Integral.spec (fun _ => .fetchNegate) ∧
    (Arm1.negate thumb).Implements Integral.spec (fun _ => .negate) ∧
    (Arm1.add_ thumb).Implements Integral.spec .add ∧
    (Arm1.sub_ thumb).Implements Integral.spec .sub ∧
    (Arm1.bitwiseAnd thumb).Implements Integral.spec .bitwiseAnd ∧
    (Arm1.bitwiseOr thumb).Implements Integral.spec .bitwiseOr ∧
    (Arm1.bitwiseXor thumb).Implements Integral.spec .bitwiseXor ∧
    (Arm1.fetchComplement thumb).Implements Integral.spec (fun _ => .fetchComplement) ∧
    (Arm1.bitwiseComplement thumb).Implements Integral.spec (fun _ => .bitwiseComplement) :=
  ⟨Arm1.exchange_ok thumb,
    Arm1.fetchAdd_ok thumb,
    Arm1.fetchSub_ok thumb,
    Arm1.fetchAnd_ok thumb,
    Arm1.fetchOr_ok thumb,
    Arm1.fetchXor_ok thumb,
    Arm1.fetchNegate_ok thumb,
    Arm1.negate_ok thumb,
    Arm1.add__ok thumb,
    Arm1.sub__ok thumb,
    Arm1.bitwiseAnd_ok thumb,
    Arm1.bitwiseOr_ok thumb,
    Arm1.bitwiseXor_ok thumb,
    Arm1.fetchComplement_ok thumb,
    Arm1.bitwiseComplement_ok thumb⟩

/-- ARM, objects of 1 byte: compare-and-exchange only if the desired value is not 0, see
`Verif.Asm.Findings`. -/
theorem C48_arm_1_partial (thumb : Bool) :
    (Arm1.compareExchangeWeak thumb).ImplementsFor (fun a => a.2 ≠ 0) Integral.spec (fun a => .casWeak a.1 a.2) ∧
    (Arm1.compareExchangeStrong thumb).ImplementsFor (fun a => a.2 ≠ 0) Integral.spec (fun a => .casStrong a.1 a.2) :=
  ⟨Arm1.compareExchangeWeak_ok thumb,
    Arm1.compareExchangeStrong_ok thumb⟩

/-- ARM, objects of 1 byte: concurrent calls of all operations are linearizable
(compare-and-exchange only if the desired value is not 0, see `Verif.Asm.Findings`). -/
theorem C49_arm_1_partial (thumb : Bool) : Atomic (Arm1.prims thumb) true (fun _ d => d ≠ 0) :=
  atomic_of_ok (Arm1.prims_ok thumb) true

theorem Arm2.prims_ok (thumb : Bool) (ordered : Bool) : (Arm2.prims thumb ordered).Ok (fun _ d => d ≠ 0) where
  load := plainLoad_ok (by decide) ()
  store := plainStore_ok
  exchange := fun v => Arm2.exchange_ok thumb v
  casWeak := fun e d h => Arm2.compareExchangeWeak_ok thumb (e, d) h
  casStrong := fun e d h => Arm2.compareExchangeStrong_ok thumb (e, d) h
  fetchAdd := fun v => Arm2.fetchAdd_ok thumb v
  fetchSub := fun v => Arm2.fetchSub_ok thumb v
  fetchAnd := fun v => Arm2.fetchAnd_ok thumb v
  fetchOr := fun v => Arm2.fetchOr_ok thumb v
  fetchXor := fun v => Arm2.fetchXor_ok thumb v
  fetchNegate := Arm2.fetchNegate_ok thumb ()
  fetchComplement := Arm2.fetchComplement_ok thumb ()
  add := fun v => Arm2.add__ok thumb v
  sub := fun v => Arm2.sub__ok thumb v
  negate := Arm2.negate_ok thumb ()
  bitwiseAnd := fun v => Arm2.bitwiseAnd_ok thumb v
  bitwiseOr := fun v => Arm2.bitwiseOr_ok thumb v
  bitwiseXor := fun v => Arm2.bitwiseXor_ok thumb v
  bitwiseComplement := Arm2.bitwiseComplement_ok thumb ()

/-- ARM, objects of 2 bytes: each function does what its operation prescribes. -/
theorem C48_arm_2 (thumb : Bool) :
    (Arm2.exchange thumb).Implements Integral.spec .exchange ∧
    (Arm2.fetchAdd thumb).Implements Integral.spec .fetchAdd ∧
    (Arm2.fetchSub thumb).Implements Integral.spec .fetchSub ∧
    (Arm2.fetchAnd thumb).Implements Integral.spec .fetchAnd ∧
    (Arm2.fetchOr thumb).Implements Integral.spec .fetchOr ∧
    (Arm2.fetchXor thumb).Implements Integral.spec .fetchXor ∧
    (Arm2.fetchNegate thumb).Implements Integral.spec (fun _ => .fetchNegate) ∧
    (Arm2.negate thumb).Implements Integral.spec (fun _ => .negate) ∧
    (Arm2.add_ thumb).Implements Integral.spec .add ∧
    (Arm2.sub_ thumb).Implements Integral.spec .sub ∧
    (Arm2.bitwiseAnd thumb).Implements Integral.spec .bitwiseAnd ∧
    (Arm2.bitwiseOr thumb).Implements Integral.spec .bitwiseOr ∧
    (Arm2.bitwiseXor thumb).Implements Integral.spec .bitwiseXor ∧
    (Arm2.fetchComplement thumb).Implements Integral.spec (fun _ => .fetchComplement) ∧
    (Arm2.bitwiseComplement thumb).Implements Integral.spec (fun _ => .bitwiseComplement) :=
  ⟨Arm2.exchange_ok thumb,
    Arm2.fetchAdd_ok thumb,
    Arm2.fetchSub_ok thumb,
    Arm2.fetchAnd_ok thumb,
    Arm2.fetchOr_ok thumb,
    Arm2.fetchXor_ok thumb,
    Arm2.fetchNegate_ok thumb,
    Arm2.negate_ok thumb,
    Arm2.add__ok thumb,
    Arm2.sub__ok thumb,
    Arm2.bitwiseAnd_ok thumb,
    Arm2.bitwiseOr_ok thumb,
    Arm2.bitwiseXor_ok thumb,
    Arm2.fetchComplement_ok thumb,
    Arm2.bitwiseComplement_ok thumb⟩

/-- ARM, objects of 2 bytes: compare-and-exchange only if the desired value is not 0, see
`Verif.Asm.Findings`. -/
theorem C48_arm_2_partial (thumb : Bool) :
    (Arm2.compareExchangeWeak thumb).ImplementsFor (fun a => a.2 ≠ 0) Integral.spec (fun a => .casWeak a.1 a.2) ∧
    (Arm2.compareExchangeStrong thumb).ImplementsFor (fun a => a.2 ≠ 0) Integral.spec (fun a => .casStrong a.1 a.2) :=
  ⟨Arm2.compareExchangeWeak_ok thumb,
    Arm2.compareExchangeStrong_ok thumb⟩

/-- ARM, objects of 2 bytes: concurrent calls of all operations are linearizable
(compare-and-exchange only if the desired value is not 0, see `Verif.Asm.Findings`). -/
theorem C49_arm_2_partial (thumb : Bool) : Atomic (Arm2.prims thumb) true (fun _ d => d ≠ 0) :=
  atomic_of_ok (Arm2.prims_ok thumb) true

theorem Arm4.prims_ok (thumb : Bool) (ordered : Bool) : (Arm4.prims thumb ordered).Ok (fun _ d => d ≠ 0) where
  load := plainLoad_ok (by decide) ()
  store := plainStore_ok
  exchange := fun v => Arm4.exchange_ok thumb v
  casWeak := fun e d h => Arm4.compareExchangeWeak_ok thumb (e, d) h
  casStrong := fun e d h => Arm4.compareExchangeStrong_ok thumb (e, d) h
  fetchAdd := fun v => Arm4.fetchAdd_ok thumb v
  fetchSub := fun v => Arm4.fetchSub_ok thumb v
  fetchAnd := fun v => Arm4.fetchAnd_ok thumb v
  fetchOr := fun v => Arm4.fetchOr_ok thumb v
  fetchXor := fun v => Arm4.fetchXor_ok thumb v
  fetchNegate := Arm4.fetchNegate_ok thumb ()
  fetchComplement := Arm4.fetchComplement_ok thumb ()
  add := fun v => Arm4.add__ok thumb v
  sub := fun v => Arm4.sub__ok thumb v
  negate := Arm4.negate_ok thumb ()
  bitwiseAnd := fun v => Arm4.bitwiseAnd_ok thumb v
  bitwiseOr := fun v => Arm4.bitwiseOr_ok thumb v
  bitwiseXor := fun v => Arm4.bitwiseXor_ok thumb v
  bitwiseComplement := Arm4.bitwiseComplement_ok thumb ()

/-- ARM, objects of 4 bytes: each function does what its operation prescribes. -/
theorem C48_arm_4 (thumb : Bool) :
    (Arm4.exchange thumb).Implements Integral.spec .exchange ∧
    (Arm4.fetchAdd thumb).Implements Integral.spec .fetchAdd ∧
    (Arm4.fetchSub thumb).Implements Integral.spec .fetchSub ∧
    (Arm4.fetchAnd thumb).Implements Integral.spec .fetchAnd ∧
    (Arm4.fetchOr thumb).Implements Integral.spec .fetchOr ∧
    (Arm4.fetchXor thumb).Implements Integral.spec .fetchXor ∧
    (Arm4.fetchNegate thumb).Implements Integral.spec (fun _ => .fetchNegate) ∧
    (Arm4.negate thumb).Implements Integral.spec (fun _ => .negate) ∧
    (Arm4.add_ thumb).Implements Integral.spec .add ∧
    (Arm4.sub_ thumb).Implements Integral.spec .sub ∧
    (Arm4.bitwiseAnd thumb).Implements Integral.spec .bitwiseAnd ∧
    (Arm4.bitwiseOr thumb).Implements Integral.spec .bitwiseOr ∧
    (Arm4.bitwiseXor thumb).Implements Integral.spec .bitwiseXor ∧
    (Arm4.fetchComplement thumb).Implements Integral.spec (fun _ => .fetchComplement) ∧
    (Arm4.bitwiseComplement thumb).Implements Integral.spec (fun _ => .bitwiseComplement) :=
  ⟨Arm4.exchange_ok thumb,
    Arm4.fetchAdd_ok thumb,
    Arm4.fetchSub_ok thumb,
    Arm4.fetchAnd_ok thumb,
    Arm4.fetchOr_ok thumb,
    Arm4.fetchXor_ok thumb,
    Arm4.fetchNegate_ok thumb,
    Arm4.negate_ok thumb,
    Arm4.add__ok thumb,
    Arm4.sub__ok thumb,
    Arm4.bitwiseAnd_ok thumb,
    Arm4.bitwiseOr_ok thumb,
    Arm4.bitwiseXor_ok thumb,
    Arm4.fetchComplement_ok thumb,
    Arm4.bitwiseComplement_ok thumb⟩

/-- ARM, objects of 4 bytes: compare-and-exchange only if the desired value is not 0, see
`Verif.Asm.Findings`. -/
theorem C48_arm_4_partial (thumb : Bool) :
    (Arm4.compareExchangeWeak thumb).ImplementsFor (fun a => a.2 ≠ 0) Integral.spec (fun a => .casWeak a.1 a.2) ∧
    (Arm4.compareExchangeStrong thumb).ImplementsFor (fun a => a.2 ≠ 0) Integral.spec (fun a => .casStrong a.1 a.2) :=
  ⟨Arm4.compareExchangeWeak_ok thumb,
    Arm4.compareExchangeStrong_ok thumb⟩

/-- ARM, objects of 4 bytes: concurrent calls of all operations are linearizable
(compare-and-exchange only if the desired value is not 0, see `Verif.Asm.Findings`). -/
theorem C49_arm_4_partial (thumb : Bool) : Atomic (Arm4.prims thumb) true (fun _ d => d ≠ 0) :=
  atomic_of_ok (Arm4.prims_ok thumb) true

theorem Arm8.prims_ok (thumb be : Bool) (ordered : Bool) : (Arm8.prims thumb be ordered).Ok (fun _ d => lower 32 d ≠ 0 ∧ upper 32 d ≠ 0) where
  load := match thumb with | false => Arm8.load__ok false be () | true => Arm8.loadThumb_ok true be ()
  store := fun v => Code.Does.store (c := (Arm8.exchange thumb be).code v) (Arm8.exchange_ok thumb be v)
  exchange := fun v => Arm8.exchange_ok thumb be v
  casWeak := fun e d h => Arm8.compareExchangeWeak_ok thumb be (e, d) h
  casStrong := fun e d h => Arm8.compareExchangeStrong_ok thumb be (e, d) h
  fetchAdd := fun v => Arm8.fetchAdd_ok thumb be v
  fetchSub := fun v => Arm8.fetchSub_ok thumb be v
  fetchAnd := fun v => Arm8.fetchAnd_ok thumb be v
  fetchOr := fun v => Arm8.fetchOr_ok thumb be v
  fetchXor := fun v => Arm8.fetchXor_ok thumb be v
  fetchNegate := Arm8.fetchNegate_ok thumb be ()
  fetchComplement := Arm8.fetchComplement_ok thumb be ()
  add := fun v => Arm8.add__ok thumb be v
  sub := fun v => Arm8.sub__ok thumb be v
  negate := Arm8.negate_ok thumb be ()
  bitwiseAnd := fun v => Arm8.bitwiseAnd_ok thumb be v
  bitwiseOr := fun v => Arm8.bitwiseOr_ok thumb be v
  bitwiseXor := fun v => Arm8.bitwiseXor_ok thumb be v
  bitwiseComplement := Arm8.bitwiseComplement_ok thumb be ()

/-- ARM, objects of 8 bytes: each function does what its operation prescribes. -/
theorem C48_arm_8 (thumb be : Bool) :
    (Arm8.loadThumb thumb be).Implements Integral.spec (fun _ => .load) ∧
    (Arm8.exchange thumb be).Implements Integral.spec .exchange ∧
    (Arm8.fetchAdd thumb be).Implements Integral.spec .fetchAdd ∧
    (Arm8.fetchSub thumb be).Implements Integral.spec .fetchSub ∧
    (Arm8.fetchAnd thumb be).Implements Integral.spec .fetchAnd ∧
    (Arm8.fetchOr thumb be).Implements Integral.spec .fetchOr ∧
    (Arm8.fetchXor thumb be).Implements Integral.spec .fetchXor ∧
    (Arm8.fetchNegate thumb be).Implements Integral.spec (fun _ => .fetchNegate) ∧
    (Arm8.negate thumb be).Implements Integral.spec (fun _ => .negate) ∧
    (Arm8.add_ thumb be).Implements Integral.spec .add ∧
    (Arm8.sub_ thumb be).Implements Integral.spec .sub ∧
    (Arm8.bitwiseAnd thumb be).Implements Integral.spec .bitwiseAnd ∧
    (Arm8.bitwiseOr thumb be).Implements Integral.spec .bitwiseOr ∧
    (Arm8.bitwiseXor thumb be).Implements Integral.spec .bitwiseXor ∧
    (Arm8.fetchComplement thumb be).Implements Integral.spec (fun _ => .fetchComplement) ∧
    (Arm8.bitwiseComplement thumb be).Implements Integral.spec (fun _ => .bitwiseComplement) ∧
    (Arm8.load_ thumb be).Implements Integral.spec (fun _ => .load) :=
  ⟨Arm8.loadThumb_ok thumb be,
    Arm8.exchange_ok thumb be,
    Arm8.fetchAdd_ok thumb be,
    Arm8.fetchSub_ok thumb be,
    Arm8.fetchAnd_ok thumb be,
    Arm8.fetchOr_ok thumb be,
    Arm8.fetchXor_ok thumb be,
    Arm8.fetchNegate_ok thumb be,
    Arm8.negate_ok thumb be,
    Arm8.add__ok thumb be,
    Arm8.sub__ok thumb be,
    Arm8.bitwiseAnd_ok thumb be,
    Arm8.bitwiseOr_ok thumb be,
    Arm8.bitwiseXor_ok thumb be,
    Arm8.fetchComplement_ok thumb be,
    Arm8.bitwiseComplement_ok thumb be,
    Arm8.load__ok thumb be⟩

/-- ARM, objects of 8 bytes: compare-and-exchange only if no half of the desired value is 0, see
`Verif.Asm.Findings`. -/
theorem C48_arm_8_partial (thumb be : Bool) :
    (Arm8.compareExchangeWeak thumb be).ImplementsFor (fun a => lower 32 a.2 ≠ 0 ∧ upper 32 a.2 ≠ 0) Integral.spec (fun a => .casWeak a.1 a.2) ∧
    (Arm8.compareExchangeStrong thumb be).ImplementsFor (fun a => lower 32 a.2 ≠ 0 ∧ upper 32 a.2 ≠ 0) Integral.spec (fun a => .casStrong a.1 a.2) :=
  ⟨Arm8.compareExchangeWeak_ok thumb be,
    Arm8.compareExchangeStrong_ok thumb be⟩

/-- ARM, objects of 8 bytes: concurrent calls of all operations are linearizable
(compare-and-exchange only if no half of the desired value is 0, see `Verif.Asm.Findings`). -/
theorem C49_arm_8_partial (thumb be : Bool) : Atomic (Arm8.prims thumb be) true (fun _ d => lower 32 d ≠ 0 ∧ upper 32 d ≠ 0) :=
  atomic_of_ok (Arm8.prims_ok thumb be) true

/-- ARM without instructions for narrow objects, values of 1 or 2 bytes kept extended in words:
`fetch_add` and `fetch_sub` do what they should, and leave an extended value in the word. -/
theorem C48_arm_word (thumb : Bool) :
    (ArmWord.fetchAdd1u thumb).Implements (inWord (BitVec.setWidth 32)) (.fetchAdd (N := 8)) ∧
    (ArmWord.fetchSub1u thumb).Implements (inWord (BitVec.setWidth 32)) (.fetchSub (N := 8)) ∧
    (ArmWord.fetchAdd1s thumb).Implements (inWord (BitVec.signExtend 32)) (.fetchAdd (N := 8)) ∧
    (ArmWord.fetchSub1s thumb).Implements (inWord (BitVec.signExtend 32)) (.fetchSub (N := 8)) ∧
    (ArmWord.fetchAdd2u thumb).Implements (inWord (BitVec.setWidth 32)) (.fetchAdd (N := 16)) ∧
    (ArmWord.fetchSub2u thumb).Implements (inWord (BitVec.setWidth 32)) (.fetchSub (N := 16)) ∧
    (ArmWord.fetchAdd2s thumb).Implements (inWord (BitVec.signExtend 32)) (.fetchAdd (N := 16)) ∧
    (ArmWord.fetchSub2s thumb).Implements (inWord (BitVec.signExtend 32)) (.fetchSub (N := 16)) :=
  ⟨ArmWord.fetchAdd1u_ok thumb,
    ArmWord.fetchSub1u_ok thumb,
    ArmWord.fetchAdd1s_ok thumb,
    ArmWord.fetchSub1s_ok thumb,
    ArmWord.fetchAdd2u_ok thumb,
    ArmWord.fetchSub2u_ok thumb,
    ArmWord.fetchAdd2s_ok thumb,
    ArmWord.fetchSub2s_ok thumb⟩

end Verif.Asm
