import Verif.Asm.AArch32Ops
import Verif.Asm.OpsLemmas
import Verif.Asm.AArch32x1Proofs
import Verif.Asm.AArch32x2Proofs
import Verif.Asm.AArch32x4Proofs
import Verif.Asm.AArch32x8Proofs

/-
Atomic objects on AArch32 (32-bit ARMv8).
What is proved about them: `C48_*`, that each function does what its operation prescribes, for all arguments,
all register assignments the compiler may choose and all interference; `C49_*`, that an object on which any number
of cores execute these functions is linearizable.  Written by tools/asmgen.py.
-/

namespace Verif.Asm

theorem AArch32x1.prims_ok (ordered : Bool) : (AArch32x1.prims ordered).Ok anyCas where
  load := AArch32x1.load__ok ()
  store := fun v => AArch32x1.store__ok v
  exchange := fun v => AArch32x1.exchange_ok v
  casWeak := fun e d _ => AArch32x1.compareExchangeWeak_ok (e, d)
  casStrong := fun e d _ => AArch32x1.compareExchangeStrong_ok (e, d)
  fetchAdd := fun v => AArch32x1.fetchAdd_ok v
  fetchSub := fun v => AArch32x1.fetchSub_ok v
  fetchAnd := fun v => AArch32x1.fetchAnd_ok v
  fetchOr := fun v => AArch32x1.fetchOr_ok v
  fetchXor := fun v => AArch32x1.fetchXor_ok v
  fetchNegate := AArch32x1.fetchNegate_ok ()
  fetchComplement := AArch32x1.fetchComplement_ok ()
  add := fun v => AArch32x1.add__ok v
  sub := fun v => AArch32x1.sub__ok v
  negate := AArch32x1.negate_ok ()
  bitwiseAnd := fun v => AArch32x1.bitwiseAnd_ok v
  bitwiseOr := fun v => AArch32x1.bitwiseOr_ok v
  bitwiseXor := fun v => AArch32x1.bitwiseXor_ok v
  bitwiseComplement := AArch32x1.bitwiseComplement_ok ()

/-- AArch32, objects of 1 byte: each function does what its operation prescribes. -/
theorem C48_aarch32_1 :
    AArch32x1.store_.Implements Integral.spec .store ∧
    AArch32x1.load_.Implements Integral.spec (fun _ => .load) ∧
    AArch32x1.exchange.Implements Integral.spec .exchange ∧
    AArch32x1.fetchAdd.Implements Integral.spec .fetchAdd ∧
    AArch32x1.fetchSub.Implements Integral.spec .fetchSub ∧
    AArch32x1.fetchAnd.Implements Integral.spec .fetchAnd ∧
    AArch32x1.fetchOr.Implements Integral.spec .fetchOr ∧
    AArch32x1.fetchXor.Implements Integral.spec .fetchXor ∧
    AArch32x1.fetchNegate.Implements Integral.spec (fun _ => .fetchNegate) ∧
    AArch32x1.negate.Implements Integral.spec (fun _ => .negate) ∧
    AArch32x1.add_.Implements Integral.spec .add ∧
    AArch32x1.sub_.Implements Integral.spec .sub ∧
    AArch32x1.bitwiseAnd.Implements Integral.spec .bitwiseAnd ∧
    AArch32x1.bitwiseOr.Implements Integral.spec .bitwiseOr ∧
    AArch32x1.bitwiseXor.Implements Integral.spec .bitwiseXor ∧
    AArch32x1.fetchComplement.Implements Integral.spec (fun _ => .fetchComplement) ∧
    AArch32x1.bitwiseComplement.Implements Integral.spec (fun _ => .bitwiseComplement) :=
  ⟨AArch32x1.store__ok,
    AArch32x1.load__ok,
    AArch32x1.exchange_ok,
    AArch32x1.fetchAdd_ok,
    AArch32x1.fetchSub_ok,
    AArch32x1.fetchAnd_ok,
    AArch32x1.fetchOr_ok,
    AArch32x1.fetchXor_ok,
    AArch32x1.fetchNegate_ok,
    AArch32x1.negate_ok,
    AArch32x1.add__ok,
    AArch32x1.sub__ok,
    AArch32x1.bitwiseAnd_ok,
    AArch32x1.bitwiseOr_ok,
    AArch32x1.bitwiseXor_ok,
    AArch32x1.fetchComplement_ok,
    AArch32x1.bitwiseComplement_ok⟩

/-- AArch32, objects of 1 byte: compare-and-exchange with the operand `expected` declared as
changed, see `Verif.Asm.Findings`. -/
theorem C48_aarch32_1_partial :
    (AArch32x1.compareExchangeWeak.writes 3).Implements Integral.spec (fun a => .casWeak a.1 a.2) ∧
    (AArch32x1.compareExchangeStrong.writes 3).Implements Integral.spec (fun a => .casStrong a.1 a.2) :=
  ⟨AArch32x1.compareExchangeWeak_ok,
    AArch32x1.compareExchangeStrong_ok⟩

/-- AArch32, objects of 1 byte: concurrent calls of all operations are linearizable
(compare-and-exchange with the operand `expected` declared as changed, see `Verif.Asm.Findings`). -/
theorem C49_aarch32_1_partial : Atomic (AArch32x1.prims) false anyCas :=
  atomic_of_ok (AArch32x1.prims_ok) false

theorem AArch32x2.prims_ok (ordered : Bool) : (AArch32x2.prims ordered).Ok anyCas where
  load := AArch32x2.load__ok ()
  store := fun v => AArch32x2.store__ok v
  exchange := fun v => AArch32x2.exchange_ok v
  casWeak := fun e d _ => AArch32x2.compareExchangeWeak_ok (e, d)
  casStrong := fun e d _ => AArch32x2.compareExchangeStrong_ok (e, d)
  fetchAdd := fun v => AArch32x2.fetchAdd_ok v
  fetchSub := fun v => AArch32x2.fetchSub_ok v
  fetchAnd := fun v => AArch32x2.fetchAnd_ok v
  fetchOr := fun v => AArch32x2.fetchOr_ok v
  fetchXor := fun v => AArch32x2.fetchXor_ok v
  fetchNegate := AArch32x2.fetchNegate_ok ()
  fetchComplement := AArch32x2.fetchComplement_ok ()
  add := fun v => AArch32x2.add__ok v
  sub := fun v => AArch32x2.sub__ok v
  negate := AArch32x2.negate_ok ()
  bitwiseAnd := fun v => AArch32x2.bitwiseAnd_ok v
  bitwiseOr := fun v => AArch32x2.bitwiseOr_ok v
  bitwiseXor := fun v => AArch32x2.bitwiseXor_ok v
  bitwiseComplement := AArch32x2.bitwiseComplement_ok ()

/-- AArch32, objects of 2 bytes: each function does what its operation prescribes. -/
theorem C48_aarch32_2 :
    AArch32x2.store_.Implements Integral.spec .store ∧
    AArch32x2.load_.Implements Integral.spec (fun _ => .load) ∧
    AArch32x2.exchange.Implements Integral.spec .exchange ∧
    AArch32x2.fetchAdd.Implements Integral.spec .fetchAdd ∧
    AArch32x2.fetchSub.Implements Integral.spec .fetchSub ∧
    AArch32x2.fetchAnd.Implements Integral.spec .fetchAnd ∧
    AArch32x2.fetchOr.Implements Integral.spec .fetchOr ∧
    AArch32x2.fetchXor.Implements Integral.spec .fetchXor ∧
    AArch32x2.fetchNegate.Implements Integral.spec (fun _ => .fetchNegate) ∧
    AArch32x2.negate.Implements Integral.spec (fun _ => .negate) ∧
    AArch32x2.add_.Implements Integral.spec .add ∧
    AArch32x2.sub_.Implements Integral.spec .sub ∧
    AArch32x2.bitwiseAnd.Implements Integral.spec .bitwiseAnd ∧
    AArch32x2.bitwiseOr.Implements Integral.spec .bitwiseOr ∧
    AArch32x2.bitwiseXor.Implements Integral.spec .bitwiseXor ∧
    AArch32x2.fetchComplement.Implements Integral.spec (fun _ => .fetchComplement) ∧
    AArch32x2.bitwiseComplement.Implements Integral.spec (fun _ => .bitwiseComplement) :=
  ⟨AArch32x2.store__ok,
    AArch32x2.load__ok,
    AArch32x2.exchange_ok,
    AArch32x2.fetchAdd_ok,
    AArch32x2.fetchSub_ok,
    AArch32x2.fetchAnd_ok,
    AArch32x2.fetchOr_ok,
    AArch32x2.fetchXor_ok,
    AArch32x2.fetchNegate_ok,
    AArch32x2.negate_ok,
    AArch32x2.add__ok,
    AArch32x2.sub__ok,
    AArch32x2.bitwiseAnd_ok,
    AArch32x2.bitwiseOr_ok,
    AArch32x2.bitwiseXor_ok,
    AArch32x2.fetchComplement_ok,
    AArch32x2.bitwiseComplement_ok⟩

/-- AArch32, objects of 2 bytes: compare-and-exchange with the operand `expected` declared as
changed, see `Verif.Asm.Findings`. -/
theorem C48_aarch32_2_partial :
    (AArch32x2.compareExchangeWeak.writes 3).Implements Integral.spec (fun a => .casWeak a.1 a.2) ∧
    (AArch32x2.compareExchangeStrong.writes 3).Implements Integral.spec (fun a => .casStrong a.1 a.2) :=
  ⟨AArch32x2.compareExchangeWeak_ok,
    AArch32x2.compareExchangeStrong_ok⟩

/-- AArch32, objects of 2 bytes: concurrent calls of all operations are linearizable
(compare-and-exchange with the operand `expected` declared as changed, see `Verif.Asm.Findings`). -/
theorem C49_aarch32_2_partial : Atomic (AArch32x2.prims) false anyCas :=
  atomic_of_ok (AArch32x2.prims_ok) false

theorem AArch32x4.prims_ok (ordered : Bool) : (AArch32x4.prims ordered).Ok anyCas where
  load := AArch32x4.load__ok ()
  store := fun v => AArch32x4.store__ok v
  exchange := fun v => AArch32x4.exchange_ok v
  casWeak := fun e d _ => AArch32x4.compareExchangeWeak_ok (e, d)
  casStrong := fun e d _ => AArch32x4.compareExchangeStrong_ok (e, d)
  fetchAdd := fun v => AArch32x4.fetchAdd_ok v
  fetchSub := fun v => AArch32x4.fetchSub_ok v
  fetchAnd := fun v => AArch32x4.fetchAnd_ok v
  fetchOr := fun v => AArch32x4.fetchOr_ok v
  fetchXor := fun v => AArch32x4.fetchXor_ok v
  fetchNegate := AArch32x4.fetchNegate_ok ()
  fetchComplement := AArch32x4.fetchComplement_ok ()
  add := fun v => AArch32x4.add__ok v
  sub := fun v => AArch32x4.sub__ok v
  negate := AArch32x4.negate_ok ()
  bitwiseAnd := fun v => AArch32x4.bitwiseAnd_ok v
  bitwiseOr := fun v => AArch32x4.bitwiseOr_ok v
  bitwiseXor := fun v => AArch32x4.bitwiseXor_ok v
  bitwiseComplement := AArch32x4.bitwiseComplement_ok ()

/-- AArch32, objects of 4 bytes: each function does what its operation prescribes. -/
theorem C48_aarch32_4 :
    AArch32x4.store_.Implements Integral.spec .store ∧
    AArch32x4.load_.Implements Integral.spec (fun _ => .load) ∧
    AArch32x4.exchange.Implements Integral.spec .exchange ∧
    AArch32x4.compareExchangeWeak.Implements Integral.spec (fun a => .casWeak a.1 a.2) ∧
    AArch32x4.compareExchangeStrong.Implements Integral.spec (fun a => .casStrong a.1 a.2) ∧
    AArch32x4.fetchAdd.Implements Integral.spec .fetchAdd ∧
    AArch32x4.fetchSub.Implements Integral.spec .fetchSub ∧
    AArch32x4.fetchAnd.Implements Integral.spec .fetchAnd ∧
    AArch32x4.fetchOr.Implements Integral.spec .fetchOr ∧
    AArch32x4.fetchXor.Implements Integral.spec .fetchXor ∧
    AArch32x4.fetchNegate.Implements Integral.spec (fun _ => .fetchNegate) ∧
    AArch32x4.negate.Implements Integral.spec (fun _ => .negate) ∧
    AArch32x4.add_.Implements Integral.spec .add ∧
    AArch32x4.sub_.Implements Integral.spec .sub ∧
    AArch32x4.bitwiseAnd.Implements Integral.spec .bitwiseAnd ∧
    AArch32x4.bitwiseOr.Implements Integral.spec .bitwiseOr ∧
    AArch32x4.bitwiseXor.Implements Integral.spec .bitwiseXor ∧
    AArch32x4.fetchComplement.Implements Integral.spec (fun _ => .fetchComplement) ∧
    AArch32x4.bitwiseComplement.Implements Integral.spec (fun _ => .bitwiseComplement) :=
  ⟨AArch32x4.store__ok,
    AArch32x4.load__ok,
    AArch32x4.exchange_ok,
    AArch32x4.compareExchangeWeak_ok,
    AArch32x4.compareExchangeStrong_ok,
    AArch32x4.fetchAdd_ok,
    AArch32x4.fetchSub_ok,
    AArch32x4.fetchAnd_ok,
    AArch32x4.fetchOr_ok,
    AArch32x4.fetchXor_ok,
    AArch32x4.fetchNegate_ok,
    AArch32x4.negate_ok,
    AArch32x4.add__ok,
    AArch32x4.sub__ok,
    AArch32x4.bitwiseAnd_ok,
    AArch32x4.bitwiseOr_ok,
    AArch32x4.bitwiseXor_ok,
    AArch32x4.fetchComplement_ok,
    AArch32x4.bitwiseComplement_ok⟩

/-- AArch32, objects of 4 bytes: concurrent calls of all operations are linearizable. -/
theorem C49_aarch32_4 : Atomic (AArch32x4.prims) false anyCas :=
  atomic_of_ok (AArch32x4.prims_ok) false

theorem AArch32x8.prims_ok (be : Bool) (ordered : Bool) : (AArch32x8.prims be ordered).Ok anyCas where
  load := match ordered with | false => AArch32x8.load_2_ok be () | true => AArch32x8.load_1_ok be ()
  store := fun v => match ordered with | false => AArch32x8.store_2_ok be v | true => AArch32x8.store_1_ok be v
  exchange := fun v => AArch32x8.exchange_ok be v
  casWeak := fun e d _ => AArch32x8.compareExchangeWeak_ok be (e, d)
  casStrong := fun e d _ => AArch32x8.compareExchangeStrong_ok be (e, d)
  fetchAdd := fun v => AArch32x8.fetchAdd_ok be v
  fetchSub := fun v => AArch32x8.fetchSub_ok be v
  fetchAnd := fun v => AArch32x8.fetchAnd_ok be v
  fetchOr := fun v => AArch32x8.fetchOr_ok be v
  fetchXor := fun v => AArch32x8.fetchXor_ok be v
  fetchNegate := AArch32x8.fetchNegate_ok be ()
  fetchComplement := AArch32x8.fetchComplement_ok be ()
  add := fun v => AArch32x8.add__ok be v
  sub := fun v => AArch32x8.sub__ok be v
  negate := AArch32x8.negate_ok be ()
  bitwiseAnd := fun v => AArch32x8.bitwiseAnd_ok be v
  bitwiseOr := fun v => AArch32x8.bitwiseOr_ok be v
  bitwiseXor := fun v => AArch32x8.bitwiseXor_ok be v
  bitwiseComplement := AArch32x8.bitwiseComplement_ok be ()

/-- AArch32, objects of 8 bytes: each function does what its operation prescribes. -/
theorem C48_aarch32_8 (be : Bool) :
    (AArch32x8.store_1 be).Implements Integral.spec .store ∧
    (AArch32x8.store_2 be).Implements Integral.spec .store ∧
    (AArch32x8.load_1 be).Implements Integral.spec (fun _ => .load) ∧
    (AArch32x8.load_2 be).Implements Integral.spec (fun _ => .load) ∧
    (AArch32x8.exchange be).Implements Integral.spec .exchange ∧
    (AArch32x8.compareExchangeWeak be).Implements Integral.spec (fun a => .casWeak a.1 a.2) ∧
    (AArch32x8.compareExchangeStrong be).Implements Integral.spec (fun a => .casStrong a.1 a.2) ∧
    (AArch32x8.fetchAdd be).Implements Integral.spec .fetchAdd ∧
    (AArch32x8.fetchSub be).Implements Integral.spec .fetchSub ∧
    (AArch32x8.fetchAnd be).Implements Integral.spec .fetchAnd ∧
    (AArch32x8.fetchOr be).Implements Integral.spec .fetchOr ∧
    (AArch32x8.fetchXor be).Implements Integral.spec .fetchXor ∧
    (AArch32x8.fetchNegate be).Implements Integral.spec (fun _ => .fetchNegate) ∧
    (AArch32x8.negate be).Implements Integral.spec (fun _ => .negate) ∧
    (AArch32x8.add_ be).Implements Integral.spec .add ∧
    (AArch32x8.sub_ be).Implements Integral.spec .sub ∧
    (AArch32x8.bitwiseAnd be).Implements Integral.spec .bitwiseAnd ∧
    (AArch32x8.bitwiseOr be).Implements Integral.spec .bitwiseOr ∧
    (AArch32x8.bitwiseXor be).Implements Integral.spec .bitwiseXor ∧
    (AArch32x8.fetchComplement be).Implements Integral.spec (fun _ => .fetchComplement) ∧
    (AArch32x8.bitwiseComplement be).Implements Integral.spec (fun _ => .bitwiseComplement) :=
  ⟨AArch32x8.store_1_ok be,
    AArch32x8.store_2_ok be,
    AArch32x8.load_1_ok be,
    AArch32x8.load_2_ok be,
    AArch32x8.exchange_ok be,
    AArch32x8.compareExchangeWeak_ok be,
    AArch32x8.compareExchangeStrong_ok be,
    AArch32x8.fetchAdd_ok be,
    AArch32x8.fetchSub_ok be,
    AArch32x8.fetchAnd_ok be,
    AArch32x8.fetchOr_ok be,
    AArch32x8.fetchXor_ok be,
    AArch32x8.fetchNegate_ok be,
    AArch32x8.negate_ok be,
    AArch32x8.add__ok be,
    AArch32x8.sub__ok be,
    AArch32x8.bitwiseAnd_ok be,
    AArch32x8.bitwiseOr_ok be,
    AArch32x8.bitwiseXor_ok be,
    AArch32x8.fetchComplement_ok be,
    AArch32x8.bitwiseComplement_ok be⟩

/-- AArch32, objects of 8 bytes: concurrent calls of all operations are linearizable. -/
theorem C49_aarch32_8 (be : Bool) : Atomic (AArch32x8.prims be) false anyCas :=
  atomic_of_ok (AArch32x8.prims_ok be) false

end Verif.Asm
