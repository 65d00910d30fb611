import Verif.Asm.A64Ops
import Verif.Asm.OpsLemmas
import Verif.Asm.A64Proofs

/-
Atomic objects on AArch64.
What is proved about them: `C48_*`, that each function does what its operation prescribes, for all arguments,
all register assignments the compiler may choose and all interference; `C49_*`, that an object on which any number
of cores execute these functions is linearizable.  Written by tools/asmgen.py.
-/

namespace Verif.Asm

theorem A64x1.prims_ok (ordered : Bool) : (A64x1.prims ordered).Ok anyCas where
  load := match ordered with | false => plainLoad_ok (by decide) () | true => A64x1.load__ok ()
  store := fun v => match ordered with | false => plainStore_ok v | true => A64x1.store__ok v
  exchange := fun v => A64x1.exchange_ok v
  casWeak := fun e d _ => A64x1.compareExchangeWeak_ok (e, d)
  casStrong := fun e d _ => A64x1.compareExchangeStrong_ok (e, d)
  fetchAdd := fun v => A64x1.fetchAdd_ok v
  fetchSub := fun v => A64x1.fetchSub_ok v
  fetchAnd := fun v => A64x1.fetchAnd_ok v
  fetchOr := fun v => A64x1.fetchOr_ok v
  fetchXor := fun v => A64x1.fetchXor_ok v
  fetchNegate := A64x1.fetchNegate_ok ()
  fetchComplement := A64x1.fetchComplement_ok ()
  add := fun v => A64x1.add__ok v
  sub := fun v => A64x1.sub__ok v
  negate := A64x1.negate_ok ()
  bitwiseAnd := fun v => A64x1.bitwiseAnd_ok v
  bitwiseOr := fun v => A64x1.bitwiseOr_ok v
  bitwiseXor := fun v => A64x1.bitwiseXor_ok v
  bitwiseComplement := A64x1.bitwiseComplement_ok ()

/-- AArch64, objects of 1 byte: each function does what its operation prescribes. -/
theorem C48_aarch64_1 :
    A64x1.store_.Implements Integral.spec .store ∧
    A64x1.load_.Implements Integral.spec (fun _ => .load) ∧
    A64x1.exchange.Implements Integral.spec .exchange ∧
    A64x1.fetchAdd.Implements Integral.spec .fetchAdd ∧
    A64x1.fetchSub.Implements Integral.spec .fetchSub ∧
    A64x1.fetchAnd.Implements Integral.spec .fetchAnd ∧
    A64x1.fetchOr.Implements Integral.spec .fetchOr ∧
    A64x1.fetchXor.Implements Integral.spec .fetchXor ∧
    A64x1.fetchNegate.Implements Integral.spec (fun _ => .fetchNegate) ∧
    A64x1.negate.Implements Integral.spec (fun _ => .negate) ∧
    A64x1.add_.Implements Integral.spec .add ∧
    A64x1.sub_.Implements Integral.spec .sub ∧
    A64x1.bitwiseAnd.Implements Integral.spec .bitwiseAnd ∧
    A64x1.bitwiseOr.Implements Integral.spec .bitwiseOr ∧
    A64x1.bitwiseXor.Implements Integral.spec .bitwiseXor ∧
    A64x1.fetchComplement.Implements Integral.spec (fun _ => .fetchComplement) ∧
    A64x1.bitwiseComplement.Implements Integral.spec (fun _ => .bitwiseComplement) :=
  ⟨A64x1.store__ok,
    A64x1.load__ok,
    A64x1.exchange_ok,
    A64x1.fetchAdd_ok,
    A64x1.fetchSub_ok,
    A64x1.fetchAnd_ok,
    A64x1.fetchOr_ok,
    A64x1.fetchXor_ok,
    A64x1.fetchNegate_ok,
    A64x1.negate_ok,
    A64x1.add__ok,
    A64x1.sub__ok,
    A64x1.bitwiseAnd_ok,
    A64x1.bitwiseOr_ok,
    A64x1.bitwiseXor_ok,
    A64x1.fetchComplement_ok,
    A64x1.bitwiseComplement_ok⟩

/-- AArch64, objects of 1 byte: compare-and-exchange with the operand `expected` declared as
changed, see `Verif.Asm.Findings`. -/
theorem C48_aarch64_1_partial :
    (A64x1.compareExchangeWeak.writes 4).Implements Integral.spec (fun a => .casWeak a.1 a.2) ∧
    (A64x1.compareExchangeStrong.writes 4).Implements Integral.spec (fun a => .casStrong a.1 a.2) :=
  ⟨A64x1.compareExchangeWeak_ok,
    A64x1.compareExchangeStrong_ok⟩

/-- AArch64, objects of 1 byte: concurrent calls of all operations are linearizable
(compare-and-exchange with the operand `expected` declared as changed, see `Verif.Asm.Findings`). -/
theorem C49_aarch64_1_partial : Atomic (A64x1.prims) false anyCas :=
  atomic_of_ok (A64x1.prims_ok) false

theorem A64Lse1.prims_ok (ordered : Bool) : (A64Lse1.prims ordered).Ok anyCas where
  load := match ordered with | false => plainLoad_ok (by decide) () | true => A64Lse1.load_1_ok ()
  store := fun v => match ordered with | false => plainStore_ok v | true => A64x1.store__ok v
  exchange := fun v => A64Lse1.exchange_ok v
  casWeak := fun e d _ => A64Lse1.compareExchangeWeak_ok (e, d)
  casStrong := fun e d _ => A64Lse1.compareExchangeStrong_ok (e, d)
  fetchAdd := fun v => A64Lse1.fetchAdd_ok v
  fetchSub := fun v => A64Lse1.fetchSub_ok v
  fetchAnd := fun v => A64Lse1.fetchAnd_ok v
  fetchOr := fun v => A64Lse1.fetchOr_ok v
  fetchXor := fun v => A64Lse1.fetchXor_ok v
  fetchNegate := A64x1.fetchNegate_ok ()
  fetchComplement := Code.Does.complement (A64Lse1.fetchXor_ok (BitVec.allOnes 8))
  add := fun v => Code.Does.map (c := A64Lse1.fetchAdd.code v) (A64Lse1.fetchAdd_ok v) fun _ _ _ hs => ⟨hs.1, by simp [newVal, value, hs.1, hs.2]⟩
  sub := fun v => Code.Does.map (c := A64Lse1.fetchSub.code v) (A64Lse1.fetchSub_ok v) fun _ _ _ hs => ⟨hs.1, by simp [newVal, value, hs.1, hs.2]⟩
  negate := A64x1.negate_ok ()
  bitwiseAnd := fun v => Code.Does.map (c := A64Lse1.fetchAnd.code v) (A64Lse1.fetchAnd_ok v) fun _ _ _ hs => ⟨hs.1, by simp [newVal, value, hs.1, hs.2]⟩
  bitwiseOr := fun v => Code.Does.map (c := A64Lse1.fetchOr.code v) (A64Lse1.fetchOr_ok v) fun _ _ _ hs => ⟨hs.1, by simp [newVal, value, hs.1, hs.2]⟩
  bitwiseXor := fun v => Code.Does.map (c := A64Lse1.fetchXor.code v) (A64Lse1.fetchXor_ok v) fun _ _ _ hs => ⟨hs.1, by simp [newVal, value, hs.1, hs.2]⟩
  bitwiseComplement := Code.Does.map (c := A64Lse1.fetchXor.code (BitVec.allOnes 8)) (A64Lse1.fetchXor_ok (BitVec.allOnes 8)) fun _ _ _ hs => ⟨by rw [hs.1, BitVec.xor_allOnes], by simp [newVal, value, hs.1, hs.2]⟩

/-- AArch64 with the extensions LSE and RCPC, objects of 1 byte: each function does what its
operation prescribes. -/
theorem C48_aarch64_lse_1 :
    A64Lse1.load_1.Implements Integral.spec (fun _ => .load) ∧
    A64Lse1.load_2.Implements Integral.spec (fun _ => .load) ∧
    A64Lse1.exchange.Implements Integral.spec .exchange ∧
    A64Lse1.compareExchangeWeak.Implements Integral.spec (fun a => .casWeak a.1 a.2) ∧
    A64Lse1.compareExchangeStrong.Implements Integral.spec (fun a => .casStrong a.1 a.2) ∧
    A64Lse1.fetchAdd.Implements Integral.spec .fetchAdd ∧
    A64Lse1.fetchSub.Implements Integral.spec .fetchSub ∧
    A64Lse1.fetchAnd.Implements Integral.spec .fetchAnd ∧
    A64Lse1.fetchOr.Implements Integral.spec .fetchOr ∧
    A64Lse1.fetchXor.Implements Integral.spec .fetchXor :=
  ⟨A64Lse1.load_1_ok,
    A64Lse1.load_2_ok,
    A64Lse1.exchange_ok,
    A64Lse1.compareExchangeWeak_ok,
    A64Lse1.compareExchangeStrong_ok,
    A64Lse1.fetchAdd_ok,
    A64Lse1.fetchSub_ok,
    A64Lse1.fetchAnd_ok,
    A64Lse1.fetchOr_ok,
    A64Lse1.fetchXor_ok⟩

/-- AArch64 with the extensions LSE and RCPC, objects of 1 byte: concurrent calls of all operations
are linearizable. -/
theorem C49_aarch64_lse_1 : Atomic (A64Lse1.prims) false anyCas :=
  atomic_of_ok (A64Lse1.prims_ok) false

theorem A64x2.prims_ok (ordered : Bool) : (A64x2.prims ordered).Ok anyCas where
  load := match ordered with | false => plainLoad_ok (by decide) () | true => A64x2.load__ok ()
  store := fun v => match ordered with | false => plainStore_ok v | true => A64x2.store__ok v
  exchange := fun v => A64x2.exchange_ok v
  casWeak := fun e d _ => A64x2.compareExchangeWeak_ok (e, d)
  casStrong := fun e d _ => A64x2.compareExchangeStrong_ok (e, d)
  fetchAdd := fun v => A64x2.fetchAdd_ok v
  fetchSub := fun v => A64x2.fetchSub_ok v
  fetchAnd := fun v => A64x2.fetchAnd_ok v
  fetchOr := fun v => A64x2.fetchOr_ok v
  fetchXor := fun v => A64x2.fetchXor_ok v
  fetchNegate := A64x2.fetchNegate_ok ()
  fetchComplement := A64x2.fetchComplement_ok ()
  add := fun v => A64x2.add__ok v
  sub := fun v => A64x2.sub__ok v
  negate := A64x2.negate_ok ()
  bitwiseAnd := fun v => A64x2.bitwiseAnd_ok v
  bitwiseOr := fun v => A64x2.bitwiseOr_ok v
  bitwiseXor := fun v => A64x2.bitwiseXor_ok v
  bitwiseComplement := A64x2.bitwiseComplement_ok ()

/-- AArch64, objects of 2 bytes: each function does what its operation prescribes. -/
theorem C48_aarch64_2 :
    A64x2.store_.Implements Integral.spec .store ∧
    A64x2.load_.Implements Integral.spec (fun _ => .load) ∧
    A64x2.exchange.Implements Integral.spec .exchange ∧
    A64x2.fetchAdd.Implements Integral.spec .fetchAdd ∧
    A64x2.fetchSub.Implements Integral.spec .fetchSub ∧
    A64x2.fetchAnd.Implements Integral.spec .fetchAnd ∧
    A64x2.fetchOr.Implements Integral.spec .fetchOr ∧
    A64x2.fetchXor.Implements Integral.spec .fetchXor ∧
    A64x2.fetchNegate.Implements Integral.spec (fun _ => .fetchNegate) ∧
    A64x2.negate.Implements Integral.spec (fun _ => .negate) ∧
    A64x2.add_.Implements Integral.spec .add ∧
    A64x2.sub_.Implements Integral.spec .sub ∧
    A64x2.bitwiseAnd.Implements Integral.spec .bitwiseAnd ∧
    A64x2.bitwiseOr.Implements Integral.spec .bitwiseOr ∧
    A64x2.bitwiseXor.Implements Integral.spec .bitwiseXor ∧
    A64x2.fetchComplement.Implements Integral.spec (fun _ => .fetchComplement) ∧
    A64x2.bitwiseComplement.Implements Integral.spec (fun _ => .bitwiseComplement) :=
  ⟨A64x2.store__ok,
    A64x2.load__ok,
    A64x2.exchange_ok,
    A64x2.fetchAdd_ok,
    A64x2.fetchSub_ok,
    A64x2.fetchAnd_ok,
    A64x2.fetchOr_ok,
    A64x2.fetchXor_ok,
    A64x2.fetchNegate_ok,
    A64x2.negate_ok,
    A64x2.add__ok,
    A64x2.sub__ok,
    A64x2.bitwiseAnd_ok,
    A64x2.bitwiseOr_ok,
    A64x2.bitwiseXor_ok,
    A64x2.fetchComplement_ok,
    A64x2.bitwiseComplement_ok⟩

/-- AArch64, objects of 2 bytes: compare-and-exchange with the operand `expected` declared as
changed, see `Verif.Asm.Findings`. -/
theorem C48_aarch64_2_partial :
    (A64x2.compareExchangeWeak.writes 4).Implements Integral.spec (fun a => .casWeak a.1 a.2) ∧
    (A64x2.compareExchangeStrong.writes 4).Implements Integral.spec (fun a => .casStrong a.1 a.2) :=
  ⟨A64x2.compareExchangeWeak_ok,
    A64x2.compareExchangeStrong_ok⟩

/-- AArch64, objects of 2 bytes: concurrent calls of all operations are linearizable
(compare-and-exchange with the operand `expected` declared as changed, see `Verif.Asm.Findings`). -/
theorem C49_aarch64_2_partial : Atomic (A64x2.prims) false anyCas :=
  atomic_of_ok (A64x2.prims_ok) false

theorem A64Lse2.prims_ok (ordered : Bool) : (A64Lse2.prims ordered).Ok anyCas where
  load := match ordered with | false => plainLoad_ok (by decide) () | true => A64Lse2.load_1_ok ()
  store := fun v => match ordered with | false => plainStore_ok v | true => A64x2.store__ok v
  exchange := fun v => A64Lse2.exchange_ok v
  casWeak := fun e d _ => A64Lse2.compareExchangeWeak_ok (e, d)
  casStrong := fun e d _ => A64Lse2.compareExchangeStrong_ok (e, d)
  fetchAdd := fun v => A64Lse2.fetchAdd_ok v
  fetchSub := fun v => A64Lse2.fetchSub_ok v
  fetchAnd := fun v => A64Lse2.fetchAnd_ok v
  fetchOr := fun v => A64Lse2.fetchOr_ok v
  fetchXor := fun v => A64Lse2.fetchXor_ok v
  fetchNegate := A64x2.fetchNegate_ok ()
  fetchComplement := Code.Does.complement (A64Lse2.fetchXor_ok (BitVec.allOnes 16))
  add := fun v => Code.Does.map (c := A64Lse2.fetchAdd.code v) (A64Lse2.fetchAdd_ok v) fun _ _ _ hs => ⟨hs.1, by simp [newVal, value, hs.1, hs.2]⟩
  sub := fun v => Code.Does.map (c := A64Lse2.fetchSub.code v) (A64Lse2.fetchSub_ok v) fun _ _ _ hs => ⟨hs.1, by simp [newVal, value, hs.1, hs.2]⟩
  negate := A64x2.negate_ok ()
  bitwiseAnd := fun v => Code.Does.map (c := A64Lse2.fetchAnd.code v) (A64Lse2.fetchAnd_ok v) fun _ _ _ hs => ⟨hs.1, by simp [newVal, value, hs.1, hs.2]⟩
  bitwiseOr := fun v => Code.Does.map (c := A64Lse2.fetchOr.code v) (A64Lse2.fetchOr_ok v) fun _ _ _ hs => ⟨hs.1, by simp [newVal, value, hs.1, hs.2]⟩
  bitwiseXor := fun v => Code.Does.map (c := A64Lse2.fetchXor.code v) (A64Lse2.fetchXor_ok v) fun _ _ _ hs => ⟨hs.1, by simp [newVal, value, hs.1, hs.2]⟩
  bitwiseComplement := Code.Does.map (c := A64Lse2.fetchXor.code (BitVec.allOnes 16)) (A64Lse2.fetchXor_ok (BitVec.allOnes 16)) fun _ _ _ hs => ⟨by rw [hs.1, BitVec.xor_allOnes], by simp [newVal, value, hs.1, hs.2]⟩

/-- AArch64 with the extensions LSE and RCPC, objects of 2 bytes: each function does what its
operation prescribes. -/
theorem C48_aarch64_lse_2 :
    A64Lse2.load_1.Implements Integral.spec (fun _ => .load) ∧
    A64Lse2.load_2.Implements Integral.spec (fun _ => .load) ∧
    A64Lse2.exchange.Implements Integral.spec .exchange ∧
    A64Lse2.compareExchangeWeak.Implements Integral.spec (fun a => .casWeak a.1 a.2) ∧
    A64Lse2.compareExchangeStrong.Implements Integral.spec (fun a => .casStrong a.1 a.2) ∧
    A64Lse2.fetchAdd.Implements Integral.spec .fetchAdd ∧
    A64Lse2.fetchSub.Implements Integral.spec .fetchSub ∧
    A64Lse2.fetchAnd.Implements Integral.spec .fetchAnd ∧
    A64Lse2.fetchOr.Implements Integral.spec .fetchOr ∧
    A64Lse2.fetchXor.Implements Integral.spec .fetchXor :=
  ⟨A64Lse2.load_1_ok,
    A64Lse2.load_2_ok,
    A64Lse2.exchange_ok,
    A64Lse2.compareExchangeWeak_ok,
    A64Lse2.compareExchangeStrong_ok,
    A64Lse2.fetchAdd_ok,
    A64Lse2.fetchSub_ok,
    A64Lse2.fetchAnd_ok,
    A64Lse2.fetchOr_ok,
    A64Lse2.fetchXor_ok⟩

/-- AArch64 with the extensions LSE and RCPC, objects of 2 bytes: concurrent calls of all operations
are linearizable. -/
theorem C49_aarch64_lse_2 : Atomic (A64Lse2.prims) false anyCas :=
  atomic_of_ok (A64Lse2.prims_ok) false

theorem A64x4.prims_ok (ordered : Bool) : (A64x4.prims ordered).Ok anyCas where
  load := match ordered with | false => plainLoad_ok (by decide) () | true => A64x4.load__ok ()
  store := fun v => match ordered with | false => plainStore_ok v | true => A64x4.store__ok v
  exchange := fun v => A64x4.exchange_ok v
  casWeak := fun e d _ => A64x4.compareExchangeWeak_ok (e, d)
  casStrong := fun e d _ => A64x4.compareExchangeStrong_ok (e, d)
  fetchAdd := fun v => A64x4.fetchAdd_ok v
  fetchSub := fun v => A64x4.fetchSub_ok v
  fetchAnd := fun v => A64x4.fetchAnd_ok v
  fetchOr := fun v => A64x4.fetchOr_ok v
  fetchXor := fun v => A64x4.fetchXor_ok v
  fetchNegate := A64x4.fetchNegate_ok ()
  fetchComplement := A64x4.fetchComplement_ok ()
  add := fun v => A64x4.add__ok v
  sub := fun v => A64x4.sub__ok v
  negate := A64x4.negate_ok ()
  bitwiseAnd := fun v => A64x4.bitwiseAnd_ok v
  bitwiseOr := fun v => A64x4.bitwiseOr_ok v
  bitwiseXor := fun v => A64x4.bitwiseXor_ok v
  bitwiseComplement := A64x4.bitwiseComplement_ok ()

/-- AArch64, objects of 4 bytes: each function does what its operation prescribes. -/
theorem C48_aarch64_4 :
    A64x4.store_.Implements Integral.spec .store ∧
    A64x4.load_.Implements Integral.spec (fun _ => .load) ∧
    A64x4.exchange.Implements Integral.spec .exchange ∧
    A64x4.compareExchangeWeak.Implements Integral.spec (fun a => .casWeak a.1 a.2) ∧
    A64x4.compareExchangeStrong.Implements Integral.spec (fun a => .casStrong a.1 a.2) ∧
    A64x4.fetchAdd.Implements Integral.spec .fetchAdd ∧
    A64x4.fetchSub.Implements Integral.spec .fetchSub ∧
    A64x4.fetchAnd.Implements Integral.spec .fetchAnd ∧
    A64x4.fetchOr.Implements Integral.spec .fetchOr ∧
    A64x4.fetchXor.Implements Integral.spec .fetchXor ∧
    A64x4.fetchNegate.Implements Integral.spec (fun _ => .fetchNegate) ∧
    A64x4.negate.Implements Integral.spec (fun _ => .negate) ∧
    A64x4.add_.Implements Integral.spec .add ∧
    A64x4.sub_.Implements Integral.spec .sub ∧
    A64x4.bitwiseAnd.Implements Integral.spec .bitwiseAnd ∧
    A64x4.bitwiseOr.Implements Integral.spec .bitwiseOr ∧
    A64x4.bitwiseXor.Implements Integral.spec .bitwiseXor ∧
    A64x4.fetchComplement.Implements Integral.spec (fun _ => .fetchComplement) ∧
    A64x4.bitwiseComplement.Implements Integral.spec (fun _ => .bitwiseComplement) :=
  ⟨A64x4.store__ok,
    A64x4.load__ok,
    A64x4.exchange_ok,
    A64x4.compareExchangeWeak_ok,
    A64x4.compareExchangeStrong_ok,
    A64x4.fetchAdd_ok,
    A64x4.fetchSub_ok,
    A64x4.fetchAnd_ok,
    A64x4.fetchOr_ok,
    A64x4.fetchXor_ok,
    A64x4.fetchNegate_ok,
    A64x4.negate_ok,
    A64x4.add__ok,
    A64x4.sub__ok,
    A64x4.bitwiseAnd_ok,
    A64x4.bitwiseOr_ok,
    A64x4.bitwiseXor_ok,
    A64x4.fetchComplement_ok,
    A64x4.bitwiseComplement_ok⟩

/-- AArch64, objects of 4 bytes: concurrent calls of all operations are linearizable. -/
theorem C49_aarch64_4 : Atomic (A64x4.prims) false anyCas :=
  atomic_of_ok (A64x4.prims_ok) false

theorem A64Lse4.prims_ok (ordered : Bool) : (A64Lse4.prims ordered).Ok anyCas where
  load := match ordered with | false => plainLoad_ok (by decide) () | true => A64Lse4.load_1_ok ()
  store := fun v => match ordered with | false => plainStore_ok v | true => A64x4.store__ok v
  exchange := fun v => A64Lse4.exchange_ok v
  casWeak := fun e d _ => A64Lse4.compareExchangeWeak_ok (e, d)
  casStrong := fun e d _ => A64Lse4.compareExchangeStrong_ok (e, d)
  fetchAdd := fun v => A64Lse4.fetchAdd_ok v
  fetchSub := fun v => A64Lse4.fetchSub_ok v
  fetchAnd := fun v => A64Lse4.fetchAnd_ok v
  fetchOr := fun v => A64Lse4.fetchOr_ok v
  fetchXor := fun v => A64Lse4.fetchXor_ok v
  fetchNegate := A64x4.fetchNegate_ok ()
  fetchComplement := Code.Does.complement (A64Lse4.fetchXor_ok (BitVec.allOnes 32))
  add := fun v => Code.Does.map (c := A64Lse4.fetchAdd.code v) (A64Lse4.fetchAdd_ok v) fun _ _ _ hs => ⟨hs.1, by simp [newVal, value, hs.1, hs.2]⟩
  sub := fun v => Code.Does.map (c := A64Lse4.fetchSub.code v) (A64Lse4.fetchSub_ok v) fun _ _ _ hs => ⟨hs.1, by simp [newVal, value, hs.1, hs.2]⟩
  negate := A64x4.negate_ok ()
  bitwiseAnd := fun v => Code.Does.map (c := A64Lse4.fetchAnd.code v) (A64Lse4.fetchAnd_ok v) fun _ _ _ hs => ⟨hs.1, by simp [newVal, value, hs.1, hs.2]⟩
  bitwiseOr := fun v => Code.Does.map (c := A64Lse4.fetchOr.code v) (A64Lse4.fetchOr_ok v) fun _ _ _ hs => ⟨hs.1, by simp [newVal, value, hs.1, hs.2]⟩
  bitwiseXor := fun v => Code.Does.map (c := A64Lse4.fetchXor.code v) (A64Lse4.fetchXor_ok v) fun _ _ _ hs => ⟨hs.1, by simp [newVal, value, hs.1, hs.2]⟩
  bitwiseComplement := Code.Does.map (c := A64Lse4.fetchXor.code (BitVec.allOnes 32)) (A64Lse4.fetchXor_ok (BitVec.allOnes 32)) fun _ _ _ hs => ⟨by rw [hs.1, BitVec.xor_allOnes], by simp [newVal, value, hs.1, hs.2]⟩

/-- AArch64 with the extensions LSE and RCPC, objects of 4 bytes: each function does what its
operation prescribes. -/
theorem C48_aarch64_lse_4 :
    A64Lse4.load_1.Implements Integral.spec (fun _ => .load) ∧
    A64Lse4.load_2.Implements Integral.spec (fun _ => .load) ∧
    A64Lse4.exchange.Implements Integral.spec .exchange ∧
    A64Lse4.compareExchangeWeak.Implements Integral.spec (fun a => .casWeak a.1 a.2) ∧
    A64Lse4.compareExchangeStrong.Implements Integral.spec (fun a => .casStrong a.1 a.2) ∧
    A64Lse4.fetchAdd.Implements Integral.spec .fetchAdd ∧
    A64Lse4.fetchSub.Implements Integral.spec .fetchSub ∧
    A64Lse4.fetchAnd.Implements Integral.spec .fetchAnd ∧
    A64Lse4.fetchOr.Implements Integral.spec .fetchOr ∧
    A64Lse4.fetchXor.Implements Integral.spec .fetchXor :=
  ⟨A64Lse4.load_1_ok,
    A64Lse4.load_2_ok,
    A64Lse4.exchange_ok,
    A64Lse4.compareExchangeWeak_ok,
    A64Lse4.compareExchangeStrong_ok,
    A64Lse4.fetchAdd_ok,
    A64Lse4.fetchSub_ok,
    A64Lse4.fetchAnd_ok,
    A64Lse4.fetchOr_ok,
    A64Lse4.fetchXor_ok⟩

/-- AArch64 with the extensions LSE and RCPC, objects of 4 bytes: concurrent calls of all operations
are linearizable. -/
theorem C49_aarch64_lse_4 : Atomic (A64Lse4.prims) false anyCas :=
  atomic_of_ok (A64Lse4.prims_ok) false

theorem A64x8.prims_ok (ordered : Bool) : (A64x8.prims ordered).Ok anyCas where
  load := match ordered with | false => plainLoad_ok (by decide) () | true => A64x8.load__ok ()
  store := fun v => match ordered with | false => plainStore_ok v | true => A64x8.store__ok v
  exchange := fun v => A64x8.exchange_ok v
  casWeak := fun e d _ => A64x8.compareExchangeWeak_ok (e, d)
  casStrong := fun e d _ => A64x8.compareExchangeStrong_ok (e, d)
  fetchAdd := fun v => A64x8.fetchAdd_ok v
  fetchSub := fun v => A64x8.fetchSub_ok v
  fetchAnd := fun v => A64x8.fetchAnd_ok v
  fetchOr := fun v => A64x8.fetchOr_ok v
  fetchXor := fun v => A64x8.fetchXor_ok v
  fetchNegate := A64x8.fetchNegate_ok ()
  fetchComplement := A64x8.fetchComplement_ok ()
  add := fun v => A64x8.add__ok v
  sub := fun v => A64x8.sub__ok v
  negate := A64x8.negate_ok ()
  bitwiseAnd := fun v => A64x8.bitwiseAnd_ok v
  bitwiseOr := fun v => A64x8.bitwiseOr_ok v
  bitwiseXor := fun v => A64x8.bitwiseXor_ok v
  bitwiseComplement := A64x8.bitwiseComplement_ok ()

/-- AArch64, objects of 8 bytes: each function does what its operation prescribes. -/
theorem C48_aarch64_8 :
    A64x8.store_.Implements Integral.spec .store ∧
    A64x8.load_.Implements Integral.spec (fun _ => .load) ∧
    A64x8.exchange.Implements Integral.spec .exchange ∧
    A64x8.compareExchangeWeak.Implements Integral.spec (fun a => .casWeak a.1 a.2) ∧
    A64x8.compareExchangeStrong.Implements Integral.spec (fun a => .casStrong a.1 a.2) ∧
    A64x8.fetchAdd.Implements Integral.spec .fetchAdd ∧
    A64x8.fetchSub.Implements Integral.spec .fetchSub ∧
    A64x8.fetchAnd.Implements Integral.spec .fetchAnd ∧
    A64x8.fetchOr.Implements Integral.spec .fetchOr ∧
    A64x8.fetchXor.Implements Integral.spec .fetchXor ∧
    A64x8.fetchNegate.Implements Integral.spec (fun _ => .fetchNegate) ∧
    A64x8.negate.Implements Integral.spec (fun _ => .negate) ∧
    A64x8.add_.Implements Integral.spec .add ∧
    A64x8.sub_.Implements Integral.spec .sub ∧
    A64x8.bitwiseAnd.Implements Integral.spec .bitwiseAnd ∧
    A64x8.bitwiseOr.Implements Integral.spec .bitwiseOr ∧
    A64x8.bitwiseXor.Implements Integral.spec .bitwiseXor ∧
    A64x8.fetchComplement.Implements Integral.spec (fun _ => .fetchComplement) ∧
    A64x8.bitwiseComplement.Implements Integral.spec (fun _ => .bitwiseComplement) :=
  ⟨A64x8.store__ok,
    A64x8.load__ok,
    A64x8.exchange_ok,
    A64x8.compareExchangeWeak_ok,
    A64x8.compareExchangeStrong_ok,
    A64x8.fetchAdd_ok,
    A64x8.fetchSub_ok,
    A64x8.fetchAnd_ok,
    A64x8.fetchOr_ok,
    A64x8.fetchXor_ok,
    A64x8.fetchNegate_ok,
    A64x8.negate_ok,
    A64x8.add__ok,
    A64x8.sub__ok,
    A64x8.bitwiseAnd_ok,
    A64x8.bitwiseOr_ok,
    A64x8.bitwiseXor_ok,
    A64x8.fetchComplement_ok,
    A64x8.bitwiseComplement_ok⟩

/-- AArch64, objects of 8 bytes: concurrent calls of all operations are linearizable. -/
theorem C49_aarch64_8 : Atomic (A64x8.prims) false anyCas :=
  atomic_of_ok (A64x8.prims_ok) false

theorem A64Lse8.prims_ok (ordered : Bool) : (A64Lse8.prims ordered).Ok anyCas where
  load := match ordered with | false => plainLoad_ok (by decide) () | true => A64Lse8.load_1_ok ()
  store := fun v => match ordered with | false => plainStore_ok v | true => A64x8.store__ok v
  exchange := fun v => A64Lse8.exchange_ok v
  casWeak := fun e d _ => A64Lse8.compareExchangeWeak_ok (e, d)
  casStrong := fun e d _ => A64Lse8.compareExchangeStrong_ok (e, d)
  fetchAdd := fun v => A64Lse8.fetchAdd_ok v
  fetchSub := fun v => A64Lse8.fetchSub_ok v
  fetchAnd := fun v => A64Lse8.fetchAnd_ok v
  fetchOr := fun v => A64Lse8.fetchOr_ok v
  fetchXor := fun v => A64Lse8.fetchXor_ok v
  fetchNegate := A64x8.fetchNegate_ok ()
  fetchComplement := Code.Does.complement (A64Lse8.fetchXor_ok (BitVec.allOnes 64))
  add := fun v => Code.Does.map (c := A64Lse8.fetchAdd.code v) (A64Lse8.fetchAdd_ok v) fun _ _ _ hs => ⟨hs.1, by simp [newVal, value, hs.1, hs.2]⟩
  sub := fun v => Code.Does.map (c := A64Lse8.fetchSub.code v) (A64Lse8.fetchSub_ok v) fun _ _ _ hs => ⟨hs.1, by simp [newVal, value, hs.1, hs.2]⟩
  negate := A64x8.negate_ok ()
  bitwiseAnd := fun v => Code.Does.map (c := A64Lse8.fetchAnd.code v) (A64Lse8.fetchAnd_ok v) fun _ _ _ hs => ⟨hs.1, by simp [newVal, value, hs.1, hs.2]⟩
  bitwiseOr := fun v => Code.Does.map (c := A64Lse8.fetchOr.code v) (A64Lse8.fetchOr_ok v) fun _ _ _ hs => ⟨hs.1, by simp [newVal, value, hs.1, hs.2]⟩
  bitwiseXor := fun v => Code.Does.map (c := A64Lse8.fetchXor.code v) (A64Lse8.fetchXor_ok v) fun _ _ _ hs => ⟨hs.1, by simp [newVal, value, hs.1, hs.2]⟩
  bitwiseComplement := Code.Does.map (c := A64Lse8.fetchXor.code (BitVec.allOnes 64)) (A64Lse8.fetchXor_ok (BitVec.allOnes 64)) fun _ _ _ hs => ⟨by rw [hs.1, BitVec.xor_allOnes], by simp [newVal, value, hs.1, hs.2]⟩

/-- AArch64 with the extensions LSE and RCPC, objects of 8 bytes: each function does what its
operation prescribes. -/
theorem C48_aarch64_lse_8 :
    A64Lse8.load_1.Implements Integral.spec (fun _ => .load) ∧
    A64Lse8.load_2.Implements Integral.spec (fun _ => .load) ∧
    A64Lse8.exchange.Implements Integral.spec .exchange ∧
    A64Lse8.compareExchangeWeak.Implements Integral.spec (fun a => .casWeak a.1 a.2) ∧
    A64Lse8.compareExchangeStrong.Implements Integral.spec (fun a => .casStrong a.1 a.2) ∧
    A64Lse8.fetchAdd.Implements Integral.spec .fetchAdd ∧
    A64Lse8.fetchSub.Implements Integral.spec .fetchSub ∧
    A64Lse8.fetchAnd.Implements Integral.spec .fetchAnd ∧
    A64Lse8.fetchOr.Implements Integral.spec .fetchOr ∧
    A64Lse8.fetchXor.Implements Integral.spec .fetchXor :=
  ⟨A64Lse8.load_1_ok,
    A64Lse8.load_2_ok,
    A64Lse8.exchange_ok,
    A64Lse8.compareExchangeWeak_ok,
    A64Lse8.compareExchangeStrong_ok,
    A64Lse8.fetchAdd_ok,
    A64Lse8.fetchSub_ok,
    A64Lse8.fetchAnd_ok,
    A64Lse8.fetchOr_ok,
    A64Lse8.fetchXor_ok⟩

/-- AArch64 with the extensions LSE and RCPC, objects of 8 bytes: concurrent calls of all operations
are linearizable. -/
theorem C49_aarch64_lse_8 : Atomic (A64Lse8.prims) false anyCas :=
  atomic_of_ok (A64Lse8.prims_ok) false

theorem A64x16.prims_ok (be : Bool) (ordered : Bool) : (A64x16.prims be ordered).Ok (fun _ _ => False) where
  load := match ordered with | false => A64x16.load_2_ok be () | true => A64x16.load_1_ok be ()
  store := fun v => match ordered with | false => A64x16.store_2_ok be v | true => A64x16.store_1_ok be v
  exchange := fun v => A64x16.exchange_ok be v
  casWeak := fun _ _ h => h.elim
  casStrong := fun _ _ h => h.elim
  fetchAdd := fun v => A64x16.fetchAdd_ok be v
  fetchSub := fun v => A64x16.fetchSub_ok be v
  fetchAnd := fun v => A64x16.fetchAnd_ok be v
  fetchOr := fun v => A64x16.fetchOr_ok be v
  fetchXor := fun v => A64x16.fetchXor_ok be v
  fetchNegate := A64x16.fetchNegate_ok be ()
  fetchComplement := A64x16.fetchComplement_ok be ()
  add := fun v => A64x16.add__ok be v
  sub := fun v => A64x16.sub__ok be v
  negate := A64x16.negate_ok be ()
  bitwiseAnd := fun v => A64x16.bitwiseAnd_ok be v
  bitwiseOr := fun v => A64x16.bitwiseOr_ok be v
  bitwiseXor := fun v => A64x16.bitwiseXor_ok be v
  bitwiseComplement := A64x16.bitwiseComplement_ok be ()

/-- AArch64, objects of 16 bytes: each function does what its operation prescribes. -/
theorem C48_aarch64_16 (be : Bool) :
    (A64x16.store_1 be).Implements Integral.spec .store ∧
    (A64x16.store_2 be).Implements Integral.spec .store ∧
    (A64x16.load_1 be).Implements Integral.spec (fun _ => .load) ∧
    (A64x16.load_2 be).Implements Integral.spec (fun _ => .load) ∧
    (A64x16.exchange be).Implements Integral.spec .exchange ∧
    (A64x16.fetchAdd be).Implements Integral.spec .fetchAdd ∧
    (A64x16.fetchSub be).Implements Integral.spec .fetchSub ∧
    (A64x16.fetchAnd be).Implements Integral.spec .fetchAnd ∧
    (A64x16.fetchOr be).Implements Integral.spec .fetchOr ∧
    (A64x16.fetchXor be).Implements Integral.spec .fetchXor ∧
    (A64x16.fetchNegate be).Implements Integral.spec (fun _ => .fetchNegate) ∧
    (A64x16.negate be).Implements Integral.spec (fun _ => .negate) ∧
    (A64x16.add_ be).Implements Integral.spec .add ∧
    (A64x16.sub_ be).Implements Integral.spec .sub ∧
    (A64x16.bitwiseAnd be).Implements Integral.spec .bitwiseAnd ∧
    (A64x16.bitwiseOr be).Implements Integral.spec .bitwiseOr ∧
    (A64x16.bitwiseXor be).Implements Integral.spec .bitwiseXor ∧
    (A64x16.fetchComplement be).Implements Integral.spec (fun _ => .fetchComplement) ∧
    (A64x16.bitwiseComplement be).Implements Integral.spec (fun _ => .bitwiseComplement) :=
  ⟨A64x16.store_1_ok be,
    A64x16.store_2_ok be,
    A64x16.load_1_ok be,
    A64x16.load_2_ok be,
    A64x16.exchange_ok be,
    A64x16.fetchAdd_ok be,
    A64x16.fetchSub_ok be,
    A64x16.fetchAnd_ok be,
    A64x16.fetchOr_ok be,
    A64x16.fetchXor_ok be,
    A64x16.fetchNegate_ok be,
    A64x16.negate_ok be,
    A64x16.add__ok be,
    A64x16.sub__ok be,
    A64x16.bitwiseAnd_ok be,
    A64x16.bitwiseOr_ok be,
    A64x16.bitwiseXor_ok be,
    A64x16.fetchComplement_ok be,
    A64x16.bitwiseComplement_ok be⟩

/-- AArch64, objects of 16 bytes: a failing compare-and-exchange may report a value the object never
had, see `Verif.Asm.Findings`. -/
theorem C48_aarch64_16_partial (be : Bool) :
    (A64x16.compareExchangeWeak be).Implements looseSpec (fun a => .casWeak a.1 a.2) ∧
    (A64x16.compareExchangeStrong be).Implements looseSpec (fun a => .casStrong a.1 a.2) :=
  ⟨A64x16.compareExchangeWeak_ok be,
    A64x16.compareExchangeStrong_ok be⟩

/-- AArch64, objects of 16 bytes: concurrent calls of all operations are linearizable (a failing
compare-and-exchange may report a value the object never had, see `Verif.Asm.Findings`). -/
theorem C49_aarch64_16_partial (be : Bool) : LooseAtomic (A64x16.prims be) false :=
  looseAtomic_of_ok (A64x16.prims_ok be) (fun _ e d => A64x16.compareExchangeWeak_ok be (e, d))
    (fun _ e d => A64x16.compareExchangeStrong_ok be (e, d)) false

end Verif.Asm
