import Verif.Asm.PpcOps
import Verif.Asm.OpsLemmas
import Verif.Asm.PpcProofs

/-
Atomic objects on PowerPC.
What is proved about them: `C48_*`, that each function does what its operation prescribes, for all arguments,
all register assignments the compiler may choose and all interference; `C49_*`, that an object on which any number
of cores execute these functions is linearizable.  Written by tools/asmgen.py.
-/

namespace Verif.Asm

theorem Ppc1.prims_ok {R : Nat} (hR : 32 ≤ R) (ordered : Bool) : (Ppc1.prims R ordered).Ok anyCas where
  load := match ordered with | false => Ppc1.load_2_ok hR () | true => Ppc1.load_1_ok hR ()
  store := fun v => Ppc1.store__ok hR v
  exchange := fun v => Ppc1.exchange_ok hR v
  casWeak := fun e d _ => Ppc1.compareExchangeWeak_ok hR (e, d)
  casStrong := fun e d _ => Ppc1.compareExchangeStrong_ok hR (e, d)
  fetchAdd := fun v => Ppc1.fetchAdd_ok hR v
  fetchSub := fun v => Ppc1.fetchSub_ok hR v
  fetchAnd := fun v => Ppc1.fetchAnd_ok hR v
  fetchOr := fun v => Ppc1.fetchOr_ok hR v
  fetchXor := fun v => Ppc1.fetchXor_ok hR v
  fetchNegate := Ppc1.fetchNegate_ok hR ()
  fetchComplement := Ppc1.fetchComplement_ok hR ()
  add := fun v => Ppc1.add__ok hR v
  sub := fun v => Ppc1.sub__ok hR v
  negate := Ppc1.negate_ok hR ()
  bitwiseAnd := fun v => Ppc1.bitwiseAnd_ok hR v
  bitwiseOr := fun v => Ppc1.bitwiseOr_ok hR v
  bitwiseXor := fun v => Ppc1.bitwiseXor_ok hR v
  bitwiseComplement := Ppc1.bitwiseComplement_ok hR ()

/-- PowerPC, objects of 1 byte: each function does what its operation prescribes. -/
theorem C48_ppc_1 {R : Nat} (hR : 32 ≤ R) :
    (Ppc1.store_ R).Implements Integral.spec .store ∧
    (Ppc1.load_1 R).Implements Integral.spec (fun _ => .load) ∧
    (Ppc1.load_2 R).Implements Integral.spec (fun _ => .load) ∧
    (Ppc1.exchange R).Implements Integral.spec .exchange ∧
    (Ppc1.compareExchangeWeak R).Implements Integral.spec (fun a => .casWeak a.1 a.2) ∧
    (Ppc1.fetchAdd R).Implements Integral.spec .fetchAdd ∧
    (Ppc1.fetchSub R).Implements Integral.spec .fetchSub ∧
    (Ppc1.fetchAnd R).Implements Integral.spec .fetchAnd ∧
    (Ppc1.fetchOr R).Implements Integral.spec .fetchOr ∧
    (Ppc1.fetchXor R).Implements Integral.spec .fetchXor ∧
    (Ppc1.fetchNegate R).Implements Integral.spec (fun _ => .fetchNegate) ∧
    (Ppc1.negate R).Implements Integral.spec (fun _ => .negate) ∧
    (Ppc1.add_ R).Implements Integral.spec .add ∧
    (Ppc1.sub_ R).Implements Integral.spec .sub ∧
    (Ppc1.bitwiseAnd R).Implements Integral.spec .bitwiseAnd ∧
    (Ppc1.bitwiseOr R).Implements Integral.spec .bitwiseOr ∧
    (Ppc1.bitwiseXor R).Implements Integral.spec .bitwiseXor ∧
    (Ppc1.fetchComplement R).Implements Integral.spec (fun _ => .fetchComplement) ∧
    (Ppc1.bitwiseComplement R).Implements Integral.spec (fun _ => .bitwiseComplement) :=
  ⟨Ppc1.store__ok hR,
    Ppc1.load_1_ok hR,
    Ppc1.load_2_ok hR,
    Ppc1.exchange_ok hR,
    Ppc1.compareExchangeWeak_ok hR,
    Ppc1.fetchAdd_ok hR,
    Ppc1.fetchSub_ok hR,
    Ppc1.fetchAnd_ok hR,
    Ppc1.fetchOr_ok hR,
    Ppc1.fetchXor_ok hR,
    Ppc1.fetchNegate_ok hR,
    Ppc1.negate_ok hR,
    Ppc1.add__ok hR,
    Ppc1.sub__ok hR,
    Ppc1.bitwiseAnd_ok hR,
    Ppc1.bitwiseOr_ok hR,
    Ppc1.bitwiseXor_ok hR,
    Ppc1.fetchComplement_ok hR,
    Ppc1.bitwiseComplement_ok hR⟩

/-- PowerPC, objects of 1 byte: strong compare-and-exchange if the operand `expected` is held
zero-extended, see `Verif.Asm.Findings`. -/
theorem C48_ppc_1_partial {R : Nat} (hR : 32 ≤ R) :
    ((Ppc1.compareExchangeStrong R).zext 3).Implements Integral.spec (fun a => .casStrong a.1 a.2) :=
  Ppc1.compareExchangeStrong_ok hR

/-- PowerPC, objects of 1 byte: concurrent calls of all operations are linearizable (strong
compare-and-exchange if the operand `expected` is held zero-extended, see `Verif.Asm.Findings`). -/
theorem C49_ppc_1_partial {R : Nat} (hR : 32 ≤ R) : Atomic (Ppc1.prims R) true anyCas :=
  atomic_of_ok (Ppc1.prims_ok hR) true

theorem Ppc2.prims_ok {R : Nat} (hR : 32 ≤ R) (ordered : Bool) : (Ppc2.prims R ordered).Ok anyCas where
  load := match ordered with | false => Ppc2.load_2_ok hR () | true => Ppc2.load_1_ok hR ()
  store := fun v => Ppc2.store__ok hR v
  exchange := fun v => Ppc2.exchange_ok hR v
  casWeak := fun e d _ => Ppc2.compareExchangeWeak_ok hR (e, d)
  casStrong := fun e d _ => Ppc2.compareExchangeStrong_ok hR (e, d)
  fetchAdd := fun v => Ppc2.fetchAdd_ok hR v
  fetchSub := fun v => Ppc2.fetchSub_ok hR v
  fetchAnd := fun v => Ppc2.fetchAnd_ok hR v
  fetchOr := fun v => Ppc2.fetchOr_ok hR v
  fetchXor := fun v => Ppc2.fetchXor_ok hR v
  fetchNegate := Ppc2.fetchNegate_ok hR ()
  fetchComplement := Ppc2.fetchComplement_ok hR ()
  add := fun v => Ppc2.add__ok hR v
  sub := fun v => Ppc2.sub__ok hR v
  negate := Ppc2.negate_ok hR ()
  bitwiseAnd := fun v => Ppc2.bitwiseAnd_ok hR v
  bitwiseOr := fun v => Ppc2.bitwiseOr_ok hR v
  bitwiseXor := fun v => Ppc2.bitwiseXor_ok hR v
  bitwiseComplement := Ppc2.bitwiseComplement_ok hR ()

/-- PowerPC, objects of 2 bytes: each function does what its operation prescribes. -/
theorem C48_ppc_2 {R : Nat} (hR : 32 ≤ R) :
    (Ppc2.store_ R).Implements Integral.spec .store ∧
    (Ppc2.load_1 R).Implements Integral.spec (fun _ => .load) ∧
    (Ppc2.load_2 R).Implements Integral.spec (fun _ => .load) ∧
    (Ppc2.exchange R).Implements Integral.spec .exchange ∧
    (Ppc2.compareExchangeWeak R).Implements Integral.spec (fun a => .casWeak a.1 a.2) ∧
    (Ppc2.fetchAdd R).Implements Integral.spec .fetchAdd ∧
    (Ppc2.fetchSub R).Implements Integral.spec .fetchSub ∧
    (Ppc2.fetchAnd R).Implements Integral.spec .fetchAnd ∧
    (Ppc2.fetchOr R).Implements Integral.spec .fetchOr ∧
    (Ppc2.fetchXor R).Implements Integral.spec .fetchXor ∧
    (Ppc2.fetchNegate R).Implements Integral.spec (fun _ => .fetchNegate) ∧
    (Ppc2.negate R).Implements Integral.spec (fun _ => .negate) ∧
    (Ppc2.add_ R).Implements Integral.spec .add ∧
    (Ppc2.sub_ R).Implements Integral.spec .sub ∧
    (Ppc2.bitwiseAnd R).Implements Integral.spec .bitwiseAnd ∧
    (Ppc2.bitwiseOr R).Implements Integral.spec .bitwiseOr ∧
    (Ppc2.bitwiseXor R).Implements Integral.spec .bitwiseXor ∧
    (Ppc2.fetchComplement R).Implements Integral.spec (fun _ => .fetchComplement) ∧
    (Ppc2.bitwiseComplement R).Implements Integral.spec (fun _ => .bitwiseComplement) :=
  ⟨Ppc2.store__ok hR,
    Ppc2.load_1_ok hR,
    Ppc2.load_2_ok hR,
    Ppc2.exchange_ok hR,
    Ppc2.compareExchangeWeak_ok hR,
    Ppc2.fetchAdd_ok hR,
    Ppc2.fetchSub_ok hR,
    Ppc2.fetchAnd_ok hR,
    Ppc2.fetchOr_ok hR,
    Ppc2.fetchXor_ok hR,
    Ppc2.fetchNegate_ok hR,
    Ppc2.negate_ok hR,
    Ppc2.add__ok hR,
    Ppc2.sub__ok hR,
    Ppc2.bitwiseAnd_ok hR,
    Ppc2.bitwiseOr_ok hR,
    Ppc2.bitwiseXor_ok hR,
    Ppc2.fetchComplement_ok hR,
    Ppc2.bitwiseComplement_ok hR⟩

/-- PowerPC, objects of 2 bytes: strong compare-and-exchange if the operand `expected` is held
zero-extended, see `Verif.Asm.Findings`. -/
theorem C48_ppc_2_partial {R : Nat} (hR : 32 ≤ R) :
    ((Ppc2.compareExchangeStrong R).zext 3).Implements Integral.spec (fun a => .casStrong a.1 a.2) :=
  Ppc2.compareExchangeStrong_ok hR

/-- PowerPC, objects of 2 bytes: concurrent calls of all operations are linearizable (strong
compare-and-exchange if the operand `expected` is held zero-extended, see `Verif.Asm.Findings`). -/
theorem C49_ppc_2_partial {R : Nat} (hR : 32 ≤ R) : Atomic (Ppc2.prims R) true anyCas :=
  atomic_of_ok (Ppc2.prims_ok hR) true

theorem Ppc4.prims_ok {R : Nat} (hR : 32 ≤ R) (ordered : Bool) : (Ppc4.prims R ordered).Ok anyCas where
  load := match ordered with | false => Ppc4.load_2_ok hR () | true => Ppc4.load_1_ok hR ()
  store := fun v => Ppc4.store__ok hR v
  exchange := fun v => Ppc4.exchange_ok hR v
  casWeak := fun e d _ => Ppc4.compareExchangeWeak_ok hR (e, d)
  casStrong := fun e d _ => Ppc4.compareExchangeStrong_ok hR (e, d)
  fetchAdd := fun v => Ppc4.fetchAdd_ok hR v
  fetchSub := fun v => Ppc4.fetchSub_ok hR v
  fetchAnd := fun v => Ppc4.fetchAnd_ok hR v
  fetchOr := fun v => Ppc4.fetchOr_ok hR v
  fetchXor := fun v => Ppc4.fetchXor_ok hR v
  fetchNegate := Ppc4.fetchNegate_ok hR ()
  fetchComplement := Ppc4.fetchComplement_ok hR ()
  add := fun v => Ppc4.add__ok hR v
  sub := fun v => Ppc4.sub__ok hR v
  negate := Ppc4.negate_ok hR ()
  bitwiseAnd := fun v => Ppc4.bitwiseAnd_ok hR v
  bitwiseOr := fun v => Ppc4.bitwiseOr_ok hR v
  bitwiseXor := fun v => Ppc4.bitwiseXor_ok hR v
  bitwiseComplement := Ppc4.bitwiseComplement_ok hR ()

/-- PowerPC, objects of 4 bytes: each function does what its operation prescribes. -/
theorem C48_ppc_4 {R : Nat} (hR : 32 ≤ R) :
    (Ppc4.store_ R).Implements Integral.spec .store ∧
    (Ppc4.load_1 R).Implements Integral.spec (fun _ => .load) ∧
    (Ppc4.load_2 R).Implements Integral.spec (fun _ => .load) ∧
    (Ppc4.exchange R).Implements Integral.spec .exchange ∧
    (Ppc4.compareExchangeWeak R).Implements Integral.spec (fun a => .casWeak a.1 a.2) ∧
    (Ppc4.compareExchangeStrong R).Implements Integral.spec (fun a => .casStrong a.1 a.2) ∧
    (Ppc4.fetchAdd R).Implements Integral.spec .fetchAdd ∧
    (Ppc4.fetchSub R).Implements Integral.spec .fetchSub ∧
    (Ppc4.fetchAnd R).Implements Integral.spec .fetchAnd ∧
    (Ppc4.fetchOr R).Implements Integral.spec .fetchOr ∧
    (Ppc4.fetchXor R).Implements Integral.spec .fetchXor ∧
    (Ppc4.fetchNegate R).Implements Integral.spec (fun _ => .fetchNegate) ∧
    (Ppc4.negate R).Implements Integral.spec (fun _ => .negate) ∧
    (Ppc4.add_ R).Implements Integral.spec .add ∧
    (Ppc4.sub_ R).Implements Integral.spec .sub ∧
    (Ppc4.bitwiseAnd R).Implements Integral.spec .bitwiseAnd ∧
    (Ppc4.bitwiseOr R).Implements Integral.spec .bitwiseOr ∧
    (Ppc4.bitwiseXor R).Implements Integral.spec .bitwiseXor ∧
    (Ppc4.fetchComplement R).Implements Integral.spec (fun _ => .fetchComplement) ∧
    (Ppc4.bitwiseComplement R).Implements Integral.spec (fun _ => .bitwiseComplement) :=
  ⟨Ppc4.store__ok hR,
    Ppc4.load_1_ok hR,
    Ppc4.load_2_ok hR,
    Ppc4.exchange_ok hR,
    Ppc4.compareExchangeWeak_ok hR,
    Ppc4.compareExchangeStrong_ok hR,
    Ppc4.fetchAdd_ok hR,
    Ppc4.fetchSub_ok hR,
    Ppc4.fetchAnd_ok hR,
    Ppc4.fetchOr_ok hR,
    Ppc4.fetchXor_ok hR,
    Ppc4.fetchNegate_ok hR,
    Ppc4.negate_ok hR,
    Ppc4.add__ok hR,
    Ppc4.sub__ok hR,
    Ppc4.bitwiseAnd_ok hR,
    Ppc4.bitwiseOr_ok hR,
    Ppc4.bitwiseXor_ok hR,
    Ppc4.fetchComplement_ok hR,
    Ppc4.bitwiseComplement_ok hR⟩

/-- PowerPC, objects of 4 bytes: concurrent calls of all operations are linearizable. -/
theorem C49_ppc_4 {R : Nat} (hR : 32 ≤ R) : Atomic (Ppc4.prims R) true anyCas :=
  atomic_of_ok (Ppc4.prims_ok hR) true

theorem Ppc8.prims_ok (ordered : Bool) : (Ppc8.prims ordered).Ok anyCas where
  load := match ordered with | false => Ppc8.load_2_ok () | true => Ppc8.load_1_ok ()
  store := fun v => Ppc8.store__ok v
  exchange := fun v => Ppc8.exchange_ok v
  casWeak := fun e d _ => Ppc8.compareExchangeWeak_ok (e, d)
  casStrong := fun e d _ => Ppc8.compareExchangeStrong_ok (e, d)
  fetchAdd := fun v => Ppc8.fetchAdd_ok v
  fetchSub := fun v => Ppc8.fetchSub_ok v
  fetchAnd := fun v => Ppc8.fetchAnd_ok v
  fetchOr := fun v => Ppc8.fetchOr_ok v
  fetchXor := fun v => Ppc8.fetchXor_ok v
  fetchNegate := Ppc8.fetchNegate_ok ()
  fetchComplement := Ppc8.fetchComplement_ok ()
  add := fun v => Ppc8.add__ok v
  sub := fun v => Ppc8.sub__ok v
  negate := Ppc8.negate_ok ()
  bitwiseAnd := fun v => Ppc8.bitwiseAnd_ok v
  bitwiseOr := fun v => Ppc8.bitwiseOr_ok v
  bitwiseXor := fun v => Ppc8.bitwiseXor_ok v
  bitwiseComplement := Ppc8.bitwiseComplement_ok ()

/-- PowerPC, objects of 8 bytes: each function does what its operation prescribes. -/
theorem C48_ppc_8 :
    Ppc8.store_.Implements Integral.spec .store ∧
    Ppc8.load_1.Implements Integral.spec (fun _ => .load) ∧
    Ppc8.load_2.Implements Integral.spec (fun _ => .load) ∧
    Ppc8.exchange.Implements Integral.spec .exchange ∧
    Ppc8.compareExchangeWeak.Implements Integral.spec (fun a => .casWeak a.1 a.2) ∧
    Ppc8.compareExchangeStrong.Implements Integral.spec (fun a => .casStrong a.1 a.2) ∧
    Ppc8.fetchAdd.Implements Integral.spec .fetchAdd ∧
    Ppc8.fetchSub.Implements Integral.spec .fetchSub ∧
    Ppc8.fetchAnd.Implements Integral.spec .fetchAnd ∧
    Ppc8.fetchOr.Implements Integral.spec .fetchOr ∧
    Ppc8.fetchXor.Implements Integral.spec .fetchXor ∧
    Ppc8.fetchNegate.Implements Integral.spec (fun _ => .fetchNegate) ∧
    Ppc8.negate.Implements Integral.spec (fun _ => .negate) ∧
    Ppc8.add_.Implements Integral.spec .add ∧
    Ppc8.sub_.Implements Integral.spec .sub ∧
    Ppc8.bitwiseAnd.Implements Integral.spec .bitwiseAnd ∧
    Ppc8.bitwiseOr.Implements Integral.spec .bitwiseOr ∧
    Ppc8.bitwiseXor.Implements Integral.spec .bitwiseXor ∧
    Ppc8.fetchComplement.Implements Integral.spec (fun _ => .fetchComplement) ∧
    Ppc8.bitwiseComplement.Implements Integral.spec (fun _ => .bitwiseComplement) :=
  ⟨Ppc8.store__ok,
    Ppc8.load_1_ok,
    Ppc8.load_2_ok,
    Ppc8.exchange_ok,
    Ppc8.compareExchangeWeak_ok,
    Ppc8.compareExchangeStrong_ok,
    Ppc8.fetchAdd_ok,
    Ppc8.fetchSub_ok,
    Ppc8.fetchAnd_ok,
    Ppc8.fetchOr_ok,
    Ppc8.fetchXor_ok,
    Ppc8.fetchNegate_ok,
    Ppc8.negate_ok,
    Ppc8.add__ok,
    Ppc8.sub__ok,
    Ppc8.bitwiseAnd_ok,
    Ppc8.bitwiseOr_ok,
    Ppc8.bitwiseXor_ok,
    Ppc8.fetchComplement_ok,
    Ppc8.bitwiseComplement_ok⟩

/-- PowerPC, objects of 8 bytes: concurrent calls of all operations are linearizable. -/
theorem C49_ppc_8 : Atomic (Ppc8.prims) true anyCas :=
  atomic_of_ok (Ppc8.prims_ok) true

/-- PowerPC without instructions for narrow objects, values of 1 or 2 bytes kept extended in words:
`fetch_add` and `fetch_sub` do what they should, and leave an extended value in the word. -/
theorem C48_ppc_word {R : Nat} (hR : 32 ≤ R) :
    (PpcWord.fetchAdd1u R).Implements (inWord (BitVec.setWidth 32)) (.fetchAdd (N := 8)) ∧
    (PpcWord.fetchSub1u R).Implements (inWord (BitVec.setWidth 32)) (.fetchSub (N := 8)) ∧
    (PpcWord.fetchAdd1s R).Implements (inWord (BitVec.signExtend 32)) (.fetchAdd (N := 8)) ∧
    (PpcWord.fetchSub1s R).Implements (inWord (BitVec.signExtend 32)) (.fetchSub (N := 8)) ∧
    (PpcWord.fetchAdd2u R).Implements (inWord (BitVec.setWidth 32)) (.fetchAdd (N := 16)) ∧
    (PpcWord.fetchSub2u R).Implements (inWord (BitVec.setWidth 32)) (.fetchSub (N := 16)) ∧
    (PpcWord.fetchAdd2s R).Implements (inWord (BitVec.signExtend 32)) (.fetchAdd (N := 16)) ∧
    (PpcWord.fetchSub2s R).Implements (inWord (BitVec.signExtend 32)) (.fetchSub (N := 16)) :=
  ⟨PpcWord.fetchAdd1u_ok hR,
    PpcWord.fetchSub1u_ok hR,
    PpcWord.fetchAdd1s_ok hR,
    PpcWord.fetchSub1s_ok hR,
    PpcWord.fetchAdd2u_ok hR,
    PpcWord.fetchSub2u_ok hR,
    PpcWord.fetchAdd2s_ok hR,
    PpcWord.fetchSub2s_ok hR⟩

end Verif.Asm
