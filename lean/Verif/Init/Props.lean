import Verif.Api.Props
import Verif.Bytes.Props
import Verif.Init.Model

/-
C68  a new atomic object holds the value it is constructed with, and without an argument the value `T()`
-/

namespace Verif.Init

open Verif.Bytes Verif.Init.Spec
open Verif.Api (LinearizableEverywhere everywhere)

instance {n : Nat} : DecidableEq (Bytes n) := fun a b =>
  decidable_of_iff (∀ i, a i = b i) ⟨funext, fun h i => congrFun h i⟩

/-! ### Structures, floating point, pointers to members and functions -/

section
variable {Mode : Type} (c : Cfg) (T : Ty) (hT : T.Wf) (hk : Known c T) (s : Nat) (hs : T.size ≤ s) (align : Nat)
  (F : Mode → Fp T.size) (neg : NegImpl) (hneg : ∀ le, neg = some le → SignOk T s F le)
  (u : Op Mode T.size → Bytes s) (u' : Op Mode T.size → Bytes T.size) (u₀ : Bytes s)
include hT hk hs hneg

/-- C68: an object constructed from `v` behaves, from the first operation on and under every interleaving, as an object that
holds `v`. -/
theorem C68_value (v : Bytes T.size) : ∃ s₀, SameValue T.mask s₀ v ∧
    LinearizableEverywhere (table c T s align F neg u u') (spec F T.mask) (construct c T s u₀ v) s₀ :=
  ⟨_, same_of_to hT hk hs u₀ _ v, everywhere (table_correct hT hk hs align hneg u u' fun _ => 0) (clean_toStorage hT hk hs u₀ v) rfl⟩

/-- C68, partial: an object constructed without argument behaves as one that holds `T()`, if `T` has a constructor of its own or the
null pointers in it are represented by zeros.  Floating-point types have no constructor. -/
theorem C68_default_partial (abi : Abi) (parts : List Part) (ctor : Option (Bytes T.size)) (hfp : T.fp = true → ctor = none)
    (hz : ctor = none → ∀ p ∈ parts, abi.zero p.kind = 0) : ∃ s₀, SameValue T.mask s₀ (valueInit abi parts ctor) ∧
    LinearizableEverywhere (table c T s align F neg u u') (spec F T.mask) (defaultConstruct c T ctor s u₀) s₀ := by
  cases ctor with
  | some v =>
    have : T.fp = false := by
      cases h : T.fp
      · rfl
      · exact absurd (hfp h) (by simp)
    have e : defaultConstruct c T (some v) s u₀ = construct c T s u₀ v := by simp [defaultConstruct, this, construct]
    rw [e]
    exact C68_value c T hT hk s hs align F neg hneg u u' u₀ v
  | none =>
    have e : defaultConstruct c T none s u₀ = m_storage s := by simp [defaultConstruct]
    rw [e]
    refine ⟨fun _ => 0, fun i => ?_, everywhere (table_correct hT hk hs align hneg u u' fun _ => 0) (fun i => ?_) ?_⟩
    · have : valueInit abi parts (none : Option (Bytes T.size)) i = 0 := by
        show zeroInit abi parts T.size i = 0
        unfold zeroInit
        cases h : parts.find? (·.has i.1) with
        | none => rfl
        | some p => exact hz rfl p (List.mem_of_find?_eq_some h)
      rw [this]
    · simp [m_storage]
    · funext i; rw [ofStorage_eq hs]; rfl

end

/-- C68: also where the library does not know where the padding is, the first load of an object constructed without argument
returns `T()`, under the same condition. -/
theorem C68_first_load_partial {Mode : Type} (c : Cfg) (T : Ty) (s : Nat) (hs : T.size ≤ s) (align : Nat) (F : Mode → Fp T.size)
    (neg : NegImpl) (u : Op Mode T.size → Bytes s) (u' : Op Mode T.size → Bytes T.size) (u₀ : Bytes s) (abi : Abi) (parts : List Part)
    (hz : ∀ p ∈ parts, abi.zero p.kind = 0) (w' : Bytes s) (r : Ret T.size)
    (h : (table c T s align F neg u u' .load).Run (defaultConstruct c T none s u₀) w' r) :
    w' = defaultConstruct c T none s u₀ ∧ r = .val (valueInit abi parts none) := by
  have e : defaultConstruct c T none s u₀ = m_storage s := by simp [defaultConstruct]
  rw [e] at h ⊢
  rw [table, Integral.run_load] at h
  refine ⟨h.1, h.2.trans (congrArg Ret.val ?_)⟩
  funext i
  rw [ofStorage_eq hs]
  show (0 : Byte) = zeroInit abi parts T.size i
  unfold zeroInit
  cases h : parts.find? (·.has i.1) with
  | none => rfl
  | some p => exact (hz p (List.mem_of_find?_eq_some h)).symm

/-- Conditions of C68 hold for a structure with a pointer, an integer and padding, also with the ABI of gcc and clang. -/
example : ∃ (T : Ty) (parts : List Part), T.Wf ∧ Known ⟨true, true, true⟩ T ∧ T.size = 16 ∧ ¬ Full T.mask ∧ parts.length = 2 ∧
    ∀ p ∈ parts, itanium.zero p.kind = 0 := by
  refine ⟨⟨16, fun i => if i.1 < 12 then 0xff else 0, false, false, 16, by decide, 8⟩, [⟨0, 8, .pointer⟩, ⟨8, 4, .arithmetic⟩],
    ⟨by simp, by simp⟩, .inl rfl, rfl, ?_, rfl, by decide⟩
  intro h
  exact absurd (h ⟨15, by decide⟩) (by simp)

/-- `int S::*` on a 64-bit target. -/
abbrev memberPointer : Ty := ⟨8, fun _ => 0xff, true, false, 8, by decide, 8⟩

theorem memberPointer_wf : memberPointer.Wf := ⟨fun _ _ => rfl, by simp [memberPointer]⟩

/-- C68 is false for pointers to data members: `atomic<int S::*>` constructed without argument does not hold the null pointer.  The first
load returns another value, namely the pointer to the member at offset 0, and a compare-exchange expecting `T()` fails.  This is
so with every compiler that follows the Itanium ABI, with and without a way to clear padding. -/
theorem C68_default_violated {Mode : Type} (c : Cfg) (align : Nat) (F : Mode → Fp 8) (neg : NegImpl) (u : Op Mode 8 → Bytes 8)
    (u' : Op Mode 8 → Bytes 8) (u₀ : Bytes 8) :
    (∀ i, valueInit itanium [⟨0, 8, .dataMember⟩] (none : Option (Bytes 8)) i = 0xff) ∧
    (∀ w r, (table c memberPointer 8 align F neg u u' .load).Run (defaultConstruct c memberPointer none 8 u₀) w r →
      r = .val (fun _ => 0)) ∧
    ∀ d w r, (table c memberPointer 8 align F neg u u' (.casStrong (valueInit itanium [⟨0, 8, .dataMember⟩] none) d)).Run
      (defaultConstruct c memberPointer none 8 u₀) w r → r = .cas false (fun _ => 0) := by
  have e : defaultConstruct c memberPointer none 8 u₀ = m_storage 8 := by simp [defaultConstruct]
  have h0 : ∀ u : Bytes 8, ofStorage c memberPointer 8 u (m_storage 8) = fun _ => 0 := by
    intro u; funext i; rw [ofStorage_eq (by decide)]; rfl
  have hff : ∀ i, valueInit itanium [⟨0, 8, .dataMember⟩] (none : Option (Bytes 8)) i = 0xff := by decide
  refine ⟨hff, fun w r h => ?_, fun d w r h => ?_⟩
  · rw [e, table, Integral.run_load] at h
    exact h.2.trans (congrArg Ret.val (h0 _))
  · rw [e] at h
    simp only [table] at h
    split at h
    · next hc =>
      rw [Integral.run_strong] at h
      rcases h with ⟨h, -⟩ | ⟨-, -, h⟩
      · have := congrFun h 0
        simp only [bit_cast, m_storage] at this
        exact absurd (this.trans (hff _)) (by decide)
      · exact h
    · rw [Integral.run_strong] at h
      rcases h with ⟨h, -⟩ | ⟨-, -, h⟩
      · have := congrFun h 0
        rw [toStorage_eq memberPointer_wf (.inr (.inl ⟨rfl, fun _ => rfl⟩)) (by decide), ext, dif_pos (by decide), hff] at this
        exact absurd this (by decide)
      · rw [h, h0]

/-! ### Integers, enumerations, pointers and `bool` -/

open Verif.Integral (Backend ext trunc Canon EmulSafe native emulated)

/-- C68 for integers. -/
theorem C68_integer (b : Backend) (sgn : Bool) {N : Nat} (hN : 0 < N) (hb : b.Fits N) :
    LinearizableEverywhere (native b sgn N) Integral.spec (defaultWord N) 0 ∧
    ∀ v, LinearizableEverywhere (native b sgn N) Integral.spec (integerWord sgn N v) v :=
  ⟨everywhere (Concurrent.native_correct b sgn hN hb) trivial rfl,
    fun v => everywhere (Concurrent.native_correct b sgn hN hb) trivial (Integral.ext_self v)⟩

/-- C68 for integers in wider storage: the operations whose emulation is right (C07). -/
theorem C68_integer_emulated_partial (cb sgn : Bool) {N W : Nat} (hN : 0 < N) (h : N ≤ W) :
    LinearizableEverywhere (Concurrent.emulatedSafe cb sgn N W) (Concurrent.specSafe cb sgn N) (defaultWord W) 0 ∧
    ∀ v, LinearizableEverywhere (Concurrent.emulatedSafe cb sgn N W) (Concurrent.specSafe cb sgn N) (integerWord sgn W v) v := by
  have key : ∀ v, LinearizableEverywhere (Concurrent.emulatedSafe cb sgn N W) (Concurrent.specSafe cb sgn N) (integerWord sgn W v) v :=
    fun v => everywhere (Concurrent.emulated_correct cb sgn hN h) (Integral.canon_ext h v) (Integral.trunc_ext h v)
  refine ⟨?_, key⟩
  have e : defaultWord W = integerWord sgn W (0 : BitVec N) := by
    cases sgn <;> simp [defaultWord, integerWord, Integral.ext, BitVec.signExtend]
  rw [e]; exact key 0

/-- C68 for enumerations; the value without argument is the one whose number is 0. -/
theorem C68_enumeration (b : Backend) (bigEndian esgn : Bool) {N : Nat} (hN : 0 < N) (hb : b.Fits N) :
    LinearizableEverywhere (Api.enumNative b bigEndian esgn N) Api.enumSpec (defaultWord N) 0 ∧
    ∀ v, LinearizableEverywhere (Api.enumNative b bigEndian esgn N) Api.enumSpec (integerWord esgn N v) v := by
  refine ⟨?_, fun v => Api.C41_linearizable b bigEndian esgn hN hb v⟩
  have := Api.C41_linearizable b bigEndian esgn hN hb 0
  rwa [Integral.ext_self] at this

/-- C68 for pointers to objects, where null pointers are represented by zeros. -/
theorem C68_pointer (b : Backend) {S P : Nat} (sz : Nat) (hP : 0 < P) (h : P ≤ S) (hb : b.Fits P) :
    LinearizableEverywhere (Api.ptrNative b S sz P) (Api.ptrSpec sz) (defaultWord P) 0 ∧
    ∀ p, LinearizableEverywhere (Api.ptrNative b S sz P) (Api.ptrSpec sz) (pointerWord P p) p := by
  refine ⟨Api.C13_linearizable b sz hP h hb 0, fun p => ?_⟩
  have := Api.C13_linearizable b sz hP h hb p
  rwa [pointerWord, BitVec.setWidth_eq]

/-- C68 for `bool`, in storage of any width. -/
theorem C68_bool (b : Backend) (inPlace : Bool) {N W : Nat} (hW : 0 < W) :
    (LinearizableEverywhere (Api.boolApi inPlace (Api.coreOf b W)) Api.boolSpec (defaultWord W) false ∧
      ∀ v, LinearizableEverywhere (Api.boolApi inPlace (Api.coreOf b W)) Api.boolSpec (boolWord W v) v) ∧
    (LinearizableEverywhere (Api.boolApi inPlace (Integral.coreExtending N false (Integral.corePlain W))) Api.boolSpec (defaultWord W) false ∧
      ∀ v, LinearizableEverywhere (Api.boolApi inPlace (Integral.coreExtending N false (Integral.corePlain W))) Api.boolSpec (boolWord W v) v) := by
  have e : ∀ v, boolWord W v = Api.ofBool W v := by intro v; cases v <;> rfl
  have e0 : defaultWord W = Api.ofBool W false := rfl
  simp only [e, e0]
  exact ⟨⟨Api.C43_linearizable b inPlace hW false, Api.C43_linearizable b inPlace hW⟩,
    Api.C43_emulated_linearizable inPlace hW false, Api.C43_emulated_linearizable inPlace hW⟩

/-- A signed integer of 8 bits in 32 bits of storage, and a pointer to elements of 12 bytes. -/
example : integerWord true 32 (-3 : BitVec 8) = -3 ∧
    (Api.ptrNative .intrinsics 64 12 64 (.fetchAdd 2)).Run (pointerWord 64 (0x1000 : BitVec 64)) 0x1018 (.val 0x1000) := by
  have e : (0x1018 : BitVec 64) = pointerWord 64 (0x1000 : BitVec 64) + Api.offset 64 64 12 2 := by decide
  refine ⟨by decide, ?_⟩
  rw [e]
  exact .rmw

end Verif.Init
