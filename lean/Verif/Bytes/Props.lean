import Verif.Concurrent.Props
import Verif.Bytes.Attach

/-
C14  values round-trip through the storage, and padding never influences comparison
C15  byte-buffer storage tests zero and equality over every byte
C33  floating-point operations are atomic and compare by representation
and C01, C02, C03 for objects of arbitrary type.
The specification is `Verif.Bytes.Spec`.
-/

namespace Verif.Bytes

open Verif.Concurrent

/-! ### Concrete types used in the examples -/

/-- `struct { char c; int i; }`: bytes 1 to 3 are padding. -/
abbrev exStruct : Ty where
  size := 8
  mask := fun i => if i.1 = 0 ∨ 4 ≤ i.1 then 0xff else 0
  unique := false
  fp := false
  vs := 8
  vs_le := by omega
  align := 4

/-- `struct { unsigned a : 3; }` in one byte: the upper five bits are padding. -/
abbrev exBits : Ty where
  size := 1
  mask := fun _ => 7
  unique := false
  fp := false
  vs := 1
  vs_le := by omega
  align := 1

/-- x87 `long double` on x86-64: 10 value bytes in 16. -/
abbrev exX87 : Ty where
  size := 16
  mask := fun i => if i.1 < 10 then 0xff else 0
  unique := false
  fp := true
  vs := 10
  vs_le := by omega
  align := 16

/-- `float`. -/
abbrev exFloat : Ty where
  size := 4
  mask := fun _ => 0xff
  unique := false
  fp := true
  vs := 4
  vs_le := by omega
  align := 4

/-- A three-byte struct without padding, kept in four bytes. -/
abbrev exRgb : Ty where
  size := 3
  mask := fun _ => 0xff
  unique := true
  fp := false
  vs := 3
  vs_le := by omega
  align := 1

/-- Motorola 68881 extended precision: 96 bits, of which bits 16 to 31 (bytes 2 and 3) are unused. -/
abbrev exM68k : Ty where
  size := 12
  mask := fun i => if i.1 = 2 ∨ i.1 = 3 then 0 else 0xff
  unique := false
  fp := true
  vs := 10
  vs_le := by omega
  align := 2

theorem exStruct_wf : exStruct.Wf := ⟨by simp [exStruct], by simp [exStruct]⟩
theorem exBits_wf : exBits.Wf := ⟨by simp [exBits], by simp [exBits]⟩
theorem exX87_wf : exX87.Wf := ⟨by simp [exX87], by simp [exX87]⟩
theorem exFloat_wf : exFloat.Wf := ⟨by simp [exFloat], fun _ _ _ => rfl⟩
theorem exRgb_wf : exRgb.Wf := ⟨fun _ _ => rfl, by simp [exRgb]⟩

/-- Current GCC and Clang. -/
def exNew : Cfg := ⟨true, true, true⟩
/-- GCC before 11: no way to clear padding. -/
def exOld : Cfg := ⟨false, false, true⟩

theorem exRgb_known (c : Cfg) : Known c exRgb := .inr (.inl ⟨rfl, fun _ => rfl⟩)
theorem exX87_known (c : Cfg) : Known c exX87 := .inr (.inr ⟨rfl, fun _ => rfl⟩)
theorem exFloat_known (c : Cfg) : Known c exFloat := .inr (.inr ⟨rfl, fun i => by
  revert i; decide⟩)
theorem exStruct_known : Known exNew exStruct := .inl rfl

/-! ### C15 -/

/-- C15: `!x` on a byte buffer of any size is true exactly when every byte is zero, whatever memory follows
the buffer (the overlapping comparison never reads it). -/
theorem C15_not {n : Nat} (hn : 1 ≤ n) (data : Bytes n) (beyond : Nat → Byte) :
    buffer_not data beyond = true ↔ ∀ i, data i = 0 := by
  have key := chain_zero (at0 data beyond) n hn
  have hm := memcmp_zero (at0 data beyond) (fun i => at0 data beyond (1 + i)) (n - 1)
  unfold buffer_not
  simp only [Bool.and_eq_true, beq_iff_eq, hm, key]
  constructor
  · intro h i; have := h i.1 i.2; simpa [at0] using this
  · intro h i hi; simp [at0, hi, h]

/-- C15: `x == y` is equality of all bytes and `x != y` its negation. -/
theorem C15_eq {n : Nat} (a b : Bytes n) (ba bb : Nat → Byte) :
    (buffer_eq a b ba bb = true ↔ a = b) ∧ (buffer_ne a b ba bb = true ↔ a ≠ b) := by
  have key : memcmp (at0 a ba) (at0 b bb) n = 0 ↔ a = b := by
    rw [memcmp_zero]
    constructor
    · intro h; funext i; have := h i.1 i.2; simpa [at0] using this
    · rintro rfl i hi; simp [at0, hi]
  constructor
  · unfold buffer_eq; rw [beq_iff_eq, key]
  · unfold buffer_ne; rw [bne_iff_ne, ne_eq, key]

example : buffer_not (n := 3) (fun i => if i.1 = 2 then 1 else 0) (fun _ => 0) = false ∧
    buffer_not (n := 3) (fun _ => 0) (fun _ => 9) = true ∧
    buffer_not (n := 3) (fun _ => 5) (fun _ => 5) = false ∧
    buffer_not (n := 1) (fun _ => 0) (fun _ => 9) = true := by decide

/-! ### C14 -/

/-- C14: a value converted to storage and back is the same value, whatever was in the uninitialised memory
used by the conversions. -/
theorem C14_round_trip (c : Cfg) (T : Ty) (hT : T.Wf) (hk : Known c T) (s : Nat) (hs : T.size ≤ s)
    (u : Bytes s) (u' v : Bytes T.size) :
    SameValue T.mask (ofStorage c T s u' (toStorage c T s u v)) v :=
  same_of_to hT hk hs u u' v

/-- C14: in the storage every byte beyond the value and every padding bit is zero. -/
theorem C14_storage_clean (c : Cfg) (T : Ty) (hT : T.Wf) (hk : Known c T) (s : Nat) (hs : T.size ≤ s)
    (u : Bytes s) (v : Bytes T.size) (i : Fin s) :
    (T.size ≤ i.1 → toStorage c T s u v i = 0) ∧
    ∀ h : i.1 < T.size, toStorage c T s u v i &&& ~~~ T.mask ⟨i.1, h⟩ = 0 ∧
      toStorage c T s u v i &&& T.mask ⟨i.1, h⟩ = v ⟨i.1, h⟩ &&& T.mask ⟨i.1, h⟩ := by
  rw [toStorage_eq hT hk hs, ext, extMask]
  refine ⟨fun h => by rw [dif_neg (by omega)]; simp, fun h => ?_⟩
  rw [dif_pos h, dif_pos h]
  refine ⟨?_, by rw [BitVec.and_assoc, BitVec.and_self]⟩
  rw [BitVec.and_assoc, BitVec.and_not_self]; simp

/-- C14: two values have the same storage exactly when they agree in the value bits; neither their padding
nor uninitialised memory matters. -/
theorem C14_padding_irrelevant (c : Cfg) (T : Ty) (hT : T.Wf) (hk : Known c T) (s : Nat) (hs : T.size ≤ s)
    (u₁ u₂ : Bytes s) (a b : Bytes T.size) :
    toStorage c T s u₁ a = toStorage c T s u₂ b ↔ SameValue T.mask a b := by
  rw [eq_toStorage hT hk hs u₂ (fun _ => 0) (clean_toStorage hT hk hs u₁ a)]
  have := same_of_to hT hk hs u₁ (fun _ => 0) a
  exact ⟨fun h => this.symm.trans h, fun h => this.trans h⟩

/-- Non-vacuity: the struct with interior padding, its argument's padding full of ones, kept in 8 bytes;
and x87 values on a compiler that cannot clear padding. -/
example : (∀ u v, SameValue exStruct.mask (ofStorage exNew exStruct 8 u (toStorage exNew exStruct 8 u v)) v) ∧
    (∀ u u' : Bytes 16, toStorage exOld exX87 16 u (fun i => if i.1 < 10 then 3 else 7) =
      toStorage exOld exX87 16 u' fun i => if i.1 < 10 then 3 else 9) ∧
    (∀ u : Bytes 4, toStorage exOld exRgb 4 u (fun _ => 5) 3 = 0) :=
  ⟨fun u v => C14_round_trip _ _ exStruct_wf exStruct_known _ (Nat.le_refl _) _ _ _,
   fun u u' => (C14_padding_irrelevant _ _ exX87_wf (exX87_known _) _ (Nat.le_refl _) _ _ _ _).2 (by decide),
   fun u => (C14_storage_clean _ _ exRgb_wf (exRgb_known _) 4 (by decide) u _ 3).1 (by decide)⟩

/-- C14: a waiting operation regards the object as still holding `old` exactly when it holds that value,
whatever the padding of `old`. -/
theorem C14_wait_compare (c : Cfg) (T : Ty) (hT : T.Wf) (hk : Known c T) (s : Nat) (hs : T.size ≤ s)
    (u u₁ : Bytes s) (old cur : Bytes T.size) (b b' : Nat → Byte) :
    waitEq c T s u old (toStorage c T s u₁ cur) b b' = true ↔ SameValue T.mask cur old := by
  rw [waitEq, (C15_eq _ _ _ _).1, C14_padding_irrelevant c T hT hk s hs]

/-- C14 needs the library to know where the padding is: without a way to clear padding
(BOOST_ATOMIC_NO_CLEAR_PADDING) a compare-exchange on a struct with interior padding fails although the
object holds the expected value, because it looks at the padding. -/
theorem C14_interior_padding_violated : ∃ (w w' : Bytes 8) (e d : Bytes 8) (x : Bytes 8),
    w = toStorage exOld exStruct 8 (fun _ => 0) (fun i => if i.1 = 1 then 1 else 0) ∧
    SameValue exStruct.mask (ofStorage exOld exStruct 8 (fun _ => 0) w) e ∧
    (table exOld exStruct 8 4 (Mode := Unit) (fun _ => ⟨fun a _ => a, fun a _ => a, fun a => a⟩) none
      (fun _ _ => 0) (fun _ _ => 0) (.casStrong e d)).Run w w' (.cas false x) := by
  refine ⟨_, toStorage exOld exStruct 8 (fun _ => 0) (fun i => if i.1 = 1 then 1 else 0), fun _ => 0,
    fun _ => 0, ofStorage exOld exStruct 8 (fun _ => 0)
      (toStorage exOld exStruct 8 (fun _ => 0) (fun i => if i.1 = 1 then 1 else 0)), rfl, by decide, ?_⟩
  simp only [table]
  rw [dif_neg (by decide)]
  exact .strongFail (by
    intro h
    have := congrFun h 1
    revert this; decide)

/-- C14: `value_size_of` assumes that the value bytes come first; for a 96-bit format with unused bytes in
the middle and no way to clear padding, a stored value does not come back. -/
theorem C14_noncontiguous_fp_violated : ∃ v : Bytes 12, ∀ (u : Bytes 12) (u' : Bytes 12),
    ¬ SameValue exM68k.mask (ofStorage exOld exM68k 12 u' (toStorage exOld exM68k 12 u v)) v := by
  refine ⟨fun _ => 1, fun u u' h => ?_⟩
  have := h ⟨11, by decide⟩
  rw [ofStorage_eq (T := exM68k) (s := 12) (Nat.le_refl _)] at this
  have e : toStorage exOld exM68k 12 u (fun _ => 1) ⟨11, by decide⟩ = 0 := by
    unfold toStorage
    rw [if_pos rfl, bitwise_fp_cast, dif_neg (by decide)]
    exact bitwise_cast_memcpy_eq false _ 10 (by decide) u _ ⟨11, by decide⟩
  rw [e] at this
  revert this
  decide

/-! ### Linearizability for arbitrary types (C01, C02, C03, C14, C33) -/

/-- Objects at all addresses constructed with the given values, all locks free. -/
def freshMem {Addr : Type} (c : Cfg) (T : Ty) (s : Nat) (u : Bytes s) (v₀ : Addr → Bytes T.size) :
    LkMem Addr (Bytes s) :=
  ⟨fun a => .whole (toStorage c T s u (v₀ a)), fun _ => false⟩

section
variable {Mode : Type} (c : Cfg) (T : Ty) (hT : T.Wf) (hk : Known c T) (s : Nat) (hs : T.size ≤ s)
  (align : Nat) (F : Mode → Fp T.size) (neg : NegImpl) (hneg : ∀ le, neg = some le → SignOk T s F le)
  (u : Op Mode T.size → Bytes s) (u' : Op Mode T.size → Bytes T.size) (u₀ : Bytes s)
include hT hk hs hneg

/-- C01 for any type: every history of loads, stores, exchanges, compare-exchanges and (for floating point)
arithmetic on an object made lock-free by CAS loops, by single instructions, by CAS-only loads and stores or
by the ARM kernel helper is linearizable with respect to operations on values: padding plays no role and
initially the object holds the constructor's argument. -/
theorem C01_any_type (v₀ : Bytes T.size) (j : Bytes s) : ∃ s₀, SameValue T.mask s₀ v₀ ∧
    (casMachine (table c T s align F neg u u')).IsLinearizable (spec F T.mask) (toStorage c T s u₀ v₀) s₀ ∧
    (oneMachine (table c T s align F neg u u')).IsLinearizable (spec F T.mask) (toStorage c T s u₀ v₀) s₀ ∧
    (casMachine fun op => viaCas j (table c T s align F neg u u' op)).IsLinearizable (spec F T.mask)
      (toStorage c T s u₀ v₀) s₀ ∧
    (khMachine (table c T s align F neg u u')).IsLinearizable (spec F T.mask) (toStorage c T s u₀ v₀) s₀ := by
  have hc := table_correct hT hk hs align hneg u u' (fun _ => 0)
  have h0 := clean_toStorage hT hk hs u₀ v₀
  exact ⟨_, same_of_to hT hk hs u₀ _ v₀, cas_linearizable hc h0, one_linearizable hc h0,
    cas_linearizable (viaCas_correct j hc) h0, kh_linearizable hc h0⟩

/-- C02 for any type: the same for LL/SC loops, whatever store-conditionals fail, also when loads and stores
are LL/SC loops. -/
theorem C02_any_type (v₀ : Bytes T.size) (ver : Nat) : ∃ s₀, SameValue T.mask s₀ v₀ ∧
    (llMachine (table c T s align F neg u u')).IsLinearizable (spec F T.mask) ⟨toStorage c T s u₀ v₀, ver⟩ s₀ ∧
    (llMachine fun op => viaRmw (table c T s align F neg u u' op)).IsLinearizable (spec F T.mask)
      ⟨toStorage c T s u₀ v₀, ver⟩ s₀ ∧
    (mixMachine (table c T s align F neg u u')).IsLinearizable (spec F T.mask) ⟨toStorage c T s u₀ v₀, ver⟩ s₀ := by
  have hc := table_correct hT hk hs align hneg u u' (fun _ => 0)
  have h0 := clean_toStorage hT hk hs u₀ v₀
  exact ⟨_, same_of_to hT hk hs u₀ _ v₀, ll_linearizable (m₀ := ⟨_, ver⟩) hc h0,
    ll_linearizable (m₀ := ⟨_, ver⟩) (viaRmw_correct hc) h0, mix_linearizable (m₀ := ⟨_, ver⟩) hc h0⟩

/-- C03 for any type: all lock-based objects of the process together are linearizable as independent
objects, however they share locks, and no call touches an object another call is writing. -/
theorem C03_any_type {Addr : Type} [DecidableEq Addr] (idx : Addr → Nat) (v₀ : Addr → Bytes T.size) :
    (∃ s₀ : Addr → Bytes T.size, (∀ a, SameValue T.mask (s₀ a) (v₀ a)) ∧
      (lkMachine idx (table c T s align F neg u u')).IsLinearizable (specAll (spec F T.mask))
        (freshMem c T s u₀ v₀) s₀) ∧
    ∀ (Id : Type) [DecidableEq Id] (sys : Sys Id (lkMachine idx (table c T s align F neg u u'))) H,
      Exec (lkMachine idx (table c T s align F neg u u')) (freshMem c T s u₀ v₀) sys H →
      ∀ i op, sys.calls i ≠ .run op .race := by
  have hc := table_correct hT hk hs align hneg u u' (fun _ => 0)
  have h₀ : ∀ a, ∃ w, (freshMem c T s u₀ v₀).cell a = .whole w ∧ Clean T.mask w :=
    fun a => ⟨_, rfl, clean_toStorage hT hk hs u₀ _⟩
  refine ⟨⟨_, fun a => ?_, lk_linearizable hc h₀⟩, fun Id _ sys H h i op hi => ?_⟩
  · exact same_of_to hT hk hs u₀ _ (v₀ a)
  · exact (lk_inv hc h₀ h).2.1 i op _ hi

/-- C14/C33: run alone, a strong compare-exchange succeeds exactly when object and expected value agree in
their value bits — for floating point that is the representation, not the `==` of the language. -/
theorem C33_compare_by_representation (cur e d : Bytes T.size) (w' : Bytes s) (ok : Bool) (x : Bytes T.size)
    (hr : (table c T s align F neg u u' (.casStrong e d)).Run (toStorage c T s u₀ cur) w' (.cas ok x)) :
    (ok = true ↔ SameValue T.mask cur e) ∧
    SameValue T.mask (ofStorage c T s (fun _ => 0) w') (if ok then d else cur) ∧
    SameValue T.mask x cur := by
  have h0 := clean_toStorage hT hk hs u₀ cur
  have hs0 := same_of_to hT hk hs u₀ (fun _ => 0) cur
  rcases (table_correct hT hk hs align hneg u u' (fun _ => 0) _ _ _ _ h0 hr).2 with h | h
  · obtain ⟨h1, h2, y, hy, h3⟩ := h
    cases hy
    exact ⟨by simpa using hs0.symm.trans h1, h2, h3.trans (h1.symm.trans hs0)⟩
  · obtain ⟨h1, h2, y, hy, h3⟩ := h
    cases hy
    refine ⟨⟨(fun h => by cases h), (fun h => absurd (hs0.trans h) h1)⟩, ?_, h3.trans hs0⟩
    rw [h2]; exact hs0

end

/-! ### Examples for the theorems above -/

/-- Some floating-point environment for `float`: addition and subtraction are arbitrary here, negation
inverts the sign. -/
def exFp : Unit → Fp 4 := fun _ => ⟨fun a b i => a i + b i, fun a b i => a i - b i, flipTop 3⟩

theorem exFloat_sign : SignOk exFloat 4 exFp true :=
  ⟨3, by decide, by decide, rfl, by decide, fun _ _ => .refl _ _⟩

/-- The bytes of `float` values in memory (little-endian): +0.0, -0.0 and a NaN. -/
def pZero : Bytes 4 := fun _ => 0
def nZero : Bytes 4 := fun i => if i.1 = 3 then 0x80 else 0
def aNan : Bytes 4 := fun i => if i.1 = 3 then 0x7f else if i.1 = 2 then 0xc0 else 0

/-- The table of `atomic<float>` on x86: 4 bytes of storage, negation by flipping the sign. -/
def exTable : Op Unit 4 → Code (Bytes 4) (Ret 4) :=
  table exNew exFloat 4 4 exFp (some true) (fun _ _ => 0) (fun _ _ => 0)

/-- -0.0 does not match +0.0, and a NaN matches itself. -/
example : ¬ SameValue exFloat.mask nZero pZero ∧ SameValue exFloat.mask aNan aNan ∧
    (exTable (.casStrong aNan pZero)).Run aNan (toStorage exNew exFloat 4 (fun _ => 0) pZero)
      (.cas true (ofStorage exNew exFloat 4 (fun _ => 0) aNan)) := by
  refine ⟨by decide, .refl _ _, ?_⟩
  have e : toStorage exNew exFloat 4 (fun _ => 0) aNan = aNan := by
    funext i; revert i; decide
  simp only [exTable, table]
  rw [dif_neg (by decide)]
  refine Integral.run_strong.2 (.inl ⟨e.symm, rfl, rfl⟩)

/-- Two overlapping negations of an `atomic<float>` holding a NaN, one of them interfered with and retried
(a loop that compared NaNs with `==` would never end): both return. -/
example : ∃ sys : Sys Nat (casMachine exTable),
    Exec (casMachine exTable) (toStorage exNew exFloat 4 (fun _ => 0) aNan) sys
      [.inv 0 (.fetchNegate ()), .inv 1 (.fetchAdd () pZero),
       .res 0 (.val (ofStorage exNew exFloat 4 (fun _ => 0) (toStorage exNew exFloat 4 (fun _ => 0) aNan))),
       .res 1 (.val (ofStorage exNew exFloat 4 (fun _ => 0)
         (xorBytes (toStorage exNew exFloat 4 (fun _ => 0) aNan) (sign_mask true 4 4))))] := by
  have h0 := Exec.init (Id := Nat) (M := casMachine exTable)
    (sh₀ := toStorage exNew exFloat 4 (fun _ => 0) aNan)
  have h1 := h0.invoke 0 (.fetchNegate ()) rfl
  have h2 := h1.invoke 1 (.fetchAdd () pZero) rfl
  have h3 := h2.step 1 (.fetchAdd () pZero) _ _ _ rfl
    (CasStep.snapshot (toStorage exNew exFloat 4 (fun _ => 0) aNan) rfl)
  have h4 := h3.step 0 (.fetchNegate ()) _ _ _ rfl
    (CasStep.snapshot (toStorage exNew exFloat 4 (fun _ => 0) aNan) rfl)
  have h5 := h4.step 0 (.fetchNegate ()) _ _ _ rfl (CasStep.loopOk rfl)
  have h6 := h5.step 1 (.fetchAdd () pZero) _ _ _ rfl (CasStep.loopFail rfl)
  have h7 := h6.step 1 (.fetchAdd () pZero) _ _ _ rfl (CasStep.loopOk rfl)
  have h8 := h7.ret 0 (.fetchNegate ()) _ _ rfl rfl
  have h9 := h8.ret 1 (.fetchAdd () pZero) _ _ rfl rfl
  exact ⟨_, h9⟩

example (v₀ j : Bytes 4) : ∃ s₀, SameValue exFloat.mask s₀ v₀ ∧
    (casMachine exTable).IsLinearizable (spec exFp exFloat.mask) (toStorage exNew exFloat 4 (fun _ => 0) v₀) s₀ :=
  let ⟨s₀, h, hc, _⟩ := C01_any_type exNew exFloat exFloat_wf (exFloat_known _) 4 (Nat.le_refl _) 4 exFp
    (some true) (by rintro le ⟨⟩; exact exFloat_sign) (fun _ _ => 0) (fun _ _ => 0) (fun _ => 0) v₀ j
  ⟨s₀, h, hc⟩

/-! ### C33 -/

/-- C33: negation by flipping a bit of the storage integer inverts exactly the sign bit of the stored value:
the top bit of the last value byte on a little-endian machine (also when padding follows, as for x87), of the
first byte on a big-endian one when the value fills the storage; every other bit of the value and of the
storage is left alone. -/
theorem C33_negate_flips_sign (c : Cfg) (T : Ty) (hT : T.Wf) (hk : Known c T) (s : Nat) (hs : T.size ≤ s)
    (le : Bool) (h0 : 0 < T.vs) (hbe : le = false → T.vs = s) (u : Bytes s) (u' v : Bytes T.size)
    (hsign : ∀ h, T.mask ⟨if le then T.vs - 1 else 0, h⟩ &&& 0x80 = 0x80) :
    SameValue T.mask (ofStorage c T s u' (xorBytes (toStorage c T s u v) (sign_mask le s T.vs)))
      (flipTop (if le then T.vs - 1 else 0) v) ∧
    xorBytes (toStorage c T s u v) (sign_mask le s T.vs) =
      toStorage c T s u (flipTop (if le then T.vs - 1 else 0) v) := by
  have hvs := T.vs_le
  have hb : (if le then T.vs - 1 else 0) < T.size := by split <;> omega
  have hS : SignOk T s (fun _ : Unit => ⟨fun a _ => a, fun a _ => a,
      flipTop (if le then T.vs - 1 else 0)⟩) le := by
    refine ⟨_, hb, h0, ?_, hsign hb, fun _ _ => .refl _ _⟩
    cases le
    · exact ⟨hbe rfl, rfl⟩
    · rfl
  have key := xor_sign (c := c) hs hS u' u' () (clean_toStorage hT hk hs u v)
  have h1 : SameValue T.mask (flipTop (if le then T.vs - 1 else 0) (ofStorage c T s u' (toStorage c T s u v)))
      (flipTop (if le then T.vs - 1 else 0) v) := by
    intro i
    have := same_of_to hT hk hs u u' v i
    simp only [flipTop]
    by_cases e : i.1 = if le then T.vs - 1 else 0
    · rw [if_pos e, if_pos e, xor_and, xor_and, this]
    · rw [if_neg e, if_neg e, this]
  have h2 := key.2.trans h1
  exact ⟨h2, (eq_toStorage hT hk hs u u' key.1 _).2 h2⟩

/-- On a big-endian machine with storage wider than the value the mask would hit the wrong byte; no
combination of types and storage the library selects is of this kind (C16). -/
theorem C33_big_endian_wide_storage_violated : ∃ v : Bytes 4,
    ¬ SameValue exFloat.mask (ofStorage exNew exFloat 8 (fun _ => 0)
        (xorBytes (toStorage exNew exFloat 8 (fun _ => 0) v) (sign_mask false 8 exFloat.vs)))
      (flipTop 0 v) := by
  refine ⟨fun _ => 0, fun h => ?_⟩
  have := h ⟨0, by decide⟩
  revert this
  decide

example : (sign_mask true 4 4 3 = 0x80 ∧ sign_mask false 4 4 0 = 0x80 ∧ sign_mask true 16 10 9 = 0x80) ∧
    (∀ v : Bytes 16, SameValue exX87.mask
      (ofStorage exOld exX87 16 (fun _ => 0) (xorBytes (toStorage exOld exX87 16 (fun _ => 0) v)
        (sign_mask true 16 10))) (flipTop 9 v)) :=
  ⟨by decide, fun v => (C33_negate_flips_sign exOld exX87 exX87_wf (exX87_known _) 16 (Nat.le_refl _) true
    (by decide) (by simp) _ _ v (by intro h; revert h; decide)).1⟩

/-- C33: `fetch_add`, `add` and `opaque_add` (likewise for subtraction and negation) leave the same object
value; the first returns the value before, the second the value after. -/
theorem C33_result_forms {Mode : Type} (c : Cfg) (T : Ty) (hT : T.Wf) (hk : Known c T) (s : Nat)
    (hs : T.size ≤ s) (align : Nat) (F : Mode → Fp T.size) (neg : NegImpl)
    (hneg : ∀ le, neg = some le → SignOk T s F le) (u : Op Mode T.size → Bytes s)
    (u' : Op Mode T.size → Bytes T.size) (u₀ : Bytes s) (cur v : Bytes T.size) (m : Mode) (w' : Bytes s)
    (r : Ret T.size) (f : Bytes T.size → Bytes T.size) (op : Op Mode T.size)
    (hop : (op ∈ [.fetchAdd m v, .add m v, .opaqueAdd m v] ∧ f = fun x => (F m).add x v) ∨
      (op ∈ [.fetchSub m v, .sub m v, .opaqueSub m v] ∧ f = fun x => (F m).sub x v) ∨
      (op ∈ [.fetchNegate m, .negate m, .opaqueNegate m] ∧ f = (F m).neg))
    (hf : ∀ a b, SameValue T.mask a b → SameValue T.mask (f a) (f b))
    (hr : (table c T s align F neg u u' op).Run (toStorage c T s u₀ cur) w' r) :
    SameValue T.mask (ofStorage c T s (fun _ => 0) w') (f cur) ∧
    match op with
    | .fetchAdd .. | .fetchSub .. | .fetchNegate .. => ∃ x, r = .val x ∧ SameValue T.mask x cur
    | .add .. | .sub .. | .negate .. => ∃ x, r = .val x ∧ SameValue T.mask x (f cur)
    | _ => r = .unit := by
  have h0 := clean_toStorage hT hk hs u₀ cur
  have hs0 := same_of_to hT hk hs u₀ (fun _ => 0) cur
  have := (table_correct hT hk hs align hneg u u' (fun _ => 0) _ _ _ _ h0 hr).2
  have hfs := hf _ _ hs0
  rcases hop with ⟨hop, rfl⟩ | ⟨hop, rfl⟩ | ⟨hop, rfl⟩ <;>
    simp only [List.mem_cons, List.not_mem_nil, or_false] at hop <;>
    rcases hop with rfl | rfl | rfl <;>
    first
    | exact ⟨this.1.trans hfs, this.2⟩
    | exact ⟨this.1.trans hfs, let ⟨x, hx, h⟩ := this.2; ⟨x, hx, h.trans hs0⟩⟩
    | exact ⟨this.1.trans hfs, let ⟨x, hx, h⟩ := this.2; ⟨x, hx, h.trans hfs⟩⟩

example (w' : Bytes 4) (r : Ret 4) (h : (exTable (.add () pZero)).Run
    (toStorage exNew exFloat 4 (fun _ => 0) nZero) w' r) :
    ∃ x, r = .val x ∧ SameValue exFloat.mask x ((exFp ()).add nZero pZero) :=
  (C33_result_forms exNew exFloat exFloat_wf (exFloat_known _) 4 (Nat.le_refl _) 4 exFp
    (some true) (by rintro le ⟨⟩; exact exFloat_sign) (fun _ _ => 0) (fun _ _ => 0) (fun _ => 0) nZero pZero ()
    w' r _ (.add () pZero) (.inl ⟨by simp, rfl⟩) (fun a b h i => by
      have e : ∀ x : Byte, x &&& exFloat.mask i = x := and_ff
      have := h i
      rw [e, e] at this
      simp only [e, exFp, this]) h).2

/-! ### C14 for atomic_ref -/

/-- C14: constructing an atomic_ref leaves the value of the object alone and its padding zero, so the object
is in the state the operations maintain (`C01_any_type` and `C02_any_type` with `s = sizeof(T)` apply). -/
theorem C14_ref_construct (c : Cfg) (T : Ty) (hT : T.Wf) (hk : Known c T) (u obj : Bytes T.size) :
    refInit c T obj = toStorage c T T.size u obj ∧ SameValue T.mask (refInit c T obj) obj := by
  have e : ∀ i, refInit c T obj i = obj i &&& T.mask i := by
    intro i; rw [refInit_eq, attachMask_eq hT hk]
  constructor
  · funext i
    rw [e, toStorage_eq hT hk (Nat.le_refl _), ext, extMask, dif_pos i.2, dif_pos i.2]
  · intro i; rw [e, BitVec.and_assoc, BitVec.and_self]

/-- C14: references may be constructed at any time, also while other references to the same object are in
use: for types whose bytes are either value or padding as a whole, every history of constructions and
operations is linearizable, a construction having no effect on the value. -/
theorem C14_concurrent_construction_partial {Mode : Type} (c : Cfg) (T : Ty) (hT : T.Wf) (hk : Known c T)
    (hb : Bytewise T.mask) (align : Nat) (F : Mode → Fp T.size) (neg : NegImpl)
    (hneg : ∀ le, neg = some le → SignOk T T.size F le) (u u' : Op Mode T.size → Bytes T.size)
    (obj₀ : Bytes T.size) : ∃ s₀, SameValue T.mask s₀ obj₀ ∧
    (refMachine (attachMask c T) (table c T T.size align F neg u u')).IsLinearizable (refSpec F T.mask)
      ⟨obj₀, false⟩ s₀ := by
  have hc := table_correct hT hk (Nat.le_refl _) align hneg u u' (fun _ => 0)
  have e : ofStorage c T T.size (fun _ => 0) = fun w => w := by
    funext w i; rw [ofStorage_eq (Nat.le_refl _)]
  rw [e] at hc
  refine ⟨clear_padding T.mask obj₀, fun i => ?_, ?_⟩
  · rw [clear_padding, BitVec.and_assoc, BitVec.and_self]
  · rw [attachMask_eq hT hk]
    exact ref_linearizable hb hc obj₀

example : Bytewise exStruct.mask ∧ Bytewise exX87.mask ∧ ¬ Bytewise exBits.mask :=
  ⟨by intro i; revert i; decide, by intro i; revert i; decide, fun h => by have := h ⟨0, by decide⟩; revert this; decide⟩

/-- The one-byte bit-field struct through atomic_ref. -/
def exBitsTable : Op Unit 1 → Code (Bytes 1) (Ret 1) :=
  table exNew exBits 1 1 (fun _ => ⟨fun a _ => a, fun a _ => a, fun a => a⟩) none (fun _ _ => 0) (fun _ _ => 0)

theorem legal_after {σ Id Op Ret : Type} {spec : SeqSpec σ Op Ret} (P : σ → Prop) (good : Op → Prop)
    (hpres : ∀ s op s' r, P s → good op → spec s op s' r → P s') {s s' : σ} {L : List (Entry Id Op Ret)}
    (h : Legal spec s L s') (hg : ∀ e ∈ L, good e.op) (hs : P s) :
    P s' ∧ ∀ e ∈ L, ∃ t t', P t ∧ spec t e.op t' e.ret := by
  induction h with
  | nil => exact ⟨hs, by simp⟩
  | @cons s s₁ s₂ e L he _ ih =>
    have h1 := hpres _ _ _ _ hs (hg e (by simp)) he
    have := ih (fun e' he' => hg e' (by simp [he'])) h1
    refine ⟨this.1, fun e' he' => ?_⟩
    rcases List.mem_cons.1 he' with rfl | h'
    · exact ⟨_, _, hs, he⟩
    · exact this.2 e' h'

theorem legal_drop {σ Id Op Ret : Type} {spec : SeqSpec σ Op Ret} {s s' : σ} (l₁ : List (Entry Id Op Ret))
    {a : Entry Id Op Ret} {l₂ : List (Entry Id Op Ret)} (h : Legal spec s (l₁ ++ a :: l₂) s') :
    ∃ t t', spec t a.op t' a.ret ∧ Legal spec t' l₂ s' := by
  induction l₁ generalizing s with
  | nil => cases h with | cons h1 h2 => exact ⟨_, _, h1, h2⟩
  | cons b l ih => cases h with | cons h1 h2 => exact ih h2

/-- One step of an execution of constructions and operations. -/
theorem ref_step {Id Mode : Type} [DecidableEq Id] {n : Nat} {keep : Bytes n}
    {code : Op Mode n → Code (Bytes n) (Ret n)} {sh₀ : RefSh n} {sys : Sys Id (refMachine keep code)}
    {H : List (Event Id (RefOp Mode n) (Ret n))} (h : Exec (refMachine keep code) sh₀ sys H) (i : Id)
    (op : RefOp Mode n) (l : RefLoc n) (m' : RefSh n) (l' : RefLoc n) (hc : sys.calls i = .run op l)
    (hs : RefStep keep code op sys.sh l m' l') :
    Exec (refMachine keep code) sh₀ ⟨m', upd sys.calls i (.run op l')⟩ H :=
  @Exec.step _ _ _ _ _ (refMachine keep code) _ _ _ i op l m' l' h hc hs

/-- C14 does not extend to types with padding bits inside a value byte: while one thread constructs a second
atomic_ref, a store completed through the first one is lost, because the constructor masks the byte without
atomicity.  The history is not linearizable. -/
theorem C14_concurrent_construction_violated :
    ¬ ∃ s₀, (refMachine (attachMask exNew exBits) exBitsTable).IsLinearizable
        (refSpec (fun _ => ⟨fun a _ => a, fun a _ => a, fun a => a⟩) exBits.mask)
        ⟨fun _ => 0, false⟩ s₀ := by
  rintro ⟨s₀, hl⟩
  let one : Bytes 1 := fun _ => 1
  have hm : ∀ h, attachMask exNew exBits ⟨0, h⟩ ≠ 0xff ∧ attachMask exNew exBits ⟨0, h⟩ ≠ 0 :=
    fun h => ⟨by revert h; decide, by revert h; decide⟩
  have h0 := Exec.init (Id := Nat) (M := refMachine (attachMask exNew exBits) exBitsTable)
    (sh₀ := ⟨fun _ => 0, false⟩)
  have h1 := h0.invoke 1 .attach rfl
  have h2 := ref_step h1 1 .attach _ _ _ rfl RefStep.enter
  have h3 := ref_step h2 1 .attach _ _ _ rfl (RefStep.read (show 0 < 1 by decide) (hm _).1 (hm _).2)
  have h4 := ref_step h3 1 .attach _ _ _ rfl (RefStep.write (show 0 < 1 by decide))
  have h5 := ref_step h4 1 .attach _ _ _ rfl (RefStep.leave (Nat.le_refl 1))
  have h6 := h5.ret 1 .attach _ _ rfl rfl
  -- the second construction reads the byte
  have h7 := h6.invoke 2 .attach rfl
  have h8 := ref_step h7 2 .attach _ _ _ rfl RefStep.enter
  have h9 := ref_step h8 2 .attach _ _ _ rfl (RefStep.read (show 0 < 1 by decide) (hm _).1 (hm _).2)
  -- a store through the first reference
  have h10 := h9.invoke 3 (.call (.store one)) rfl
  have h11 := ref_step h10 3 (.call (.store one)) _ _ _ rfl (RefStep.call rfl Code.Run.store)
  have h12 := h11.ret 3 (.call (.store one)) _ _ rfl rfl
  -- the second construction writes the byte back, and a load follows
  have h13 := ref_step h12 2 .attach _ _ _ rfl (RefStep.write (show 0 < 1 by decide))
  have h14 := h13.invoke 4 (.call .load) rfl
  have h15 := ref_step h14 4 (.call .load) _ _ _ rfl (RefStep.call rfl Code.Run.load)
  have h16 := h15.ret 4 (.call .load) _ _ rfl rfl
  have hv : ofStorage exNew exBits 1 (fun _ => 0#8)
      (setByte (toStorage exNew exBits 1 (fun _ => 0#8) one) 0
        (setByte (fun _ => 0#8) 0 (0#8) (0 : Fin 1) &&& attachMask exNew exBits (0 : Fin 1))) = fun _ => 0#8 := by
    funext i; revert i; decide
  have h17 : ∃ sys, Exec (refMachine (attachMask exNew exBits) exBitsTable) ⟨fun _ => 0, false⟩ sys
      [.inv 1 .attach, .res 1 .unit, .inv 2 .attach, .inv 3 (.call (.store one)), .res 3 .unit,
        .inv 4 (.call .load), .res (4 : Nat) (.val fun _ => 0#8)] := ⟨_, by
    rw [← hv]; exact h16⟩
  obtain ⟨sys, h17⟩ := h17
  obtain ⟨L, s, hL, hnd, hinv, hres, hrt⟩ := hl Nat _ _ h17
  obtain ⟨op3, m3⟩ := hres 3 .unit (by simp)
  obtain ⟨op4, m4⟩ := hres 4 (.val fun _ => 0) (by simp)
  have e3 := hinv _ m3
  have e4 := hinv _ m4
  simp at e3 e4
  subst e3 e4
  have hB : Before L _ _ := hrt _ m3 _ m4 ⟨[.inv 1 .attach, .res 1 .unit, .inv 2 .attach,
    .inv 3 (.call (.store one))], [], [.res 4 (.val fun _ => 0)], rfl⟩
  obtain ⟨l₁, l₂, l₃, rfl⟩ := hB
  obtain ⟨t, t', hst, hrest⟩ := legal_drop l₁ hL
  have hgood : ∀ e ∈ (l₁ ++ (⟨3, .call (.store one), .unit⟩ : Entry Nat (RefOp Unit 1) (Ret 1)) ::
      (l₂ ++ ⟨4, .call .load, .val fun _ => 0⟩ :: l₃)), e.op = .attach ∨ e.op = .call (.store one) ∨ e.op = .call .load := by
    intro e he
    have := hinv e he
    simp at this
    rcases this with h | h | h | h <;> simp [h.2]
  have := legal_after (fun s => SameValue exBits.mask s one)
    (fun op => op = .attach ∨ op = .call (.store one) ∨ op = .call .load)
    (by
      rintro s op s' r hs (rfl | rfl | rfl) h
      · rw [h.1]; exact hs
      · exact h.1
      · rw [h.1]; exact hs) hrest (fun e he => hgood e (by
        rw [List.mem_append, List.mem_cons]; exact .inr (.inr he))) hst.1
  obtain ⟨q, q', hq, hload⟩ := this.2 ⟨4, .call .load, .val fun _ => 0⟩ (by simp)
  obtain ⟨_, x, hx, hsame⟩ := hload
  cases hx
  have := (hsame 0).trans (hq 0)
  revert this
  decide

end Verif.Bytes
