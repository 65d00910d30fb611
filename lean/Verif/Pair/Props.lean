import Verif.Pair.Lemmas

/-!
Theorems about double-width operations on register pairs: C11, and what C02, C04 and C05 become when the load-exclusive
of a pair is not indivisible.
-/

namespace Verif.Pair

open Verif.Integral Verif.Concurrent

/-! ### C11 -/

/-- C11: the operations done half by half store exactly the full-width results, for every register width and both byte
orders. -/
theorem C11_halves (be : Bool) {h : Nat} (hh : 0 < h) (w v : BitVec (h + h)) :
    ofRegs be (addRegs be (toRegs be w) (toRegs be v)) = w + v ∧
    ofRegs be (subRegs be (toRegs be w) (toRegs be v)) = w - v ∧
    ofRegs be (negRegs be (toRegs be w)) = -w ∧
    ofRegs be (notRegs (toRegs be w)) = ~~~ w ∧
    ofRegs be (andRegs (toRegs be w) (toRegs be v)) = w &&& v ∧
    ofRegs be (orRegs (toRegs be w) (toRegs be v)) = w ||| v ∧
    ofRegs be (xorRegs (toRegs be w) (toRegs be v)) = w ^^^ v ∧
    (eqRegs (toRegs be w) (toRegs be v) = true ↔ w = v) :=
  ⟨onWord_add be w v, onWord_sub be w v, onWord_neg be hh w, onWord_not be w, onWord_and be w v, onWord_or be w v,
    onWord_xor be w v, eqRegs_iff be w v⟩

/-- C11: every operation on an integer of two registers has its specified effect and result. -/
theorem C11_operations (be sgn : Bool) {h : Nat} (hh : 0 < h) (op : Op (h + h)) (w w' : BitVec (h + h))
    (r : Ret (h + h)) (hr : (table be sgn h op).Run w w' r) : Integral.spec w op w' r := by
  exact (native_correct (.llsc (h + h) 0) sgn (by omega) (Nat.le_refl _) op w w' r trivial (table_run be sgn hh op w w' r hr)).2

/-- A carry out of the low half and a borrow into it. -/
example : (table false false 64 (.fetchAdd 1)).Run 0xFFFFFFFFFFFFFFFF 0x10000000000000000 (.val 0xFFFFFFFFFFFFFFFF) := by
  have : (0x10000000000000000 : BitVec 128) = onWord (h := 64) false (fun r => addRegs false r (toRegs false 1)) 0xFFFFFFFFFFFFFFFF := by
    decide
  rw [this]
  exact .rmw
example : (table true true 32 (.sub 1)).Run 0x100000000 0xFFFFFFFF (.val 0xFFFFFFFF) := by
  have : (0xFFFFFFFF : BitVec 64) = onWord (h := 32) true (fun r => subRegs true r (toRegs true 1)) 0x100000000 := by decide
  rw [this]
  exact .rmw

/-- C11, C02: with an indivisible load-exclusive of the pair (`ldrexd`, `ldxp` with FEAT_LSE2) the operations are
linearizable; loads and stores are LL/SC loops themselves. -/
theorem C11_linearizable (be sgn : Bool) {h : Nat} (hh : 0 < h) (v₀ : BitVec (h + h)) (ver : Nat) :
    (llMachine fun op => viaRmw (table be sgn h op)).IsLinearizable Integral.spec ⟨v₀, ver⟩ v₀ := by
  have hc : Correct (table be sgn h) (fun _ => True) (fun w => w) Integral.spec :=
    fun op w w' r _ hr => ⟨trivial, C11_operations be sgn hh op w w' r hr⟩
  exact ll_linearizable (m₀ := ⟨v₀, ver⟩) (viaRmw_correct hc) trivial

/-- C11, C02: the same where only stores are loops (ARM, AArch32). -/
theorem C11_linearizable_ldrexd (be sgn : Bool) {h : Nat} (hh : 0 < h) (v₀ : BitVec (h + h)) (ver : Nat) :
    (llMachine fun op => storeViaRmw (table be sgn h op)).IsLinearizable Integral.spec ⟨v₀, ver⟩ v₀ := by
  have hc : Correct (fun op => storeViaRmw (table be sgn h op)) (fun _ => True) (fun w => w) Integral.spec :=
    fun op w w' r _ hr => ⟨trivial, C11_operations be sgn hh op w w' r (storeViaRmw_run _ _ _ _ hr)⟩
  exact ll_linearizable (m₀ := ⟨v₀, ver⟩) hc trivial

/-! ### The load-exclusive pair may be torn -/

/-- C02, C04, partial, for a load-exclusive pair that may be torn (AArch64 without FEAT_LSE2): the operations are still
linearizable, successful compare-exchanges included, except that a *failed* compare-exchange may leave anything in
`expected`. In particular the strong form still fails only when the object holds another value. -/
theorem C02_torn_pair_partial (be sgn : Bool) {h : Nat} (hh : 0 < h) (v₀ : BitVec (h + h)) (ver : Nat) :
    (pairMachine (tearWord be) fun op => viaRmw (table be sgn h op)).IsLinearizable looseSpec ⟨v₀, ver⟩ v₀ := by
  have hc : Correct (fun op => viaRmw (table be sgn h op)) (fun _ => True) (fun w => w) looseSpec := by
    have h1 : Correct (table be sgn h) (fun _ => True) (fun w => w) looseSpec := by
      intro op w w' r _ hr
      have := C11_operations be sgn hh op w w' r hr
      refine ⟨trivial, ?_⟩
      cases op with
      | casWeak e d =>
        rcases this with h1 | ⟨h1, h2⟩
        · exact .inl h1
        · exact .inr ⟨h1, _, h2⟩
      | casStrong e d =>
        rcases this with h1 | ⟨h0, h1, h2⟩
        · exact .inl h1
        · exact .inr ⟨h0, h1, _, h2⟩
      | _ => exact this
    exact viaRmw_correct h1
  refine pair_linearizable (m₀ := ⟨v₀, ver⟩) (tearWord_isTear be) hc ?_ ?_
  · intro op e d k hop s x
    cases op <;> cases hop
    exact .inr ⟨rfl, _, rfl⟩
  · intro op e d k hop s x hne
    cases op <;> cases hop
    exact .inr ⟨by rw [ext_self] at hne; exact hne, rfl, _, rfl⟩

/-- C05 (and with it C02) fails for 16-byte objects on AArch64 without FEAT_LSE2: a compare-exchange that overlaps a
store can fail and report a value the object never held — half of the old value and half of the new one.  There is an
execution whose history has no sequential explanation. -/
theorem C05_torn_pair_violated (sgn : Bool) :
    ∃ (H : List (Event Nat (Op (64 + 64)) (Ret (64 + 64)))),
      (∃ sys, Exec (pairMachine (tearWord false) fun op => viaRmw (table false sgn 64 op)) ⟨0, 0⟩ sys H) ∧
      H = [.inv 0 (.casStrong 1 2), .inv 1 (.store 0x30000000000000004), .res 1 .unit,
        .res 0 (.cas false 0x30000000000000000)] ∧
      ¬ Linearizable Integral.spec 0 H := by
  refine ⟨_, ?_, rfl, ?_⟩
  · cases sgn <;> exact torn_exec (tear := tearWord false) (code := fun op => viaRmw (table false _ 64 op))
      (c := .casStrong 1 2) (s := .store 0x30000000000000004) rfl rfl 0 (by decide) (by decide)
  · rintro ⟨L, s, hL, hnd, hinv, hres, _⟩
    obtain ⟨op, ha⟩ := hres 0 (.cas false 0x30000000000000000) (by simp)
    have hops : ∀ a ∈ L, (a.op = .store 0x30000000000000004) ∨
        (a.op = .casStrong 1 2 ∧ a.ret = .cas false (0x30000000000000000 : BitVec (64 + 64))) := by
      intro a haL
      have := hinv a haL
      simp at this
      rcases this with ⟨h1, h2⟩ | ⟨_, h2⟩
      · refine .inr ⟨h2, ?_⟩
        have := eq_of_id hnd haL ha h1
        rw [this]
      · exact .inl h2
    have h1 := no_legal_torn (by decide) hL (by decide) hops _ ha
    have h2 := hinv _ ha
    simp at h1 h2
    rw [h2] at h1
    cases h1

end Verif.Pair
