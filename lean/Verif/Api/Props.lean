import Verif.Api.Lemmas

/-!
Theorems about `atomic<T*>` (C13), atomic enumerations (C41), the overloaded operators (C42) and `atomic<bool>` (C43).
-/

namespace Verif.Api

open Verif.Integral Verif.Concurrent

/-! ### C13: pointers -/

/-- C13: `atomic<T*>` behaves, under every interleaving and on every back end, as a pointer that arithmetic moves by
whole elements in either direction: `fetch_add(n)` and the others move it by `n * sizeof(T)` bytes exactly, also for
negative `n`, modulo the size of the address space.  Required: `size_t` is no narrower than `uintptr_t`. -/
theorem C13_linearizable (b : Backend) {S P : Nat} (sz : Nat) (hP : 0 < P) (h : P ≤ S) (hb : b.Fits P) (p₀ : BitVec P) :
    LinearizableEverywhere (ptrNative b S sz P) (ptrSpec sz) p₀ p₀ :=
  everywhere (ptrNative_correct b sz hP h hb) trivial rfl

/-- C13, partial, for pointers in wider storage: only the operations whose emulation is right (all but `add_and_test`,
with CAS-only back ends also but `sub_and_test`, `add`, `sub` and the operators that use them, see C07, C08 and
`C13_emulated_exact`). -/
theorem C13_emulated_partial (cb : Bool) {S P W : Nat} (sz : Nat) (hP : 0 < P) (h : P ≤ S) (hW : P ≤ W) (p₀ : BitVec P) :
    LinearizableEverywhere (fun op : {op : PtrOp P // EmulSafe cb false (lowerPtr S sz op)} => ptrEmulated cb S sz P W op.1)
      (fun s op s' r => ptrSpec sz s op.1 s' r) (ext false W p₀) p₀ := by
  refine everywhere (I := Canon false P) (abs := trunc P) ?_ (canon_ext hW p₀) (trunc_ext hW p₀)
  intro op w w' r hI hr
  have e : ptrEmulated cb S sz P W op.1 = emulated cb false P W (lowerPtr S sz op.1) := by
    rw [ptrEmulated, ptrApi_eq]; rfl
  simp only [e] at hr
  have := emulated_implements cb false hP hW _ w w' r op.2 hI hr
  exact ⟨this.1, ptr_spec h _ _ _ _ this.2⟩

/-- C13: seen as an array starting at address `base`: moving by `n` elements from element `k` arrives at element
`k + n`, as long as that element lies in the address space (`n` may be negative). -/
theorem C13_element {P sz : Nat} (base : Nat) (k n : Int) (p p' : BitVec P) (hp : (p.toNat : Int) = base + k * sz)
    (h : Moves p (n * sz) p') (hlo : 0 ≤ base + (k + n) * sz) (hhi : base + (k + n) * sz < (2 ^ P : Int)) :
    (p'.toNat : Int) = base + (k + n) * sz := by
  have e : (p.toNat : Int) + n * sz = base + (k + n) * sz := by rw [hp, Int.add_mul]; omega
  rw [Moves, e, Int.emod_eq_of_lt hlo hhi] at h
  exact h

/-- Two elements of 12 bytes back from 0x1000, on a 64-bit machine. -/
example : (ptrNative (.x86 true) 64 12 64 (.fetchAdd (-2))).Run 0x1000 0xFE8 (.val 0x1000) := by
  have : (0xFE8 : BitVec 64) = 0x1000 + offset 64 64 12 (-2) := by decide
  rw [this]
  exact .rmw
example : Moves (P := 64) 0x1000 (-2 * 12) 0xFE8 := by rw [Moves]; decide

/-- C13 fails when `size_t` is narrower than `uintptr_t` (architectures with capabilities or segmented addresses): the
element count is multiplied in `size_t` and zero-extended, so every step backwards goes wrong. -/
theorem C13_narrow_size_t_violated (b : Backend) {S P sz : Nat} (hS : 0 < S) (h : S < P) (hsz : 0 < sz)
    (hfit : sz < 2 ^ S) (p : BitVec P) (r : Ret P) (p' : BitVec P) (hb : b.Fits P)
    (hr : (ptrNative b S sz P (.fetchAdd (-1))).Run p p' r) :
    ¬ ptrSpec sz p (.fetchAdd (-1)) p' r := by
  have hP : 0 < P := by omega
  rw [ptrNative, ptrApi_eq, ← native_eq] at hr
  obtain ⟨e1, _⟩ := (native_correct b false hP hb _ _ _ _ trivial hr).2
  rintro ⟨hm, -⟩
  have hm' := moves_add p (-1 * (sz : Int))
  have e2 : p' = p + BitVec.ofInt P (-1 * sz) := BitVec.eq_of_toNat_eq (Int.ofNat_inj.1 (by rw [hm, hm']))
  have e3 : offset S P sz (-1) = BitVec.ofInt P (-1 * sz) := BitVec.add_right_inj p |>.1 (e1 ▸ e2)
  have e4 : BitVec.ofInt S (-1) * BitVec.ofNat S sz = BitVec.ofInt S (-1 * sz) := by
    rw [BitVec.ofInt_mul, BitVec.ofInt_natCast]
  rw [offset, e4] at e3
  have e5 := congrArg BitVec.toNat e3
  have hSP : (2 : Nat) ^ S < 2 ^ P := Nat.pow_lt_pow_right (by decide) h
  rw [BitVec.toNat_setWidth, BitVec.toNat_ofInt, BitVec.toNat_ofInt] at e5
  have c1 : ((-1 * (sz : Int)) % (2 ^ S : Nat)) = (2 ^ S : Nat) - sz := by
    rw [← Int.add_emod_right, Int.emod_eq_of_lt] <;> omega
  have c2 : ((-1 * (sz : Int)) % (2 ^ P : Nat)) = (2 ^ P : Nat) - sz := by
    rw [← Int.add_emod_right, Int.emod_eq_of_lt] <;> omega
  rw [c1, c2] at e5
  rw [Nat.mod_eq_of_lt (by omega)] at e5
  omega

/-- 64-bit sizes, 128-bit pointers. -/
example : (ptrNative .intrinsics 64 4 128 (.fetchAdd (-1))).Run 0x1000 0x10000000000000ffc (.val 0x1000) := by
  have : (0x10000000000000ffc : BitVec 128) = 0x1000 + offset 64 128 4 (-1) := by decide
  rw [this]
  exact .rmw

/-! ### C41: enumerations -/

/-- C41: atomic enumerations with storage of their own width behave, under every interleaving and on every back end and
byte order, as the bits of their underlying type, whether that is signed or not. -/
theorem C41_linearizable (b : Backend) (bigEndian esgn : Bool) {N : Nat} (hN : 0 < N) (hb : b.Fits N) (v₀ : BitVec N) :
    LinearizableEverywhere (enumNative b bigEndian esgn N) enumSpec (ext esgn N v₀) v₀ :=
  everywhere (enumNative_correct b bigEndian esgn hN hb) trivial (ext_self _)

/-- C41, partial, for enumerations in wider storage: on little-endian machines, for the operations whose emulation is
right (for unsigned underlying types not the complements, for signed ones not the top bit in `bit_test_and_*`). -/
theorem C41_emulated_partial (cb esgn : Bool) {N W : Nat} (hN : 0 < N) (h : N ≤ W) (v₀ : BitVec N) :
    LinearizableEverywhere
      (fun op : {op : EnumOp N // EmulSafe cb esgn (lowerEnum op)} => enumEmulated cb false esgn N W op.1)
      (fun s op s' r => enumSpec s op.1 s' r) (ext esgn W v₀) v₀ := by
  refine everywhere (I := Canon esgn N) (abs := trunc N) ?_ (canon_ext h v₀) (trunc_ext h v₀)
  intro op w w' r hI hr
  simp only [enumEmulated_eq] at hr
  have := emulated_implements cb esgn hN h _ w w' r op.2 hI hr
  exact ⟨this.1, enum_spec _ _ _ _ this.2⟩

/-- Non-vacuity: the excluded operations are those stated. -/
example : EmulSafe (N := 8) false true (lowerEnum .fetchComplement) ∧
    EmulSafe (N := 8) true true (lowerEnum (.bitTestAndSet 6)) ∧ EmulSafe (N := 8) true false (lowerEnum (.orAssign 3)) :=
  ⟨rfl, .inr (by decide), trivial⟩

/-- C41 fails for wider storage on big-endian machines: `load` after `store(1)` returns 0, whatever the underlying type
and back end (the bytes are taken from the wrong end). -/
theorem C41_big_endian_wide_storage_violated (cb esgn : Bool) :
    ∃ w : BitVec 32, (enumEmulated cb true esgn 8 32 (.store 1)).Run 0 w .unit ∧
      ∀ w' r, (enumEmulated cb true esgn 8 32 .load).Run w w' r → w' = w ∧ r = .val 0 ∧ ¬ enumSpec (1 : BitVec 8) .load 1 r := by
  refine ⟨1, ?_, ?_⟩
  · have : (1 : BitVec 32) = ext esgn 32 (1 : BitVec 8) := by cases esgn <;> decide
    conv => arg 3; rw [this]
    exact .store
  · intro w' r hr
    cases hr
    have e : castDown true 8 (1 : BitVec 32) = 0 := by decide
    refine ⟨rfl, congrArg Ret.val e, ?_⟩
    show ¬ enumSpec (1 : BitVec 8) .load 1 (.val (castDown true 8 (1 : BitVec 32)))
    rw [e]
    rintro ⟨_, h⟩
    cases h

/-- C41 fails for a signed underlying type in wider storage also on little-endian machines: after `bit_test_and_set` of
the top bit of an 8-bit value 0 the object loads as -128, yet a strong compare-exchange expecting -128 fails, reporting
-128 as the value found. -/
theorem C41_signed_top_bit_violated (cb : Bool) :
    ∃ w : BitVec 32, (enumEmulated cb false true 8 32 (.bitTestAndSet 7)).Run (ext true 32 (0 : BitVec 8)) w (.flag false) ∧
      (enumEmulated cb false true 8 32 .load).Run w w (.val (-128 : BitVec 8)) ∧
      ∀ d w' r, (enumEmulated cb false true 8 32 (.casStrong (-128) d)).Run w w' r → w' = w ∧ r = .cas false (-128) := by
  have h0 : (128 : BitVec 32) = ext true 32 (0 : BitVec 8) ||| bitMask 32 false 32 7 := by decide
  refine ⟨128, ?_, ?_, ?_⟩
  · conv => arg 3; rw [h0]
    cases cb <;> exact .rmw
  · exact .load
  · intro d w' r hr
    have e : enumEmulated cb false true 8 32 (.casStrong (-128) d) =
        .casStrong (ext true 32 (-128 : BitVec 8)) (ext true 32 d) fun b w => .cas b (castDown false 8 w) := by
      cases cb <;> rfl
    rw [e, run_strong] at hr
    rcases hr with ⟨h, _⟩ | ⟨_, rfl, rfl⟩
    · exact absurd h (by decide)
    · exact ⟨rfl, by rfl⟩

/-- C41, partial, for enumerations with the underlying type `bool`: all operations but the complements behave as those of one
bit, and all bytes stored or returned are 0 or 1.  Missing: the complement operations, see `C41_bool_violated`. -/
theorem C41_bool_partial (b : Backend) (bigEndian esgn : Bool) (hb : b.Fits 8) (v₀ : BitVec 1) :
    LinearizableEverywhere
      (fun op : {op : EnumOp 1 // ¬ op.Complements} => enumNative b bigEndian esgn 8 op.1.ofBit)
      (fun s op s' r => ∃ r₁, r = retOfBit r₁ ∧ enumSpec s op.1 s' r₁) (ext esgn 8 (ofBit v₀)) v₀ := by
  refine everywhere (I := fun w => w = ofBit (trunc 1 w)) (abs := trunc 1) ?_ ?_ ?_
  · intro op w w' r hI hr
    have := (enumNative_correct b bigEndian esgn (by decide) hb) _ w w' r trivial hr
    exact bool_enum_spec op.1 op.2 w w' r hI this.2
  · rw [ext_self]; revert v₀; decide
  · rw [ext_self]; revert v₀; decide

/-- Non-vacuity: an exclusive-or that clears the value, tested. -/
example : ¬ (EnumOp.xorAndTest (1 : BitVec 1)).Complements ∧ (EnumOp.xorAndTest (1 : BitVec 1)).ofBit = .xorAndTest 1 ∧
    enumSpec (1 : BitVec 1) (.xorAndTest 1) 0 (.flag false) := ⟨fun h => h, rfl, rfl, rfl⟩

/-- C41 fails for the underlying type `bool`: whatever the value was, after a complement operation the object holds, and `load`
returns, the byte 254 or 255, which is no value of the type (the documentation promises the value `true` converted back). -/
theorem C41_bool_violated (b : Backend) (bigEndian esgn : Bool) (hb : b.Fits 8) (v : BitVec 1) :
    (∃ w', (enumNative b bigEndian esgn 8 .opaqueComplement).Run (ofBit v) w' .unit) ∧
    ∀ op : EnumOp 8, op.Complements → ∀ w' r, (enumNative b bigEndian esgn 8 op).Run (ofBit v) w' r →
      (w' = 254 ∨ w' = 255) ∧ (enumNative b bigEndian esgn 8 .load).Run w' w' (.val w') ∧ ∀ u : BitVec 1, ofBit u ≠ w' := by
  refine ⟨?_, fun op hop w' r hr => ?_⟩
  · have e : ∃ f k, enumNative b bigEndian esgn 8 .opaqueComplement = .rmw f k := by
      rw [enumNative_eq]; cases b <;> exact ⟨_, _, rfl⟩
    obtain ⟨f, k, e⟩ := e
    have hr : (enumNative b bigEndian esgn 8 .opaqueComplement).Run (ofBit v) (f (ofBit v)) (k (ofBit v) (f (ofBit v))) := by rw [e]; exact .rmw
    have := (enumNative_correct b bigEndian esgn (by decide) hb _ _ _ _ trivial hr).2.2
    exact ⟨_, this ▸ hr⟩
  · have := ((enumNative_correct b bigEndian esgn (by decide) hb) _ _ _ _ trivial hr).2
    have hw : w' = ~~~ ofBit v := by
      cases op <;> first | exact hop.elim | exact this.1
    subst hw
    have h1 : ∀ v : BitVec 1, ~~~ ofBit v = 254 ∨ ~~~ ofBit v = 255 := by decide
    have h2 : ∀ v u : BitVec 1, ofBit u ≠ ~~~ ofBit v := by decide
    refine ⟨h1 v, ?_, h2 v⟩
    have e : ∃ k, enumNative b bigEndian esgn 8 .load = .load k := by
      rw [enumNative_eq]; cases b <;> exact ⟨_, rfl⟩
    obtain ⟨k, e⟩ := e
    have hl : (enumNative b bigEndian esgn 8 .load).Run (~~~ ofBit v) (~~~ ofBit v) (k (~~~ ofBit v)) := by rw [e]; exact .load
    have := (enumNative_correct b bigEndian esgn (by decide) hb _ _ _ _ trivial hl).2.2
    exact this ▸ hl

/-! ### C42: operators -/

/-- C42: the overloaded operators of atomic integers are linearizable with the meaning users expect: assignment yields
the value assigned, prefix and compound forms the new value, postfix forms and the conversion the old one. -/
theorem C42_linearizable (b : Backend) (sgn : Bool) {N : Nat} (hN : 0 < N) (hb : b.Fits N) (v₀ : BitVec N) :
    LinearizableEverywhere (operators (native b sgn N)) operatorSpec (construct sgn N v₀) v₀ := by
  have hst : ∀ v w w' r, ((native b sgn N (.store v)).map fun _ => Ret.val v).Run w w' r →
      (native b sgn N (.store v)).Run w w' .unit ∧ r = .val v := by
    intro v w w' r hr
    have e : native b sgn N (.store v) = .store (ext sgn N v) .unit := by cases b <;> rfl
    rw [e, Code.map, run_store] at hr
    obtain ⟨rfl, rfl⟩ := hr
    rw [e]
    exact ⟨.store, rfl⟩
  exact everywhere (operators_correct (native_correct b sgn hN hb) hst) trivial (ext_self _)

/-- C42, partial, for integers in wider storage: with CAS-only back ends not the prefix and compound arithmetic (their
result is computed in the storage width there, see C07). -/
theorem C42_emulated_partial (cb sgn : Bool) {N W : Nat} (hN : 0 < N) (h : N ≤ W) (v₀ : BitVec N) :
    LinearizableEverywhere (fun op : {op : Operator N // OperatorSafe cb op} => operators (emulated cb sgn N W) op.1)
      (fun s op s' r => operatorSpec s op.1 s' r) (construct sgn W v₀) v₀ :=
  everywhere (operators_emulated_correct cb sgn hN h) (canon_ext h v₀) (trunc_ext h v₀)

/-- `++x` on an 8-bit 255 yields 0, `x++` yields 255. -/
example : (operators (native (.x86 false) false 8) .preInc).Run 255 0 (.val 0) ∧
    (operators (native (.x86 false) false 8) .postInc).Run 255 0 (.val 255) :=
  ⟨by exact .rmw, by exact .rmw⟩

/-! ### C43: bool -/

/-- C43: `atomic<bool>` behaves as a boolean under every interleaving, on every back end, for every storage width and for
both ways of passing `expected`; the value left in `expected` is always a proper `bool`. -/
theorem C43_linearizable (b : Backend) (inPlace : Bool) {W : Nat} (hW : 0 < W) (v₀ : Bool) :
    LinearizableEverywhere (boolApi inPlace (coreOf b W)) boolSpec (ofBool W v₀) v₀ :=
  everywhere (boolApi_correct inPlace hW (coreOf_plain b W)) (by rw [nz_ofBool hW]) (nz_ofBool hW v₀)

/-- C43, for `bool` in wider storage. -/
theorem C43_emulated_linearizable (inPlace : Bool) {N W : Nat} (hW : 0 < W) (v₀ : Bool) :
    LinearizableEverywhere (boolApi inPlace (coreExtending N false (corePlain W))) boolSpec (ofBool W v₀) v₀ :=
  everywhere (boolApi_correct inPlace hW (coreExtending_plain N false (coreOf_plain .intrinsics W)))
    (by rw [nz_ofBool hW]) (nz_ofBool hW v₀)

/-- C43: the storage of an `atomic<bool>` only ever holds 0 or 1 (so that comparing it bitwise is comparing the
values), in every execution. -/
theorem C43_storage_zero_or_one (b : Backend) (inPlace : Bool) {W : Nat} (hW : 0 < W) (v₀ : Bool) {Id : Type}
    [DecidableEq Id] {sys : Sys Id (oneMachine (boolApi inPlace (coreOf b W)))} {H}
    (h : Exec (oneMachine (boolApi inPlace (coreOf b W))) (ofBool W v₀) sys H) : sys.sh = 0 ∨ sys.sh = 1 := by
  have := one_inv (boolApi_correct inPlace hW (coreOf_plain b W)) (by rw [nz_ofBool hW]) h
  cases hv : nz sys.sh
  · exact .inl (by rw [this, hv]; rfl)
  · exact .inr (by rw [this, hv]; rfl)

example : (boolApi true (coreOf .casOnly 8) (.casStrong true false)).Run (ofBool 8 false) (ofBool 8 false)
    (.cas false (some false)) := by
  exact .strongFail (by decide)

end Verif.Api
