import Verif.Api.Props
import Verif.Bytes.Props
import Verif.Init.Props
import Verif.Select.Props
import Verif.View.Model

/-
C69  operations of others on `value()` and the operations of the library act on the same value
-/

namespace Verif.View

open Verif.Integral (Backend ext trunc Canon native)
open Verif.Concurrent (Correct)
open Verif.Bytes (Bytes Byte SameValue intBytes)

theorem lockFree {W Op Ret σ : Type} [DecidableEq W] {code : Op → Code W Ret} {I : W → Prop} {abs : W → σ}
    {spec : SeqSpec σ Op Ret} (hc : Correct code I abs spec) {w₀ : W} {s₀ : σ} (h₀ : I w₀) (e : abs w₀ = s₀) :
    LinearizableLockFree code spec w₀ s₀ :=
  have h := Api.everywhere hc h₀ e
  ⟨h.1, h.2.1, h.2.2.1, h.2.2.2.1, h.2.2.2.2.1, h.2.2.2.2.2.1, h.2.2.2.2.2.2.1⟩

theorem run_map {W R R' : Type} {g : R → R'} {c : Code W R} {w w' : W} {r' : R'} (h : (c.map g).Run w w' r') :
    ∃ r, r' = g r ∧ c.Run w w' r := by
  cases c <;> cases h <;> first
    | exact ⟨_, rfl, .load⟩ | exact ⟨_, rfl, .store⟩ | exact ⟨_, rfl, .weakOk⟩ | exact ⟨_, rfl, .weakFail⟩
    | exact ⟨_, rfl, .strongOk⟩ | exact ⟨_, rfl, .strongFail ‹_›⟩ | exact ⟨_, rfl, .rmw⟩

/-- The external operations are right if the object `value()` refers to holds the value and writing there leaves a proper word. -/
theorem withExternal_correct {Op Ret : Type} {be : Bool} {N W : Nat} {code : Op → Code (BitVec W) Ret} {I : BitVec W → Prop}
    {abs : BitVec W → BitVec N} {spec : SeqSpec (BitVec N) Op Ret} (hc : Correct code I abs spec)
    (hv : ∀ w, I w → value be N w = abs w) (ha : ∀ w v, I w → I (assign be w v) ∧ abs (assign be w v) = v) :
    Correct (withExternal be code) I abs (anySpec spec) := by
  intro op w w' r hI hr
  cases op with
  | call op =>
    obtain ⟨r, rfl, h⟩ := run_map hr
    exact hc op w w' r hI h
  | external f =>
    cases hr
    show I (assign be w (f (value be N w))) ∧ abs (assign be w (f (value be N w))) = f (abs w) ∧ value be N w = abs w
    rw [hv w hI]
    exact ⟨(ha w _ hI).1, (ha w _ hI).2, rfl⟩

theorem value_self (be : Bool) {N : Nat} (w : BitVec N) : value be N w = w := by
  cases be <;> simp [value, Api.castDown]

theorem assign_self (be : Bool) {N : Nat} (w v : BitVec N) : assign be w v = v := by
  apply BitVec.eq_of_getLsbD_eq
  intro i hi
  cases be
  · simp [assign, hi]
  · simp [assign]

/-! ### What `value` and `assign` mean for the bytes in memory -/

/-- `value` is made of the first bytes of the storage, with either byte order. -/
theorem value_bytes (be : Bool) {n s : Nat} (h : n ≤ s) (w : BitVec (8 * s)) :
    intBytes (!be) n (value be (8 * n) w) = valueBytes h (intBytes (!be) s w) := by
  funext i
  apply BitVec.eq_of_getLsbD_eq
  intro k hk
  have := i.2
  cases be <;> simp only [intBytes, valueBytes, value, Api.castDown, Bool.not_true, Bool.not_false, if_true, if_false, Bool.false_eq_true,
    BitVec.getLsbD_extractLsb', BitVec.getLsbD_setWidth, BitVec.getLsbD_ushiftRight, decide_eq_true hk, Bool.true_and]
  · rw [decide_eq_true (by omega), Bool.true_and]
  · rw [decide_eq_true (by omega), Bool.true_and]
    congr 1; omega

/-- `assign` replaces the first bytes of the storage and leaves the others. -/
theorem assign_bytes (be : Bool) {n s : Nat} (h : n ≤ s) (w : BitVec (8 * s)) (v : BitVec (8 * n)) :
    intBytes (!be) s (assign be w v) = assignBytes (intBytes (!be) s w) (intBytes (!be) n v) := by
  funext i
  apply BitVec.eq_of_getLsbD_eq
  intro k hk
  have hi := i.2
  unfold assignBytes
  by_cases hn : i.1 < n
  · rw [dif_pos hn]
    cases be
    · simp only [intBytes, assign, Bool.not_false, if_true, if_false, Bool.false_eq_true, BitVec.getLsbD_extractLsb', BitVec.getLsbD_or,
        BitVec.getLsbD_setWidth, BitVec.getLsbD_shiftLeft, decide_eq_true hk, Bool.true_and]
      rw [decide_eq_true (show 8 * i.1 + k < 8 * s by omega), decide_eq_true (show 8 * i.1 + k < 8 * n by omega)]; simp
    · simp only [intBytes, assign, Bool.not_true, if_true, if_false, Bool.false_eq_true, BitVec.getLsbD_extractLsb', BitVec.getLsbD_or,
        BitVec.getLsbD_setWidth, BitVec.getLsbD_shiftLeft, BitVec.getLsbD_ushiftRight, decide_eq_true hk, Bool.true_and]
      rw [decide_eq_false (show ¬ 8 * n + (8 * (s - 1 - i.1) + k) < 8 * s by omega), decide_eq_true (show 8 * (s - 1 - i.1) + k < 8 * s by omega),
        decide_eq_false (show ¬ 8 * (s - 1 - i.1) + k < 8 * s - 8 * n by omega),
        decide_eq_true (show 8 * (s - 1 - i.1) + k - (8 * s - 8 * n) < 8 * s by omega)]
      simp only [Bool.false_and, Bool.false_or, Bool.not_false, Bool.true_and]
      congr 1; omega
  · rw [dif_neg hn]
    cases be
    · simp only [intBytes, assign, Bool.not_false, if_true, if_false, Bool.false_eq_true, BitVec.getLsbD_extractLsb', BitVec.getLsbD_or,
        BitVec.getLsbD_setWidth, BitVec.getLsbD_shiftLeft, BitVec.getLsbD_ushiftRight, decide_eq_true hk, Bool.true_and]
      rw [decide_eq_true (show 8 * i.1 + k < 8 * s by omega), decide_eq_false (show ¬ 8 * i.1 + k < 8 * n by omega),
        BitVec.getLsbD_of_ge v _ (by omega)]
      simp only [Bool.true_and, Bool.not_false, Bool.and_false, Bool.or_false]
      congr 1; omega
    · simp only [intBytes, assign, Bool.not_true, if_true, if_false, Bool.false_eq_true, BitVec.getLsbD_extractLsb', BitVec.getLsbD_or,
        BitVec.getLsbD_setWidth, BitVec.getLsbD_shiftLeft, BitVec.getLsbD_ushiftRight, decide_eq_true hk, Bool.true_and]
      rw [decide_eq_true (show 8 * n + (8 * (s - 1 - i.1) + k) < 8 * s by omega),
        decide_eq_false (show ¬ 8 * n + (8 * (s - 1 - i.1) + k) < 8 * n by omega),
        decide_eq_true (show 8 * (s - 1 - i.1) + k < 8 * s - 8 * n by omega)]
      simp only [Bool.true_and, Bool.not_false, Bool.not_true, Bool.and_false, Bool.false_and, Bool.or_false]
      congr 1; omega

/-! ### Storage of the size of the type -/

/-- C69 for integers, in storage of their own size: external operations on `value()` and the operations of the library act on one and
the same value, under every interleaving. -/
theorem C69_integer (b : Backend) (be sgn : Bool) {N : Nat} (hN : 0 < N) (hb : b.Fits N) (v₀ : BitVec N) :
    LinearizableLockFree (withExternal (N := N) be (native b sgn N)) (anySpec Integral.spec) v₀ v₀ :=
  lockFree (withExternal_correct (Concurrent.native_correct b sgn hN hb) (fun w _ => value_self be w)
    fun w v _ => ⟨trivial, assign_self be w v⟩) trivial rfl

/-- C69 for enumerations. -/
theorem C69_enumeration (b : Backend) (be esgn : Bool) {N : Nat} (hN : 0 < N) (hb : b.Fits N) (v₀ : BitVec N) :
    LinearizableLockFree (withExternal (N := N) be (Api.enumNative b be esgn N)) (anySpec Api.enumSpec) v₀ v₀ :=
  lockFree (withExternal_correct (Api.enumNative_correct b be esgn hN hb) (fun w _ => value_self be w)
    fun w v _ => ⟨trivial, assign_self be w v⟩) trivial rfl

/-- C69 for pointers to objects. -/
theorem C69_pointer (b : Backend) (be : Bool) {S P : Nat} (sz : Nat) (hP : 0 < P) (h : P ≤ S) (hb : b.Fits P) (p₀ : BitVec P) :
    LinearizableLockFree (withExternal (N := P) be (Api.ptrNative b S sz P)) (anySpec (Api.ptrSpec sz)) p₀ p₀ :=
  lockFree (withExternal_correct (Api.ptrNative_correct b sz hP h hb) (fun w _ => value_self be w)
    fun w v _ => ⟨trivial, assign_self be w v⟩) trivial rfl

/-- A futex looks at a counter that a thread has incremented. -/
example : (withExternal (N := 32) false (native .intrinsics false 32) (.call (.fetchAdd 1))).Run 7 8 (.call (.val 7)) ∧
    (withExternal (N := 32) false (native .intrinsics false 32) (.external id)).Run 8 8 (.saw 8) := by
  constructor
  · have : (8 : BitVec 32) = 7 + 1 := by decide
    rw [this]; exact .rmw
  · exact .rmw (k := fun w _ => AnyRet.saw (value false 32 w)) (f := fun w => assign false w (id (value false 32 w))) (w := 8)

/-! ### Structures, floating point, pointers to functions and members -/

/-- External operations that leave padding bits zero if they find them so. -/
def KeepsPadding {Op : Type} {n : Nat} (mask : Bytes n) (op : Any Op (Bytes n)) : Prop :=
  ∀ f, op = .external f → ∀ v : Bytes n, (∀ i, v i &&& mask i = v i) → ∀ i, f v i &&& mask i = f v i

/-- C69 for all other types, in storage of any size: external operations see the value, and what they write is the value of the
object, if they do not set padding bits. -/
theorem C69_object {Mode : Type} (c : Bytes.Cfg) (T : Bytes.Ty) (hT : T.Wf) (hk : Bytes.Known c T) (s : Nat) (hs : T.size ≤ s)
    (align : Nat) (F : Mode → Bytes.Fp T.size) (neg : Bytes.NegImpl) (hneg : ∀ le, neg = some le → Bytes.SignOk T s F le)
    (u : Bytes.Op Mode T.size → Bytes s) (u' : Bytes.Op Mode T.size → Bytes T.size) (u₀ : Bytes s) (v : Bytes T.size) :
    ∃ s₀, SameValue T.mask s₀ v ∧
    LinearizableLockFree
      (fun op : {op // KeepsPadding T.mask op} => withExternalBytes hs (Bytes.table c T s align F neg u u') op.1)
      (restrict (KeepsPadding T.mask) (anySpec (Bytes.spec F T.mask))) (Bytes.toStorage c T s u₀ v) s₀ := by
  refine ⟨_, Bytes.same_of_to hT hk hs u₀ (fun _ => 0) v,
    lockFree (I := Bytes.Clean T.mask) (abs := Bytes.ofStorage c T s fun _ => 0) ?_ (Bytes.clean_toStorage hT hk hs u₀ v) rfl⟩
  have hc := Bytes.table_correct hT hk hs align hneg u u' fun _ => 0
  have e : ∀ w, valueBytes hs w = Bytes.ofStorage c T s (fun _ => 0) w := by
    intro w; funext i; rw [Bytes.ofStorage_eq hs]; rfl
  rintro ⟨op, hop⟩ w w' r hI hr
  cases op with
  | call op =>
    obtain ⟨r, rfl, h⟩ := run_map hr
    exact hc op w w' r hI h
  | external f =>
    cases hr
    show Bytes.Clean T.mask (assignBytes w (f (valueBytes hs w))) ∧
      Bytes.ofStorage c T s (fun _ => 0) (assignBytes w (f (valueBytes hs w))) = f (Bytes.ofStorage c T s (fun _ => 0) w) ∧
      valueBytes hs w = Bytes.ofStorage c T s (fun _ => 0) w
    refine ⟨fun i => ?_, ?_, e w⟩
    · have hv : ∀ i, valueBytes hs w i &&& T.mask i = valueBytes hs w i := by
        intro i
        have := hI ⟨i.1, Nat.lt_of_lt_of_le i.2 hs⟩
        simpa [Bytes.extMask, i.2, valueBytes] using this
      have := hop f rfl _ hv
      unfold assignBytes
      by_cases h : i.1 < T.size
      · rw [dif_pos h, Bytes.extMask, dif_pos h]; exact this _
      · rw [dif_neg h]; exact hI i
    · funext i
      rw [Bytes.ofStorage_eq hs, ← e]
      simp [assignBytes]

/-- Conditions of C69 hold for a structure of 3 bytes kept in 4 and an external operation that increments the first byte. -/
example : ∃ T : Bytes.Ty, T.Wf ∧ Bytes.Known ⟨false, false, false⟩ T ∧ T.size = 3 ∧
    KeepsPadding (Op := Bytes.Op Unit T.size) T.mask (.external fun v i => if i.1 = 0 then v i + 1 else v i) := by
  refine ⟨⟨3, fun _ => 0xff, true, false, 3, by decide, 1⟩, ⟨fun _ _ => rfl, by simp⟩, .inr (.inl ⟨rfl, fun _ => rfl⟩), rfl, ?_⟩
  intro f _ v _ i
  exact Bytes.and_ff _

/-! ### Storage wider than the type -/

theorem value_le {N W : Nat} (w : BitVec W) : value false N w = trunc N w := rfl

theorem getLsbD_assign {N W : Nat} (h : N ≤ W) (w : BitVec W) (v : BitVec N) (k : Nat) :
    (assign false w v).getLsbD k = if k < N then v.getLsbD k else w.getLsbD k := by
  by_cases hW : k < W
  · by_cases hN : k < N
    · simp [assign, hN, hW]
    · simp [assign, hN, hW, BitVec.getLsbD_of_ge v k (by omega), show N + (k - N) = k by omega]
  · rw [BitVec.getLsbD_of_ge _ _ (by omega), BitVec.getLsbD_of_ge w k (by omega), if_neg (by omega)]

theorem trunc_assign {N W : Nat} (h : N ≤ W) (w : BitVec W) (v : BitVec N) : trunc N (assign false w v) = v := by
  apply BitVec.eq_of_getLsbD_eq
  intro k hk
  rw [Integral.getLsbD_trunc, getLsbD_assign h, if_pos hk, decide_eq_true hk, Bool.true_and]

theorem assign_value {N W : Nat} (h : N ≤ W) (w : BitVec W) : assign false w (value false N w) = w := by
  apply BitVec.eq_of_getLsbD_eq
  intro k hk
  rw [getLsbD_assign h, value_le, Integral.getLsbD_trunc]
  split
  · next hk => rw [decide_eq_true hk, Bool.true_and]
  · rfl

/-- C69, partial: unsigned integers in wider storage on little-endian machines, for the operations whose emulation is right (C07). -/
theorem C69_unsigned_wide_partial (cb : Bool) {N W : Nat} (hN : 0 < N) (h : N ≤ W) (v₀ : BitVec N) :
    LinearizableLockFree (withExternal (N := N) false (Concurrent.emulatedSafe cb false N W))
      (anySpec (Concurrent.specSafe cb false N)) (ext false W v₀) v₀ := by
  refine lockFree (withExternal_correct (Concurrent.emulated_correct cb false hN h) (fun w _ => value_le w)
    fun w v hI => ⟨?_, trunc_assign h w v⟩) (Integral.canon_ext h v₀) (Integral.trunc_ext h v₀)
  rw [Integral.canon_iff hN] at hI ⊢
  intro k h1 h2
  rw [getLsbD_assign h, if_neg (by omega), hI k h1 h2]; rfl

/-- C69, partial: signed integers in wider storage on little-endian machines can be looked at. -/
theorem C69_signed_wide_partial (cb sgn : Bool) {N W : Nat} (hN : 0 < N) (h : N ≤ W) (v₀ : BitVec N) :
    LinearizableLockFree
      (fun op : {op // Looks op} => withExternal (N := N) false (Concurrent.emulatedSafe cb sgn N W) op.1)
      (restrict Looks (anySpec (Concurrent.specSafe cb sgn N))) (ext sgn W v₀) v₀ := by
  refine lockFree (I := Canon sgn N) (abs := trunc N) ?_ (Integral.canon_ext h v₀) (Integral.trunc_ext h v₀)
  rintro ⟨op, hop⟩ w w' r hI hr
  cases op with
  | call op =>
    obtain ⟨r, rfl, hr'⟩ := run_map hr
    exact Concurrent.emulated_correct cb sgn hN h op w w' r hI hr'
  | external f =>
    obtain rfl := hop f rfl
    cases hr
    show Canon sgn N (assign false w (value false N w)) ∧ trunc N (assign false w (value false N w)) = trunc N w ∧
      value false N w = trunc N w
    rw [assign_value h]
    exact ⟨hI, rfl, rfl⟩

/-- C69 is false for writes to signed integers in wider storage: after someone has written 1 to the 8-bit object holding −1, kept in
32 bits, a load returns 1 and a compare-exchange expecting 1 fails and reports 1. -/
theorem C69_signed_wide_violated (cb : Bool) (d : BitVec 8) :
    (withExternal (N := 8) false (Integral.emulated cb true 8 32) (.external fun _ => 1)).Run (ext true 32 (-1 : BitVec 8)) 0xffffff01
      (.saw (-1)) ∧
    (withExternal (N := 8) false (Integral.emulated cb true 8 32) (.call .load)).Run 0xffffff01 0xffffff01 (.call (.val 1)) ∧
    ∀ w r, (withExternal (N := 8) false (Integral.emulated cb true 8 32) (.call (.casStrong 1 d))).Run 0xffffff01 w r →
      w = 0xffffff01 ∧ r = .call (.cas false 1) := by
  have e1 : (withExternal (N := 8) false (Integral.emulated cb true 8 32) (.call .load)) =
      .load fun w : BitVec 32 => .call (.val (trunc 8 w)) := rfl
  have e2 : (withExternal (N := 8) false (Integral.emulated cb true 8 32) (.call (.casStrong 1 d))) =
      .casStrong (ext true 32 (1 : BitVec 8)) (ext true 32 d) fun ok w => .call (.cas ok (trunc 8 w)) := rfl
  refine ⟨?_, ?_, fun w r h => ?_⟩
  · exact .rmw (f := fun w => assign false w (1 : BitVec 8)) (k := fun w _ => AnyRet.saw (value false 8 w)) (w := ext true 32 (-1 : BitVec 8))
  · rw [e1]; exact .load (k := fun w : BitVec 32 => AnyRet.call (Integral.Ret.val (trunc 8 w))) (w := 0xffffff01)
  · rw [e2, Integral.run_strong] at h
    rcases h with ⟨h, -⟩ | ⟨-, rfl, rfl⟩
    · exact absurd h (by decide)
    · exact ⟨rfl, rfl⟩

/-- C69 is false on big-endian machines: whatever is stored in an unsigned integer that is kept in storage of at least twice its
size, `value()` is 0. -/
theorem C69_big_endian_violated (cb : Bool) {N W : Nat} (h : 2 * N ≤ W) (v : BitVec N) (w w' : BitVec W) (r : AnyRet (Integral.Ret N) (BitVec N))
    (hr : (withExternal (N := N) true (Integral.emulated cb false N W) (.call (.store v))).Run w w' r) :
    (withExternal (N := N) true (Integral.emulated cb false N W) (.external id)).Run w' w' (.saw 0) ∧
    (withExternal (N := N) true (Integral.emulated cb false N W) (.call .load)).Run w' w' (.call (.val v)) := by
  have e1 : (withExternal (N := N) true (Integral.emulated cb false N W) (.call .load)) =
      .load fun w : BitVec W => .call (.val (trunc N w)) := rfl
  have e2 : (withExternal (N := N) true (Integral.emulated cb false N W) (.call (.store v))) =
      .store (ext false W v) (.call .unit) := rfl
  rw [e2] at hr
  cases hr
  have hv : value true N (ext false W v) = 0 := by
    apply BitVec.eq_of_getLsbD_eq
    intro k hk
    simp only [value, Api.castDown, if_true, BitVec.getLsbD_setWidth, BitVec.getLsbD_ushiftRight, Integral.getLsbD_ext]
    rw [if_neg (by omega)]; simp
  have ha : assign true (ext false W v) (0 : BitVec N) = ext false W v := by
    apply BitVec.eq_of_getLsbD_eq
    intro k hk
    simp only [assign, if_true, BitVec.getLsbD_or, BitVec.getLsbD_ushiftRight, BitVec.getLsbD_shiftLeft, Integral.getLsbD_ext]
    by_cases hN : k < N
    · simp [hN, hk, show N + k < W by omega]
    · simp [hN]
  constructor
  · have := Code.Run.rmw (f := fun w : BitVec W => assign true w (id (value true N w)))
      (k := fun w _ => (AnyRet.saw (value true N w) : AnyRet (Integral.Ret N) (BitVec N))) (w := ext false W v)
    simp only [id, hv, ha] at this
    exact this
  · rw [e1]
    have := Code.Run.load (k := fun w : BitVec W => (AnyRet.call (.val (trunc N w)) : AnyRet (Integral.Ret N) (BitVec N))) (w := ext false W v)
    rwa [Integral.trunc_ext (by omega)] at this

/-! ### bool -/

theorem core_plain {W : Nat} {c : Integral.CoreOps W}
    (h : (∃ b, c = Api.coreOf b W) ∨ ∃ N, c = Integral.coreExtending N false (Integral.corePlain W)) : Api.PlainCore c := by
  rcases h with ⟨b, rfl⟩ | ⟨N, rfl⟩
  · exact Api.coreOf_plain b W
  · exact Api.coreExtending_plain N false (Api.coreOf_plain .intrinsics W)

/-- C69, partial: `bool`, in one byte, or in more of them on little-endian machines. -/
theorem C69_bool_partial {W : Nat} (c : Integral.CoreOps W)
    (hcore : (∃ b, c = Api.coreOf b W) ∨ ∃ N, c = Integral.coreExtending N false (Integral.corePlain W))
    (inPlace be : Bool) (hW : 8 ≤ W) (h : be = false ∨ W = 8) (v₀ : Bool) :
    LinearizableLockFree (withExternalBool be (Api.boolApi inPlace c)) (anySpec Api.boolSpec) (Api.ofBool W v₀) v₀ := by
  have hc := Api.boolApi_correct inPlace (show 0 < W by omega) (core_plain hcore)
  refine lockFree (I := fun w => w = Api.ofBool W (Integral.nz w)) (abs := Integral.nz) ?_
    (by rw [Api.nz_ofBool (by omega)]) (Api.nz_ofBool (by omega) v₀)
  have hv : ∀ x : Bool, value be 8 (Api.ofBool W x) = Api.ofBool 8 x := by
    intro x
    rcases h with rfl | rfl
    · rw [value_le]
      cases x
      · simp [Api.ofBool, trunc]
      · apply BitVec.eq_of_getLsbD_eq
        intro k hk
        simp [Api.ofBool, trunc, BitVec.getLsbD_one, hk]; omega
    · exact value_self be _
  have ha : ∀ x y : Bool, assign be (Api.ofBool W x) (Api.ofBool 8 y) = Api.ofBool W y := by
    intro x y
    rcases h with rfl | rfl
    · apply BitVec.eq_of_getLsbD_eq
      intro k hk
      rw [getLsbD_assign hW]
      cases x <;> cases y <;> simp [Api.ofBool, BitVec.getLsbD_one]
      · by_cases h0 : k = 0 <;> simp [h0]; omega
      · omega
      · omega
    · exact assign_self be _ _
  intro op w w' r hI hr
  cases op with
  | call op =>
    obtain ⟨r, rfl, hr'⟩ := run_map hr
    exact hc op w w' r hI hr'
  | external f =>
    cases hr
    show assign be w (Api.ofBool 8 (f (Integral.nz (value be 8 w)))) =
        Api.ofBool W (Integral.nz (assign be w (Api.ofBool 8 (f (Integral.nz (value be 8 w)))))) ∧
      Integral.nz (assign be w (Api.ofBool 8 (f (Integral.nz (value be 8 w))))) = f (Integral.nz w) ∧
      Integral.nz (value be 8 w) = Integral.nz w
    generalize Integral.nz w = x at hI
    subst hI
    rw [hv, ha, Api.nz_ofBool (by decide), Api.nz_ofBool (by omega)]
    exact ⟨rfl, rfl, rfl⟩

/-- C69 is false for `bool` in wider storage on big-endian machines: `value()` is `false` though the object is `true`. -/
theorem C69_bool_violated {W : Nat} (c : Integral.CoreOps W)
    (hcore : (∃ b, c = Api.coreOf b W) ∨ ∃ N, c = Integral.coreExtending N false (Integral.corePlain W))
    (inPlace : Bool) (hW : 16 ≤ W) (w w' : BitVec W) (r : AnyRet Api.BoolRet Bool)
    (hr : (withExternalBool true (Api.boolApi inPlace c) (.call (.store true))).Run w w' r) :
    (withExternalBool true (Api.boolApi inPlace c) (.external id)).Run w' w' (.saw false) ∧
    (withExternalBool true (Api.boolApi inPlace c) (.call .load)).Run w' w' (.call (.val true)) := by
  have hp := core_plain hcore
  have e1 : (withExternalBool true (Api.boolApi inPlace c) (.call .load)) =
      .load fun w : BitVec W => .call (.val (Integral.nz w)) := by
    simp [withExternalBool, Api.boolApi, hp.load, Code.map]
  have e2 : (withExternalBool true (Api.boolApi inPlace c) (.call (.store true))) =
      .store (Api.ofBool W true) (.call .unit) := by
    simp [withExternalBool, Api.boolApi, hp.store, Code.map]
  rw [e2] at hr
  cases hr
  have hv : value true 8 (Api.ofBool W true) = 0 := by
    apply BitVec.eq_of_getLsbD_eq
    intro k hk
    simp [value, Api.castDown, Api.ofBool, BitVec.getLsbD_one]; omega
  have ha : assign true (Api.ofBool W true) (Api.ofBool 8 false) = Api.ofBool W true := by
    apply BitVec.eq_of_getLsbD_eq
    intro k hk
    simp [assign, Api.ofBool, BitVec.getLsbD_one]; omega
  constructor
  · have := Code.Run.rmw (f := fun w : BitVec W => assign true w (Api.ofBool 8 (id (Integral.nz (value true 8 w)))))
      (k := fun w _ => (AnyRet.saw (Integral.nz (value true 8 w)) : AnyRet Api.BoolRet Bool)) (w := Api.ofBool W true)
    have hz : Integral.nz (0 : BitVec 8) = false := rfl
    simp only [id, hv, hz, ha] at this
    exact this
  · rw [e1]
    have := Code.Run.load (k := fun w : BitVec W => (AnyRet.call (.val (Integral.nz w)) : AnyRet Api.BoolRet Bool)) (w := Api.ofBool W true)
    rwa [Api.nz_ofBool (by omega)] at this

/-- POWER before version 8 and a compiler without `__atomic` intrinsics (IBM XL): objects of one byte are lock-free and kept in four. -/
example : (Select.Platform.ops ⟨⟨2, 4, 8, 16⟩, .gcc_ppc false false true, .none⟩ 1).sizeofStorage = 4 ∧
    (Select.Platform.ops ⟨⟨2, 4, 8, 16⟩, .gcc_ppc false false true, .none⟩ 1).is_always_lock_free = true := by decide

end Verif.View
