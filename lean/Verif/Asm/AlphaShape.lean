import Verif.Asm.Word
import Verif.Asm.IsaAlpha
import Verif.Asm.Assume

/-
The shapes of the blocks of the Alpha back end.
-/

set_option linter.unusedSimpArgs false
set_option linter.unusedVariables false

namespace Verif.Asm.Alpha

variable {N : Nat}

theorem exchange_shape (h : N ≤ 64) : Fn.Implements {
    block := {
      prog := [.label 1, mov 3 1, ldx 0 2, stx 1 2, beq 1 6 2 true, skip 8, .label 2, br 0 1 false, .label 900]
      opnds := [(0, .outEarly), (1, .outEarly), (2, .input), (3, .input)]
      addr := [2]
      results := [0] }
    args := fun a x => (x 3).setWidth N = a
    ret := fun _ r => .val ((r 0).setWidth N) : Fn 64 N (BitVec N) (Integral.Ret N) } Integral.spec .exchange := by
  intro a
  have hn := fun v : BitVec N => setWidth_signExtend v h
  asm_exec [hn] [0] [2, 3] [] 9

theorem fetch2_shape (h : N ≤ 64) {f : BitVec 64 → BitVec 64 → BitVec 64} {Op : Type}
    {spec : SeqSpec (BitVec N) Op (Integral.Ret N)} {op : BitVec N → Op} (g : BitVec N → BitVec N → BitVec N)
    (hs : ∀ m v m' r, spec m (op v) m' r ↔ m' = g m v ∧ r = .val m)
    (hf : ∀ x y, (f x y).setWidth N = g (x.setWidth N) (y.setWidth N)) : Fn.Implements {
    block := {
      prog := [.label 1, ldx 0 2, op2 1 0 3 f, stx 1 2, beq 1 6 2 true, skip 8, .label 2, br 0 1 false, .label 900]
      opnds := [(0, .outEarly), (1, .outEarly), (2, .input), (3, .input)]
      addr := [2]
      results := [0] }
    args := fun a x => (x 3).setWidth N = a
    ret := fun _ r => .val ((r 0).setWidth N) : Fn 64 N (BitVec N) (Integral.Ret N) } spec op := by
  intro a
  have hn := fun v : BitVec N => setWidth_signExtend v h
  asm_exec [hs, hf, hn] [0] [2, 3] [] 9

/-- Operations on narrow values in words: the result is extended before it is stored. -/
theorem word_shape {f : BitVec 64 → BitVec 64 → BitVec 64} {ext : BitVec 64 → BitVec 64} {Op A : Type}
    {spec : SeqSpec (BitVec 32) Op (Integral.Ret 32)} {op : A → Op} {enc : A → BitVec 32} (g : BitVec 32 → BitVec 32 → BitVec 32)
    (hs : ∀ a m, spec m (op a) (g m (enc a)) (.val m))
    (hf : ∀ x y, (ext (f x y)).setWidth 32 = g (x.setWidth 32) (y.setWidth 32)) : Fn.Implements {
    block := {
      prog := [.label 1, ldx 0 2, op2 1 0 3 f, op1 1 1 ext, stx 1 2, beq 1 7 2 true, skip 9, .label 2, br 0 1 false, .label 900]
      opnds := [(0, .outEarly), (1, .outEarly), (2, .input), (3, .input)]
      addr := [2]
      results := [0] }
    args := fun a x => (x 3).setWidth 32 = enc a
    ret := fun _ r => .val ((r 0).setWidth 32) : Fn 64 32 A (Integral.Ret 32) } spec op := by
  intro a
  have hn := fun v : BitVec 32 => setWidth_signExtend (w := 64) v (by decide)
  asm_exec [hs, hf, hn] [0] [2, 3] [] 10

/-- The extension of a value is found equal to a register only if the register holds the value. -/
theorem sext_eq (h : N ≤ 64) {m : BitVec N} {y : BitVec 64} (e : m.signExtend 64 = y) : m = y.setWidth N := by
  rw [← e, setWidth_signExtend _ h]

set_option hygiene false in
macro "alpha_cas" cuts:term:max keep:term:max n:num : tactic => `(tactic|
  (refine correct_of $cuts (fun _ x r => ∀ s ∈ $keep, r s = x s) [] $n (by kernel_rfl) (by kernel_rfl) (by kernel_rfl)
      (fun _ _ _ => rfl) (by rfl) (by simp) (by simp +contextual) (by asm_loads []) ?_ ?_
   · intro base x h0 hx ha pc hpc reg fl link seen hk
     simp only [List.mem_cons, List.not_mem_nil, or_false, forall_eq, forall_eq_or_imp] at hpc hk hx ha
     subst hpc
     simp [wp, insWp, asm, rd, wr, After, Last, upd, hk, ha, hx, Integral.spec, hn]
     try grind
   · intro base x h0 hx ha fl link m junk hl
     simp only [List.mem_cons, List.not_mem_nil, or_false, forall_eq, forall_eq_or_imp] at hx ha
     simp [asm, rd, wr, upd, entry, Link.after, hx, ha, hn]
     try grind))

/-- Compare-and-exchange, weak. -/
theorem weak_shape (h : N ≤ 64) : Fn.Implements {
    block := {
      prog := [.label 1, ldx 2 4, cmpeq 2 0 3, mov 2 0, beq 3 7 2 true, stx 1 4, mov 1 3, .label 2]
      opnds := [(0, .inout), (1, .inout), (2, .outEarly), (3, .outEarly), (4, .input)]
      addr := [4]
      results := [0, 3] }
    args := fun a x => (x 0).setWidth N = a.1 ∧ (x 1).setWidth N = a.2
    ret := fun _ r => .cas (!(r 3).setWidth 32 == 0) ((r 0).setWidth N) : Fn 64 N (BitVec N × BitVec N) (Integral.Ret N) }
    Integral.spec fun a => .casWeak a.1 a.2 := by
  rintro ⟨e, d⟩
  have hn := fun v : BitVec N => setWidth_signExtend v h
  refine correct_share 0 4 ?_ ?_
  · alpha_cas [0] [0, 1, 4] 8
  · cas_merge []
    alpha_cas [0] [0, 1] 8

/-- Compare-and-exchange, strong; the expected value is extended as a loaded value is. -/
theorem strong_shape (h : N ≤ 64) : Fn.Implements {
    block := {
      prog := [.label 1, mov 5 1, ldx 2 4, cmpeq 2 0 3, mov 2 0, beq 3 9 2 true, stx 1 4, beq 1 11 3 true, mov 1 3, .label 2,
        skip 13, .label 3, br 0 1 false, .label 900]
      opnds := [(0, .inout), (1, .outEarly), (2, .outEarly), (3, .outEarly), (4, .input), (5, .input)]
      addr := [4]
      results := [0, 3] }
    args := fun a x => x 0 = a.1.signExtend 64 ∧ (x 5).setWidth N = a.2
    ret := fun _ r => .cas (!(r 3).setWidth 32 == 0) ((r 0).setWidth N) : Fn 64 N (BitVec N × BitVec N) (Integral.Ret N) }
    Integral.spec fun a => .casStrong a.1 a.2 := by
  rintro ⟨e, d⟩
  have hn := fun v : BitVec N => setWidth_signExtend v h
  refine correct_share 0 4 ?_ ?_
  · refine correct_share 0 5 ?_ ?_
    · alpha_cas [0] [0, 4, 5] 14
    · cas_merge []
      alpha_cas [0] [0, 4] 14
  · refine correct_share 0 5 ?_ ?_
    · cas_merge []
      alpha_cas [0] [0, 5] 14
    · cas_merge []
      alpha_cas [0] [0] 14

/-- What is assumed about the operands, in other words. -/
theorem sext_of (h : N ≤ 64) {blk : Block 64 N} {spec : SeqSpec (BitVec N) (Integral.Op N) (Integral.Ret N)}
    {op : BitVec N × BitVec N → Integral.Op N} {q : BitVec N × BitVec N → (Slot → BitVec 64) → Prop}
    {ret : BitVec N × BitVec N → (Slot → BitVec 64) → Integral.Ret N}
    (hh : Fn.Implements ⟨blk, fun a x => x 0 = a.1.signExtend 64 ∧ q a x, ret⟩ spec op) :
    (Fn.sext ⟨blk, fun a x => (x 0).setWidth N = a.1 ∧ q a x, ret⟩ 0).Implements spec op := by
  intro a
  have e : (Fn.sext ⟨blk, fun a x => (x 0).setWidth N = a.1 ∧ q a x, ret⟩ 0).args a =
      fun x => x 0 = a.1.signExtend 64 ∧ q a x := by
    funext x
    refine propext ⟨fun hx => ⟨hx.2.trans (by rw [hx.1.1]), hx.1.2⟩, fun hx => ⟨⟨?_, hx.2⟩, ?_⟩⟩
    · rw [hx.1, setWidth_signExtend _ h]
    · simp only [hx.1, setWidth_signExtend _ h]
  rw [e]
  exact hh a

theorem sext_64 {blk : Block 64 64} {spec : SeqSpec (BitVec 64) (Integral.Op 64) (Integral.Ret 64)}
    {op : BitVec 64 × BitVec 64 → Integral.Op 64} {q : BitVec 64 × BitVec 64 → (Slot → BitVec 64) → Prop}
    {ret : BitVec 64 × BitVec 64 → (Slot → BitVec 64) → Integral.Ret 64}
    (hh : Fn.Implements ⟨blk, fun a x => x 0 = a.1.signExtend 64 ∧ q a x, ret⟩ spec op) :
    Fn.Implements ⟨blk, fun a x => (x 0).setWidth 64 = a.1 ∧ q a x, ret⟩ spec op := by
  simpa using hh

theorem low_sext {n : Nat} (h : n ≤ 32) (z : BitVec 32) : (z.signExtend 64).setWidth n = z.setWidth n := by
  have : (z.signExtend 64).setWidth n = ((z.signExtend 64).setWidth 32).setWidth n := by
    rw [BitVec.setWidth_setWidth_of_le _ h]
  rw [this, setWidth_signExtend _ (by decide)]

theorem sext_sext {n : Nat} (h : n ≤ 32) (z : BitVec n) : (z.signExtend 64).setWidth 32 = z.signExtend 32 := by
  apply BitVec.eq_of_getLsbD_eq
  intro i hi
  rw [BitVec.getLsbD_setWidth, BitVec.getLsbD_signExtend, BitVec.getLsbD_signExtend]
  simp [hi, show i < 64 by omega]

macro "ext_widths" : tactic => `(tactic|
  (rw [low_sext (by decide)]
   first | rw [sext_sext (by decide)] | rw [BitVec.setWidth_setWidth_of_le _ (by decide)]
   first | rw [BitVec.setWidth_add _ _ (by decide)] | rw [setWidth_sub' _ _ (by decide)]))

/-! What is stored after the extension of a sum or difference. -/

theorem zext8_add (x y : BitVec 64) : (((((x + y).setWidth 32).signExtend 64).setWidth 8).setWidth 64).setWidth 32 =
    ((x.setWidth 32 + y.setWidth 32).setWidth 8).setWidth 32 := by
  ext_widths
theorem sext8_add (x y : BitVec 64) : (((((x + y).setWidth 32).signExtend 64).setWidth 8).signExtend 64).setWidth 32 =
    ((x.setWidth 32 + y.setWidth 32).setWidth 8).signExtend 32 := by
  ext_widths
theorem zext8_sub (x y : BitVec 64) : (((((x - y).setWidth 32).signExtend 64).setWidth 8).setWidth 64).setWidth 32 =
    ((x.setWidth 32 - y.setWidth 32).setWidth 8).setWidth 32 := by
  ext_widths
theorem sext8_sub (x y : BitVec 64) : (((((x - y).setWidth 32).signExtend 64).setWidth 8).signExtend 64).setWidth 32 =
    ((x.setWidth 32 - y.setWidth 32).setWidth 8).signExtend 32 := by
  ext_widths
theorem zext16_add (x y : BitVec 64) : (((((x + y).setWidth 32).signExtend 64).setWidth 16).setWidth 64).setWidth 32 =
    ((x.setWidth 32 + y.setWidth 32).setWidth 16).setWidth 32 := by
  ext_widths
theorem sext16_add (x y : BitVec 64) : (((((x + y).setWidth 32).signExtend 64).setWidth 16).signExtend 64).setWidth 32 =
    ((x.setWidth 32 + y.setWidth 32).setWidth 16).signExtend 32 := by
  ext_widths
theorem zext16_sub (x y : BitVec 64) : (((((x - y).setWidth 32).signExtend 64).setWidth 16).setWidth 64).setWidth 32 =
    ((x.setWidth 32 - y.setWidth 32).setWidth 16).setWidth 32 := by
  ext_widths
theorem sext16_sub (x y : BitVec 64) : (((((x - y).setWidth 32).signExtend 64).setWidth 16).signExtend 64).setWidth 32 =
    ((x.setWidth 32 - y.setWidth 32).setWidth 16).signExtend 32 := by
  ext_widths

end Verif.Asm.Alpha
