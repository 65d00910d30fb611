import Verif.Asm.OpsLemmas
import Verif.Asm.IsaX86

/-
The shapes of the blocks of the x86 back end, for all sizes of objects and of registers.
-/

set_option linter.unusedSimpArgs false
set_option linter.unusedVariables false

namespace Verif.Asm.X86

variable {R N : Nat}

theorem narrow (h : N ≤ R) (v : BitVec N) : (v.setWidth R).setWidth N = v := by
  rw [BitVec.setWidth_setWidth_of_le _ h]; simp

theorem put_low (h : N ≤ R) (r : BitVec R) (v : BitVec N) : (put r v).setWidth N = v := by
  unfold put
  split
  · apply BitVec.eq_of_getLsbD_eq
    intro i hi
    simp [hi, Nat.lt_of_lt_of_le hi h]
  · exact narrow h v

theorem low_mid {w : Nat} (h : N ≤ w) (hw : w ≤ R) (x : BitVec R) : ((x.setWidth w).setWidth R).setWidth N = x.setWidth N := by
  rw [BitVec.setWidth_setWidth_of_le _ (Nat.le_trans h hw), BitVec.setWidth_setWidth_of_le _ h]

theorem bool8_one (h : 8 ≤ R) (k : Bool → Integral.Ret N) : bool8 ((1#8).setWidth R) k = k true := by
  simp only [bool8, narrow h, if_pos]

theorem bool8_zero (h : 8 ≤ R) (k : Bool → Integral.Ret N) : bool8 ((0#8).setWidth R) k = k false := by
  simp only [bool8, narrow h]; rfl

theorem bool8_set (h : 8 ≤ R) (b : Bool) (k : Bool → Integral.Ret N) :
    bool8 ((if b = true then 1#8 else 0#8 : BitVec 8).setWidth R) k = k b := by
  cases b
  · exact bool8_zero h k
  · exact bool8_one h k

theorem xadd_shape (h : N ≤ R) : Fn.Implements {
    block := {
      prog := [xadd N 0 1]
      opnds := [(0, .inout), (1, .input)]
      addr := [1]
      results := [0] }
    args := fun a x => (x 0).setWidth N = a
    ret := fun _ r => .val ((r 0).setWidth N) : Fn R N (BitVec N) (Integral.Ret N) } Integral.spec .fetchAdd := by
  intro a
  have hn := put_low h
  asm_exec [hn] [0] [0, 1] [] 1

theorem xchg_shape (h : N ≤ R) : Fn.Implements {
    block := {
      prog := [xchg N 0 1]
      opnds := [(0, .inout), (1, .input)]
      addr := [1]
      results := [0] }
    args := fun a x => (x 0).setWidth N = a
    ret := fun _ r => .val ((r 0).setWidth N) : Fn R N (BitVec N) (Integral.Ret N) } Integral.spec .exchange := by
  intro a
  have hn := put_low h
  asm_exec [hn] [0] [0, 1] [] 1


set_option hygiene false in
/-- As `asm_exec` for the blocks with `cmpxchg`, whose accumulator is operand 0: splits on whether the object has
the expected value. -/
macro "asm_cas" "[" fs:Lean.Parser.Tactic.simpLemma,* "]" keep:term:max n:num : tactic => `(tactic|
  (refine correct_of [0] (fun _ x r => ∀ s ∈ $keep, r s = x s) [] $n (by kernel_rfl) (by kernel_rfl) (by kernel_rfl)
      (fun _ _ _ => rfl) (by rfl) (by simp [$fs,*]) (by simp +contextual [$fs,*]) (by asm_loads [$fs,*]) ?_ ?_
   · intro base x h0 hx ha pc hpc reg fl link seen hk
     simp only [List.mem_cons, List.not_mem_nil, or_false, forall_eq, forall_eq_or_imp, $fs,*] at hpc hk hx ha
     subst hpc
     simp [wp, insWp, asm, rd, wr, After, Last, upd, hk, ha, hx, Integral.spec, $fs,*]
     intro m
     by_cases hm : (reg 0).setWidth N = m <;> simp_all
     all_goals try exact fun h => hm h.symm
   · intro base x h0 hx ha fl link m junk hl
     simp only [List.mem_cons, List.not_mem_nil, or_false, forall_eq, forall_eq_or_imp, $fs,*] at hx ha
     by_cases hm : (x 0).setWidth N = m.val <;> simp [asm, rd, wr, upd, entry, Link.after, hx, ha, hm, $fs,*]))

theorem cmpxchg_shape (h : N ≤ R) (h8 : 8 ≤ R) : Fn.Implements {
    block := {
      prog := [cmpxchg N 0 3 1, sete 2]
      opnds := [(0, .inout), (1, .input), (2, .out), (3, .input)]
      fixed := [(0, 0)]
      addr := [1]
      results := [0, 2] }
    args := fun a x => (x 0).setWidth N = a.1 ∧ (x 3).setWidth N = a.2
    ret := fun _ r => bool8 (r 2) (.cas · ((r 0).setWidth N)) :
      Fn R N (BitVec N × BitVec N) (Integral.Ret N) } Integral.spec fun a => .casStrong a.1 a.2 := by
  rintro ⟨e, d⟩
  have hn := put_low h
  have hb0 := fun k => bool8_zero (N := N) h8 k
  have hb1 := fun k => bool8_one (N := N) h8 k
  asm_cas [hn] [0, 1, 3] 2

/-- The loops `1: mov arg, new; op res, new; lock; cmpxchg new, storage; jne 1b` that return the old value. -/
theorem fetch2_shape (h : N ≤ R) {w : Nat} (hw : N ≤ w) (hwR : w ≤ R) {Op : Type}
    {spec : SeqSpec (BitVec N) Op (Integral.Ret N)} {op : BitVec N → Op} (g : BitVec N → BitVec N → BitVec N)
    (hs : ∀ m v m' r, spec m (op v) m' r ↔ m' = g v m ∧ r = .val m) : Fn.Implements {
    block := {
      prog := [.label 1, mov w 3 2, logic N g 0 2, cmpxchg N 0 2 1, jne 0 1 false]
      opnds := [(0, .inout), (1, .input), (2, .outEarly), (3, .input)]
      fixed := [(0, 0)]
      differ := [(0, 1), (0, 3)]
      addr := [1]
      results := [0] }
    args := fun a x => (x 3).setWidth N = a
    ret := fun _ r => .val ((r 0).setWidth N) : Fn R N (BitVec N) (Integral.Ret N) } spec op := by
  intro a
  have hn := put_low h
  have hm := low_mid (R := R) hw hwR
  asm_cas [hs, hn, hm] [1, 3] 10

/-- The same loops, returning the new value. -/
theorem new2_shape (h : N ≤ R) {w : Nat} (hw : N ≤ w) (hwR : w ≤ R) {Op : Type}
    {spec : SeqSpec (BitVec N) Op (Integral.Ret N)} {op : BitVec N → Op} (g : BitVec N → BitVec N → BitVec N)
    (hs : ∀ m v m' r, spec m (op v) m' r ↔ m' = g v m ∧ r = .val m') : Fn.Implements {
    block := {
      prog := [.label 1, mov w 3 2, logic N g 0 2, cmpxchg N 0 2 1, jne 0 1 false]
      opnds := [(0, .inout), (1, .input), (2, .outEarly), (3, .input)]
      fixed := [(0, 0)]
      differ := [(0, 1), (0, 3)]
      addr := [1]
      results := [2] }
    args := fun a x => (x 3).setWidth N = a
    ret := fun _ r => .val ((r 2).setWidth N) : Fn R N (BitVec N) (Integral.Ret N) } spec op := by
  intro a
  have hn := put_low h
  have hm := low_mid (R := R) hw hwR
  asm_cas [hs, hn, hm] [1, 3] 10

/-- The loops `1: mov orig, res; op res; lock; cmpxchg res, storage; jne 1b` that return the old value. -/
theorem fetch1_shape (h : N ≤ R) {Op : Type} {spec : SeqSpec (BitVec N) Op (Integral.Ret N)} {op : Unit → Op}
    (g : BitVec N → BitVec N) {k : BitVec N → Flags → Flags}
    (hs : ∀ m v m' r, spec m (op v) m' r ↔ m' = g m ∧ r = .val m) : Fn.Implements {
    block := {
      prog := [.label 1, mov N 0 2, unary N g k 2, cmpxchg N 0 2 1, jne 0 1 false]
      opnds := [(0, .inout), (1, .input), (2, .outEarly)]
      fixed := [(0, 0)]
      differ := [(0, 1)]
      addr := [1]
      results := [0] }
    args := fun _ _ => True
    ret := fun _ r => .val ((r 0).setWidth N) : Fn R N Unit (Integral.Ret N) } spec op := by
  intro a
  have hn := put_low h
  have hm := low_mid (R := R) (Nat.le_refl N) h
  asm_cas [hs, hn, hm] [1] 10

/-- The same loops, returning the new value. -/
theorem new1_shape (h : N ≤ R) {Op : Type} {spec : SeqSpec (BitVec N) Op (Integral.Ret N)} {op : Unit → Op}
    (g : BitVec N → BitVec N) {k : BitVec N → Flags → Flags}
    (hs : ∀ m v m' r, spec m (op v) m' r ↔ m' = g m ∧ r = .val m') : Fn.Implements {
    block := {
      prog := [.label 1, mov N 0 2, unary N g k 2, cmpxchg N 0 2 1, jne 0 1 false]
      opnds := [(0, .inout), (1, .input), (2, .outEarly)]
      fixed := [(0, 0)]
      differ := [(0, 1)]
      addr := [1]
      results := [2] }
    args := fun _ _ => True
    ret := fun _ r => .val ((r 2).setWidth N) : Fn R N Unit (Integral.Ret N) } spec op := by
  intro a
  have hn := put_low h
  have hm := low_mid (R := R) (Nat.le_refl N) h
  asm_cas [hs, hn, hm] [1] 10

/-- A locked instruction with an operand. -/
theorem opaque2_shape {Op : Type} {spec : SeqSpec (BitVec N) Op (Integral.Ret N)} {op : BitVec N → Op}
    (f : BitVec N → BitVec N → BitVec N) {c : BitVec N → BitVec N → Bool}
    (hs : ∀ m v m' r, spec m (op v) m' r ↔ m' = f m v ∧ r = .unit) : Fn.Implements {
    block := {
      prog := [lock2 f c 1 0]
      opnds := [(0, .input), (1, .input)]
      addr := [0]
      results := [] }
    args := fun a x => (x 1).setWidth N = a
    ret := fun _ _ => .unit : Fn R N (BitVec N) (Integral.Ret N) } spec op := by
  intro a
  asm_exec [hs] [0] [0, 1] [] 1

/-- A locked instruction without an operand. -/
theorem opaque1_shape {Op : Type} {spec : SeqSpec (BitVec N) Op (Integral.Ret N)} {op : Unit → Op}
    (f : BitVec N → BitVec N) {k : BitVec N → Flags → Flags}
    (hs : ∀ m v m' r, spec m (op v) m' r ↔ m' = f m ∧ r = .unit) : Fn.Implements {
    block := {
      prog := [lock1 f k 0]
      opnds := [(0, .input)]
      addr := [0]
      results := [] }
    args := fun _ _ => True
    ret := fun _ _ => .unit : Fn R N Unit (Integral.Ret N) } spec op := by
  intro a
  asm_exec [hs] [0] [0] [] 1

/-- A locked instruction with an operand, and a test of the result. -/
theorem test2_shape (h8 : 8 ≤ R) {Op : Type} {spec : SeqSpec (BitVec N) Op (Integral.Ret N)} {op : BitVec N → Op}
    (f : BitVec N → BitVec N → BitVec N) {c : BitVec N → BitVec N → Bool}
    (hs : ∀ m v m' r, spec m (op v) m' r ↔ m' = f m v ∧ r = .flag (decide (m' ≠ 0))) : Fn.Implements {
    block := {
      prog := [lock2 f c 2 0, setnz 1]
      opnds := [(0, .input), (1, .out), (2, .input)]
      addr := [0]
      results := [1] }
    args := fun a x => (x 2).setWidth N = a
    ret := fun _ r => bool8 (r 1) .flag : Fn R N (BitVec N) (Integral.Ret N) } spec op := by
  intro a
  have hb0 : ∀ k : Bool → Integral.Ret N, bool8 (0#R) k = k false := by simpa using fun k => bool8_zero (N := N) h8 k
  have hb1 := fun k => bool8_one (N := N) h8 k
  refine correct_of [0] (fun _ x r => ∀ s ∈ [0, 2], r s = x s) [] 2 (by kernel_rfl) (by kernel_rfl) (by kernel_rfl)
      (fun _ _ _ => rfl) (by rfl) (by simp) (by simp +contextual) (by asm_loads []) ?_ ?_
  · intro base x h0 hx ha pc hpc reg fl link seen hk
    simp only [List.mem_cons, List.not_mem_nil, or_false, forall_eq, forall_eq_or_imp] at hpc hk hx ha
    subst hpc
    simp [wp, insWp, asm, rd, wr, After, Last, upd, hk, ha, hx, hs]
    intro m
    by_cases hm : f m a = 0#N <;> simp [hm, hb0, hb1, hs]
  · intro base x h0 hx ha fl link m junk hl
    simp only [List.mem_cons, List.not_mem_nil, or_false, forall_eq, forall_eq_or_imp] at hx ha
    simp [asm, rd, wr, upd, entry, Link.after, hx, ha]

/-- A locked instruction without an operand, and a test of the result. -/
theorem test1_shape (h8 : 8 ≤ R) {Op : Type} {spec : SeqSpec (BitVec N) Op (Integral.Ret N)} {op : Unit → Op}
    (f : BitVec N → BitVec N) {k : BitVec N → Flags → Flags} (hz : ∀ m fl, (k m fl).z = (f m == 0#N))
    (hs : ∀ m v m' r, spec m (op v) m' r ↔ m' = f m ∧ r = .flag (decide (m' ≠ 0))) : Fn.Implements {
    block := {
      prog := [lock1 f k 0, setnz 1]
      opnds := [(0, .input), (1, .out)]
      addr := [0]
      results := [1] }
    args := fun _ _ => True
    ret := fun _ r => bool8 (r 1) .flag : Fn R N Unit (Integral.Ret N) } spec op := by
  intro a
  have hb0 : ∀ k : Bool → Integral.Ret N, bool8 (0#R) k = k false := by simpa using fun k => bool8_zero (N := N) h8 k
  have hb1 := fun k => bool8_one (N := N) h8 k
  refine correct_of [0] (fun _ x r => ∀ s ∈ [0], r s = x s) [] 2 (by kernel_rfl) (by kernel_rfl) (by kernel_rfl)
      (fun _ _ _ => rfl) (by rfl) (by simp) (by simp +contextual) (by asm_loads []) ?_ ?_
  · intro base x h0 hx ha pc hpc reg fl link seen hk
    simp only [List.mem_cons, List.not_mem_nil, or_false, forall_eq, forall_eq_or_imp] at hpc hk hx ha
    subst hpc
    simp [wp, insWp, asm, rd, wr, After, Last, upd, hk, ha, hx, hs, hz]
    intro m
    by_cases hm : f m = 0#N <;> simp [hm, hb0, hb1, hs]
  · intro base x h0 hx ha fl link m junk hl
    simp only [List.mem_cons, List.not_mem_nil, or_false, forall_eq, forall_eq_or_imp] at hx ha
    simp [asm, rd, wr, upd, entry, Link.after, hx, ha]

theorem bit_toNat (b : Fin N) : (BitVec.ofNat N b.val).toNat = b.val := by
  have : b.val < 2 ^ N := Nat.lt_trans b.isLt Nat.lt_two_pow_self
  simp [Nat.mod_eq_of_lt this]

/-- A locked bit instruction. -/
theorem bit_shape (h8 : 8 ≤ R) {Op : Type} {spec : SeqSpec (BitVec N) Op (Integral.Ret N)} {op : Fin N → Op}
    (f : BitVec N → BitVec N → BitVec N) (hs : ∀ m (b : Fin N), spec m (op b) (f m (1#N <<< b.val)) (.flag (m.getLsbD b))) : Fn.Implements {
    block := {
      prog := [bitop f 2 0, setc 1]
      opnds := [(0, .input), (1, .out), (2, .input)]
      addr := [0]
      results := [1] }
    args := fun a x => (x 2).setWidth N = BitVec.ofNat N a
    ret := fun _ r => bool8 (r 1) .flag : Fn R N (Fin N) (Integral.Ret N) } spec op := by
  intro a
  have hlt := a.isLt
  have hb0 : ∀ k : Bool → Integral.Ret N, bool8 (0#R) k = k false := by simpa using fun k => bool8_zero (N := N) h8 k
  have hb1 := fun k => bool8_one (N := N) h8 k
  refine correct_of [0] (fun _ x r => ∀ s ∈ [0, 2], r s = x s) [] 2 (by kernel_rfl) (by kernel_rfl) (by kernel_rfl)
      (fun _ _ _ => rfl) (by rfl) (by simp) (by simp +contextual) (by asm_loads []) ?_ ?_
  · intro base x h0 hx ha pc hpc reg fl link seen hk
    simp only [List.mem_cons, List.not_mem_nil, or_false, forall_eq, forall_eq_or_imp] at hpc hk hx ha
    subst hpc
    have hz : (x 2).toNat % 2 ^ N = a.val := by rw [← BitVec.toNat_setWidth, hx]; exact bit_toNat a
    simp [wp, insWp, asm, rd, wr, After, Last, upd, hk, ha, hx, hz, hlt]
    intro m
    have hs := hs m a
    rw [BitVec.getLsbD_eq_getElem a.isLt] at hs
    cases hm : m[a.val] <;> (rw [hm] at hs; simpa [hm, hb0, hb1] using hs)
  · intro base x h0 hx ha fl link m junk hl
    simp only [List.mem_cons, List.not_mem_nil, or_false, forall_eq, forall_eq_or_imp] at hx ha
    have hz : (x 2).toNat % 2 ^ N = a.val := by rw [← BitVec.toNat_setWidth, hx]; exact bit_toNat a
    simp [asm, rd, wr, upd, entry, Link.after, hx, ha, hz, hlt]

end Verif.Asm.X86

namespace Verif.Asm

variable {R N : Nat}

/-- Subtraction by addition of `-v`. -/
theorem Code.Does.minus {c : Code R N (Integral.Ret N)} {v : BitVec N} (h : c.Does (.fetchAdd (-v))) :
    c.Does (.fetchSub v) :=
  (h.map (g := id) fun _ _ _ hs => ⟨by rw [hs.1, BitVec.sub_eq_add_neg], hs.2⟩)

end Verif.Asm
