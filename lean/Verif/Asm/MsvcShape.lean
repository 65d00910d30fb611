import Verif.Asm.X86Shape
import Verif.Asm.IsaMsvc

/-
The shapes of the `__asm` blocks, for objects of up to 32 bits.
-/

set_option linter.unusedSimpArgs false
set_option linter.unusedVariables false

namespace Verif.Asm.X86

variable {N : Nat}

theorem put_whole (r v : BitVec 32) : put r v = v := by simp [put]

set_option hygiene false in
/-- As `asm_inv` for the `__asm` blocks: splits on whether the object has the value in the accumulator. -/
macro "asm_msvc" "[" fs:Lean.Parser.Tactic.simpLemma,* "]" cuts:term:max inv:term:max n:num : tactic => `(tactic|
  (refine correct_of $cuts $inv [] $n (by kernel_rfl) (by kernel_rfl) (by kernel_rfl)
      (fun x => by simp) (by rfl) (by simp [$fs,*]) (by simp +contextual [$fs,*]) (by asm_loads [$fs,*]) ?_ ?_
   · intro base x h0 hx ha pc hpc reg fl link seen hk
     simp only [List.mem_cons, List.not_mem_nil, or_false, forall_eq, forall_eq_or_imp, $fs,*] at hpc hk hx ha
     (try rcases hpc with rfl | rfl) <;> (try subst hpc)
     all_goals try simp at hk
     all_goals simp [wp, insWp, asm, rd, wr, After, Last, upd, hk, ha, hx, Integral.spec, put_whole, $fs,*]
     all_goals try
      (intro m
       by_cases hm : (reg 40).setWidth N = m <;> simp_all
       all_goals try exact fun h => hm h.symm)
   · intro base x h0 hx ha fl link m junk hl
     simp only [List.mem_cons, List.not_mem_nil, or_false, forall_eq, forall_eq_or_imp, $fs,*] at hx ha
     simp [asm, rd, wr, upd, entry, Link.after, hx, ha, put_whole, $fs,*]))

/-- The loops that compute the new value from the old one and `v`, and return the old one. -/
theorem msvc_fetch2 (h : N ≤ 32) {Op : Type}
    {spec : SeqSpec (BitVec N) Op (Integral.Ret N)} {op : BitVec N → Op} (g : BitVec N → BitVec N → BitVec N)
    (hs : ∀ m v m' r, spec m (op v) m' r ↔ m' = g m v ∧ r = .val m) : Fn.Implements {
    block := {
      prog := [movw 32 0 47, movz N 1 41, xor 32 42 42, ldz 47 40, .label 1, movw N 40 42, logic N g 41 42,
        cmpxchg N 40 42 47, jne 4 1 false, movw N 40 1]
      opnds := [(0, .input), (1, .inoutEarly), (40, .outEarly), (41, .outEarly), (42, .outEarly), (47, .outEarly)]
      fixed := [(40, 0), (41, 1), (42, 2), (47, 7)]
      addr := [0]
      results := [1] }
    args := fun a x => (x 1).setWidth N = a
    ret := fun _ r => .val ((r 1).setWidth N) : Fn 32 N (BitVec N) (Integral.Ret N) } spec op := by
  intro a
  have hn := put_low h
  have hw := narrow h
  asm_msvc [hs, hn, hw] [0, 4] (fun pc x r => if pc = 0 then r 0 = x 0 ∧ r 1 = x 1 else
    r 47 = x 0 ∧ (r 41).setWidth N = (x 1).setWidth N) 20

/-- The same loops, returning the new value. -/
theorem msvc_new2 (h : N ≤ 32) {Op : Type}
    {spec : SeqSpec (BitVec N) Op (Integral.Ret N)} {op : BitVec N → Op} (g : BitVec N → BitVec N → BitVec N)
    (hs : ∀ m v m' r, spec m (op v) m' r ↔ m' = g m v ∧ r = .val m') : Fn.Implements {
    block := {
      prog := [movw 32 0 47, movz N 1 41, xor 32 42 42, ldz 47 40, .label 1, movw N 40 42, logic N g 41 42,
        cmpxchg N 40 42 47, jne 4 1 false, movw N 42 1]
      opnds := [(0, .input), (1, .inoutEarly), (40, .outEarly), (41, .outEarly), (42, .outEarly), (47, .outEarly)]
      fixed := [(40, 0), (41, 1), (42, 2), (47, 7)]
      addr := [0]
      results := [1] }
    args := fun a x => (x 1).setWidth N = a
    ret := fun _ r => .val ((r 1).setWidth N) : Fn 32 N (BitVec N) (Integral.Ret N) } spec op := by
  intro a
  have hn := put_low h
  have hw := narrow h
  asm_msvc [hs, hn, hw] [0, 4] (fun pc x r => if pc = 0 then r 0 = x 0 ∧ r 1 = x 1 else
    r 47 = x 0 ∧ (r 41).setWidth N = (x 1).setWidth N) 20

/-- `fetch_add`. -/
theorem msvc_xadd (h : N ≤ 32) : Fn.Implements {
    block := {
      prog := [movw 32 0 42, movz N 1 40, xadd N 40 42, movw N 40 1]
      opnds := [(0, .input), (1, .inoutEarly), (40, .outEarly), (42, .outEarly)]
      fixed := [(40, 0), (42, 2)]
      addr := [0]
      results := [1] }
    args := fun a x => (x 1).setWidth N = a
    ret := fun _ r => .val ((r 1).setWidth N) : Fn 32 N (BitVec N) (Integral.Ret N) } Integral.spec .fetchAdd := by
  intro a
  have hn := put_low h
  have hw := narrow h
  asm_msvc [hn, hw] [0] (fun _ x r => r 0 = x 0 ∧ r 1 = x 1) 4

/-- `exchange`. -/
theorem msvc_xchg (h : N ≤ 32) : Fn.Implements {
    block := {
      prog := [movw 32 0 42, movz N 1 40, xchg N 40 42, movw N 40 1]
      opnds := [(0, .input), (1, .inoutEarly), (40, .outEarly), (42, .outEarly)]
      fixed := [(40, 0), (42, 2)]
      addr := [0]
      results := [1] }
    args := fun a x => (x 1).setWidth N = a
    ret := fun _ r => .val ((r 1).setWidth N) : Fn 32 N (BitVec N) (Integral.Ret N) } Integral.spec .exchange := by
  intro a
  have hn := put_low h
  have hw := narrow h
  asm_msvc [hn, hw] [0] (fun _ x r => r 0 = x 0 ∧ r 1 = x 1) 4

/-- `compare_exchange_strong`. -/
theorem msvc_cas (h : N ≤ 32) : Fn.Implements {
    block := {
      prog := [.havoc [46], movw 32 0 47, movz N 1 40, movz N 2 42, cmpxchg N 40 42 47, movw N 40 1, sete 3]
      opnds := [(0, .input), (1, .inoutEarly), (2, .input), (3, .outEarly), (40, .outEarly), (42, .outEarly),
        (46, .outEarly), (47, .outEarly)]
      fixed := [(40, 0), (42, 2), (46, 6), (47, 7)]
      addr := [0]
      results := [1, 3] }
    args := fun a x => (x 1).setWidth N = a.1 ∧ (x 2).setWidth N = a.2
    ret := fun _ r => bool8 (r 3) (.cas · ((r 1).setWidth N)) :
      Fn 32 N (BitVec N × BitVec N) (Integral.Ret N) } Integral.spec fun a => .casStrong a.1 a.2 := by
  rintro ⟨e, d⟩
  have hn := put_low h
  have hw := narrow h
  have hb0 := fun k => bool8_zero (N := N) (R := 32) (by decide) k
  have hb1 := fun k => bool8_one (N := N) (R := 32) (by decide) k
  refine correct_of [0] (fun _ x r => r 0 = x 0 ∧ r 1 = x 1 ∧ r 2 = x 2) [] 7 (by kernel_rfl) (by kernel_rfl) (by kernel_rfl)
      (fun x => by simp) (by rfl) (by simp) (by simp +contextual) (by asm_loads []) ?_ ?_
  · intro base x h0 hx ha pc hpc reg fl link seen hk
    simp only [List.mem_cons, List.not_mem_nil, or_false, forall_eq, forall_eq_or_imp] at hpc hk hx ha
    subst hpc
    simp [wp, insWp, asm, rd, wr, After, Last, upd, hk, ha, hx, Integral.spec, put_whole, hn, hw]
    intro m
    by_cases hm : e = m <;> simp_all [Ne.symm]
    all_goals try exact fun h => hm h.symm
  · intro base x h0 hx ha fl link m junk hl
    simp only [List.mem_cons, List.not_mem_nil, or_false, forall_eq, forall_eq_or_imp] at hx ha
    by_cases hm : e = m.val <;> simp [asm, rd, wr, upd, entry, Link.after, hx, ha, put_whole, hm, hw]

/-- The loops that compute the new value from the old one only, and return the old one. -/
theorem msvc_fetch1 (h : N ≤ 32) {Op : Type} {spec : SeqSpec (BitVec N) Op (Integral.Ret N)} {op : Unit → Op}
    (g : BitVec N → BitVec N) {k : BitVec N → Flags → Flags}
    (hs : ∀ m v m' r, spec m (op v) m' r ↔ m' = g m ∧ r = .val m) : Fn.Implements {
    block := {
      prog := [movw 32 0 41, ldz 41 40, .label 1, movw 32 40 42, unary N g k 42, cmpxchg N 40 42 41, jne 2 1 false,
        movw N 40 3]
      opnds := [(0, .input), (3, .outEarly), (40, .outEarly), (41, .outEarly), (42, .outEarly)]
      fixed := [(40, 0), (41, 1), (42, 2)]
      addr := [0]
      results := [3] }
    args := fun _ _ => True
    ret := fun _ r => .val ((r 3).setWidth N) : Fn 32 N Unit (Integral.Ret N) } spec op := by
  intro a
  have hn := put_low h
  have hw := narrow h
  asm_msvc [hs, hn, hw] [0, 2] (fun pc x r => if pc = 0 then r 0 = x 0 else r 41 = x 0) 20

/-- The same loops, returning the new value. -/
theorem msvc_new1 (h : N ≤ 32) {Op : Type} {spec : SeqSpec (BitVec N) Op (Integral.Ret N)} {op : Unit → Op}
    (g : BitVec N → BitVec N) {k : BitVec N → Flags → Flags}
    (hs : ∀ m v m' r, spec m (op v) m' r ↔ m' = g m ∧ r = .val m') : Fn.Implements {
    block := {
      prog := [movw 32 0 41, ldz 41 40, .label 1, movw 32 40 42, unary N g k 42, cmpxchg N 40 42 41, jne 2 1 false,
        movw N 42 3]
      opnds := [(0, .input), (3, .outEarly), (40, .outEarly), (41, .outEarly), (42, .outEarly)]
      fixed := [(40, 0), (41, 1), (42, 2)]
      addr := [0]
      results := [3] }
    args := fun _ _ => True
    ret := fun _ r => .val ((r 3).setWidth N) : Fn 32 N Unit (Integral.Ret N) } spec op := by
  intro a
  have hn := put_low h
  have hw := narrow h
  asm_msvc [hs, hn, hw] [0, 2] (fun pc x r => if pc = 0 then r 0 = x 0 else r 41 = x 0) 20

/-- The same loops, without a result. -/
theorem msvc_opaque1 (h : N ≤ 32) {Op : Type} {spec : SeqSpec (BitVec N) Op (Integral.Ret N)} {op : Unit → Op}
    (g : BitVec N → BitVec N) {k : BitVec N → Flags → Flags}
    (hs : ∀ m v m' r, spec m (op v) m' r ↔ m' = g m ∧ r = .unit) : Fn.Implements {
    block := {
      prog := [movw 32 0 41, ldz 41 40, .label 1, movw 32 40 42, unary N g k 42, cmpxchg N 40 42 41, jne 2 1 false]
      opnds := [(0, .input), (40, .outEarly), (41, .outEarly), (42, .outEarly)]
      fixed := [(40, 0), (41, 1), (42, 2)]
      addr := [0]
      results := [] }
    args := fun _ _ => True
    ret := fun _ _ => .unit : Fn 32 N Unit (Integral.Ret N) } spec op := by
  intro a
  have hn := put_low h
  have hw := narrow h
  asm_msvc [hs, hn, hw] [0, 2] (fun pc x r => if pc = 0 then r 0 = x 0 else r 41 = x 0) 20

/-- The same loops, testing the new value. -/
theorem msvc_test1 (h : N ≤ 32) {Op : Type} {spec : SeqSpec (BitVec N) Op (Integral.Ret N)} {op : Unit → Op}
    (g : BitVec N → BitVec N) {k : BitVec N → Flags → Flags}
    (hs : ∀ m v m' r, spec m (op v) m' r ↔ m' = g m ∧ r = .flag (decide (m' ≠ 0))) : Fn.Implements {
    block := {
      prog := [movw 32 0 41, ldz 41 40, .label 1, movw 32 40 42, unary N g k 42, cmpxchg N 40 42 41, jne 2 1 false,
        testr N 42 42, setnz 3]
      opnds := [(0, .input), (3, .outEarly), (40, .outEarly), (41, .outEarly), (42, .outEarly)]
      fixed := [(40, 0), (41, 1), (42, 2)]
      addr := [0]
      results := [3] }
    args := fun _ _ => True
    ret := fun _ r => bool8 (r 3) .flag : Fn 32 N Unit (Integral.Ret N) } spec op := by
  intro a
  have hn := put_low h
  have hw := narrow h
  have hb0 : ∀ k : Bool → Integral.Ret N, bool8 (0#32) k = k false := by simpa using fun k => bool8_zero (N := N) (R := 32) (by decide) k
  have hb1 : ∀ k : Bool → Integral.Ret N, bool8 (1#32) k = k true := by simpa using fun k => bool8_one (N := N) (R := 32) (by decide) k
  refine correct_of [0, 2] (fun pc x r => if pc = 0 then r 0 = x 0 else r 41 = x 0) [] 20 (by kernel_rfl) (by kernel_rfl)
      (by kernel_rfl) (fun x => by simp) (by rfl) (by simp) (by simp +contextual) (by asm_loads []) ?_ ?_
  · intro base x h0 hx ha pc hpc reg fl link seen hk
    simp only [List.mem_cons, List.not_mem_nil, or_false, forall_eq, forall_eq_or_imp] at hpc hk hx ha
    rcases hpc with rfl | rfl
    all_goals simp at hk
    all_goals simp [wp, insWp, asm, rd, wr, After, Last, upd, hk, ha, hx, put_whole, hn, hw]
    intro m
    by_cases hm : (reg 40).setWidth N = m
    · by_cases hz : g m = 0#N <;> simp_all
    · simp_all
  · intro base x h0 hx ha fl link m junk hl
    simp only [List.mem_cons, List.not_mem_nil, or_false, forall_eq, forall_eq_or_imp] at hx ha
    simp [asm, rd, wr, upd, entry, Link.after, hx, ha, put_whole, hn, hw]

/-- A locked instruction with an operand. -/
theorem msvc_opaque2 (h : N ≤ 32) {Op : Type} {spec : SeqSpec (BitVec N) Op (Integral.Ret N)} {op : BitVec N → Op}
    (f : BitVec N → BitVec N → BitVec N) {c : BitVec N → BitVec N → Bool}
    (hs : ∀ m v m' r, spec m (op v) m' r ↔ m' = f m v ∧ r = .unit) : Fn.Implements {
    block := {
      prog := [movw 32 0 42, movz N 1 40, lock2 f c 40 42]
      opnds := [(0, .input), (1, .input), (40, .outEarly), (42, .outEarly)]
      fixed := [(40, 0), (42, 2)]
      addr := [0]
      results := [] }
    args := fun a x => (x 1).setWidth N = a
    ret := fun _ _ => .unit : Fn 32 N (BitVec N) (Integral.Ret N) } spec op := by
  intro a
  have hw := narrow h
  asm_msvc [hs, hw] [0] (fun _ x r => r 0 = x 0 ∧ r 1 = x 1) 3

/-- A locked instruction without an operand. -/
theorem msvc_lock1 {Op : Type} {spec : SeqSpec (BitVec N) Op (Integral.Ret N)} {op : Unit → Op}
    (f : BitVec N → BitVec N) {k : BitVec N → Flags → Flags}
    (hs : ∀ m v m' r, spec m (op v) m' r ↔ m' = f m ∧ r = .unit) : Fn.Implements {
    block := {
      prog := [movw 32 0 42, lock1 f k 42]
      opnds := [(0, .input), (42, .outEarly)]
      fixed := [(42, 2)]
      addr := [0]
      results := [] }
    args := fun _ _ => True
    ret := fun _ _ => .unit : Fn 32 N Unit (Integral.Ret N) } spec op := by
  intro a
  asm_msvc [hs] [0] (fun _ x r => r 0 = x 0) 2

/-- A locked instruction with an operand, and a test of the result. -/
theorem msvc_test2 (h : N ≤ 32) {Op : Type} {spec : SeqSpec (BitVec N) Op (Integral.Ret N)} {op : BitVec N → Op}
    (f : BitVec N → BitVec N → BitVec N) {c : BitVec N → BitVec N → Bool}
    (hs : ∀ m v m' r, spec m (op v) m' r ↔ m' = f m v ∧ r = .flag (decide (m' ≠ 0))) : Fn.Implements {
    block := {
      prog := [movw 32 0 42, movz N 1 40, lock2 f c 40 42, setnz 3]
      opnds := [(0, .input), (1, .input), (3, .outEarly), (40, .outEarly), (42, .outEarly)]
      fixed := [(40, 0), (42, 2)]
      addr := [0]
      results := [3] }
    args := fun a x => (x 1).setWidth N = a
    ret := fun _ r => bool8 (r 3) .flag : Fn 32 N (BitVec N) (Integral.Ret N) } spec op := by
  intro a
  have hw := narrow h
  have hb0 : ∀ k : Bool → Integral.Ret N, bool8 (0#32) k = k false := by simpa using fun k => bool8_zero (N := N) (R := 32) (by decide) k
  have hb1 : ∀ k : Bool → Integral.Ret N, bool8 (1#32) k = k true := by simpa using fun k => bool8_one (N := N) (R := 32) (by decide) k
  refine correct_of [0] (fun _ x r => r 0 = x 0 ∧ r 1 = x 1) [] 4 (by kernel_rfl) (by kernel_rfl) (by kernel_rfl)
      (fun x => by simp) (by rfl) (by simp) (by simp +contextual) (by asm_loads []) ?_ ?_
  · intro base x h0 hx ha pc hpc reg fl link seen hk
    simp only [List.mem_cons, List.not_mem_nil, or_false, forall_eq, forall_eq_or_imp] at hpc hk hx ha
    subst hpc
    simp [wp, insWp, asm, rd, wr, After, Last, upd, hk, ha, hx, hs, put_whole, hw]
    intro m
    by_cases hm : f m a = 0#N <;> simp [hm, hb0, hb1, hs]
  · intro base x h0 hx ha fl link m junk hl
    simp only [List.mem_cons, List.not_mem_nil, or_false, forall_eq, forall_eq_or_imp] at hx ha
    simp [asm, rd, wr, upd, entry, Link.after, hx, ha, put_whole]

/-- A locked bit instruction. -/
theorem msvc_bit (h : N ≤ 32) {Op : Type} {spec : SeqSpec (BitVec N) Op (Integral.Ret N)} {op : Fin N → Op}
    (f : BitVec N → BitVec N → BitVec N)
    (hs : ∀ m (b : Fin N), spec m (op b) (f m (1#N <<< b.val)) (.flag (m.getLsbD b))) : Fn.Implements {
    block := {
      prog := [movw 32 0 42, movw 32 1 40, bitop f 40 42, setc 3]
      opnds := [(0, .input), (1, .input), (3, .outEarly), (40, .outEarly), (42, .outEarly)]
      fixed := [(40, 0), (42, 2)]
      addr := [0]
      results := [3] }
    args := fun a x => x 1 = BitVec.ofNat 32 a
    ret := fun _ r => bool8 (r 3) .flag : Fn 32 N (Fin N) (Integral.Ret N) } spec op := by
  intro a
  have hlt := a.isLt
  have hb0 : ∀ k : Bool → Integral.Ret N, bool8 (0#32) k = k false := by simpa using fun k => bool8_zero (N := N) (R := 32) (by decide) k
  have hb1 : ∀ k : Bool → Integral.Ret N, bool8 (1#32) k = k true := by simpa using fun k => bool8_one (N := N) (R := 32) (by decide) k
  have hz : a.val % 4294967296 % 2 ^ N = a.val := by
    rw [Nat.mod_eq_of_lt (a := a.val) (b := 4294967296) (by omega), Nat.mod_eq_of_lt (Nat.lt_trans a.isLt Nat.lt_two_pow_self)]
  refine correct_of [0] (fun _ x r => r 0 = x 0 ∧ r 1 = x 1) [] 4 (by kernel_rfl) (by kernel_rfl) (by kernel_rfl)
      (fun x => by simp) (by rfl) (by simp) (by simp +contextual) (by asm_loads []) ?_ ?_
  · intro base x h0 hx ha pc hpc reg fl link seen hk
    simp only [List.mem_cons, List.not_mem_nil, or_false, forall_eq, forall_eq_or_imp] at hpc hk hx ha
    subst hpc
    simp [wp, insWp, asm, rd, wr, After, Last, upd, hk, ha, hx, put_whole, hz, hlt]
    intro m
    have hs := hs m a
    rw [BitVec.getLsbD_eq_getElem a.isLt] at hs
    cases hm : m[a.val] <;> (rw [hm] at hs; simpa [hm, hb0, hb1] using hs)
  · intro base x h0 hx ha fl link m junk hl
    simp only [List.mem_cons, List.not_mem_nil, or_false, forall_eq, forall_eq_or_imp] at hx ha
    simp [asm, rd, wr, upd, entry, Link.after, hx, ha, put_whole, hz, hlt]

end Verif.Asm.X86
