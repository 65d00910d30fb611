import Verif.Asm.Word
import Verif.Asm.IsaPpc
import Verif.Asm.Assume

/-
The shapes of the blocks of the PowerPC back end, for all sizes of objects and of registers.
-/

set_option linter.unusedSimpArgs false
set_option linter.unusedVariables false

namespace Verif.Asm.Ppc

variable {R N : Nat}

theorem narrow (h : N ≤ R) (v : BitVec N) : (v.setWidth R).setWidth N = v := by
  rw [BitVec.setWidth_setWidth_of_le _ h]; simp

theorem load_shape (h : N ≤ R) : Fn.Implements {
    block := {
      prog := [ld 0 1]
      opnds := [(0, .outEarly), (1, .input)]
      addr := [1]
      results := [0] }
    args := fun _ _ => True
    ret := fun _ r => .val ((r 0).setWidth N) : Fn R N Unit (Integral.Ret N) } Integral.spec fun _ => .load := by
  intro a
  have hn := narrow h
  asm_exec [hn] [0] [1] [] 1

/-- A load followed by a branch that depends on the value, and `isync`. -/
theorem load_acquire_shape (h : N ≤ R) {cmp : BitVec R → BitVec R → Bool} (hc : ∀ x, cmp x x = true) : Fn.Implements {
    block := {
      prog := [ld 0 1, .comp [0, 0] [] fun v fl => ([], ⟨cmp (v0 v) (v1 v), fl.c⟩), bne 3 1 true 4, .label 1, isync]
      opnds := [(0, .outEarly), (1, .input)]
      addr := [1]
      results := [0] }
    args := fun _ _ => True
    ret := fun _ r => .val ((r 0).setWidth N) : Fn R N Unit (Integral.Ret N) } Integral.spec fun _ => .load := by
  intro a
  have hn := narrow h
  asm_exec [hn, hc] [0] [1] [] 5

theorem store_shape : Fn.Implements {
    block := {
      prog := [st 1 0]
      opnds := [(0, .input), (1, .input)]
      addr := [0]
      results := [] }
    args := fun a x => (x 1).setWidth N = a
    ret := fun _ _ => .unit : Fn R N (BitVec N) (Integral.Ret N) } Integral.spec .store := by
  intro a
  asm_exec [] [0] [0, 1] [] 1

theorem exchange_shape (h : N ≤ R) : Fn.Implements {
    block := {
      prog := [.label 1, larx 0 1, stcx 2 1, bne 0 1 false (-8)]
      opnds := [(0, .outEarly), (1, .input), (2, .input)]
      addr := [1]
      results := [0] }
    args := fun a x => (x 2).setWidth N = a
    ret := fun _ r => .val ((r 0).setWidth N) : Fn R N (BitVec N) (Integral.Ret N) } Integral.spec .exchange := by
  intro a
  have hn := narrow h
  asm_exec [hn] [0] [1, 2] [] 4

/-- Operations with an argument; `k = 0`: the old value is returned, `k = 1`: the new one. -/
theorem fetch2_shape (h : N ≤ R) {f : BitVec R → BitVec R → BitVec R} {Op : Type}
    {spec : SeqSpec (BitVec N) Op (Integral.Ret N)} {op : BitVec N → Op} (g : BitVec N → BitVec N → BitVec N)
    (hs : ∀ m v m' r, spec m (op v) m' r ↔ m' = g m v ∧ r = .val m)
    (hf : ∀ x y, (f x y).setWidth N = g (x.setWidth N) (y.setWidth N)) : Fn.Implements {
    block := {
      prog := [.label 1, larx 0 2, op2 1 0 3 f, stcx 1 2, bne 0 1 false (-12)]
      opnds := [(0, .outEarly), (1, .outEarly), (2, .input), (3, .input)]
      addr := [2]
      results := [0] }
    args := fun a x => (x 3).setWidth N = a
    ret := fun _ r => .val ((r 0).setWidth N) : Fn R N (BitVec N) (Integral.Ret N) } spec op := by
  intro a
  have hn := narrow h
  asm_exec [hs, hf, hn] [0] [2, 3] [] 5

theorem new2_shape (h : N ≤ R) {f : BitVec R → BitVec R → BitVec R} {Op : Type}
    {spec : SeqSpec (BitVec N) Op (Integral.Ret N)} {op : BitVec N → Op} (g : BitVec N → BitVec N → BitVec N)
    (hs : ∀ m v m' r, spec m (op v) m' r ↔ m' = g m v ∧ r = .val m')
    (hf : ∀ x y, (f x y).setWidth N = g (x.setWidth N) (y.setWidth N)) : Fn.Implements {
    block := {
      prog := [.label 1, larx 0 2, op2 1 0 3 f, stcx 1 2, bne 0 1 false (-12)]
      opnds := [(0, .outEarly), (1, .outEarly), (2, .input), (3, .input)]
      addr := [2]
      results := [1] }
    args := fun a x => (x 3).setWidth N = a
    ret := fun _ r => .val ((r 1).setWidth N) : Fn R N (BitVec N) (Integral.Ret N) } spec op := by
  intro a
  have hn := narrow h
  asm_exec [hs, hf, hn] [0] [2, 3] [] 5

/-- Operations without argument, computed by an instruction that reads `rs`. -/
theorem fetch1_shape (h : N ≤ R) {f : BitVec R → BitVec R} {Op : Type}
    {spec : SeqSpec (BitVec N) Op (Integral.Ret N)} {op : Op} (g : BitVec N → BitVec N)
    (hs : ∀ m m' r, spec m op m' r ↔ m' = g m ∧ r = .val m)
    (hf : ∀ x, (f x).setWidth N = g (x.setWidth N)) : Fn.Implements {
    block := {
      prog := [.label 1, larx 0 2, op1 1 0 f, stcx 1 2, bne 0 1 false (-12)]
      opnds := [(0, .outEarly), (1, .outEarly), (2, .input)]
      addr := [2]
      results := [0] }
    args := fun _ _ => True
    ret := fun _ r => .val ((r 0).setWidth N) : Fn R N Unit (Integral.Ret N) } spec fun _ => op := by
  intro a
  have hn := narrow h
  asm_exec [hs, hf, hn] [0] [2] [] 5

theorem new1_shape (h : N ≤ R) {f : BitVec R → BitVec R} {Op : Type}
    {spec : SeqSpec (BitVec N) Op (Integral.Ret N)} {op : Op} (g : BitVec N → BitVec N)
    (hs : ∀ m m' r, spec m op m' r ↔ m' = g m ∧ r = .val m')
    (hf : ∀ x, (f x).setWidth N = g (x.setWidth N)) : Fn.Implements {
    block := {
      prog := [.label 1, larx 0 2, op1 1 0 f, stcx 1 2, bne 0 1 false (-12)]
      opnds := [(0, .outEarly), (1, .outEarly), (2, .input)]
      addr := [2]
      results := [1] }
    args := fun _ _ => True
    ret := fun _ r => .val ((r 1).setWidth N) : Fn R N Unit (Integral.Ret N) } spec fun _ => op := by
  intro a
  have hn := narrow h
  asm_exec [hs, hf, hn] [0] [2] [] 5

/-- The same with an instruction that reads the old value twice (`nor %1,%0,%0`). -/
theorem fetchSelf_shape (h : N ≤ R) {f : BitVec R → BitVec R → BitVec R} {Op : Type}
    {spec : SeqSpec (BitVec N) Op (Integral.Ret N)} {op : Op} (g : BitVec N → BitVec N)
    (hs : ∀ m m' r, spec m op m' r ↔ m' = g m ∧ r = .val m)
    (hf : ∀ x, (f x x).setWidth N = g (x.setWidth N)) : Fn.Implements {
    block := {
      prog := [.label 1, larx 0 2, op2 1 0 0 f, stcx 1 2, bne 0 1 false (-12)]
      opnds := [(0, .outEarly), (1, .outEarly), (2, .input)]
      addr := [2]
      results := [0] }
    args := fun _ _ => True
    ret := fun _ r => .val ((r 0).setWidth N) : Fn R N Unit (Integral.Ret N) } spec fun _ => op := by
  intro a
  have hn := narrow h
  asm_exec [hs, hf, hn] [0] [2] [] 5

theorem newSelf_shape (h : N ≤ R) {f : BitVec R → BitVec R → BitVec R} {Op : Type}
    {spec : SeqSpec (BitVec N) Op (Integral.Ret N)} {op : Op} (g : BitVec N → BitVec N)
    (hs : ∀ m m' r, spec m op m' r ↔ m' = g m ∧ r = .val m')
    (hf : ∀ x, (f x x).setWidth N = g (x.setWidth N)) : Fn.Implements {
    block := {
      prog := [.label 1, larx 0 2, op2 1 0 0 f, stcx 1 2, bne 0 1 false (-12)]
      opnds := [(0, .outEarly), (1, .outEarly), (2, .input)]
      addr := [2]
      results := [1] }
    args := fun _ _ => True
    ret := fun _ r => .val ((r 1).setWidth N) : Fn R N Unit (Integral.Ret N) } spec fun _ => op := by
  intro a
  have hn := narrow h
  asm_exec [hs, hf, hn] [0] [2] [] 5

/-- Compare-and-exchange, weak.  `P` is what is known about the operand with the expected value. -/
theorem weak_shape (h : N ≤ R) {cmp : BitVec R → BitVec R → Bool} {k : BitVec R} (hr : k.setWidth 8 = 1#8)
    (P : BitVec N → BitVec R → Prop)
    (hc : ∀ (e m : BitVec N) (y : BitVec R), P e y → cmp (m.setWidth R) y = decide (m = e)) : Fn.Implements {
    block := {
      prog := [li 1 0, larx 0 2, .comp [0, 3] [] fun v fl => ([], ⟨cmp (v0 v) (v1 v), fl.c⟩), bne 7 1 true 16,
        stcx 4 2, bne 7 1 true 8, li 1 k, .label 1]
      opnds := [(0, .outEarly), (1, .outEarly), (2, .input), (3, .input), (4, .input)]
      addr := [2]
      results := [0, 1] }
    args := fun a x => P a.1 (x 3) ∧ (x 4).setWidth N = a.2
    ret := fun _ r => bool8 (r 1) (.cas · ((r 0).setWidth N)) : Fn R N (BitVec N × BitVec N) (Integral.Ret N) }
    Integral.spec fun a => .casWeak a.1 a.2 := by
  rintro ⟨e, d⟩
  have hn := narrow h
  have hc' := hc e
  have hb : ∀ f : Bool → Integral.Ret N, bool8 k f = f true := fun f => by simp [bool8, hr]
  asm_exec [hn, hc', hb] [0] [2, 3, 4] [] 8

/-- The same if only values that equal the expected value pass the comparison. -/
theorem weak_narrow_shape (h : N ≤ R) {cmp : BitVec R → BitVec R → Bool} {k : BitVec R} (hr : k.setWidth 8 = 1#8)
    (hc : ∀ (m : BitVec N) (y : BitVec R), cmp (m.setWidth R) y = true → m = y.setWidth N) : Fn.Implements {
    block := {
      prog := [li 1 0, larx 0 2, .comp [0, 3] [] fun v fl => ([], ⟨cmp (v0 v) (v1 v), fl.c⟩), bne 7 1 true 16,
        stcx 4 2, bne 7 1 true 8, li 1 k, .label 1]
      opnds := [(0, .outEarly), (1, .outEarly), (2, .input), (3, .input), (4, .input)]
      addr := [2]
      results := [0, 1] }
    args := fun a x => (x 3).setWidth N = a.1 ∧ (x 4).setWidth N = a.2
    ret := fun _ r => bool8 (r 1) (.cas · ((r 0).setWidth N)) : Fn R N (BitVec N × BitVec N) (Integral.Ret N) }
    Integral.spec fun a => .casWeak a.1 a.2 := by
  rintro ⟨e, d⟩
  have hn := narrow h
  have hb : ∀ f : Bool → Integral.Ret N, bool8 k f = f true := fun f => by simp [bool8, hr]
  refine correct_of [0] (fun _ x r => ∀ s ∈ [2, 3, 4], r s = x s) [] 8 (by kernel_rfl) (by kernel_rfl) (by kernel_rfl)
      (fun _ _ _ => rfl) (by rfl) (by simp) (by simp +contextual) (by asm_loads []) ?_ ?_
  · intro base x h0 hx ha pc hpc reg fl link seen hk
    simp only [List.mem_cons, List.not_mem_nil, or_false, forall_eq, forall_eq_or_imp] at hpc hk hx ha
    subst hpc
    simp [wp, insWp, asm, rd, wr, After, Last, upd, hk, ha, hx, Integral.spec, hn, hb]
    simp +contextual [bool8, hx, asm_bv]
    exact fun m hm => hx.1 ▸ hc m _ hm
  · intro base x h0 hx ha fl link m junk hl
    simp only [List.mem_cons, List.not_mem_nil, or_false, forall_eq, forall_eq_or_imp] at hx ha
    simp [asm, rd, wr, upd, entry, Link.after, hx, ha, hn, hb]
    all_goals try simp +contextual

theorem strong_shape (h : N ≤ R) {cmp : BitVec R → BitVec R → Bool} {k : BitVec R} (hr : k.setWidth 8 = 1#8)
    (P : BitVec N → BitVec R → Prop)
    (hc : ∀ (e m : BitVec N) (y : BitVec R), P e y → cmp (m.setWidth R) y = decide (m = e)) : Fn.Implements {
    block := {
      prog := [li 1 0, .label 0, larx 0 2, .comp [0, 3] [] fun v fl => ([], ⟨cmp (v0 v) (v1 v), fl.c⟩), bne 8 1 true 16,
        stcx 4 2, bne 1 0 false (-16), li 1 k, .label 1]
      opnds := [(0, .outEarly), (1, .outEarly), (2, .input), (3, .input), (4, .input)]
      addr := [2]
      results := [0, 1] }
    args := fun a x => P a.1 (x 3) ∧ (x 4).setWidth N = a.2
    ret := fun _ r => bool8 (r 1) (.cas · ((r 0).setWidth N)) : Fn R N (BitVec N × BitVec N) (Integral.Ret N) }
    Integral.spec fun a => .casStrong a.1 a.2 := by
  rintro ⟨e, d⟩
  have hn := narrow h
  have hc' := hc e
  have hb : ∀ f : Bool → Integral.Ret N, bool8 k f = f true := fun f => by simp [bool8, hr]
  asm_inv [hn, hc', hb] [0, 1] (fun pc x r => r 2 = x 2 ∧ r 3 = x 3 ∧ r 4 = x 4 ∧ (pc = 1 → r 1 = 0)) [] 9

/-- Operations on narrow values in words: the result is extended before it is stored. -/
theorem word_shape (h : 32 ≤ R) {f : BitVec R → BitVec R → BitVec R} {ext : BitVec R → BitVec R} {Op A : Type}
    {spec : SeqSpec (BitVec 32) Op (Integral.Ret 32)} {op : A → Op} {enc : A → BitVec 32} (g : BitVec 32 → BitVec 32 → BitVec 32)
    (hs : ∀ a m, spec m (op a) (g m (enc a)) (.val m))
    (hf : ∀ x y, (ext (f x y)).setWidth 32 = g (x.setWidth 32) (y.setWidth 32)) : Fn.Implements {
    block := {
      prog := [.label 1, larx 0 2, op2 1 0 3 f, op1 1 1 ext, stcx 1 2, bne 0 1 false (-16)]
      opnds := [(0, .outEarly), (1, .outEarly), (2, .input), (3, .input)]
      addr := [2]
      results := [0] }
    args := fun a x => (x 3).setWidth 32 = enc a
    ret := fun _ r => .val ((r 0).setWidth 32) : Fn R 32 A (Integral.Ret 32) } spec op := by
  intro a
  have hn := narrow h
  asm_exec [hs, hf, hn] [0] [2, 3] [] 6

/-! Comparisons -/

/-- Equality found by `cmpw`. -/
def eqw (x y : BitVec R) : Bool := x.setWidth 32 == y.setWidth 32
/-- Equality found by `cmpd`. -/
def eqd (x y : BitVec R) : Bool := x == y

theorem eqw_self (x : BitVec R) : eqw x x = true := by simp [eqw]
theorem eqd_self (x : BitVec R) : eqd x x = true := by simp [eqd]

theorem eqw_32 (h : 32 ≤ R) (e m : BitVec 32) (y : BitVec R) (hx : y.setWidth 32 = e) :
    eqw (m.setWidth R) y = decide (m = e) := by
  rw [eqw, narrow h, hx]; rfl

theorem eqd_64 (e m : BitVec 64) (y : BitVec 64) (hx : y.setWidth 64 = e) :
    eqd (m.setWidth 64) y = decide (m = e) := by
  subst hx; simp [eqd]; rfl

/-- Narrow values that compare equal are. -/
theorem eqw_le (h : 32 ≤ R) (hN : N ≤ 32) (m : BitVec N) (y : BitVec R) (e : eqw (m.setWidth R) y = true) :
    m = y.setWidth N := by
  rw [eqw, BitVec.setWidth_setWidth_of_le _ h, beq_iff_eq] at e
  have := congrArg (BitVec.setWidth N) e
  rwa [BitVec.setWidth_setWidth_of_le _ hN, BitVec.setWidth_setWidth_of_le _ hN, BitVec.setWidth_eq] at this

/-- Comparison of narrow values, if the expected value is extended. -/
theorem eqw_narrow (h : 32 ≤ R) (hN : N ≤ 32) (e m : BitVec N) (y : BitVec R)
    (hx : y.setWidth N = e ∧ y.setWidth 32 = (y.setWidth N).setWidth 32) :
    eqw (m.setWidth R) y = decide (m = e) := by
  obtain ⟨rfl, hx⟩ := hx
  rw [eqw, hx, BitVec.setWidth_setWidth_of_le _ h, Bool.eq_iff_iff]
  simp [setWidth_inj _ _ hN]

/-- `li d,1` leaves a `bool`. -/
theorem li_one (h : 8 ≤ R) : (1 : BitVec R).setWidth 8 = 1#8 := by
  apply BitVec.eq_of_toNat_eq
  have : 2 ^ 8 ≤ 2 ^ R := Nat.pow_le_pow_right (by decide) h
  simp [Nat.mod_eq_of_lt (show 1 < 2 ^ R by omega)]

/-- Reordering of what is assumed about the operands. -/
theorem zext_assoc {blk : Block R N} {s : Slot} {spec : SeqSpec (BitVec N) (Integral.Op N) (Integral.Ret N)}
    {op : BitVec N × BitVec N → Integral.Op N} {p q : BitVec N × BitVec N → (Slot → BitVec R) → Prop}
    {ret : BitVec N × BitVec N → (Slot → BitVec R) → Integral.Ret N}
    (h : Fn.Implements ⟨blk, fun a x => (p a x ∧ (x s).setWidth 32 = ((x s).setWidth N).setWidth 32) ∧ q a x, ret⟩ spec op) :
    (Fn.zext ⟨blk, fun a x => p a x ∧ q a x, ret⟩ s).Implements spec op := by
  intro a
  have e : (Fn.zext ⟨blk, fun a x => p a x ∧ q a x, ret⟩ s).args a =
      fun x => (p a x ∧ (x s).setWidth 32 = ((x s).setWidth N).setWidth 32) ∧ q a x :=
    funext fun x => propext and_right_comm
  rw [e]
  exact h a

theorem setWidth_signExtend32 (h : 32 ≤ R) (x : BitVec N) : (x.signExtend R).setWidth 32 = x.signExtend 32 := by
  apply BitVec.eq_of_getLsbD_eq
  intro i hi
  simp [BitVec.getElem_signExtend, BitVec.getLsbD_signExtend, hi, show i < R by omega]

theorem low8 (x : BitVec 32) : x &&& 0xff = (x.setWidth 8).setWidth 32 := by
  apply BitVec.eq_of_toNat_eq
  simp [Nat.and_two_pow_sub_one_eq_mod x.toNat 8, Nat.mod_eq_of_lt (show x.toNat % 256 < 4294967296 by omega)]
theorem low16 (x : BitVec 32) : x &&& 0xffff = (x.setWidth 16).setWidth 32 := by
  apply BitVec.eq_of_toNat_eq
  simp [Nat.and_two_pow_sub_one_eq_mod x.toNat 16, Nat.mod_eq_of_lt (show x.toNat % 65536 < 4294967296 by omega)]

theorem zext8_add (h : 32 ≤ R) (x y : BitVec R) : ((((x + y).setWidth 32 &&& 0xff).setWidth R).setWidth 32) =
    ((x.setWidth 32 + y.setWidth 32).setWidth 8).setWidth 32 := by
  rw [narrow h, BitVec.setWidth_add _ _ h]
  exact low8 _
theorem zext8_sub (h : 32 ≤ R) (x y : BitVec R) : ((((x - y).setWidth 32 &&& 0xff).setWidth R).setWidth 32) =
    ((x.setWidth 32 - y.setWidth 32).setWidth 8).setWidth 32 := by
  rw [narrow h, setWidth_sub' _ _ h]
  exact low8 _
theorem zext16_add (h : 32 ≤ R) (x y : BitVec R) : ((((x + y).setWidth 32 &&& 0xffff).setWidth R).setWidth 32) =
    ((x.setWidth 32 + y.setWidth 32).setWidth 16).setWidth 32 := by
  rw [narrow h, BitVec.setWidth_add _ _ h]
  exact low16 _
theorem zext16_sub (h : 32 ≤ R) (x y : BitVec R) : ((((x - y).setWidth 32 &&& 0xffff).setWidth R).setWidth 32) =
    ((x.setWidth 32 - y.setWidth 32).setWidth 16).setWidth 32 := by
  rw [narrow h, setWidth_sub' _ _ h]
  exact low16 _
theorem sext8_add (h : 32 ≤ R) (x y : BitVec R) : (((x + y).setWidth 8).signExtend R).setWidth 32 =
    ((x.setWidth 32 + y.setWidth 32).setWidth 8).signExtend 32 := by
  rw [setWidth_signExtend32 h, ← BitVec.setWidth_add _ _ h, BitVec.setWidth_setWidth_of_le _ (by decide : 8 ≤ 32)]
theorem sext8_sub (h : 32 ≤ R) (x y : BitVec R) : (((x - y).setWidth 8).signExtend R).setWidth 32 =
    ((x.setWidth 32 - y.setWidth 32).setWidth 8).signExtend 32 := by
  rw [setWidth_signExtend32 h, ← setWidth_sub' _ _ h, BitVec.setWidth_setWidth_of_le _ (by decide : 8 ≤ 32)]
theorem sext16_add (h : 32 ≤ R) (x y : BitVec R) : (((x + y).setWidth 16).signExtend R).setWidth 32 =
    ((x.setWidth 32 + y.setWidth 32).setWidth 16).signExtend 32 := by
  rw [setWidth_signExtend32 h, ← BitVec.setWidth_add _ _ h, BitVec.setWidth_setWidth_of_le _ (by decide : 16 ≤ 32)]
theorem sext16_sub (h : 32 ≤ R) (x y : BitVec R) : (((x - y).setWidth 16).signExtend R).setWidth 32 =
    ((x.setWidth 32 - y.setWidth 32).setWidth 16).signExtend 32 := by
  rw [setWidth_signExtend32 h, ← setWidth_sub' _ _ h, BitVec.setWidth_setWidth_of_le _ (by decide : 16 ≤ 32)]

end Verif.Asm.Ppc
