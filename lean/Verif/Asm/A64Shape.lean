import Verif.Asm.Tactic
import Verif.Asm.IsaA64

/-
The blocks of the AArch64 back end for objects of up to 8 bytes have a few shapes, which are the same
for all sizes and operations.  The theorems here are about the shapes; A64Proofs.lean applies them to
the blocks.
-/

set_option linter.unusedSimpArgs false
set_option linter.unusedVariables false

namespace Verif.Asm.A64

variable {N : Nat}

theorem narrow (h : N ≤ 64) (v : BitVec N) : (v.setWidth 64).setWidth N = v := by
  rw [BitVec.setWidth_setWidth_of_le _ h]; simp

theorem load_shape (h : N ≤ 64) : Fn.Implements {
    block := {
      prog := [ld 0 1]
      opnds := [(0, .out), (1, .input)]
      addr := [1]
      results := [0] }
    args := fun _ _ => True
    ret := fun _ r => .val ((r 0).setWidth N) : Fn 64 N Unit (Integral.Ret N) } Integral.spec fun _ => .load := by
  intro a
  have hn := narrow h
  asm_exec [hn] [0] [1] [] 1

theorem store_shape : Fn.Implements {
    block := {
      prog := [st 1 0]
      opnds := [(0, .input), (1, .input)]
      addr := [0]
      results := [] }
    args := fun a x => (x 1).setWidth N = a
    ret := fun _ _ => .unit : Fn 64 N (BitVec N) (Integral.Ret N) } Integral.spec .store := by
  intro a
  asm_exec [] [0] [0, 1] [] 1

theorem exchange_shape (h : N ≤ 64) : Fn.Implements {
    block := {
      prog := [.label 1, ldx 2 1, stx 0 3 1, cbnzw 0 0 1 false]
      opnds := [(0, .outEarly), (1, .input), (2, .outEarly), (3, .input)]
      addr := [1]
      results := [2] }
    args := fun a x => (x 3).setWidth N = a
    ret := fun _ r => .val ((r 2).setWidth N) : Fn 64 N (BitVec N) (Integral.Ret N) } Integral.spec .exchange := by
  intro a
  have hn := narrow h
  asm_exec [hn] [0] [1, 3] [] 4

/-- Operations with an argument that return the old value. -/
theorem fetch2_shape (h : N ≤ 64) {f : BitVec 64 → BitVec 64 → BitVec 64} {Op : Type}
    {spec : SeqSpec (BitVec N) Op (Integral.Ret N)} {op : BitVec N → Op} (g : BitVec N → BitVec N → BitVec N)
    (hs : ∀ m v m' r, spec m (op v) m' r ↔ m' = g m v ∧ r = .val m)
    (hf : ∀ x y, (f x y).setWidth N = g (x.setWidth N) (y.setWidth N)) : Fn.Implements {
    block := {
      prog := [.label 1, ldx 3 2, op2 1 3 4 f, stx 0 1 2, cbnzw 0 0 1 false]
      opnds := [(0, .outEarly), (1, .outEarly), (2, .input), (3, .outEarly), (4, .input)]
      addr := [2]
      results := [3] }
    args := fun a x => (x 4).setWidth N = a
    ret := fun _ r => .val ((r 3).setWidth N) : Fn 64 N (BitVec N) (Integral.Ret N) } spec op := by
  intro a
  have hn := narrow h
  asm_exec [hs, hf, hn] [0] [2, 4] [] 5

/-- Operations with an argument that return the new value. -/
theorem new2_shape (h : N ≤ 64) {f : BitVec 64 → BitVec 64 → BitVec 64} {Op : Type}
    {spec : SeqSpec (BitVec N) Op (Integral.Ret N)} {op : BitVec N → Op} (g : BitVec N → BitVec N → BitVec N)
    (hs : ∀ m v m' r, spec m (op v) m' r ↔ m' = g m v ∧ r = .val m')
    (hf : ∀ x y, (f x y).setWidth N = g (x.setWidth N) (y.setWidth N)) : Fn.Implements {
    block := {
      prog := [.label 1, ldx 2 1, op2 2 2 3 f, stx 0 2 1, cbnzw 0 0 1 false]
      opnds := [(0, .outEarly), (1, .input), (2, .outEarly), (3, .input)]
      addr := [1]
      results := [2] }
    args := fun a x => (x 3).setWidth N = a
    ret := fun _ r => .val ((r 2).setWidth N) : Fn 64 N (BitVec N) (Integral.Ret N) } spec op := by
  intro a
  have hn := narrow h
  asm_exec [hs, hf, hn] [0] [1, 3] [] 5

/-- Operations without argument that return the old value. -/
theorem fetch1_shape (h : N ≤ 64) {f : BitVec 64 → BitVec 64} {Op : Type}
    {spec : SeqSpec (BitVec N) Op (Integral.Ret N)} {op : Op} (g : BitVec N → BitVec N)
    (hs : ∀ m m' r, spec m op m' r ↔ m' = g m ∧ r = .val m)
    (hf : ∀ x, (f x).setWidth N = g (x.setWidth N)) : Fn.Implements {
    block := {
      prog := [.label 1, ldx 3 2, op1 1 3 f, stx 0 1 2, cbnzw 0 0 1 false]
      opnds := [(0, .outEarly), (1, .outEarly), (2, .input), (3, .outEarly)]
      addr := [2]
      results := [3] }
    args := fun _ _ => True
    ret := fun _ r => .val ((r 3).setWidth N) : Fn 64 N Unit (Integral.Ret N) } spec fun _ => op := by
  intro a
  have hn := narrow h
  asm_exec [hs, hf, hn] [0] [2] [] 5

/-- Operations without argument that return the new value. -/
theorem new1_shape (h : N ≤ 64) {f : BitVec 64 → BitVec 64} {Op : Type}
    {spec : SeqSpec (BitVec N) Op (Integral.Ret N)} {op : Op} (g : BitVec N → BitVec N)
    (hs : ∀ m m' r, spec m op m' r ↔ m' = g m ∧ r = .val m')
    (hf : ∀ x, (f x).setWidth N = g (x.setWidth N)) : Fn.Implements {
    block := {
      prog := [.label 1, ldx 2 1, op1 2 2 f, stx 0 2 1, cbnzw 0 0 1 false]
      opnds := [(0, .outEarly), (1, .input), (2, .outEarly)]
      addr := [1]
      results := [2] }
    args := fun _ _ => True
    ret := fun _ r => .val ((r 2).setWidth N) : Fn 64 N Unit (Integral.Ret N) } spec fun _ => op := by
  intro a
  have hn := narrow h
  asm_exec [hs, hf, hn] [0] [1] [] 5

/-- Compare-and-exchange, weak: the operands are compared by an instruction that finds out whether
their parts of `N` bits are equal. -/
theorem weak_shape (h : N ≤ 64) {cmp : BitVec 64 → BitVec 64 → Bool} {c : List (BitVec 64) → Flags → Bool}
    (hc : ∀ (m : BitVec N) y, cmp (m.setWidth 64) y = decide (m = y.setWidth N)) : Fn.Implements {
    block := {
      prog := [movwI 0 0, ldx 2 1, .comp [2, 4] [] fun v fl => ([], ⟨cmp (v0 v) (v1 v), c v fl⟩),
        bne 6 1 true, stx 0 3 1, eorwI 0 0 1, .label 1]
      opnds := [(0, .outEarly), (1, .input), (2, .outEarly), (3, .input), (4, .input)]
      addr := [1]
      results := [2, 0] }
    args := fun a x => (x 3).setWidth N = a.2 ∧ (x 4).setWidth N = a.1
    ret := fun _ r => bool8 (r 0) (.cas · ((r 2).setWidth N)) : Fn 64 N (BitVec N × BitVec N) (Integral.Ret N) }
    Integral.spec fun a => .casWeak a.1 a.2 := by
  rintro ⟨e, d⟩
  have hn := narrow h
  asm_exec [hn, hc] [0] [1, 3, 4] [] 7

theorem strong_shape (h : N ≤ 64) {cmp : BitVec 64 → BitVec 64 → Bool} {c : List (BitVec 64) → Flags → Bool}
    (hc : ∀ (m : BitVec N) y, cmp (m.setWidth 64) y = decide (m = y.setWidth N)) : Fn.Implements {
    block := {
      prog := [.label 1, ldx 2 1, .comp [2, 4] [] fun v fl => ([], ⟨cmp (v0 v) (v1 v), c v fl⟩),
        bne 6 2 true, stx 0 3 1, cbnzw 0 0 1 false, .label 2, cseteqw 0]
      opnds := [(0, .outEarly), (1, .input), (2, .outEarly), (3, .input), (4, .input)]
      addr := [1]
      results := [2, 0] }
    args := fun a x => (x 3).setWidth N = a.2 ∧ (x 4).setWidth N = a.1
    ret := fun _ r => bool8 (r 0) (.cas · ((r 2).setWidth N)) : Fn 64 N (BitVec N × BitVec N) (Integral.Ret N) }
    Integral.spec fun a => .casStrong a.1 a.2 := by
  rintro ⟨e, d⟩
  have hn := narrow h
  asm_exec [hn, hc] [0] [1, 3, 4] [] 8

/-- Equality found by `cmp %w, %w`. -/
def eq32 (x y : BitVec 64) : Bool := x.setWidth 32 == y.setWidth 32
/-- Equality found by `cmp %x, %x`. -/
def eq64 (x y : BitVec 64) : Bool := x == y

theorem cmp32 (m : BitVec 32) (y : BitVec 64) : eq32 (m.setWidth 64) y = decide (m = y.setWidth 32) := by
  rw [eq32, narrow (by decide)]; rfl

theorem cmp64 (m y : BitVec 64) : eq64 (m.setWidth 64) y = decide (m = y.setWidth 64) := by
  simp [eq64]; rfl

/-- Compare-and-exchange for narrow objects: the expected value is extended in its register. -/
theorem weak_narrow_shape (h : N ≤ 32) : Fn.Implements {
    block := {
      prog := [op1 4 4 fun x => (x.setWidth N).setWidth 64, movwI 0 0, ldx 2 1, cmpw 2 4,
        bne 7 1 true, stx 0 3 1, eorwI 0 0 1, .label 1]
      opnds := [(0, .outEarly), (1, .input), (2, .outEarly), (3, .input), (4, .inoutEarly)]
      addr := [1]
      results := [2, 0] }
    args := fun a x => (x 3).setWidth N = a.2 ∧ (x 4).setWidth N = a.1
    ret := fun _ r => bool8 (r 0) (.cas · ((r 2).setWidth N)) : Fn 64 N (BitVec N × BitVec N) (Integral.Ret N) }
    Integral.spec fun a => .casWeak a.1 a.2 := by
  rintro ⟨e, d⟩
  have h' : N ≤ 64 := by omega
  have hn := narrow h'
  have hw : ∀ v : BitVec N, (v.setWidth 64).setWidth 32 = v.setWidth 32 := fun v =>
    BitVec.setWidth_setWidth_of_le _ (by decide)
  have hi : ∀ v w : BitVec N, v.setWidth 32 = w.setWidth 32 ↔ v = w := fun v w => setWidth_inj v w h
  asm_exec [hn, hw, hi] [0] [1, 3, 4] [] 8

theorem strong_narrow_shape (h : N ≤ 32) : Fn.Implements {
    block := {
      prog := [op1 4 4 fun x => (x.setWidth N).setWidth 64, .label 1, ldx 2 1, cmpw 2 4,
        bne 7 2 true, stx 0 3 1, cbnzw 0 1 1 false, .label 2, cseteqw 0]
      opnds := [(0, .outEarly), (1, .input), (2, .outEarly), (3, .input), (4, .inoutEarly)]
      addr := [1]
      results := [2, 0] }
    args := fun a x => (x 3).setWidth N = a.2 ∧ (x 4).setWidth N = a.1
    ret := fun _ r => bool8 (r 0) (.cas · ((r 2).setWidth N)) : Fn 64 N (BitVec N × BitVec N) (Integral.Ret N) }
    Integral.spec fun a => .casStrong a.1 a.2 := by
  rintro ⟨e, d⟩
  have h' : N ≤ 64 := by omega
  have hn := narrow h'
  have hw : ∀ v : BitVec N, (v.setWidth 64).setWidth 32 = v.setWidth 32 := fun v =>
    BitVec.setWidth_setWidth_of_le _ (by decide)
  have hi : ∀ v w : BitVec N, v.setWidth 32 = w.setWidth 32 ↔ v = w := fun v w => setWidth_inj v w h
  asm_inv [hn, hw, hi] [0, 1] (fun pc x r => r 1 = x 1 ∧ r 3 = x 3 ∧ (pc = 0 → r 4 = x 4) ∧
    (pc = 1 → r 4 = ((x 4).setWidth N).setWidth 64)) [] 9

/-! LSE -/

theorem lse_shape (h : N ≤ 64) {f : BitVec N → BitVec N → BitVec N} {Op : Type}
    {spec : SeqSpec (BitVec N) Op (Integral.Ret N)} {op : BitVec N → Op} (g : BitVec N → BitVec N → BitVec N)
    (hs : ∀ m v m' r, spec m (op v) m' r ↔ m' = g m v ∧ r = .val m) (k : BitVec N → BitVec N)
    (hf : ∀ x y, f x (k y) = g x y) : Fn.Implements {
    block := {
      prog := [lse f 2 1 0]
      opnds := [(0, .input), (1, .out), (2, .input)]
      addr := [0]
      results := [1] }
    args := fun a x => (x 2).setWidth N = k a
    ret := fun _ r => .val ((r 1).setWidth N) : Fn 64 N (BitVec N) (Integral.Ret N) } spec op := by
  intro a
  have hn := narrow h
  asm_exec [hs, hf, hn] [0] [0, 2] [] 1

theorem lse_weak_shape (h : N ≤ 64) : Fn.Implements {
    block := {
      prog := [cas 1 2 0]
      opnds := [(0, .input), (1, .inout), (2, .input)]
      addr := [0]
      results := [1] }
    args := fun a x => (x 1).setWidth N = a.1 ∧ (x 2).setWidth N = a.2
    ret := fun a r => .cas (decide ((r 1).setWidth N = a.1)) ((r 1).setWidth N) :
      Fn 64 N (BitVec N × BitVec N) (Integral.Ret N) } Integral.spec fun a => .casWeak a.1 a.2 := by
  rintro ⟨e, d⟩
  have hn := narrow h
  asm_exec [hn] [0] [0, 1, 2] [] 1

theorem lse_strong_shape (h : N ≤ 64) : Fn.Implements {
    block := {
      prog := [cas 1 2 0]
      opnds := [(0, .input), (1, .inout), (2, .input)]
      addr := [0]
      results := [1] }
    args := fun a x => (x 1).setWidth N = a.1 ∧ (x 2).setWidth N = a.2
    ret := fun a r => .cas (decide ((r 1).setWidth N = a.1)) ((r 1).setWidth N) :
      Fn 64 N (BitVec N × BitVec N) (Integral.Ret N) } Integral.spec fun a => .casStrong a.1 a.2 := by
  rintro ⟨e, d⟩
  have hn := narrow h
  asm_exec [hn] [0] [0, 1, 2] [] 1

end Verif.Asm.A64
