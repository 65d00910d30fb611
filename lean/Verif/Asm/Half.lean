import Verif.Asm.Attr
import Verif.Pair.Lemmas

/-
A value of twice the width of a register, as two registers.
-/

namespace Verif.Asm

/-- The lower `w` bits. -/
def lower {n : Nat} (w : Nat) (x : BitVec n) : BitVec w := x.setWidth w
/-- The `w` bits above the lower `w`. -/
def upper {n : Nat} (w : Nat) (x : BitVec n) : BitVec w := x.extractLsb' w w
/-- The value with the given halves. -/
def joined {w : Nat} (n : Nat) (h l : BitVec w) : BitVec n := (h ++ l).setWidth n

variable {n w : Nat}

/-- The carry out of an addition. -/
def carryOut (a b : BitVec w) : Bool := BitVec.carry w a b false
/-- Addition with carry in. -/
def addCarry (a b : BitVec w) (c : Bool) : BitVec w := a + b + if c then 1 else 0
/-- Whether a subtraction needs no borrow. -/
def noBorrow (a b : BitVec w) : Bool := decide (b ≤ a)
/-- Subtraction that borrows one more unless `c`. -/
def subBorrow (a b : BitVec w) (c : Bool) : BitVec w := a - b - if c then 0 else 1

theorem getLsbD_joined (hn : n = w + w) (h l : BitVec w) (i : Nat) :
    (joined n h l).getLsbD i = if i < w then l.getLsbD i else h.getLsbD (i - w) := by
  subst hn
  simp [joined, BitVec.getLsbD_append]

@[asm_bv] theorem joined_eta (hn : n = w + w) (x : BitVec n) : joined n (upper w x) (lower w x) = x := by
  apply BitVec.eq_of_getLsbD_eq
  intro i hi
  rw [getLsbD_joined hn]
  simp only [upper, lower, BitVec.getLsbD_setWidth, BitVec.getLsbD_extractLsb']
  split
  · next h => simp [h]
  · next h => simp [show i - w < w by omega, show w + (i - w) = i by omega]

@[asm_bv] theorem lower_joined (hn : n = w + w) (h l : BitVec w) : lower w (joined n h l) = l := by
  apply BitVec.eq_of_getLsbD_eq
  intro i hi
  simp only [lower, BitVec.getLsbD_setWidth, getLsbD_joined hn, hi, if_true, decide_true, Bool.true_and]

@[asm_bv] theorem upper_joined (hn : n = w + w) (h l : BitVec w) : upper w (joined n h l) = h := by
  apply BitVec.eq_of_getLsbD_eq
  intro i hi
  simp only [upper, BitVec.getLsbD_extractLsb', getLsbD_joined hn, hi, decide_true, Bool.true_and]
  simp [show ¬ w + i < w by omega]

theorem joined_inj (hn : n = w + w) (h l h' l' : BitVec w) :
    joined n h l = joined n h' l' ↔ h = h' ∧ l = l' :=
  ⟨fun e => ⟨by simpa [upper_joined hn] using congrArg (upper w) e,
    by simpa [lower_joined hn] using congrArg (lower w) e⟩, fun ⟨a, b⟩ => by rw [a, b]⟩

theorem eq_joined (hn : n = w + w) (x : BitVec n) (h l : BitVec w) :
    x = joined n h l ↔ lower w x = l ∧ upper w x = h := by
  constructor
  · rintro rfl
    exact ⟨lower_joined hn h l, upper_joined hn h l⟩
  · rintro ⟨rfl, rfl⟩
    exact (joined_eta hn x).symm

theorem ext_half (hn : n = w + w) {x y : BitVec n} (hl : lower w x = lower w y)
    (hu : upper w x = upper w y) : x = y := by
  rw [← joined_eta hn x, ← joined_eta hn y, hl, hu]

@[asm_bv] theorem lower_and (x y : BitVec n) : lower w (x &&& y) = lower w x &&& lower w y := by simp [lower]
@[asm_bv] theorem lower_or (x y : BitVec n) : lower w (x ||| y) = lower w x ||| lower w y := by simp [lower]
@[asm_bv] theorem lower_xor (x y : BitVec n) : lower w (x ^^^ y) = lower w x ^^^ lower w y := by simp [lower]
@[asm_bv] theorem upper_and (x y : BitVec n) : upper w (x &&& y) = upper w x &&& upper w y := by
  simp [upper, BitVec.extractLsb'_and]
@[asm_bv] theorem upper_or (x y : BitVec n) : upper w (x ||| y) = upper w x ||| upper w y := by
  simp [upper, BitVec.extractLsb'_or]
@[asm_bv] theorem upper_xor (x y : BitVec n) : upper w (x ^^^ y) = upper w x ^^^ upper w y := by
  simp [upper, BitVec.extractLsb'_xor]

/-- Addition of halves, with the carry. -/
@[asm_bv] theorem joined_add (hn : n = w + w) (x : BitVec n) (h l : BitVec w) :
    joined n (addCarry (upper w x) h (carryOut (lower w x) l)) (lower w x + l) = x + joined n h l := by
  have e : x + joined n h l = joined n (upper w x) (lower w x) + joined n h l := by rw [joined_eta hn]
  rw [e]
  subst hn
  simp only [joined, BitVec.setWidth_eq]
  rw [Pair.append_add]
  simp only [Pair.adc, Pair.adds, addCarry, carryOut, BitVec.carry, Bool.toNat_false, Nat.add_zero, ge_iff_le,
    Nat.mod_eq_of_lt (BitVec.isLt _)]
  rfl

@[asm_bv] theorem joined_sub (hn : n = w + w) (x : BitVec n) (h l : BitVec w) :
    joined n (subBorrow (upper w x) h (noBorrow (lower w x) l)) (lower w x - l) = x - joined n h l := by
  have e : x - joined n h l = joined n (upper w x) (lower w x) - joined n h l := by rw [joined_eta hn]
  rw [e]
  subst hn
  simp only [joined, BitVec.setWidth_eq]
  rw [Pair.append_sub]
  simp only [Pair.sbc, Pair.subs, subBorrow, noBorrow, BitVec.le_def]
  rfl

@[asm_bv] theorem joined_and (hn : n = w + w) (x : BitVec n) (h l : BitVec w) :
    joined n (upper w x &&& h) (lower w x &&& l) = x &&& joined n h l :=
  ext_half hn (by rw [lower_joined hn, lower_and, lower_joined hn])
    (by rw [upper_joined hn, upper_and, upper_joined hn])

@[asm_bv] theorem joined_or (hn : n = w + w) (x : BitVec n) (h l : BitVec w) :
    joined n (upper w x ||| h) (lower w x ||| l) = x ||| joined n h l :=
  ext_half hn (by rw [lower_joined hn, lower_or, lower_joined hn])
    (by rw [upper_joined hn, upper_or, upper_joined hn])

@[asm_bv] theorem joined_xor (hn : n = w + w) (x : BitVec n) (h l : BitVec w) :
    joined n (upper w x ^^^ h) (lower w x ^^^ l) = x ^^^ joined n h l :=
  ext_half hn (by rw [lower_joined hn, lower_xor, lower_joined hn])
    (by rw [upper_joined hn, upper_xor, upper_joined hn])

@[asm_bv] theorem joined_not (hn : n = w + w) (x : BitVec n) :
    joined n (~~~ upper w x) (~~~ lower w x) = ~~~ x := by
  apply BitVec.eq_of_getLsbD_eq
  intro i hi
  rw [getLsbD_joined hn]
  simp only [upper, lower, BitVec.getLsbD_not, BitVec.getLsbD_setWidth, BitVec.getLsbD_extractLsb']
  split
  · next h => simp [h, hi]
  · next h => simp [show i - w < w by omega, show w + (i - w) = i by omega, hi]

theorem lower_not (hn : n = w + w) (x : BitVec n) : lower w (~~~ x) = ~~~ lower w x := by
  rw [← joined_not hn, lower_joined hn]

theorem upper_not (hn : n = w + w) (x : BitVec n) : upper w (~~~ x) = ~~~ upper w x := by
  rw [← joined_not hn, upper_joined hn]

/-- Negation of halves: complement and increment. -/
@[asm_bv] theorem joined_neg (hn : n = w + w) (hw : w ≠ 0) (x : BitVec n) :
    joined n (addCarry (~~~ upper w x) 0#w (carryOut (~~~ lower w x) 1#w)) (~~~ lower w x + 1#w) = -x := by
  rw [← lower_not hn, ← upper_not hn, joined_add hn, BitVec.neg_eq_not_add]
  congr 1
  subst hn
  apply BitVec.eq_of_toNat_eq
  simp only [joined, BitVec.setWidth_eq, Pair.append_toNat]
  simp [Nat.mod_eq_of_lt (Nat.one_lt_two_pow hw),
      Nat.mod_eq_of_lt (Nat.one_lt_two_pow (by omega : w + w ≠ 0))]

end Verif.Asm
