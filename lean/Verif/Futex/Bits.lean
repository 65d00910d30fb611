import Verif.Futex.Model

/-!
The mutex word of the model and the 32-bit word of the code (src/lock_pool.cpp:517–526): every operation and test on
the word in the code is the operation of the model on the encoded word, and the code's comparison of words is
`Word.Same` with 2^30 counter values.
-/

set_option linter.unusedSimpArgs false

namespace Verif.Futex

/-- The 32-bit word: bit 0 `locked`, bit 1 `contended`, counter from bit 2 on (src/lock_pool.cpp:520–524). -/
def Word.enc (w : Word) : BitVec 32 :=
  BitVec.ofNat 32 (4 * w.n + (2 * w.contended.toNat + w.locked.toNat))

theorem low_lt (w : Word) : 2 * w.contended.toNat + w.locked.toNat < 4 := by
  rcases w with ⟨_ | _, _ | _, _⟩ <;> simp

theorem Word.enc_bit (w : Word) (i : Nat) :
    w.enc.getLsbD i = (decide (i < 32) && if i < 2 then (2 * w.contended.toNat + w.locked.toNat).testBit i
      else w.n.testBit (i - 2)) := by
  rw [Word.enc, BitVec.getLsbD_ofNat, show 4 = 2 ^ 2 from rfl, Nat.testBit_two_pow_mul_add _ (low_lt w)]

theorem bits2 {i : Nat} : i < 2 ↔ i = 0 ∨ i = 1 := by omega

/-- Words compare equal in the code iff they are the same in the model. -/
theorem enc_eq_iff (a b : Word) : a.enc = b.enc ↔ a.Same (2 ^ 30) b := by
  rw [← BitVec.toNat_inj, Word.enc, Word.enc, BitVec.toNat_ofNat, BitVec.toNat_ofNat, Word.Same]
  rcases a with ⟨_ | _, _ | _, n⟩ <;> rcases b with ⟨_ | _, _ | _, k⟩ <;> simp <;> omega

/-- `(state & locked) == 0`, src/lock_pool.cpp:577, 596 -/
theorem enc_locked (w : Word) : w.enc &&& 1#32 = 0#32 ↔ w.locked = false := by
  rw [← BitVec.toNat_inj, BitVec.toNat_and, Word.enc, BitVec.toNat_ofNat]
  simp only [BitVec.toNat_ofNat, Nat.reducePow, Nat.reduceMod, Nat.and_one_is_mod, Nat.zero_mod]
  rcases w with ⟨_ | _, _ | _, n⟩ <;> simp <;> omega

/-- `(state & contended) != 0`, src/lock_pool.cpp:626 -/
theorem enc_contended (w : Word) : w.enc &&& 2#32 ≠ 0#32 ↔ w.contended = true := by
  have key : w.enc &&& 2#32 = if w.contended then 2#32 else 0#32 := by
    apply BitVec.eq_of_getLsbD_eq
    intro i hi
    rw [BitVec.getLsbD_and, Word.enc_bit]
    by_cases h : i < 2
    · rcases bits2.1 h with rfl | rfl <;> rcases w with ⟨_ | _, _ | _, n⟩ <;> simp [Word.lock, Word.contend, Word.clear] <;> decide
    · have h2 : (2#32).getLsbD i = false := by
        rw [BitVec.getLsbD_ofNat, show (2 : Nat) = 2 ^ 1 from rfl, Nat.testBit_two_pow]
        simp; omega
      cases w.contended <;> simp [h2]
  rw [key]
  cases w.contended <;> decide

/-- `state | locked`, src/lock_pool.cpp:579, 598 -/
theorem enc_lock (w : Word) : w.lock.enc = w.enc ||| 1#32 := by
  apply BitVec.eq_of_getLsbD_eq
  intro i hi
  rw [BitVec.getLsbD_or, Word.enc_bit, Word.enc_bit]
  by_cases h : i < 2
  · rcases bits2.1 h with rfl | rfl <;> rcases w with ⟨_ | _, _ | _, n⟩ <;> simp [Word.lock, Word.contend, Word.clear] <;> decide
  · have h2 : (1#32).getLsbD i = false := by
      rw [BitVec.getLsbD_ofNat, show (1 : Nat) = 2 ^ 0 from rfl, Nat.testBit_two_pow]
      simp; omega
    rw [h2, if_neg h, if_neg h]; simp [Word.lock]

/-- `state | contended`, src/lock_pool.cpp:604, 813, 826 -/
theorem enc_contend (w : Word) : w.contend.enc = w.enc ||| 2#32 := by
  apply BitVec.eq_of_getLsbD_eq
  intro i hi
  rw [BitVec.getLsbD_or, Word.enc_bit, Word.enc_bit]
  by_cases h : i < 2
  · rcases bits2.1 h with rfl | rfl <;> rcases w with ⟨_ | _, _ | _, n⟩ <;> simp [Word.lock, Word.contend, Word.clear] <;> decide
  · have h2 : (2#32).getLsbD i = false := by
      rw [BitVec.getLsbD_ofNat, show (2 : Nat) = 2 ^ 1 from rfl, Nat.testBit_two_pow]
      simp; omega
    rw [h2, if_neg h, if_neg h]; simp [Word.contend]

/-- `state & ~contended`, src/lock_pool.cpp:632 -/
theorem enc_clear (w : Word) : w.clear.enc = w.enc &&& ~~~2#32 := by
  apply BitVec.eq_of_getLsbD_eq
  intro i hi
  rw [BitVec.getLsbD_and, Word.enc_bit, Word.enc_bit]
  by_cases h : i < 2
  · rcases bits2.1 h with rfl | rfl <;> rcases w with ⟨_ | _, _ | _, n⟩ <;> simp [Word.lock, Word.contend, Word.clear] <;> decide
  · have h2 : (2#32).getLsbD i = false := by
      rw [BitVec.getLsbD_ofNat, show (2 : Nat) = 2 ^ 1 from rfl, Nat.testBit_two_pow]
      simp; omega
    rw [BitVec.getLsbD_not, h2, if_neg h, if_neg h]; simp [Word.clear, hi]

/-- `(state & ~locked) + counter_one`, src/lock_pool.cpp:621 -/
theorem enc_unlock (w : Word) : w.unlock.enc = (w.enc &&& ~~~1#32) + 4#32 := by
  have h : w.enc &&& ~~~1#32 = ({ w with locked := false } : Word).enc := by
    apply BitVec.eq_of_getLsbD_eq
    intro i hi
    rw [BitVec.getLsbD_and, Word.enc_bit, Word.enc_bit]
    by_cases h : i < 2
    · rcases bits2.1 h with rfl | rfl <;> rcases w with ⟨_ | _, _ | _, n⟩ <;> simp [Word.lock, Word.contend, Word.clear] <;> decide
    · have h2 : (1#32).getLsbD i = false := by
        rw [BitVec.getLsbD_ofNat, show (1 : Nat) = 2 ^ 0 from rfl, Nat.testBit_two_pow]
        simp; omega
      rw [BitVec.getLsbD_not, h2, if_neg h, if_neg h]; simp [hi]
  rw [h, ← BitVec.toNat_inj, BitVec.toNat_add, Word.enc, Word.enc]
  simp only [BitVec.toNat_ofNat, Word.unlock]
  simp; omega

/-- The counter of notifications `m_cond` (src/lock_pool.cpp:533): incrementing the 32-bit word counts modulo
2^32. -/
theorem cond_inc (n : Nat) : BitVec.ofNat 32 n + 1#32 = BitVec.ofNat 32 (n + 1) := by
  rw [← BitVec.toNat_inj]; simp

theorem cond_eq_iff (a b : Nat) : BitVec.ofNat 32 a = BitVec.ofNat 32 b ↔ a % 2 ^ 32 = b % 2 ^ 32 := by
  rw [← BitVec.toNat_inj]; simp

end Verif.Futex
