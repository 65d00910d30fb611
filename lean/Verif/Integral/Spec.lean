import Verif.Common.Lin

/-
What a user of `atomic<integral>` relies on: the sequential meaning of every operation of
the API on an `N`-bit integer.  Written without reference to how the library stores the
value.  `BitVec N` with `+`, `-` is arithmetic modulo `2^N`; signed and unsigned types share
the bit patterns, see `Verif.Integral.Props` for the readings as `Nat` and `Int`.
-/

namespace Verif.Integral

/-- Operations of `atomic<T>` for an integral `T` of `N` bits
(doc/atomic.qbk, "Operations" and the integral extensions).  The bit number of the
`bit_test_and_*` family is below the width: a precondition the library asserts. -/
inductive Op (N : Nat) where
  | load
  | store (v : BitVec N)
  | exchange (v : BitVec N)
  | casWeak (e d : BitVec N)
  | casStrong (e d : BitVec N)
  | fetchAdd (v : BitVec N) | fetchSub (v : BitVec N)
  | fetchAnd (v : BitVec N) | fetchOr (v : BitVec N) | fetchXor (v : BitVec N)
  | fetchNegate | fetchComplement
  | add (v : BitVec N) | sub (v : BitVec N) | negate
  | bitwiseAnd (v : BitVec N) | bitwiseOr (v : BitVec N) | bitwiseXor (v : BitVec N)
  | bitwiseComplement
  | opaqueAdd (v : BitVec N) | opaqueSub (v : BitVec N) | opaqueNegate
  | opaqueAnd (v : BitVec N) | opaqueOr (v : BitVec N) | opaqueXor (v : BitVec N)
  | opaqueComplement
  | addAndTest (v : BitVec N) | subAndTest (v : BitVec N) | negateAndTest
  | andAndTest (v : BitVec N) | orAndTest (v : BitVec N) | xorAndTest (v : BitVec N)
  | complementAndTest
  | bitTestAndSet (b : Fin N) | bitTestAndReset (b : Fin N) | bitTestAndComplement (b : Fin N)

/-- Results: nothing, a value, a boolean, or the outcome of a compare-exchange together
with the value left in the caller's `expected` argument. -/
inductive Ret (N : Nat) where
  | unit
  | val (v : BitVec N)
  | flag (b : Bool)
  | cas (ok : Bool) (expected : BitVec N)

/-- All bits of `s'` are those of `s`, except that bit `b` is `x`. -/
def SetsBit {N : Nat} (s s' : BitVec N) (b : Fin N) (x : Bool) : Prop :=
  ∀ k : Fin N, s'.getLsbD k = if k = b then x else s.getLsbD k

/-- Sequential meaning of each operation. -/
def spec {N : Nat} : SeqSpec (BitVec N) (Op N) (Ret N)
  | s, .load, s', r => s' = s ∧ r = .val s
  | _, .store v, s', r => s' = v ∧ r = .unit
  | s, .exchange v, s', r => s' = v ∧ r = .val s
  | s, .casWeak e d, s', r => (s = e ∧ s' = d ∧ r = .cas true e) ∨ (s' = s ∧ r = .cas false s)
  | s, .casStrong e d, s', r =>
      (s = e ∧ s' = d ∧ r = .cas true e) ∨ (s ≠ e ∧ s' = s ∧ r = .cas false s)
  | s, .fetchAdd v, s', r => s' = s + v ∧ r = .val s
  | s, .fetchSub v, s', r => s' = s - v ∧ r = .val s
  | s, .fetchAnd v, s', r => s' = s &&& v ∧ r = .val s
  | s, .fetchOr v, s', r => s' = s ||| v ∧ r = .val s
  | s, .fetchXor v, s', r => s' = s ^^^ v ∧ r = .val s
  | s, .fetchNegate, s', r => s' = -s ∧ r = .val s
  | s, .fetchComplement, s', r => s' = ~~~s ∧ r = .val s
  | s, .add v, s', r => s' = s + v ∧ r = .val s'
  | s, .sub v, s', r => s' = s - v ∧ r = .val s'
  | s, .negate, s', r => s' = -s ∧ r = .val s'
  | s, .bitwiseAnd v, s', r => s' = s &&& v ∧ r = .val s'
  | s, .bitwiseOr v, s', r => s' = s ||| v ∧ r = .val s'
  | s, .bitwiseXor v, s', r => s' = s ^^^ v ∧ r = .val s'
  | s, .bitwiseComplement, s', r => s' = ~~~s ∧ r = .val s'
  | s, .opaqueAdd v, s', r => s' = s + v ∧ r = .unit
  | s, .opaqueSub v, s', r => s' = s - v ∧ r = .unit
  | s, .opaqueNegate, s', r => s' = -s ∧ r = .unit
  | s, .opaqueAnd v, s', r => s' = s &&& v ∧ r = .unit
  | s, .opaqueOr v, s', r => s' = s ||| v ∧ r = .unit
  | s, .opaqueXor v, s', r => s' = s ^^^ v ∧ r = .unit
  | s, .opaqueComplement, s', r => s' = ~~~s ∧ r = .unit
  | s, .addAndTest v, s', r => s' = s + v ∧ r = .flag (decide (s' ≠ 0))
  | s, .subAndTest v, s', r => s' = s - v ∧ r = .flag (decide (s' ≠ 0))
  | s, .negateAndTest, s', r => s' = -s ∧ r = .flag (decide (s' ≠ 0))
  | s, .andAndTest v, s', r => s' = s &&& v ∧ r = .flag (decide (s' ≠ 0))
  | s, .orAndTest v, s', r => s' = s ||| v ∧ r = .flag (decide (s' ≠ 0))
  | s, .xorAndTest v, s', r => s' = s ^^^ v ∧ r = .flag (decide (s' ≠ 0))
  | s, .complementAndTest, s', r => s' = ~~~s ∧ r = .flag (decide (s' ≠ 0))
  | s, .bitTestAndSet b, s', r => SetsBit s s' b true ∧ r = .flag (s.getLsbD b)
  | s, .bitTestAndReset b, s', r => SetsBit s s' b false ∧ r = .flag (s.getLsbD b)
  | s, .bitTestAndComplement b, s', r =>
      SetsBit s s' b (!s.getLsbD b) ∧ r = .flag (s.getLsbD b)

end Verif.Integral
