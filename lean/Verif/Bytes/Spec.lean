import Verif.Common.Lin

/-
Specification side for objects of an arbitrary trivially copyable type.

An object is an array of bytes.  Which bits of the array take part in the value is given by a mask; the
rest is padding, whose content is indeterminate.  Two objects hold the same value when they agree on the
value bits.  The sequential specification of an atomic object of that type says nothing about padding:
whatever the padding of the arguments, an operation acts on, compares and returns values.
-/

namespace Verif.Bytes

abbrev Byte := BitVec 8

/-- An object of `n` bytes. -/
abbrev Bytes (n : Nat) := Fin n → Byte

/-- `a` and `b` are equal in the value bits selected by `mask`. -/
def SameValue {n : Nat} (mask a b : Bytes n) : Prop := ∀ i, a i &&& mask i = b i &&& mask i

instance {n : Nat} (mask a b : Bytes n) : Decidable (SameValue mask a b) :=
  inferInstanceAs (Decidable (∀ _ : Fin n, _))

/-- Every bit of the type takes part in the value (no padding). -/
def Full {n : Nat} (mask : Bytes n) : Prop := ∀ i, mask i = 0xff

/-- The value bits are the first `k` bytes, and the rest is padding (x87 extended precision: `k = 10`). -/
def Prefix {n : Nat} (mask : Bytes n) (k : Nat) : Prop := ∀ i, mask i = if i.1 < k then 0xff else 0

/-- Arithmetic of one floating-point environment, on object representations.  Nothing is assumed about it:
rounding, exceptions, NaN payloads and the padding of results are arbitrary. -/
structure Fp (n : Nat) where
  add : Bytes n → Bytes n → Bytes n
  sub : Bytes n → Bytes n → Bytes n
  neg : Bytes n → Bytes n

/-- Calls on an `atomic<T>` or `atomic_ref<T>`.  The arithmetic ones exist for floating-point `T` only and
are made in the caller's floating-point environment `m`. -/
inductive Op (Mode : Type) (n : Nat) where
  | load
  | store (v : Bytes n)
  | exchange (v : Bytes n)
  | casStrong (expected desired : Bytes n)
  | casWeak (expected desired : Bytes n)
  | fetchAdd (m : Mode) (v : Bytes n)
  | fetchSub (m : Mode) (v : Bytes n)
  | fetchNegate (m : Mode)
  | add (m : Mode) (v : Bytes n)
  | sub (m : Mode) (v : Bytes n)
  | negate (m : Mode)
  | opaqueAdd (m : Mode) (v : Bytes n)
  | opaqueSub (m : Mode) (v : Bytes n)
  | opaqueNegate (m : Mode)

/-- Results: nothing, a value, or success and the final content of `expected`. -/
inductive Ret (n : Nat) where
  | unit
  | val (v : Bytes n)
  | cas (ok : Bool) (expected : Bytes n)

/-- The call returns the value `v`, up to padding. -/
def returns {n : Nat} (mask : Bytes n) (r : Ret n) (v : Bytes n) : Prop :=
  ∃ x, r = .val x ∧ SameValue mask x v

/-- A compare-exchange that succeeds: the object had the expected value, and takes the desired one. -/
def casOk {n : Nat} (mask s e d s' : Bytes n) (r : Ret n) : Prop :=
  SameValue mask s e ∧ SameValue mask s' d ∧ ∃ x, r = .cas true x ∧ SameValue mask x e

/-- A compare-exchange that fails: the object is unchanged and `expected` receives its value. -/
def casFail {n : Nat} (mask s s' : Bytes n) (r : Ret n) : Prop :=
  s' = s ∧ ∃ x, r = .cas false x ∧ SameValue mask x s

/-- The sequential specification. -/
def spec {Mode : Type} {n : Nat} (F : Mode → Fp n) (mask : Bytes n) : SeqSpec (Bytes n) (Op Mode n) (Ret n) :=
  fun s op s' r => match op with
  | .load => s' = s ∧ returns mask r s
  | .store v => SameValue mask s' v ∧ r = .unit
  | .exchange v => SameValue mask s' v ∧ returns mask r s
  | .casStrong e d => casOk mask s e d s' r ∨ (¬ SameValue mask s e ∧ casFail mask s s' r)
  | .casWeak e d => casOk mask s e d s' r ∨ casFail mask s s' r
  | .fetchAdd m v => SameValue mask s' ((F m).add s v) ∧ returns mask r s
  | .fetchSub m v => SameValue mask s' ((F m).sub s v) ∧ returns mask r s
  | .fetchNegate m => SameValue mask s' ((F m).neg s) ∧ returns mask r s
  | .add m v => SameValue mask s' ((F m).add s v) ∧ returns mask r ((F m).add s v)
  | .sub m v => SameValue mask s' ((F m).sub s v) ∧ returns mask r ((F m).sub s v)
  | .negate m => SameValue mask s' ((F m).neg s) ∧ returns mask r ((F m).neg s)
  | .opaqueAdd m v => SameValue mask s' ((F m).add s v) ∧ r = .unit
  | .opaqueSub m v => SameValue mask s' ((F m).sub s v) ∧ r = .unit
  | .opaqueNegate m => SameValue mask s' ((F m).neg s) ∧ r = .unit

/-- The object with the top bit of byte `k` inverted: IEEE negation, when `k` is the byte that holds the
sign. -/
def flipTop {n : Nat} (k : Nat) (v : Bytes n) : Bytes n :=
  fun i => if i.1 = k then v i ^^^ 0x80 else v i

/-- Bytes that are padding or value as a whole. -/
def Bytewise {n : Nat} (mask : Bytes n) : Prop := ∀ i, mask i = 0xff ∨ mask i = 0

/-- Construct an atomic_ref to the object, or call an operation through one. -/
inductive RefOp (Mode : Type) (n : Nat) where
  | attach
  | call (op : Op Mode n)

/-- What constructing a reference and calling an operation through one mean for the value. -/
def refSpec {Mode : Type} {n : Nat} (F : Mode → Fp n) (mask : Bytes n) :
    SeqSpec (Bytes n) (RefOp Mode n) (Ret n) :=
  fun s op s' r => match op with
  | .attach => s' = s ∧ r = .unit
  | .call op => spec F mask s op s' r

end Verif.Bytes
