import Verif.Kind.Model

/-
What the documentation says about value types (doc/atomic.qbk), independently of how the classes are organised.
-/

namespace Verif.Kind.Spec

open Verif.Kind

/-- Operations of all atomic objects (doc/atomic.qbk 620-748). -/
def common : List Member :=
  [.load, .store, .exchange, .compare_exchange_weak, .compare_exchange_strong, .wait, .wait_until, .wait_for, .notify_one,
   .notify_all, .is_lock_free, .has_native_wait_notify, .value, .op_assign, .op_convert]

/-- Increment, addition and subtraction, in the forms that exist for numbers and pointers (doc/atomic.qbk 757-909, 1076-1128,
1152-1208). -/
def additive : List Member := [.fetch_add, .fetch_sub, .add, .sub, .opaque_add, .opaque_sub, .op_add_assign, .op_sub_assign]

def stepping : List Member := [.op_inc, .op_dec]

def testedSums : List Member := [.add_and_test, .sub_and_test]

def signChanging : List Member := [.fetch_negate, .negate, .opaque_negate]

/-- The bitwise operations (doc/atomic.qbk 913-995). -/
def bitwise : List Member :=
  [.fetch_and, .fetch_or, .fetch_xor, .fetch_complement, .bitwise_and, .bitwise_or, .bitwise_xor, .bitwise_complement,
   .opaque_and, .opaque_or, .opaque_xor, .opaque_complement, .and_and_test, .or_and_test, .xor_and_test, .complement_and_test,
   .bit_test_and_set, .bit_test_and_reset, .bit_test_and_complement, .op_and_assign, .op_or_assign, .op_xor_assign]

/-- A pointer "other than pointers to void, function or member pointers" (doc/atomic.qbk 1153). -/
def ObjectPointer : Ty → Prop
  | .pointer _ u => u ≠ .void ∧ u ≠ .function
  | _ => False

/-- An integral type "except bool" (doc/atomic.qbk 753). -/
def Integer : Ty → Prop
  | .integer _ _ => True
  | _ => False

def Enumeration : Ty → Prop
  | .enum _ => True
  | _ => False

/-- A floating point type; support can be disabled (doc/atomic.qbk 1071). -/
def Floating : Ty → Prop
  | .floating _ => True
  | _ => False

/-- The documentation promises the operation for values of the type, whatever its top-level qualifiers. -/
def Promised (noFloat : Bool) (t : Ty) (m : Member) : Prop :=
  m ∈ common ∨
  (m ∈ additive ∧ (Integer t ∨ ObjectPointer t ∨ (Floating t ∧ noFloat = false))) ∨
  (m ∈ stepping ∧ (Integer t ∨ ObjectPointer t)) ∨
  (m ∈ testedSums ∧ (Integer t ∨ ObjectPointer t)) ∨
  (m ∈ signChanging ∧ (Integer t ∨ (Floating t ∧ noFloat = false))) ∨
  (m = .negate_and_test ∧ Integer t) ∨
  (m ∈ bitwise ∧ (Integer t ∨ Enumeration t))

/-- Value types of atomic objects: objects that can be copied bitwise. -/
def ValueType : Ty → Prop
  | .void | .function => False
  | _ => True

/-- The sizes of the integers that the two aliases may name. -/
def Candidate (n : Nat) : Prop := n = 1 ∨ n = 2 ∨ n = 4 ∨ n = 8

/-- The largest value of an unsigned and of a signed integer of `k` bytes of 8 bits. -/
def unsignedMax (k : Nat) : Nat := 2 ^ (8 * k) - 1
def signedMax (k : Nat) : Nat := 2 ^ (8 * k - 1) - 1

end Verif.Kind.Spec
