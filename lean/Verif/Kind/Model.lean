import Verif.WaitSel.Model

/-
Model of the compile-time choices that depend on the value type (C65, C66, C67).

* `include/boost/atomic/detail/classify.hpp` 31-79: the kind of a type.
* `atomic_impl.hpp` 185-1613 and `atomic_ref_impl.hpp` 142-1553: the partial specializations of `base_atomic` and
  `base_atomic_ref` and which member functions each declares.
* `atomic.hpp` 39-41, `atomic_ref.hpp` 36-38, `ipc_atomic.hpp` 36-37, `ipc_atomic_ref.hpp` 37-38: they derive from these.
* `atomic.hpp` 142-170: the aliases `atomic_unsigned_lock_free` and `atomic_signed_lock_free`.
* `int_sizes.hpp` 23-156: the sizes of the integral types, from the compiler's macros or from limits.
* `capabilities.hpp` 55-151: the `BOOST_ATOMIC_*_LOCK_FREE` macros of the named types.

A size that cannot be determined is `none`; for the types other than pointers the header then stops the compilation
(`int_sizes.hpp` 152-156).

Simplifications: a class type stands for all trivially copyable classes and unions and `std::nullptr_t`; arrays, references and
`void` are not modelled as value types (objects of them cannot be copied, so atomics of them do not compile).  The
`Interprocess` parameter does not influence the choice and is dropped.  Overloads with fewer arguments and the `volatile`
versions of a member function are one operation.
-/

namespace Verif.Kind

open Verif.Select Verif.WaitSel

/-! ### Types -/

/-- Top-level `const` and `volatile`. -/
structure Cv where
  isConst : Bool := false
  isVolatile : Bool := false
  deriving DecidableEq, Repr

/-- C++ types without top-level qualifiers. -/
inductive Ty where
  | void
  | bool
  /-- an integral type other than `bool`: character types, standard and extended integer types, of so many bytes -/
  | integer (size : Nat) (signed : Bool)
  | floating (size : Nat)
  /-- an enumeration with the given underlying type -/
  | enum (underlying : Ty)
  /-- a class or union type, or `std::nullptr_t` -/
  | object
  | function
  | memberPointer (member : Ty)
  /-- a pointer to the qualified type `cv pointee` -/
  | pointer (cv : Cv) (pointee : Ty)
  deriving DecidableEq, Repr

/-- `is_integral< cv T >::value` (type_traits/is_integral.hpp; `std` and `boost` traits ignore the qualifiers). -/
def isIntegral : Ty → Bool
  | .bool | .integer _ _ => true
  | _ => false

/-- `is_floating_point< cv T >::value` (type_traits/is_floating_point.hpp). -/
def isFloatingPoint : Ty → Bool
  | .floating _ => true
  | _ => false

/-- `std::is_enum< cv T >::value`. -/
def isEnum : Ty → Bool
  | .enum _ => true
  | _ => false

/-- `std::is_function< T >::value`. -/
def isFunction : Ty → Bool
  | .function => true
  | _ => false

/-! ### classify.hpp -/

/-- The tag types that `classify< T >::type` may be: `void`, `int`, `float`, `const int`, `void*`. -/
inductive Tag where
  | void | int | float | constInt | voidPtr
  deriving DecidableEq, Repr

/-- `classify_pointer< T >::type` (classify.hpp:31-41). -/
def classify_pointer (t : Ty) : Tag := if isFunction t then .void else .voidPtr

/-- `classify< cv T, IsInt, IsFloat, IsEnum >::type` (classify.hpp:43-79).  Partial specializations by the three flags (54, 58
unless `BOOST_ATOMIC_NO_FLOATING_POINT` is defined, 62) and, if all are false, by the form of the type: `U*` (65) is matched by
unqualified pointer types only, the full specializations for pointers to (cv) `void` (68-77) are preferred to it, and `T U::*` (79)
is matched by unqualified member pointers.  Everything else is the primary template (49-52). -/
def classify (noFloat : Bool) (cv : Cv) (t : Ty) : Tag :=
  match isIntegral t, isFloatingPoint t, isEnum t with
  | true, false, false => .int
  | false, true, false => if noFloat then .void else .float
  | false, false, true => .constInt
  | false, false, false =>
    if cv = ⟨false, false⟩ then
      match t with
      | .pointer _ .void => .void
      | .pointer _ u => classify_pointer u
      | .memberPointer _ => .void
      | _ => .void
    else .void
  | _, _, _ => .void

/-! ### Specializations of `base_atomic` and `base_atomic_ref` -/

/-- The member functions and operators of the atomic types. -/
inductive Member where
  | store | load | exchange | compare_exchange_strong | compare_exchange_weak | wait | wait_until | wait_for
  | notify_one | notify_all | is_lock_free | has_native_wait_notify | value
  | fetch_add | fetch_sub | fetch_and | fetch_or | fetch_xor | fetch_negate | fetch_complement
  | add | sub | negate | bitwise_and | bitwise_or | bitwise_xor | bitwise_complement
  | opaque_add | opaque_sub | opaque_negate | opaque_and | opaque_or | opaque_xor | opaque_complement
  | add_and_test | sub_and_test | negate_and_test | and_and_test | or_and_test | xor_and_test | complement_and_test
  | bit_test_and_set | bit_test_and_reset | bit_test_and_complement
  | op_inc | op_dec | op_add_assign | op_sub_assign | op_and_assign | op_or_assign | op_xor_assign
  | op_assign | op_convert
  deriving DecidableEq, Repr

/-- The partial specializations of `base_atomic` (atomic_impl.hpp:190, 353, 625, 988, 1147, 1372) and of `base_atomic_ref`
(atomic_ref_impl.hpp:147, 303, 571, 932, 1089, 1327). -/
inductive Cls where
  | generic | enum | integer | bool | floating | pointer
  deriving DecidableEq, Repr

/-- The specialization that `base_atomic< cv T, Kind, Interprocess >` selects, none if only the undefined primary template matches
(atomic_impl.hpp:185-186, atomic_ref_impl.hpp:142-143).  `base_atomic< bool, int, Interprocess >` is preferred to
`base_atomic< T, int, Interprocess >` for unqualified `bool`; `base_atomic< T*, void*, Interprocess >` is matched by unqualified
pointer types.  The class for floating point types exists unless `BOOST_ATOMIC_NO_FLOATING_POINT` is defined (1143, 1085). -/
def specialization (noFloat : Bool) (cv : Cv) (t : Ty) (k : Tag) : Option Cls :=
  match k with
  | .void => some .generic
  | .constInt => some .enum
  | .int => if t = .bool ∧ cv = ⟨false, false⟩ then some .bool else some .integer
  | .float => if noFloat then none else some .floating
  | .voidPtr =>
    match t with
    | .pointer _ _ => if cv = ⟨false, false⟩ then some .pointer else none
    | _ => none

/-- `base_atomic_common` (atomic_impl.hpp:98-130) and `base_atomic_ref_common` (atomic_ref_impl.hpp:97-129). -/
def commonMembers : List Member := [.value, .is_lock_free, .has_native_wait_notify, .notify_one, .notify_all]

/-- `atomic` (atomic.hpp:63-78) and `atomic_ref` (atomic_ref.hpp:64-73). -/
def outerMembers : List Member := [.op_assign, .op_convert]

/-- The member functions a specialization declares itself (atomic_impl.hpp:190-348 generic, 353-620 enumerations, 625-984 integers,
988-1140 `bool`, 1147-1365 floating point, 1372-1613 pointers; atomic_ref_impl.hpp 147-298, 303-566, 571-928, 932-1082,
1089-1320, 1327-1553). -/
def Cls.own : Cls → List Member
  | .generic | .bool =>
    [.store, .load, .exchange, .compare_exchange_strong, .compare_exchange_weak, .wait, .wait_until, .wait_for]
  | .enum =>
    [.store, .load, .exchange, .compare_exchange_strong, .compare_exchange_weak, .fetch_and, .fetch_or, .fetch_xor,
     .fetch_complement, .bitwise_and, .bitwise_or, .bitwise_xor, .bitwise_complement, .opaque_and, .opaque_or, .opaque_xor,
     .opaque_complement, .and_and_test, .or_and_test, .xor_and_test, .complement_and_test, .bit_test_and_set,
     .bit_test_and_reset, .bit_test_and_complement, .op_and_assign, .op_or_assign, .op_xor_assign, .wait, .wait_until, .wait_for]
  | .integer =>
    [.store, .load, .fetch_add, .fetch_sub, .exchange, .compare_exchange_strong, .compare_exchange_weak, .fetch_and, .fetch_or,
     .fetch_xor, .fetch_negate, .fetch_complement, .add, .sub, .negate, .bitwise_and, .bitwise_or, .bitwise_xor,
     .bitwise_complement, .opaque_add, .opaque_sub, .opaque_negate, .opaque_and, .opaque_or, .opaque_xor, .opaque_complement,
     .add_and_test, .sub_and_test, .negate_and_test, .and_and_test, .or_and_test, .xor_and_test, .complement_and_test,
     .bit_test_and_set, .bit_test_and_reset, .bit_test_and_complement, .op_inc, .op_dec, .op_add_assign, .op_sub_assign,
     .op_and_assign, .op_or_assign, .op_xor_assign, .wait, .wait_until, .wait_for]
  | .floating =>
    [.store, .load, .fetch_add, .fetch_sub, .exchange, .compare_exchange_strong, .compare_exchange_weak, .fetch_negate, .add, .sub,
     .negate, .opaque_add, .opaque_sub, .opaque_negate, .op_add_assign, .op_sub_assign, .wait, .wait_until, .wait_for]
  | .pointer =>
    [.store, .load, .fetch_add, .fetch_sub, .exchange, .compare_exchange_strong, .compare_exchange_weak, .add, .sub, .opaque_add,
     .opaque_sub, .add_and_test, .sub_and_test, .op_inc, .op_dec, .op_add_assign, .op_sub_assign, .wait, .wait_until, .wait_for]

/-- The members of `atomic< cv T >` and `atomic_ref< cv T >`; none if the base class is not defined. -/
def members (noFloat : Bool) (cv : Cv) (t : Ty) : Option (List Member) :=
  (specialization noFloat cv t (classify noFloat cv t)).map fun c => commonMembers ++ c.own ++ outerMembers

/-! ### Aliases for lock-free integers -/

/-- The size in bytes of the integer in `atomic_unsigned_lock_free` and `atomic_signed_lock_free` (atomic.hpp:144-170), none where
`BOOST_ATOMIC_DETAIL_NO_LOCK_FREE_TYPEDEFS` is defined instead. -/
def lockFreeAlias (s : Os) (p : Platform) : Option Nat :=
  if p.lockFree 4 = 2 ∧ waitMacro s p 4 false = 2 then some 4
  else if p.lockFree 8 = 2 ∧ waitMacro s p 8 false = 2 then some 8
  else if p.lockFree 2 = 2 ∧ waitMacro s p 2 false = 2 then some 2
  else if p.lockFree 1 = 2 ∧ waitMacro s p 1 false = 2 then some 1
  else if p.lockFree 4 = 2 then some 4
  else if p.lockFree 8 = 2 then some 8
  else if p.lockFree 2 = 2 then some 2
  else if p.lockFree 1 = 2 then some 1
  else none

/-! ### Sizes of the integral types -/

/-- `BOOST_ATOMIC_DETAIL_SIZEOF_{SHORT,INT,LONG}` (int_sizes.hpp:24-32, 57-91): the compiler's macro `__SIZEOF_*__`, or else deduced
from the maximum of the unsigned type. -/
def sizeofInt (macroSize : Option Nat) (max : Nat) : Option Nat :=
  match macroSize with
  | some n => some n
  | none =>
    if max = 0xff then some 1 else if max = 0xffff then some 2 else if max = 0xffffffff then some 4
    else if max = 0xffffffffffffffff then some 8 else none

/-- `BOOST_ATOMIC_DETAIL_SIZEOF_LLONG` (int_sizes.hpp:33-35, 93-120): 8 on HP-UX; an undefined maximum is 0 to the preprocessor. -/
def sizeofLLong (macroSize : Option Nat) (hpux : Bool) (max : Option Nat) : Option Nat :=
  match macroSize with
  | some n => some n
  | none => if hpux then some 8 else sizeofInt none (max.getD 0)

/-- `BOOST_ATOMIC_DETAIL_SIZEOF_POINTER` (int_sizes.hpp:39-47, 122-130); `msvc` says whether the Microsoft compiler targets a
64-bit machine. -/
def sizeofPointer (macroSize : Option Nat) (msvc : Option Bool) (uintptrMax : Option Nat) : Option Nat :=
  match macroSize, msvc, uintptrMax with
  | some n, _, _ => some n
  | none, some wide, _ => some (if wide then 8 else 4)
  | none, none, some max =>
    if max = 0xffff then some 2 else if max = 0xffffffff then some 4
    else if max = 0xffffffffffffffff then some 8 else none
  | none, none, none => none

/-- `BOOST_ATOMIC_DETAIL_SIZEOF_WCHAR_T` (int_sizes.hpp:36-38, 134-150); `oldMsvc` the compilers of line 138. -/
def sizeofWchar (macroSize : Option Nat) (oldMsvc : Bool) (max : Nat) : Option Nat :=
  match macroSize with
  | some n => some n
  | none =>
    if oldMsvc then some 2
    else if max = 0xff ∨ max = 0x7f then some 1
    else if max = 0xffff ∨ max = 0x7fff then some 2
    else if max = 0xffffffff ∨ max = 0x7fffffff then some 4
    else if max = 0xffffffffffffffff ∨ max = 0x7fffffffffffffff then some 8
    else none

/-- `BOOST_ATOMIC_{WCHAR_T,SHORT,INT,LONG,LLONG}_LOCK_FREE` (capabilities.hpp:71-139) from the size macro. -/
def intMacro (p : Platform) (size : Option Nat) : Nat :=
  if size = some 1 then p.lockFree 1 else if size = some 2 then p.lockFree 2 else if size = some 4 then p.lockFree 4
  else if size = some 8 then p.lockFree 8 else 0

/-- `BOOST_ATOMIC_POINTER_LOCK_FREE` and `BOOST_ATOMIC_ADDRESS_LOCK_FREE` (capabilities.hpp:141-151). -/
def pointerMacro (p : Platform) (size : Option Nat) : Nat :=
  if size = some 8 then p.lockFree 8 else if size = some 4 then p.lockFree 4 else 0

end Verif.Kind
