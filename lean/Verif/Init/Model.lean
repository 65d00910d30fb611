import Verif.Bytes.Model
import Verif.Api.Model
import Verif.Init.Spec

/-
Constructors of `atomic<T>` and `ipc_atomic<T>`.
-/

namespace Verif.Init

open Verif.Bytes

/-- `base_atomic_common()`: `m_storage()`, atomic_impl.hpp:90–92.  Storage is an unsigned integer or an array of `unsigned char`
(storage_traits.hpp:43–61), which value-initialisation sets to zero.  Where `alignas` cannot be used, `m_storage` is a member of an
anonymous union (aligned_variable.hpp:41–55) and initialised in the same way. -/
def m_storage (s : Nat) : Bytes s := fun _ => 0

/-- `base_atomic<T, void>()` and `base_atomic<T, float>()`: atomic_impl.hpp:217–219 and 1179.

`ctor` is what the default constructor of the type makes; `none` if it is trivial.  Then the first version of
`base_atomic_generic` is used (atomic_impl.hpp:144–161), whose default constructor does not look at `T`; otherwise the second one
(atomic_impl.hpp:163–183), whose constructor has the default argument `value_type()`.  `u` are the uninitialised bytes of the conversion.
Exceptions thrown by the default constructor are not modelled. -/
def defaultConstruct (c : Cfg) (T : Ty) (ctor : Option (Bytes T.size)) (s : Nat) (u : Bytes s) : Bytes s :=
  if T.fp then m_storage s
  else match ctor with
    | none => m_storage s
    | some v => toStorage c T s u v

/-- `base_atomic(value_arg_type v)`: atomic_impl.hpp:157–160, 178–181, 221–223, 1180–1183. -/
def construct (c : Cfg) (T : Ty) (s : Nat) (u : Bytes s) (v : Bytes T.size) : Bytes s := toStorage c T s u v

/-! ### Integers, `bool`, enumerations and pointers to objects, whose storage is an integer -/

/-- `base_atomic() = default` of integers, `bool`, enumerations and pointers (atomic_impl.hpp:654, 1015, 381, 1405):
`m_storage()` of an unsigned integer of `W` bits. -/
def defaultWord (W : Nat) : BitVec W := 0

/-- `base_type(static_cast<storage_type>(v))` of integers and enumerations, atomic_impl.hpp:655 and 382: the value is extended as
the signedness of its type says. -/
def integerWord {N : Nat} (sgn : Bool) (W : Nat) (v : BitVec N) : BitVec W := Integral.ext sgn W v

/-- `base_type(static_cast<storage_type>(v))` of `bool`, atomic_impl.hpp:1016. -/
def boolWord (W : Nat) (v : Bool) : BitVec W := if v then 1 else 0

/-- `base_type(bitwise_cast<uintptr_storage_type>(v))` of pointers, atomic_impl.hpp:1406–1409: the bits of the pointer, converted
implicitly to a storage type that may be wider. -/
def pointerWord {P : Nat} (W : Nat) (p : BitVec P) : BitVec W := p.setWidth W

end Verif.Init
