import Verif.Api.Model
import Verif.Bytes.Model
import Verif.View.Spec

/-
The reference returned by `value()`.
-/

namespace Verif.View

open Verif.Bytes (Bytes)

/-- `value()` of objects whose storage is an integer of `W` bits: `*reinterpret_cast< value_type* >(&m_storage)`,
atomic_impl.hpp:98–101, so the bytes of the storage from the lowest address on.  Same for `atomic_ref`, where the storage is the
referenced object (atomic_ref_impl.hpp:99). -/
def value (bigEndian : Bool) {W : Nat} (N : Nat) (w : BitVec W) : BitVec N := Api.castDown bigEndian N w

/-- The storage after something has been written to the object `value()` refers to: atomic_impl.hpp:98–101, the other bytes of the
storage are left alone. -/
def assign (bigEndian : Bool) {N W : Nat} (w : BitVec W) (v : BitVec N) : BitVec W :=
  if bigEndian then (w <<< N >>> N) ||| (v.setWidth W <<< (W - N)) else (w >>> N <<< N) ||| v.setWidth W

/-- The operations of an object together with external ones through atomic_impl.hpp:98–101. -/
def withExternal {Op Ret : Type} (bigEndian : Bool) {N W : Nat} (code : Op → Code (BitVec W) Ret) :
    Any Op (BitVec N) → Code (BitVec W) (AnyRet Ret (BitVec N))
  | .call op => (code op).map .call
  | .external f => .rmw (fun w => assign bigEndian w (f (value bigEndian N w))) fun w _ => .saw (value bigEndian N w)

/-- The object of type `bool`, one byte, that `value()` (atomic_impl.hpp:98–101) refers to; other bytes than 0 and 1 are taken as
`true`. -/
def withExternalBool {Op Ret : Type} (bigEndian : Bool) {W : Nat} (code : Op → Code (BitVec W) Ret) :
    Any Op Bool → Code (BitVec W) (AnyRet Ret Bool)
  | .call op => (code op).map .call
  | .external f => .rmw (fun w => assign bigEndian w (Api.ofBool 8 (f (Integral.nz (value bigEndian 8 w)))))
      fun w _ => .saw (Integral.nz (value bigEndian 8 w))

/-- `value()` of objects whose storage is taken as `s` bytes, atomic_impl.hpp:98–101: the first `n` of them. -/
def valueBytes {n s : Nat} (h : n ≤ s) (w : Bytes s) : Bytes n := fun i => w ⟨i.1, Nat.lt_of_lt_of_le i.2 h⟩

/-- Writing to the object, atomic_impl.hpp:98–101. -/
def assignBytes {n s : Nat} (w : Bytes s) (v : Bytes n) : Bytes s := fun i => if h : i.1 < n then v ⟨i.1, h⟩ else w i

/-- The operations of an object together with external ones through atomic_impl.hpp:98–101. -/
def withExternalBytes {Op Ret : Type} {n s : Nat} (h : n ≤ s) (code : Op → Code (Bytes s) Ret) :
    Any Op (Bytes n) → Code (Bytes s) (AnyRet Ret (Bytes n))
  | .call op => (code op).map .call
  | .external f => .rmw (fun w => assignBytes w (f (valueBytes h w))) fun w _ => .saw (valueBytes h w)

end Verif.View
