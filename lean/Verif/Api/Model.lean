import Verif.Integral.Model
import Verif.Api.Spec

/-!
The classes for pointers, `bool` and enumerations and the overloaded operators, over the core and extra operations of
`Verif.Integral`.  Line numbers are those of include/boost/atomic/detail/atomic_impl.hpp unless stated otherwise; the
classes of atomic_ref_impl.hpp (303–566 enumerations, 571–928 integers, 932–1082 `bool`, 1327–1553 pointers) make the
same calls on storage of the size of the value.
-/

namespace Verif.Api

open Verif.Integral

/-- The core operations of each back end, see `Integral.native`. -/
def coreOf (b : Backend) (N : Nat) : CoreOps N :=
  match b with
  | .intrinsics | .casOnly | .locked => corePlain N
  | .x86 _ => coreX86 N
  | .llsc R up => coreNarrow R N up
  | .lse _ => coreLse N

/-- The extra operations of each back end, see `Integral.native`. -/
def extraOf (b : Backend) (sgn : Bool) (N : Nat) : ExtraOps N :=
  match b with
  | .intrinsics => extraGeneric N sgn (corePlain N)
  | .casOnly => extraCasBased N sgn (corePlain N)
  | .locked => extraEmulated (corePlain N)
  | .x86 wide => extraX86 wide sgn (coreX86 N)
  | .llsc R up => extraLlsc R sgn (coreNarrow R N up)
  | .lse R => extraLlsc R sgn (coreLse N)

/-! ### Pointers -/

/-- `static_cast< uintptr_storage_type >(v * sizeof(T))` (1434 and so on): `v` is a `ptrdiff_t`, which is converted to
`size_t` (of `S` bits) for the multiplication; the product is converted to `uintptr_t` (of `P` bits). -/
def offset (S P sz : Nat) (n : Int) : BitVec P := (BitVec.ofInt S n * BitVec.ofNat S sz).setWidth P

/-- The class for pointers, 1371–1613: `store` 1415, `load` 1424, `fetch_add` 1432, `fetch_sub` 1438, `exchange` 1444,
`compare_exchange_*` 1450–1476 and 1578–1612, `add` … `sub_and_test` 1479–1509, operators 1512–1540.  Pointers are
converted with `bitwise_cast` to and from `uintptr_t`, which is a change of type only; storage words are converted with
`static_cast< uintptr_storage_type >`.  Without `bitwise_cast` (1580–1585) `expected` is used in place, which is the same
since then the sizes are equal. -/
def ptrApi (S sz : Nat) {P W : Nat} (c : CoreOps W) (x : ExtraOps W) : PtrOp P → Code (BitVec W) (Ret P) :=
  let up : BitVec P → BitVec W := fun v => ext false W v
  let down : BitVec W → BitVec P := trunc P
  let fetchAdd := fun n => (c.fetchAdd (up (offset S P sz n))).map fun w => Ret.val (down w)
  let fetchSub := fun n => (c.fetchSub (up (offset S P sz n))).map fun w => Ret.val (down w)
  let add := fun n => (x.add (up (offset S P sz n))).map fun w => Ret.val (down w)
  let sub := fun n => (x.sub (up (offset S P sz n))).map fun w => Ret.val (down w)
  fun
  | .load => c.load.map fun w => .val (down w)
  | .store p => (c.store (up p)).map fun _ => .unit
  | .exchange p => (c.exchange (up p)).map fun w => .val (down w)
  | .casWeak e d => (c.casWeak (up e) (up d)).map fun r => .cas r.1 (down r.2)
  | .casStrong e d => (c.casStrong (up e) (up d)).map fun r => .cas r.1 (down r.2)
  | .fetchAdd n => fetchAdd n
  | .fetchSub n => fetchSub n
  | .add n => add n
  | .sub n => sub n
  | .opaqueAdd n => (x.opaqueAdd (up (offset S P sz n))).map fun _ => .unit
  | .opaqueSub n => (x.opaqueSub (up (offset S P sz n))).map fun _ => .unit
  | .addAndTest n => (x.addAndTest (up (offset S P sz n))).map .flag
  | .subAndTest n => (x.subAndTest (up (offset S P sz n))).map .flag
  | .postInc => fetchAdd 1
  | .preInc => add 1
  | .postDec => fetchSub 1
  | .preDec => sub 1
  | .addAssign n => add n
  | .subAssign n => sub n

/-- Pointers in storage of their own width. -/
def ptrNative (b : Backend) (S sz P : Nat) : PtrOp P → Code (BitVec P) (Ret P) :=
  ptrApi S sz (coreOf b P) (extraOf b false P)

/-- Pointers in wider storage, see `Integral.emulated`. -/
def ptrEmulated (casBased : Bool) (S sz P W : Nat) : PtrOp P → Code (BitVec W) (Ret P) :=
  let c := coreExtending P false (corePlain W)
  ptrApi S sz c (if casBased then extraCasBased W false c else extraGeneric W false c)

/-! ### bool -/

/-- `static_cast< storage_type >(v)`. -/
def ofBool (W : Nat) (v : Bool) : BitVec W := if v then 1 else 0

/-- A storage word read in place as a `bool` object: 0 and 1 are its values, anything else is none. -/
def rawBool {W : Nat} (w : BitVec W) : Option Bool :=
  if w = 0 then some false else if w = 1 then some true else none

/-- The class for `bool`, 987–1140: `store` 1022, `load` 1031, `exchange` 1039, `compare_exchange_*` 1044–1070.
`inPlace` selects 1109–1114, 1125–1130 (`expected` is reinterpreted as storage) or 1116–1123, 1132–1139 (it is
converted). -/
def boolApi (inPlace : Bool) {W : Nat} (c : CoreOps W) : BoolOp → Code (BitVec W) BoolRet :=
  let exp : Bool × BitVec W → BoolRet := fun r => .cas r.1 (if inPlace then rawBool r.2 else some (nz r.2))
  fun
  | .load => c.load.map fun w => .val (nz w)
  | .store v => (c.store (ofBool W v)).map fun _ => .unit
  | .exchange v => (c.exchange (ofBool W v)).map fun w => .val (nz w)
  | .casWeak e d => (c.casWeak (ofBool W e) (ofBool W d)).map exp
  | .casStrong e d => (c.casStrong (ofBool W e) (ofBool W d)).map exp

/-! ### Enumerations -/

/-- `bitwise_cast< value_type >(storage)` (bitwise_cast.hpp:81–120, 143–164): the bytes of the storage from the lowest
address on, as many as the value has.  In a wider word these are the low-order bytes on little-endian machines and the
high-order bytes on big-endian machines. -/
def castDown (bigEndian : Bool) {W : Nat} (N : Nat) (w : BitVec W) : BitVec N :=
  if bigEndian then (w >>> (W - N)).setWidth N else w.setWidth N

/-- The class for enumerations, 352–620.  Values are converted to storage with `static_cast< storage_type >`, which
sign-extends if the underlying type is signed (`esgn`), and from storage with `bitwise_cast`; the core and extra
operations are instantiated for an unsigned type (`base_atomic_common< T, false, Interprocess >`, 354). -/
def enumApi (bigEndian esgn : Bool) {N W : Nat} (c : CoreOps W) (x : ExtraOps W) : EnumOp N → Code (BitVec W) (Ret N) :=
  let up : BitVec N → BitVec W := fun v => ext esgn W v
  let down : BitVec W → Ret N := fun w => .val (castDown bigEndian N w)
  let exp : Bool × BitVec W → Ret N := fun r => .cas r.1 (castDown bigEndian N r.2)
  fun
  | .load => c.load.map down
  | .store v => (c.store (up v)).map fun _ => .unit
  | .exchange v => (c.exchange (up v)).map down
  | .casWeak e d => (c.casWeak (up e) (up d)).map exp
  | .casStrong e d => (c.casStrong (up e) (up d)).map exp
  | .fetchAnd v => (c.fetchAnd (up v)).map down
  | .fetchOr v => (c.fetchOr (up v)).map down
  | .fetchXor v => (c.fetchXor (up v)).map down
  | .fetchComplement => x.fetchComplement.map down
  | .bitwiseAnd v => (x.bitwiseAnd (up v)).map down
  | .bitwiseOr v => (x.bitwiseOr (up v)).map down
  | .bitwiseXor v => (x.bitwiseXor (up v)).map down
  | .bitwiseComplement => x.bitwiseComplement.map down
  | .opaqueAnd v => (x.opaqueAnd (up v)).map fun _ => .unit
  | .opaqueOr v => (x.opaqueOr (up v)).map fun _ => .unit
  | .opaqueXor v => (x.opaqueXor (up v)).map fun _ => .unit
  | .opaqueComplement => x.opaqueComplement.map fun _ => .unit
  | .andAndTest v => (x.andAndTest (up v)).map .flag
  | .orAndTest v => (x.orAndTest (up v)).map .flag
  | .xorAndTest v => (x.xorAndTest (up v)).map .flag
  | .complementAndTest => x.complementAndTest.map .flag
  | .bitTestAndSet b => (x.bitTestAndSet b.val).map .flag
  | .bitTestAndReset b => (x.bitTestAndReset b.val).map .flag
  | .bitTestAndComplement b => (x.bitTestAndComplement b.val).map .flag
  | .andAssign v => (x.bitwiseAnd (up v)).map down
  | .orAssign v => (x.bitwiseOr (up v)).map down
  | .xorAssign v => (x.bitwiseXor (up v)).map down

/-- Enumerations in storage of their own width. -/
def enumNative (b : Backend) (bigEndian esgn : Bool) (N : Nat) : EnumOp N → Code (BitVec N) (Ret N) :=
  enumApi bigEndian esgn (coreOf b N) (extraOf b false N)

/-- Enumerations in wider storage, see `Integral.emulated`. -/
def enumEmulated (casBased bigEndian esgn : Bool) (N W : Nat) : EnumOp N → Code (BitVec W) (Ret N) :=
  let c := coreExtending N false (corePlain W)
  enumApi bigEndian esgn c (if casBased then extraCasBased W false c else extraGeneric W false c)

/-! ### Operators of integral objects -/

/-- `operator++(int)` … `operator^=` (871–914), `operator=` and the conversion operator
(include/boost/atomic/atomic.hpp:63–78, atomic_ref.hpp:64–73); `table` are the named operations. -/
def operators {N W : Nat} (table : Op N → Code (BitVec W) (Ret N)) : Operator N → Code (BitVec W) (Ret N)
  | .assign v => (table (.store v)).map fun _ => .val v
  | .convert => table .load
  | .postInc => table (.fetchAdd 1)
  | .preInc => table (.add 1)
  | .postDec => table (.fetchSub 1)
  | .preDec => table (.sub 1)
  | .addAssign v => table (.add v)
  | .subAssign v => table (.sub v)
  | .andAssign v => table (.bitwiseAnd v)
  | .orAssign v => table (.bitwiseOr v)
  | .xorAssign v => table (.bitwiseXor v)

end Verif.Api
