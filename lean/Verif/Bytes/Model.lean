import Verif.Common.Code
import Verif.Common.Lin
import Verif.Bytes.Spec

/-
Conversions between values and storage, byte-buffer storage, and the operation tables of
`base_atomic<T>` / `base_atomic_ref<T>` for arbitrary (generic and floating-point) `T`.
Paths below are relative to /repo/include/boost/atomic/detail.
-/

namespace Verif.Bytes

/-! ### Storage as a byte buffer -/

/-- C `memcmp(a, b, k)`: the sign of the first difference (as unsigned bytes) among the first `k` bytes,
0 if there is none.  `BOOST_ATOMIC_DETAIL_MEMCMP`, string_ops.hpp:45-49 (compiler builtin or `std::memcmp`).
The arguments are pointers to byte sequences. -/
def memcmp (a b : Nat → Byte) : Nat → Int
  | 0 => 0
  | k + 1 =>
    if a 0 = b 0 then memcmp (fun i => a (i + 1)) (fun i => b (i + 1)) k
    else if (a 0).toNat < (b 0).toNat then -1 else 1

/-- The memory starting at the first byte of a buffer; what lies beyond the buffer is `beyond`. -/
def at0 {n : Nat} (data : Bytes n) (beyond : Nat → Byte) : Nat → Byte :=
  fun i => if h : i < n then data ⟨i, h⟩ else beyond i

/-- `buffer_storage::operator!`, storage_traits.hpp:47-50. -/
def buffer_not {n : Nat} (data : Bytes n) (beyond : Nat → Byte) : Bool :=
  let p := at0 data beyond
  p 0 == 0 && memcmp p (fun i => p (1 + i)) (n - 1) == 0

/-- `buffer_storage::operator==`, storage_traits.hpp:52-55. -/
def buffer_eq {n : Nat} (data that : Bytes n) (beyond beyond' : Nat → Byte) : Bool :=
  memcmp (at0 data beyond) (at0 that beyond') n == 0

/-- `buffer_storage::operator!=`, storage_traits.hpp:57-60. -/
def buffer_ne {n : Nat} (data that : Bytes n) (beyond beyond' : Nat → Byte) : Bool :=
  memcmp (at0 data beyond) (at0 that beyond') n != 0

/-! ### Conversions -/

/-- What the preprocessor decided.
* `clear`: the compiler can clear padding bits (config.hpp:102-126; `false` is BOOST_ATOMIC_NO_CLEAR_PADDING);
* `bitCast`: BOOST_ATOMIC_DETAIL_BIT_CAST is available (bitwise_cast.hpp:32-44);
* `mayAlias`: BOOST_ATOMIC_DETAIL_STORAGE_TYPE_MAY_ALIAS (config.hpp:86-90). -/
structure Cfg where
  clear : Bool
  bitCast : Bool
  mayAlias : Bool

/-- What the library knows about a type `T` of `size` bytes.
* `mask`: its value bits, which `BOOST_ATOMIC_DETAIL_CLEAR_PADDING` keeps;
* `unique`: `has_unique_object_representations<T>`;
* `fp`: it is a floating-point type, so that `bitwise_fp_cast` is used (base_atomic<T, float>);
* `vs`: `value_size_of<T>` (bitwise_fp_cast.hpp:40-77; `sizeof(T)` unless float_sizes.hpp says otherwise);
* `align`: its alignment. -/
structure Ty where
  size : Nat
  mask : Bytes size
  unique : Bool
  fp : Bool
  vs : Nat
  vs_le : vs ≤ size
  align : Nat

/-- `BOOST_ATOMIC_DETAIL_CLEAR_PADDING(&x)`, config.hpp:102-126: a compiler builtin, taken to do what it
documents (MSVC's does not clear padding inside unions, config.hpp:118-119). -/
def clear_padding {n : Nat} (mask v : Bytes n) : Bytes n := fun i => v i &&& mask i

/-- `memcpy(&to, &from, k)` where `k` bytes exist in the source; string_ops.hpp:39-43. -/
def memcpy {n s : Nat} (k : Nat) (hk : k ≤ n) (to : Bytes s) (src : Bytes n) : Bytes s :=
  fun i => if h : i.1 < k then src ⟨i.1, Nat.lt_of_lt_of_le h hk⟩ else to i

/-- `clear_tail_padding_bits<ValueSize>(to)`, bitwise_cast.hpp:66-81. -/
def clear_tail_padding_bits {s : Nat} (valueSize : Nat) (to : Bytes s) : Bytes s :=
  if valueSize < s then fun i => if valueSize ≤ i.1 then 0 else to i else to

/-- `bitwise_cast_memcpy<To, FromValueSize, From>`, bitwise_cast.hpp:83-119.  `uninit` is the content of
the uninitialised union the bytes are copied to. -/
def bitwise_cast_memcpy {n s : Nat} (clear : Bool) (mask : Bytes n) (fromValueSize : Nat)
    (h : fromValueSize ≤ n) (uninit : Bytes s) (src : Bytes n) : Bytes s :=
  let from2 := if clear then clear_padding mask src else src
  clear_tail_padding_bits fromValueSize
    (memcpy (if fromValueSize < s then fromValueSize else s)
      (by split <;> omega) uninit from2)

/-- `__builtin_bit_cast`, and reading an object through a reference to another type of the same size. -/
def bit_cast {n s : Nat} (h : n = s) (src : Bytes n) : Bytes s := fun i => src (i.cast h.symm)

/-- `bitwise_cast<To, From>`, bitwise_cast.hpp:121-159: bit_cast when the sizes agree and `From` has unique
object representations, the copying version otherwise. -/
def bitwise_cast {n s : Nat} (c : Cfg) (mask : Bytes n) (unique : Bool) (uninit : Bytes s)
    (src : Bytes n) : Bytes s :=
  if h : (c.bitCast = true ∧ unique = true) ∧ n = s then bit_cast h.2 src
  else bitwise_cast_memcpy c.clear mask n (Nat.le_refl n) uninit src

/-- `bitwise_fp_cast<To, From>`, bitwise_fp_cast.hpp:80-110, with `vs = value_size_of<From>`. -/
def bitwise_fp_cast {n s : Nat} (c : Cfg) (mask : Bytes n) (vs : Nat) (hvs : vs ≤ n) (uninit : Bytes s)
    (src : Bytes n) : Bytes s :=
  if h : c.bitCast = true ∧ vs = n ∧ vs = s then bit_cast (h.2.1.symm.trans h.2.2) src
  else bitwise_cast_memcpy c.clear mask (if c.clear then n else vs) (by split <;> omega) uninit src

/-- The value converted to storage of `s` bytes: `bitwise_cast<storage_type>(v)` in base_atomic<T, void>
(atomic_impl.hpp:158, 179, 234, 247, 325-345) and `bitwise_fp_cast<storage_type>(v)` in base_atomic<T, float>
(atomic_impl.hpp:1181, 1194, 1217). -/
def toStorage (c : Cfg) (T : Ty) (s : Nat) (uninit : Bytes s) (v : Bytes T.size) : Bytes s :=
  if T.fp then bitwise_fp_cast c T.mask T.vs T.vs_le uninit v
  else bitwise_cast c T.mask T.unique uninit v

/-- The storage type has no padding: it is an integer or an array of `unsigned char`. -/
def ones (s : Nat) : Bytes s := fun _ => 0xff

/-- Storage converted to a value: `bitwise_cast<value_type>(x)` and `bitwise_fp_cast<value_type>(x)`,
atomic_impl.hpp:242, 247, 328, 345 and 1202, 1217, 1345, 1362. -/
def ofStorage (c : Cfg) (T : Ty) (s : Nat) (uninit : Bytes T.size) (w : Bytes s) : Bytes T.size :=
  if T.fp then bitwise_fp_cast c (ones s) s (Nat.le_refl s) uninit w
  else bitwise_cast c (ones s) true uninit w

/-- Negation of `cxchg_use_bitwise_cast`: `expected` is accessed as storage in place.
atomic_impl.hpp:206-214 (generic), 1167-1176 (floating point); atomic_ref_impl.hpp:163-168 and 1109-1117,
where the sizes are equal anyway. -/
def Reinterprets (c : Cfg) (T : Ty) (s storageAlign : Nat) : Prop :=
  c.mayAlias = true ∧ c.clear = false ∧ (if T.fp then T.vs else T.size) = s ∧ storageAlign < T.align

instance (c : Cfg) (T : Ty) (s a : Nat) : Decidable (Reinterprets c T s a) := by
  unfold Reinterprets; infer_instance

/-- The bytes of an unsigned integer of `s` bytes in memory, little- or big-endian. -/
def intBytes (le : Bool) (s : Nat) (x : BitVec (8 * s)) : Bytes s :=
  fun i => x.extractLsb' (8 * (if le then i.1 else s - 1 - i.1)) 8

/-- `sign_mask`, extra_fp_ops_generic.hpp:105, as bytes in memory. -/
def sign_mask (le : Bool) (s vs : Nat) : Bytes s := intBytes le s ((1 : BitVec (8 * s)) <<< (vs * 8 - 1))

/-- Integer xor on storage: bitwise, hence byte by byte. -/
def xorBytes {s : Nat} (a b : Bytes s) : Bytes s := fun i => a i ^^^ b i

/-- How negation is done.  `none`: by the compiler's unary minus (extra_fp_ops_generic.hpp:50-91 and
extra_fp_ops_emulated.hpp:42-62).  `some le`: by flipping the sign bit of the storage integer
(extra_fp_ops_generic.hpp:96-121), on a machine with the given integer byte order. -/
abbrev NegImpl := Option Bool

variable {Mode : Type}

/-- The operation table: base_atomic<T, void> (atomic_impl.hpp:228-276, 314-347), base_atomic<T, float>
(atomic_impl.hpp:1178-1365), and the same operations of base_atomic_ref (atomic_ref_impl.hpp:179-298 and
1132-1323) with `s = sizeof(T)`.  `uninit`, `uninit'` are the uninitialised bytes met by the conversions of a
call; `F` is the compiler's floating-point arithmetic.  The read-modify-write loops are
fp_ops_generic.hpp:42-70 and extra_fp_ops_generic.hpp:57-90, 134-172 (or, under a lock,
fp_ops_emulated.hpp:42-62, extra_fp_ops_emulated.hpp:42-102); the skeleton around them is supplied by the
machine that runs the table. -/
def table (c : Cfg) (T : Ty) (s storageAlign : Nat) (F : Mode → Fp T.size) (neg : NegImpl)
    (uninit : Op Mode T.size → Bytes s) (uninit' : Op Mode T.size → Bytes T.size) (op : Op Mode T.size) :
    Code (Bytes s) (Ret T.size) :=
  let to := toStorage c T s (uninit op)
  let of := ofStorage c T s (uninit' op)
  let update (f : Bytes T.size → Bytes T.size) : Bytes s → Bytes s := fun w => to (f (of w))
  match op with
  | .load => .load fun w => .val (of w)
  | .store v => .store (to v) .unit
  | .exchange v => .rmw (fun _ => to v) fun w _ => .val (of w)
  | .casStrong e d =>
    if h : Reinterprets c T s storageAlign ∧ T.size = s then
      .casStrong (bit_cast h.2 e) (to d) fun ok x => .cas ok (bit_cast h.2.symm x)
    else .casStrong (to e) (to d) fun ok x => .cas ok (of x)
  | .casWeak e d =>
    if h : Reinterprets c T s storageAlign ∧ T.size = s then
      .casWeak (bit_cast h.2 e) (to d) fun ok x => .cas ok (bit_cast h.2.symm x)
    else .casWeak (to e) (to d) fun ok x => .cas ok (of x)
  | .fetchAdd m v => .rmw (update fun x => (F m).add x v) fun w _ => .val (of w)
  | .fetchSub m v => .rmw (update fun x => (F m).sub x v) fun w _ => .val (of w)
  | .add m v => .rmw (update fun x => (F m).add x v) fun w _ => .val ((F m).add (of w) v)
  | .sub m v => .rmw (update fun x => (F m).sub x v) fun w _ => .val ((F m).sub (of w) v)
  | .opaqueAdd m v => .rmw (update fun x => (F m).add x v) fun _ _ => .unit
  | .opaqueSub m v => .rmw (update fun x => (F m).sub x v) fun _ _ => .unit
  | .fetchNegate m => match neg with
    | none => .rmw (update (F m).neg) fun w _ => .val (of w)
    | some le => .rmw (fun w => xorBytes w (sign_mask le s T.vs)) fun w _ => .val (of w)
  | .negate m => match neg with
    | none => .rmw (update (F m).neg) fun w _ => .val ((F m).neg (of w))
    | some le => .rmw (fun w => xorBytes w (sign_mask le s T.vs)) fun _ w' => .val (of w')
  | .opaqueNegate m => match neg with
    | none => .rmw (update (F m).neg) fun _ _ => .unit
    | some le => .rmw (fun w => xorBytes w (sign_mask le s T.vs)) fun _ _ => .unit

/-- The constructor of an atomic_ref prepares the object it is attached to: the base class clears padding
if it can (atomic_ref_impl.hpp:94-97), and the floating-point class otherwise clears the bytes after the
value (atomic_ref_impl.hpp:1121-1128, 1276-1285).  Here without interference; `refMachine` below runs it
next to other operations. -/
def refInit (c : Cfg) (T : Ty) (obj : Bytes T.size) : Bytes T.size :=
  if c.clear then clear_padding T.mask obj
  else if T.fp ∧ T.vs ≠ T.size then clear_tail_padding_bits T.vs obj else obj

/-- The comparison made by the waiting operations: `old_val` converted to storage against the storage
(atomic_impl.hpp:283, 296, 310; `new_val == old_val` in wait_ops_generic.hpp:66-70). -/
def waitEq (c : Cfg) (T : Ty) (s : Nat) (uninit : Bytes s) (old : Bytes T.size) (w : Bytes s)
    (beyond beyond' : Nat → Byte) : Bool :=
  buffer_eq w (toStorage c T s uninit old) beyond beyond'

/-! ### Vocabulary for the theorems -/

/-- Facts about the type that hold by what the traits mean. -/
structure Ty.Wf (T : Ty) : Prop where
  unique_full : T.unique = true → Full T.mask
  fp_full : T.fp = true → T.vs = T.size → Full T.mask

/-- The library knows where the padding is. -/
def Known (c : Cfg) (T : Ty) : Prop :=
  c.clear = true ∨ (T.fp = false ∧ Full T.mask) ∨ (T.fp = true ∧ Prefix T.mask T.vs)

/-- Where the sign of an IEEE value of type `T` is, and that negation inverts exactly it.
Little-endian: the top bit of the last value byte.  Big-endian: the top bit of the first byte, with the
value filling the storage. -/
def SignOk {Mode : Type} (T : Ty) (s : Nat) (F : Mode → Fp T.size) (le : Bool) : Prop :=
  ∃ b, ∃ hb : b < T.size, 0 < T.vs ∧ (if le then b = T.vs - 1 else T.vs = s ∧ b = 0) ∧
    T.mask ⟨b, hb⟩ &&& 0x80 = 0x80 ∧ ∀ m v, SameValue T.mask ((F m).neg v) (flipTop b v)

/-! ### Constructing references while other references are in use -/

/-- The bits the constructor of an atomic_ref leaves alone (see `refInit`). -/
def attachMask (c : Cfg) (T : Ty) : Bytes T.size :=
  if c.clear then T.mask
  else if T.fp ∧ T.vs ≠ T.size then fun i => if i.1 < T.vs then 0xff else 0
  else fun _ => 0xff

/-- The object referred to; `attached` records that some atomic_ref to it has been constructed, without
which no operation can be called. -/
structure RefSh (n : Nat) where
  obj : Bytes n
  attached : Bool

/-- Progress of a call: not begun; the constructor has dealt with the bytes before `k`; the constructor has
read byte `k`, which is partly padding, and will write it back; finished. -/
inductive RefLoc (n : Nat) where
  | begin
  | clearing (k : Nat)
  | read (k : Nat) (b : Byte)
  | fin (r : Ret n)

/-- Replace one byte. -/
def setByte {n : Nat} (w : Bytes n) (k : Nat) (b : Byte) : Bytes n := fun i => if i.1 = k then b else w i

/-- Steps.  The constructor (atomic_ref_impl.hpp:94-97 and 1121-1128) uses plain accesses: a byte without
padding is not touched, a byte of padding only is overwritten by zero, a byte with both is read, masked and
written back.  Simplification: the bytes are treated in order and one by one; a compiler may merge the
accesses.  The operations are those of `table` with the storage being the object, each in one step. -/
inductive RefStep {n : Nat} (keep : Bytes n) (code : Op Mode n → Code (Bytes n) (Ret n)) :
    RefOp Mode n → RefSh n → RefLoc n → RefSh n → RefLoc n → Prop where
  | enter {m} : RefStep keep code .attach m .begin m (.clearing 0)
  | skip {m k} (h : k < n) : keep ⟨k, h⟩ = 0xff →
      RefStep keep code .attach m (.clearing k) m (.clearing (k + 1))
  | zero {m k} (h : k < n) : keep ⟨k, h⟩ = 0 →
      RefStep keep code .attach m (.clearing k) { m with obj := setByte m.obj k 0 } (.clearing (k + 1))
  | read {m k} (h : k < n) : keep ⟨k, h⟩ ≠ 0xff → keep ⟨k, h⟩ ≠ 0 →
      RefStep keep code .attach m (.clearing k) m (.read k (m.obj ⟨k, h⟩))
  | write {m k b} (h : k < n) :
      RefStep keep code .attach m (.read k b) { m with obj := setByte m.obj k (b &&& keep ⟨k, h⟩) }
        (.clearing (k + 1))
  | leave {m k} : n ≤ k → RefStep keep code .attach m (.clearing k) { m with attached := true } (.fin .unit)
  | call {m op w' r} : m.attached = true → (code op).Run m.obj w' r →
      RefStep keep code (.call op) m .begin { m with obj := w' } (.fin r)

/-- Any number of constructions and operations, interleaved. -/
def refMachine {n : Nat} (keep : Bytes n) (code : Op Mode n → Code (Bytes n) (Ret n)) :
    Machine (RefSh n) (RefOp Mode n) (Ret n) where
  Loc := RefLoc n
  start _ := .begin
  step := RefStep keep code
  result
    | .fin r => some r
    | _ => none

end Verif.Bytes
