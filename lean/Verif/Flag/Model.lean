import Verif.Concurrent.Model
import Verif.Wait.Model
import Verif.Flag.Spec

/-!
`atomic_flag` (include/boost/atomic/detail/atomic_flag_impl.hpp) on a storage word of `8 * n` bits; the library
asks for 4 bytes (line 51) and may get a wider word.  Memory orders are the subject of `Verif.Order`.
-/

namespace Verif.Flag

open Verif.Wait

/-- How the back end implements `test_and_set` and `clear`. -/
inductive Backend where
  /-- `!!exchange(storage, 1)` and `store(storage, 0)`: core_ops_cas_based.hpp:77–85,
  core_operations_emulated.hpp:175–185, core_ops_windows.hpp:94–102, and all core_arch_ops_*.hpp
  (for example core_arch_ops_gcc_x86.hpp:104–112, core_arch_ops_gcc_aarch64.hpp:1253–1261); also
  core_ops_gcc_sync.hpp:176–188, where `__sync_lock_test_and_set(&storage, 1)` exchanges and
  `__sync_lock_release` writes 0. -/
  | exchange
  /-- `__atomic_test_and_set` and `__atomic_clear`, core_ops_gcc_atomic.hpp:147–155.  These act on the one byte
  the pointer addresses: the lowest-order byte on little-endian machines, the highest-order byte on big-endian
  machines; `__atomic_test_and_set` stores there a target-dependent non-zero value `tv`
  (`__GCC_ATOMIC_TEST_AND_SET_TRUEVAL`).  Simplification: the byte access is indivisible with respect to accesses
  of the whole word. -/
  | intrinsic (bigEndian : Bool) (tv : BitVec 8)

/-- Lowest bit of the byte at the lowest address, in a word of `n` bytes. -/
def byteShift (bigEndian : Bool) (n : Nat) : Nat := if bigEndian then 8 * (n - 1) else 0

/-- The byte at the lowest address. -/
def byte0 (bigEndian : Bool) {n : Nat} (w : BitVec (8 * n)) : BitVec 8 :=
  (w >>> byteShift bigEndian n).setWidth 8

/-- Replace the byte at the lowest address. -/
def setByte0 (bigEndian : Bool) {n : Nat} (w : BitVec (8 * n)) (b : BitVec 8) : BitVec (8 * n) :=
  (w &&& ~~~((0xff#8).setWidth (8 * n) <<< byteShift bigEndian n)) |||
    (b.setWidth (8 * n) <<< byteShift bigEndian n)

/-- `atomic_flag_impl() : m_storage(0u)`, atomic_flag_impl.hpp:60–62. -/
def construct (n : Nat) : BitVec (8 * n) := 0

/-- `test` (77–82), `test_and_set` (84–87), `clear` (89–95) of atomic_flag_impl.hpp. -/
def table (b : Backend) (n : Nat) : Op → Code (BitVec (8 * n)) Ret
  | .test => .load fun w => .flag (decide (w ≠ 0))
  | .testAndSet =>
    match b with
    | .exchange => .rmw (fun _ => 1#(8 * n)) (fun old _ => .flag (decide (old ≠ 0)))
    | .intrinsic be tv => .rmw (fun w => setByte0 be w tv) (fun old _ => .flag (decide (byte0 be old ≠ 0)))
  | .clear =>
    match b with
    | .exchange => .store 0 .unit
    | .intrinsic be _ => .rmw (fun w => setByte0 be w 0) (fun _ _ => .unit)

/-- `static_cast< storage_type >(old_val)`, atomic_flag_impl.hpp:102, 115, 129. -/
def ofBool (n : Nat) (b : Bool) : BitVec (8 * n) := if b then 1 else 0

/-- `wait`, atomic_flag_impl.hpp:97–103; `p` is `wait_operations::wait`. -/
def wait (n : Nat) (p : BitVec (8 * n) → Prog (BitVec (8 * n)) (BitVec (8 * n))) (old : Bool) :
    Prog (BitVec (8 * n)) Bool := do
  let v ← p (ofBool n old)
  return decide (v ≠ 0)

/-- `wait_until` and `wait_for`, atomic_flag_impl.hpp:105–131; `p` is the function of `wait_operations` with the
time argument. -/
def timedWait (n : Nat) (p : BitVec (8 * n) → Prog (BitVec (8 * n)) (Timed (BitVec (8 * n)))) (old : Bool) :
    Prog (BitVec (8 * n)) (Bool × Bool) := do
  let r ← p (ofBool n old)
  return (decide (r.1 ≠ 0), r.2)

/-- Back ends whose words for a set flag equal `static_cast<storage_type>(true)`. -/
def Backend.Plain : Backend → Prop
  | .exchange => True
  | .intrinsic be tv => be = false ∧ tv = 1

end Verif.Flag
