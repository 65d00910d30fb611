import Verif.Select.Model
import Verif.Mca.Model

/-
From calls of the API to the code that is executed: for a target of compilation, which back end's instructions a call on
an object of a given size consists of.  This joins `Verif.Select` (which class template specialisation is selected)
with `Verif.Order` (the instructions of the back ends) and `Verif.Mca` (programs made of them).

Paths are relative to /repo/include/boost/atomic/detail.

Simplifications.
* Objects for which the lock pool is used have no code here (`Verif.Concurrent`, `Verif.Weak`).
* The intrinsics `__atomic_*` are what `Verif.Order` says of `gccAtomic`, and on x86 of `gccAtomicX86`, for all sizes; on
  POWER and ARM before version 8 they are the code of the back ends for these processors (trusted).
* How many rounds a loop makes, and which of several forms an additional operation has, is not determined: `Emits` is a
  relation, and theorems hold for all it allows.
-/

namespace Verif.Target

open Verif.Order Verif.Mca

/-- A target of compilation: what `Verif.Select` knows about it, and what more the instructions depend on. -/
structure Target extends Select.Platform where
  /-- `sizeof(void*)` -/
  pointer : Nat
  /-- `BOOST_ATOMIC_DETAIL_AARCH64_HAS_LSE`, `..._HAS_RCPC` (caps_arch_gcc_aarch64.hpp:26–53) -/
  lse : Bool
  rcpc : Bool
  /-- the compiler's intrinsics do not use the RCPC instructions (core_ops_gcc_atomic.hpp:84: before gcc 13.1 and
  clang 16) -/
  oldLoads : Bool
  /-- objects of two words are loaded and stored by vector instructions (core_arch_ops_gcc_x86.hpp:451–806, 914–1166,
  core_arch_ops_msvc_x86.hpp:571–758, 822–895) -/
  vec : Bool
  /-- `__powerpc64__` or `__PPC64__` (ops_gcc_ppc_common.hpp:49) -/
  ppc64 : Bool
  /-- the Windows back end: the processor is an x86 -/
  x86 : Bool

/-- Targets that platform.hpp produces (`Select.Platform.Ok`).  Not modelled: the intrinsics on SPARC and Alpha, and with
Microsoft's library on ARM. -/
def Target.Ok (t : Target) : Prop :=
  t.toPlatform.Ok ∧
  match t.core, t.arch with
  | .gcc_atomic _, .gcc_sparc | .gcc_atomic _, .gcc_alpha | .gcc_atomic _, .msvc_arm => False
  | _, _ => True

/-- The processor (platform.hpp:52–93; without a back end for the architecture, 95–142). -/
def Target.cpu (t : Target) : Cpu :=
  match t.arch with
  | .gcc_x86_32 _ | .gcc_x86_64 _ | .msvc_x86_32 _ | .msvc_x86_64 _ _ _ => .x86
  | .gcc_aarch64 => .aarch64
  | .gcc_aarch32 => .aarch32
  | .gcc_arm _ _ _ => .arm
  | .gcc_ppc _ _ _ => .power
  | .gcc_sparc => .sparc
  | .gcc_alpha => .alpha
  | .msvc_arm => .armMsvc
  | .none =>
    match t.core with
    | .gcc_sync _ => .sync
    | .linux_arm => .arm
    | .windows => if t.x86 then .x86 else .interlocked
    | _ => .atomic

/-- The code of `core_arch_operations` with storage of `m` bytes: core_arch_ops_gcc_x86.hpp:116, 225, 334, 803, 811,
1164; core_arch_ops_msvc_x86.hpp:151, 222, 397, 773, 781, 889; core_arch_ops_gcc_aarch64.hpp:49, 455, 861, 1265, 1684;
core_arch_ops_gcc_aarch32.hpp:53, 335, 617, 914; core_arch_ops_gcc_arm.hpp:60, 325, 719, 1124; core_arch_ops_gcc_ppc.hpp:85,
345, 713, 1081; core_arch_ops_gcc_sparc.hpp:133, 204; core_arch_ops_gcc_alpha.hpp:91, 602; core_arch_ops_msvc_arm.hpp:154,
319, 484, 649. -/
def Target.archBackend (t : Target) (m : Nat) : Backend :=
  match t.arch with
  | .gcc_x86_32 _ => if m = 8 then .x86Wide false t.vec else .gccX86
  | .gcc_x86_64 _ => if m = 16 then .x86Wide false t.vec else .gccX86
  | .msvc_x86_32 _ => if m = 8 then .x86Wide true t.vec else .msvcX86
  | .msvc_x86_64 _ _ _ => if m = 16 then .x86Wide true t.vec else .msvcX86
  | .gcc_aarch64 => if m = 16 then .aarch64Wide else .aarch64 t.lse t.rcpc
  | .gcc_aarch32 => .aarch32 (decide (m = 8))
  | .gcc_arm _ _ _ => if m = 8 then .gccArmWide else .gccArm
  | .gcc_ppc _ _ _ => if t.ppc64 then .ppc64 else .ppc32
  | .gcc_sparc => .sparc
  | .gcc_alpha => .alpha
  | .msvc_arm => .msvcArm
  -- there is no such class without a back end for the architecture (`Arch.storage`)
  | .none => .gccAtomic

/-- The code of a specialisation of `core_operations` with storage of `m` bytes: core_ops_gcc_atomic.hpp:53–156,
core_ops_gcc_sync.hpp:60–189 (line 76 for the width), core_ops_linux_arm.hpp:86–162, core_ops_windows.hpp:105–193. -/
def Target.coreBackend (t : Target) (m : Nat) : Backend :=
  match t.core with
  | .gcc_sync _ => if m ≤ t.pointer then .gccSync else .gccSyncWide
  | .linux_arm => .linuxArm
  | .windows => .windows t.x86
  | _ =>
    match t.arch with
    | .gcc_x86_32 _ | .gcc_x86_64 _ | .msvc_x86_32 _ | .msvc_x86_64 _ _ _ => .gccAtomicX86
    | .gcc_arm _ _ _ => if m = 8 then .gccArmWide else .gccArm
    | .gcc_ppc _ _ _ => .ppc64
    | _ => .gccAtomic

/-- `core_operations< n >` (core_operations.hpp:36–41): the specialisation of the compiler's or the system's back end, or
the one for the architecture, if there is one; else the lock pool. -/
def Target.backend (t : Target) (n : Nat) : Option Backend :=
  match t.toPlatform.specsFor n with
  | o :: _ => some (t.coreBackend o.sizeofStorage)
  | [] => (t.arch.storage n).map t.archBackend

/-- `core_operations< n >::load`: core_ops_gcc_atomic.hpp:82–93 passes it on to `core_arch_operations`, of the size of the
storage, where the compiler does not know RCPC. -/
def Target.loadBackend (t : Target) (n : Nat) : Option Backend :=
  match t.toPlatform.specsFor n, t.core, t.arch with
  | o :: _, .gcc_atomic _, .gcc_aarch64 =>
    if t.rcpc && t.oldLoads then (t.arch.storage o.sizeofStorage).map t.archBackend else t.backend n
  | _, _, _ => t.backend n

/-- The back end of `atomic_thread_fence` (fence_operations.hpp:20–33, fence_arch_operations.hpp:20–36): the compiler's or
the system's, else that of the architecture; else (none) fence_operations_emulated.hpp, which uses the lock pool. -/
def Target.fenceBackend (t : Target) : Option Backend :=
  match t.core, t.arch with
  | .none, .none => none
  | .none, _ => some (t.archBackend 0)
  | _, _ => some (t.coreBackend 0)

/-- `extra_operations< Base, Size, Signed, true >` is specialised for the architecture: extra_ops_gcc_x86.hpp:35, 455, 953,
1452; extra_ops_gcc_aarch64.hpp:369, 622, 875, 1128, 1409; extra_ops_gcc_aarch32.hpp:363, 612, 860, 1121;
extra_ops_gcc_arm.hpp:340, 593, 843, 1106; extra_ops_gcc_ppc.hpp:292, 698, 903 (none for two bytes, although
`extra_operations_gcc_ppc` has this size).  platform.hpp:52–93 names no such back end for Microsoft's compilers: the files
extra_ops_msvc_x86.hpp and extra_ops_msvc_arm.hpp are not used. -/
def extraSpecialised : Select.Arch → Nat → Bool
  | .gcc_x86_32 _, m => m = 1 || m = 2 || m = 4
  | .gcc_x86_64 _, m => m = 1 || m = 2 || m = 4 || m = 8
  | .gcc_aarch64, m => m = 1 || m = 2 || m = 4 || m = 8 || m = 16
  | .gcc_aarch32, m => m = 1 || m = 2 || m = 4 || m = 8
  | .gcc_arm b h d, m => (m = 1 && b) || (m = 2 && h) || m = 4 || (m = 8 && d)
  | .gcc_ppc b _ d, m => (m = 1 && b) || m = 4 || (m = 8 && d)
  | _, _ => false

/-- An object: a variable with `sizeof(T)`, accessed through `atomic< T >` or through `atomic_ref< T >`. -/
structure Obj where
  size : Nat
  ref : Bool

/-- The argument of `core_operations< ... >`: atomic_impl.hpp:72, atomic_ref_impl.hpp:73–77; none: `atomic_ref` uses the
lock pool. -/
def Target.classOf (t : Target) (x : Obj) : Option Nat :=
  if x.ref then (if t.toPlatform.refLockFree x.size then some x.size else none) else some (Select.storage_size_of x.size)

/-- A call of the API, or an access to a variable by the program itself.  `l` is the variable. -/
inductive Call where
  | user (x : Instr) (l : Nat)
  /-- `load`, `test`, conversions, and the loads of the waiting operations -/
  | load (o : MO) (l : Nat)
  | store (o : MO) (l : Nat)
  | exchange (o : MO) (l : Nat)
  /-- `compare_exchange_*` that succeeded, or failed, with the orders for both cases -/
  | cas (ok : Bool) (success failure : MO) (l : Nat)
  /-- `fetch_add`, `fetch_sub`, `fetch_and`, `fetch_or`, `fetch_xor` of integers, pointers and enumerations -/
  | arith (o : MO) (l : Nat)
  /-- the additional operations: `fetch_negate`, `fetch_complement`, `negate`, `add`, …, `opaque_*`, `*_and_test`,
  `bit_test_and_*` -/
  | extra (o : MO) (l : Nat)
  /-- floating point operations -/
  | fp (o : MO) (l : Nat)
  /-- `atomic_flag` (atomic_flag_impl.hpp:51: 4 bytes) -/
  | testAndSet (o : MO) (l : Nat)
  | clear (o : MO) (l : Nat)
  | fence (o : MO)

/-- The code of a call on the objects `obj`. -/
inductive Target.Emits (t : Target) (obj : Nat → Obj) : Call → Item → Prop where
  | user x l : Emits t obj (.user x l) (.user x l)
  /-- atomic_impl.hpp:237–243 and the same function of the other classes -/
  | load {o l n c b} : t.classOf (obj l) = some c → t.loadBackend c = some b → Emits t obj (.load o l) (.op b .load o n l)
  /-- atomic_impl.hpp:228–235 -/
  | store {o l n c b} : t.classOf (obj l) = some c → t.backend c = some b → Emits t obj (.store o l) (.op b .store o n l)
  /-- atomic_impl.hpp:245–248 -/
  | exchange {o l n c b} : t.classOf (obj l) = some c → t.backend c = some b →
      Emits t obj (.exchange o l) (.exchange b o n l)
  /-- atomic_impl.hpp:250–276, 315–345 -/
  | casOk {s f l n c b} : t.classOf (obj l) = some c → t.backend c = some b →
      Emits t obj (.cas true s f l) (.op b (.casOk f) s n l)
  | casFail {s f l n c b} : t.classOf (obj l) = some c → t.backend c = some b →
      Emits t obj (.cas false s f l) (.op b (.casFail f) s n l)
  /-- atomic_impl.hpp:380–390 and so on: the operation of the back end, if the storage has the size of the class; else
  extending_cas_based_arithmetic.hpp:39–64 -/
  | arith {o l n c b} : t.classOf (obj l) = some c → t.backend c = some b →
      (t.toPlatform.ops c).sizeofStorage = c → Emits t obj (.arith o l) (.op b .rmw o n l)
  | arithWide {o l n c b} : t.classOf (obj l) = some c → t.backend c = some b →
      (t.toPlatform.ops c).sizeofStorage ≠ c → Emits t obj (.arith o l) (.op b .loop o n l)
  /-- atomic_impl.hpp:365, 638, 1160, 1385: `extra_operations< core_operations >`, whose size is that of the storage
  (extra_operations_fwd.hpp:28): inline assembly for the architecture -/
  | extraArch {o l n c b} : t.classOf (obj l) = some c → t.backend c = some b →
      extraSpecialised t.arch (t.toPlatform.ops c).sizeofStorage = true →
      Emits t obj (.extra o l) (.op (t.archBackend (t.toPlatform.ops c).sizeofStorage) .rmw o n l)
  /-- or extra_ops_generic.hpp, which the specialisations are derived from: an operation of the back end or a loop -/
  | extraCore {o l n c b} : t.classOf (obj l) = some c → t.backend c = some b → Emits t obj (.extra o l) (.op b .rmw o n l)
  | extraLoop {o l n c b} : t.classOf (obj l) = some c → t.backend c = some b → Emits t obj (.extra o l) (.op b .loop o n l)
  /-- platform.hpp:178–191: there are only the generic implementations, fp_ops_generic.hpp, extra_fp_ops_generic.hpp -/
  | fp {o l n c b} : t.classOf (obj l) = some c → t.backend c = some b → Emits t obj (.fp o l) (.op b .loop o n l)
  /-- atomic_flag_impl.hpp:84–95 -/
  | testAndSet {o l n b} : t.backend 4 = some b → Emits t obj (.testAndSet o l) (.exchange b o n l)
  | clear {o l b} : t.backend 4 = some b → Emits t obj (.clear o l) (.clear b o l)
  /-- ../fences.hpp:38–41 -/
  | fence {o b} : t.fenceBackend = some b → Emits t obj (.fence o) (.fence b o)

/-- The items of a thread are the code of these calls. -/
def Target.Compiled (t : Target) (obj : Nat → Obj) (calls : List Call) (items : List Item) : Prop :=
  calls.length = items.length ∧ ∀ (i : Nat) c it, calls[i]? = some c → items[i]? = some it → t.Emits obj c it

end Verif.Target
