/-
Model of the compile-time selection of an implementation and of storage for an object size
(C16, C32, C39), and of the lock selected for an object (C17).

* `include/boost/atomic/detail/platform.hpp` (choice of back ends),
  `caps_*.hpp`, `capabilities.hpp` (the `BOOST_ATOMIC_INT*_LOCK_FREE` macros),
  `core_operations.hpp`, `core_arch_operations.hpp` (primary templates),
  `core_ops_gcc_atomic.hpp` 158-301, `core_ops_gcc_sync.hpp` 191-257, `core_ops_linux_arm.hpp`
  145-162, `core_ops_windows.hpp` 105-193, `core_arch_ops_*.hpp` (which sizes are specialized),
  `core_operations_emulated.hpp` 33-67, `storage_traits.hpp` 69-179,
  `atomic_impl.hpp` 65-87, `atomic_ref_impl.hpp` 55-90.

A class template specialization is an entry of a list; the list may contain several entries
for one size, which is a redefinition error in C++ and is not hidden by the model.

Simplifications: the `Signed` and `Interprocess` parameters are dropped (every specialization
exists for all of their values).  Preprocessor conditions that depend on compiler versions are
represented by the macros they define.  The macros `__GCC_ATOMIC_*_LOCK_FREE` are numbers: 0
never, 1 sometimes, 2 always lock-free.
-/

namespace Verif.Select

/-! ### Storage -/

/-- `storage_size_of< T >::value` (storage_traits.hpp:174-179) for `sizeof(T) = size`. -/
def storage_size_of (size : Nat) : Nat :=
  if size = 3 then 4
  else if 5 ≤ size ∧ size ≤ 7 then 8
  else if 9 ≤ size ∧ size ≤ 15 then 16
  else size

/-- What the ABI says about integer types: `alignof` of `std::uint16_t`, `std::uint32_t`,
`std::uint64_t`, and of `uint128_type` (or `std::max_align_t` if there is no 128-bit integer). -/
structure Abi where
  align16 : Nat
  align32 : Nat
  align64 : Nat
  align128 : Nat

/-- `storage_traits< Size >::native_alignment` (storage_traits.hpp:69-170). -/
def native_alignment (abi : Abi) (size : Nat) : Nat :=
  if size = 2 then abi.align16
  else if size = 4 then abi.align32
  else if size = 8 then abi.align64
  else if size = 16 then abi.align128
  else 1

/-- `storage_traits< Size >::alignment` (storage_traits.hpp:69-170). -/
def traits_alignment (size : Nat) : Nat :=
  if size = 1 then 1
  else if size = 2 then 2
  else if size = 4 then 4
  else if size = 8 then 8
  else 16

/-- `sizeof` of a class with a member of `size` bytes aligned to `align`. -/
def paddedSize (size align : Nat) : Nat := (size + align - 1) / align * align

/-- `sizeof(storage_traits< Size >::type)`: an integer, or `buffer_storage< Size, 1 >`, or for 16
bytes without a 128-bit integer `buffer_storage< 16, align128 >`. -/
def traits_sizeof (abi : Abi) (size : Nat) : Nat :=
  if size = 16 then paddedSize 16 abi.align128 else size

/-! ### Operations -/

/-- How the operations of a class are implemented. -/
inductive Kind where
  /-- one intrinsic or instruction sequence on the whole storage; `always` says whether the
  hardware always executes it without locks -/
  | native (always : Bool)
  /-- the lock pool -/
  | locked
  deriving DecidableEq, Repr

/-- The constants of a `core_operations` class that its users see. -/
structure Ops where
  /-- `sizeof(storage_type)` -/
  sizeofStorage : Nat
  /-- `storage_alignment` -/
  alignment : Nat
  /-- `is_always_lock_free` -/
  is_always_lock_free : Bool
  kind : Kind
  deriving DecidableEq, Repr

/-- `core_operations_emulated< Size, Alignment >` (core_operations_emulated.hpp:33-67). -/
def emulated (abi : Abi) (size align : Nat) : Ops where
  sizeofStorage :=
    if native_alignment abi size ≤ align then traits_sizeof abi size else paddedSize size align
  alignment := if traits_alignment size ≤ align then traits_alignment size else align
  is_always_lock_free := false
  kind := .locked

/-- A class whose storage is the `n`-byte integer and whose operations are native
(`core_operations_gcc_atomic` 53-67, `core_operations_gcc_sync` 37-75, `core_operations_windows`
45-75, and the `core_arch_operations` specializations).  Classes derived from it
(`extending_cas_based_arithmetic< Base, m >`, `core_operations_cas_based< Base >`,
`core_arch_operations< 1u > : core_arch_operations< 4u >`) inherit its storage and constants. -/
def nativeOps (n : Nat) (always : Bool) : Ops := ⟨n, traits_alignment n, true, .native always⟩

/-! ### Architecture-specific back ends -/

/-- `BOOST_ATOMIC_DETAIL_CORE_ARCH_BACKEND` (platform.hpp:52-93) with the feature macros that
select specializations. -/
inductive Arch where
  /-- no back end for this architecture, or `BOOST_ATOMIC_FORCE_FALLBACK` -/
  | none
  /-- caps_arch_gcc_x86.hpp: `__x86_64__`, `..._X86_HAS_CMPXCHG8B` (only on 32-bit),
  `..._X86_HAS_CMPXCHG16B` (only on 64-bit) -/
  | gcc_x86_32 (cmpxchg8b : Bool)
  | gcc_x86_64 (cmpxchg16b : Bool)
  | gcc_aarch64
  | gcc_aarch32
  /-- caps_arch_gcc_arm.hpp: `HAS_LDREXB_STREXB`, `HAS_LDREXH_STREXH`, `HAS_LDREXD_STREXD` -/
  | gcc_arm (ldrexb ldrexh ldrexd : Bool)
  /-- caps_arch_gcc_ppc.hpp: `HAS_LBARX_STBCX`, `HAS_LHARX_STHCX`, `HAS_LDARX_STDCX` -/
  | gcc_ppc (lbarx lharx ldarx : Bool)
  | gcc_sparc
  | gcc_alpha
  | msvc_arm
  /-- caps_arch_msvc_x86.hpp: 32-bit with `..._CMPXCHG8B`; whether the 8- and 16-bit
  interlocked intrinsics exist does not matter on 32-bit (inline assembler is used) -/
  | msvc_x86_32 (cmpxchg8b : Bool)
  /-- 64-bit: `BOOST_ATOMIC_INTERLOCKED_COMPARE_EXCHANGE8`, `...16`, and `..._CMPXCHG16B` -/
  | msvc_x86_64 (ic8 ic16 cmpxchg16b : Bool)
  deriving DecidableEq, Repr

/-- The storage size of the specialization `core_arch_operations< Size >`, if there is one. -/
def Arch.storage : Arch → Nat → Option Nat
  | .none, _ => Option.none
  -- core_arch_ops_gcc_x86.hpp:116, 225, 334, 803
  | .gcc_x86_32 d, n =>
    if n = 1 then some 1 else if n = 2 then some 2 else if n = 4 then some 4
    else if n = 8 ∧ d then some 8 else Option.none
  -- core_arch_ops_gcc_x86.hpp:116, 225, 334, 811, 1164
  | .gcc_x86_64 d, n =>
    if n = 1 then some 1 else if n = 2 then some 2 else if n = 4 then some 4
    else if n = 8 then some 8 else if n = 16 ∧ d then some 16 else Option.none
  -- core_arch_ops_gcc_aarch64.hpp:49, 455, 861, 1265, 1684
  | .gcc_aarch64, n =>
    if n = 1 then some 1 else if n = 2 then some 2 else if n = 4 then some 4
    else if n = 8 then some 8 else if n = 16 then some 16 else Option.none
  -- core_arch_ops_gcc_aarch32.hpp:53, 335, 617, 914
  | .gcc_aarch32, n =>
    if n = 1 then some 1 else if n = 2 then some 2 else if n = 4 then some 4
    else if n = 8 then some 8 else Option.none
  -- core_arch_ops_gcc_arm.hpp:60, 325 / 591 and 653, 719 / 985 and 1047, 1124
  | .gcc_arm b h d, n =>
    if n = 1 then some (if b then 1 else 4) else if n = 2 then some (if h then 2 else 4)
    else if n = 4 then some 4 else if n = 8 ∧ d then some 8 else Option.none
  -- core_arch_ops_gcc_ppc.hpp:85, 345 / 605 and 657, 713 / 973 and 1025, 1081
  | .gcc_ppc b h d, n =>
    if n = 1 then some (if b then 1 else 4) else if n = 2 then some (if h then 2 else 4)
    else if n = 4 then some 4 else if n = 8 ∧ d then some 8 else Option.none
  -- core_arch_ops_gcc_sparc.hpp:133, 139, 145, 204
  | .gcc_sparc, n =>
    if n = 1 then some 4 else if n = 2 then some 4 else if n = 4 then some 4
    else if n = 8 then some 8 else Option.none
  -- core_arch_ops_gcc_alpha.hpp:91, 352, 414, 477, 539, 602
  | .gcc_alpha, n =>
    if n = 1 then some 4 else if n = 2 then some 4 else if n = 4 then some 4
    else if n = 8 then some 8 else Option.none
  -- core_arch_ops_msvc_arm.hpp:154, 319, 484, 649
  | .msvc_arm, n =>
    if n = 1 then some 1 else if n = 2 then some 2 else if n = 4 then some 4
    else if n = 8 then some 8 else Option.none
  -- core_arch_ops_msvc_x86.hpp:151, 222 or 266, 397 or 441, 773
  | .msvc_x86_32 d, n =>
    if n = 1 then some 1 else if n = 2 then some 2 else if n = 4 then some 4
    else if n = 8 ∧ d then some 8 else Option.none
  -- core_arch_ops_msvc_x86.hpp:151, 222 / 387, 397 / 562, 781, 889
  | .msvc_x86_64 b h d, n =>
    if n = 1 then some (if b then 1 else 4) else if n = 2 then some (if h then 2 else 4)
    else if n = 4 then some 4 else if n = 8 then some 8
    else if n = 16 ∧ d then some 16 else Option.none

/-- `BOOST_ATOMIC_INT{8*Size}_LOCK_FREE` as defined by the architecture's header, 0 if not defined
(caps_arch_*.hpp). -/
def Arch.lockFree : Arch → Nat → Nat
  | .none, _ => 0
  -- caps_arch_gcc_x86.hpp:60-67
  | .gcc_x86_32 d, n => if n = 1 ∨ n = 2 ∨ n = 4 ∨ (n = 8 ∧ d = true) then 2 else 0
  | .gcc_x86_64 d, n => if n = 1 ∨ n = 2 ∨ n = 4 ∨ n = 8 ∨ (n = 16 ∧ d = true) then 2 else 0
  -- caps_arch_gcc_aarch64.hpp:55-59
  | .gcc_aarch64, n => if n = 1 ∨ n = 2 ∨ n = 4 ∨ n = 8 ∨ n = 16 then 2 else 0
  -- caps_arch_gcc_aarch32.hpp:44-47
  | .gcc_aarch32, n => if n = 1 ∨ n = 2 ∨ n = 4 ∨ n = 8 then 2 else 0
  -- caps_arch_gcc_arm.hpp:92-96
  | .gcc_arm _ _ d, n => if n = 1 ∨ n = 2 ∨ n = 4 ∨ (n = 8 ∧ d = true) then 2 else 0
  -- caps_arch_gcc_ppc.hpp:44-48
  | .gcc_ppc _ _ d, n => if n = 1 ∨ n = 2 ∨ n = 4 ∨ (n = 8 ∧ d = true) then 2 else 0
  -- caps_arch_gcc_sparc.hpp:25-28, caps_arch_gcc_alpha.hpp:25-28, caps_arch_msvc_arm.hpp:25-28
  | .gcc_sparc, n => if n = 1 ∨ n = 2 ∨ n = 4 ∨ n = 8 then 2 else 0
  | .gcc_alpha, n => if n = 1 ∨ n = 2 ∨ n = 4 ∨ n = 8 then 2 else 0
  | .msvc_arm, n => if n = 1 ∨ n = 2 ∨ n = 4 ∨ n = 8 then 2 else 0
  -- caps_arch_msvc_x86.hpp:44-53
  | .msvc_x86_32 d, n => if n = 1 ∨ n = 2 ∨ n = 4 ∨ (n = 8 ∧ d = true) then 2 else 0
  | .msvc_x86_64 _ _ d, n => if n = 1 ∨ n = 2 ∨ n = 4 ∨ n = 8 ∨ (n = 16 ∧ d = true) then 2 else 0

/-! ### Compiler- and OS-based back ends -/

/-- The macros `BOOST_ATOMIC_DETAIL_GCC_ATOMIC_INT{8,16,32,64,128}_LOCK_FREE`
(caps_gcc_atomic.hpp:28-100). -/
structure GccAtomic where
  i8 : Nat
  i16 : Nat
  i32 : Nat
  i64 : Nat
  i128 : Nat
  deriving DecidableEq, Repr

/-- `__GCC_HAVE_SYNC_COMPARE_AND_SWAP_{1,2,4,8,16}` defined. -/
structure GccSync where
  s1 : Bool
  s2 : Bool
  s4 : Bool
  s8 : Bool
  s16 : Bool
  deriving DecidableEq, Repr

/-- `BOOST_ATOMIC_DETAIL_CORE_BACKEND` (platform.hpp:95-142). -/
inductive Core where
  | none
  | gcc_atomic (g : GccAtomic)
  | gcc_sync (g : GccSync)
  | linux_arm
  | windows
  deriving DecidableEq, Repr

/-- The target of a compilation. -/
structure Platform where
  abi : Abi
  arch : Arch
  core : Core

/-- Combinations that platform.hpp produces: the `__sync` and OS back ends are used only when
there is no architecture back end (lines 114 and 130), and the `__sync` one only if some
`__GCC_HAVE_SYNC_COMPARE_AND_SWAP_*` is defined. -/
def Platform.Ok (p : Platform) : Prop :=
  match p.core with
  | .none => True
  | .gcc_atomic _ => True
  | .gcc_sync g => p.arch = .none ∧ (g.s1 || g.s2 || g.s4 || g.s8 || g.s16) = true
  | .linux_arm => p.arch = .none
  | .windows => p.arch = .none

/-- Overriding of one macro in caps_gcc_atomic.hpp (lines 108-142): `cur` the value from the
architecture (0 also stands for "not defined"), `own` the intrinsics' macro, `wider` the final
value for the next wider type. -/
def overrideMacro (cur own wider : Nat) : Nat :=
  if cur < own ∨ cur < wider then (if wider ≤ own then own else wider) else cur

/-- The final `BOOST_ATOMIC_INT{8*Size}_LOCK_FREE` macros of the `__atomic` back end
(caps_gcc_atomic.hpp:102-142). -/
def gccMacros (a : Arch) (g : GccAtomic) : GccAtomic :=
  let m128 := if a.lockFree 16 < g.i128 then g.i128 else a.lockFree 16
  let m64 := overrideMacro (a.lockFree 8) g.i64 m128
  let m32 := overrideMacro (a.lockFree 4) g.i32 m64
  let m16 := overrideMacro (a.lockFree 2) g.i16 m32
  let m8 := overrideMacro (a.lockFree 1) g.i8 m16
  ⟨m8, m16, m32, m64, m128⟩

/-- `BOOST_ATOMIC_INT{8*Size}_LOCK_FREE` (capabilities.hpp:24-52), 0 for other sizes. -/
def Platform.lockFree (p : Platform) (n : Nat) : Nat :=
  match p.core with
  -- capabilities.hpp:26-27: the architecture's header if there is no compiler-based back end
  | .none => p.arch.lockFree n
  | .gcc_atomic g =>
    let m := gccMacros p.arch g
    if n = 1 then m.i8 else if n = 2 then m.i16 else if n = 4 then m.i32
    else if n = 8 then m.i64 else if n = 16 then m.i128 else 0
  -- caps_gcc_sync.hpp:25-49
  | .gcc_sync g =>
    if n = 1 ∧ (g.s1 || g.s2 || g.s4 || g.s8 || g.s16) then 2
    else if n = 2 ∧ (g.s2 || g.s4 || g.s8 || g.s16) then 2
    else if n = 4 ∧ (g.s4 || g.s8 || g.s16) then 2
    else if n = 8 ∧ (g.s8 || g.s16) then 2
    else if n = 16 ∧ g.s16 then 2
    else 0
  -- caps_linux_arm.hpp:27-29, caps_windows.hpp:25-27
  | .linux_arm => if n = 1 ∨ n = 2 ∨ n = 4 then 2 else 0
  | .windows => if n = 1 ∨ n = 2 ∨ n = 4 then 2 else 0

/-- `core_operations_gcc_atomic< n >` with the intrinsics' lock-free macro of that size. -/
def gccOps (n level : Nat) : Ops := nativeOps n (decide (level = 2))

/-- The specializations of `core_operations` in core_ops_gcc_atomic.hpp, in source order
(lines 162-301).  Line 213 is modelled as written: the branch for 4-byte objects implemented by
16-byte intrinsics specializes `core_operations< 8u >`. -/
def gccAtomicSpecs (m g : GccAtomic) : List (Nat × Ops) :=
  -- 162-170
  (if 0 < m.i128 ∧ m.i128 ≤ g.i128 then [(16, gccOps 16 g.i128)] else []) ++
  -- 172-190
  (if 0 < m.i64 then
    if m.i64 ≤ g.i64 then [(8, gccOps 8 g.i64)]
    else if m.i64 ≤ g.i128 then [(8, gccOps 16 g.i128)]
    else []
   else []) ++
  -- 193-219
  (if 0 < m.i32 then
    if m.i32 ≤ g.i32 then [(4, gccOps 4 g.i32)]
    else if m.i32 ≤ g.i64 then [(4, gccOps 8 g.i64)]
    else if m.i32 ≤ g.i128 then [(8, gccOps 16 g.i128)]
    else []
   else []) ++
  -- 222-256
  (if 0 < m.i16 then
    if m.i16 ≤ g.i16 then [(2, gccOps 2 g.i16)]
    else if m.i16 ≤ g.i32 then [(2, gccOps 4 g.i32)]
    else if m.i16 ≤ g.i64 then [(2, gccOps 8 g.i64)]
    else if m.i16 ≤ g.i128 then [(2, gccOps 16 g.i128)]
    else []
   else []) ++
  -- 259-301
  (if 0 < m.i8 then
    if m.i8 ≤ g.i8 then [(1, gccOps 1 g.i8)]
    else if m.i8 ≤ g.i16 then [(1, gccOps 2 g.i16)]
    else if m.i8 ≤ g.i32 then [(1, gccOps 4 g.i32)]
    else if m.i8 ≤ g.i64 then [(1, gccOps 8 g.i64)]
    else if m.i8 ≤ g.i128 then [(1, gccOps 16 g.i128)]
    else []
   else [])

/-- The specializations of `core_operations` in the selected back end. -/
def Platform.coreSpecs (p : Platform) : List (Nat × Ops) :=
  match p.core with
  | .none => []
  | .gcc_atomic g => gccAtomicSpecs (gccMacros p.arch g) g
  -- core_ops_gcc_sync.hpp:191-257
  | .gcc_sync g =>
    (if 0 < p.lockFree 1 then
      [(1, nativeOps (if g.s1 then 1 else if g.s2 then 2 else if g.s4 then 4 else if g.s8 then 8 else 16) true)]
     else []) ++
    (if 0 < p.lockFree 2 then
      [(2, nativeOps (if g.s2 then 2 else if g.s4 then 4 else if g.s8 then 8 else 16) true)]
     else []) ++
    (if 0 < p.lockFree 4 then [(4, nativeOps (if g.s4 then 4 else if g.s8 then 8 else 16) true)] else []) ++
    (if 0 < p.lockFree 8 then [(8, nativeOps (if g.s8 then 8 else 16) true)] else []) ++
    (if 0 < p.lockFree 16 then [(16, nativeOps 16 true)] else [])
  -- core_ops_linux_arm.hpp:145-162
  | .linux_arm => [(1, nativeOps 4 true), (2, nativeOps 4 true), (4, nativeOps 4 true)]
  -- core_ops_windows.hpp:105-193 (line 106 has a syntax error, see DESIGN.md F19)
  | .windows => [(4, nativeOps 4 true), (1, nativeOps 4 true), (2, nativeOps 4 true)]

/-- `core_arch_operations< Size >` (core_arch_operations.hpp:37-42 and the specializations). -/
def Platform.archOps (p : Platform) (n : Nat) : Ops :=
  match p.arch.storage n with
  | some m => nativeOps m true
  | none => emulated p.abi n (traits_alignment n)

/-- The specializations of `core_operations< Size >` for one size. -/
def Platform.specsFor (p : Platform) (n : Nat) : List Ops :=
  (p.coreSpecs.filter (fun s => s.1 = n)).map (·.2)

/-- `core_operations< Size >` (core_operations.hpp:36-41): the specialization, or the primary
template, which derives from `core_arch_operations< Size >`. -/
def Platform.ops (p : Platform) (n : Nat) : Ops :=
  match p.specsFor n with
  | [] => p.archOps n
  | o :: _ => o

/-! ### Users of the selection -/

/-- `base_atomic_common< T >::core_operations` (atomic_impl.hpp:72). -/
def Platform.atomicOps (p : Platform) (sizeofT : Nat) : Ops := p.ops (storage_size_of sizeofT)

/-- `base_atomic_common< T >::storage_alignment` (atomic_impl.hpp:78-80). -/
def Platform.atomicAlignment (p : Platform) (sizeofT alignofT : Nat) : Nat :=
  if alignofT ≤ (p.atomicOps sizeofT).alignment then (p.atomicOps sizeofT).alignment else alignofT

/-- `is_atomic_ref_lock_free< T >::value` (atomic_ref_impl.hpp:55-63). -/
def Platform.refLockFree (p : Platform) (sizeofT : Nat) : Bool :=
  decide (sizeofT = (p.ops sizeofT).sizeofStorage) && (p.ops sizeofT).is_always_lock_free

/-- `base_atomic_ref_common< T >::core_operations` (atomic_ref_impl.hpp:73-77). -/
def Platform.refOps (p : Platform) (sizeofT alignofT : Nat) : Ops :=
  if p.refLockFree sizeofT then p.ops sizeofT else emulated p.abi sizeofT alignofT

/-- `base_atomic_ref_common< T >::required_alignment` (atomic_ref_impl.hpp:84-86). -/
def Platform.refAlignment (p : Platform) (sizeofT alignofT : Nat) : Nat :=
  if alignofT ≤ (p.refOps sizeofT alignofT).alignment then (p.refOps sizeofT alignofT).alignment else alignofT

/-! ### Locks (lock_pool.hpp, lock_pool.cpp) -/

/-- `malloc_alignment` (lock_pool.hpp:87) for pointers of `w` bits. -/
def malloc_alignment (w : Nat) : Nat := if 8 ≤ w / 8 then 16 else 8

/-- `hash_ptr< Alignment >` (lock_pool.hpp:77-92). -/
def hash_ptr {w : Nat} (align : Nat) (ptr : BitVec w) : BitVec w :=
  let h := ptr / BitVec.ofNat w align
  if align ≠ malloc_alignment w then h ^^^ (ptr / BitVec.ofNat w (malloc_alignment w)) else h

/-- `get_lock_index` (src/lock_pool.cpp:977-980) with `lock_pool_size = 1 << log2`
(line 944); unsigned arithmetic of the pointer width. -/
def get_lock_index {w : Nat} (log2 : Nat) (h : BitVec w) : BitVec w :=
  h &&& ((1#w <<< log2) - 1#w)

/-- The functions that take a lock of the pool, with the arguments they take it with: the
operations of `core_operations_emulated` (core_operations_emulated.hpp:67-190, also
extra_ops_emulated.hpp, fp_ops_emulated.hpp and extra_fp_ops_emulated.hpp through
`base_type::scoped_lock`), `wait_operations_emulated` (wait_ops_emulated.hpp:47-228) and
`wait_operations_generic` (wait_ops_generic.hpp:53-240). -/
inductive LockUse where
  | data | extra | fp
  | waitEmulated | notifyEmulated
  | waitGeneric | notifyGeneric
  deriving DecidableEq, Repr

/-- `scoped_lock< Alignment, LongLock >(addr)` (lock_pool.hpp:101-108): short or long lock of the
same entry. -/
def scoped_lock {w : Nat} (log2 align : Nat) (_longLock : Bool) (addr : BitVec w) : BitVec w :=
  get_lock_index log2 (hash_ptr align addr)

/-- `scoped_wait_state< Alignment >(addr)` (lock_pool.hpp:132-136): a long lock of the entry. -/
def scoped_wait_state {w : Nat} (log2 align : Nat) (addr : BitVec w) : BitVec w :=
  scoped_lock log2 align true addr

/-- The lock that an operation of class `o` on the object whose storage is at `addr` takes. -/
def lockTaken {w : Nat} (log2 : Nat) (o : Ops) (addr : BitVec w) : LockUse → BitVec w
  -- core_operations_emulated.hpp:67: scoped_lock< storage_alignment >
  | .data => scoped_lock log2 o.alignment false addr
  -- extra_ops_emulated.hpp:39, fp_ops_emulated.hpp:40, extra_fp_ops_emulated.hpp:40: base_type::scoped_lock
  | .extra => scoped_lock log2 o.alignment false addr
  | .fp => scoped_lock log2 o.alignment false addr
  -- wait_ops_emulated.hpp:47-48: base_type::storage_alignment
  | .waitEmulated => scoped_wait_state log2 o.alignment addr
  | .notifyEmulated => scoped_lock log2 o.alignment true addr
  -- wait_ops_generic.hpp:53-54: base_type::storage_alignment
  | .waitGeneric => scoped_wait_state log2 o.alignment addr
  | .notifyGeneric => scoped_lock log2 o.alignment true addr

end Verif.Select
