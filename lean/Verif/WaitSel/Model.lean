import Verif.Select.Model

/-
Model of the compile-time selection of waiting and notifying operations (C47).

* `include/boost/atomic/detail/platform.hpp` 144-196 (choice of the back end),
  `wait_operations_fwd.hpp` 29-35 and `wait_operations.hpp` (which specialization serves a class),
  `wait_ops_windows.hpp` 47-172, `wait_ops_futex.hpp` 97-346, `wait_ops_darwin_ulock.hpp` 48-224,
  `wait_ops_freebsd_umtx.hpp` 64-400, `wait_ops_dragonfly_umtx.hpp` 36-136,
  `wait_ops_generic.hpp` 44-376, `wait_ops_emulated.hpp` 42-233, `futex.hpp` 89-97, 176-223,
* `wait_capabilities.hpp`, `wait_caps_*.hpp` (the `BOOST_ATOMIC_HAS_NATIVE_*_WAIT_NOTIFY` macros).

A class is described by the primitive its waiting functions block with and by the primitives its
notifying functions call, with the arguments that decide who is woken.  The loops around the primitives
are modelled elsewhere (`Verif.Wait`, `Verif.Futex`, `Verif.Cond`).

Simplifications: preprocessor tests of versions are Booleans.  The timed waiting functions of a class block with
the same primitive and the same address and flags as `wait`, they differ in the timeout only; they are not
listed separately.  The Windows back end is selected for `BOOST_WINDOWS` without looking at the Windows version.
-/

namespace Verif.WaitSel

open Verif.Select

/-- What the preprocessor sees of the operating system (platform.hpp:144-176, wait_caps_darwin_ulock.hpp:30-45,
futex.hpp:91-97, wait_ops_freebsd_umtx.hpp:362-398). -/
structure Os where
  /-- `BOOST_ATOMIC_FORCE_FALLBACK` -/
  forceFallback : Bool := false
  /-- `BOOST_WINDOWS` -/
  windows : Bool := false
  /-- `BOOST_ATOMIC_DETAIL_HAS_FUTEX` -/
  hasFutex : Bool := false
  /-- `BOOST_ATOMIC_DETAIL_FUTEX_PRIVATE_FLAG` is not 0 -/
  futexPrivate : Bool := false
  /-- `__APPLE__` -/
  apple : Bool := false
  /-- Darwin 16 or later and not `BOOST_ATOMIC_NO_DARWIN_ULOCK` -/
  darwin16 : Bool := false
  /-- Darwin 19 or later: `..._DARWIN_ULOCK64` and `..._DARWIN_ULOCK_SHARED` -/
  darwin19 : Bool := false
  /-- `__FreeBSD__` -/
  freebsd : Bool := false
  /-- `__FreeBSD_version >= 700000` -/
  freebsd7 : Bool := false
  /-- `UMTX_OP_WAIT`, `UMTX_OP_WAIT_UINT` -/
  umtxWait : Bool := false
  umtxWaitUint : Bool := false
  /-- `UMTX_OP_WAIT_UINT_PRIVATE` and `UMTX_OP_WAKE_PRIVATE` -/
  umtxPrivate : Bool := false
  /-- `__DragonFly__` -/
  dragonfly : Bool := false
  /-- `BOOST_ATOMIC_DETAIL_SIZEOF_INT`, `BOOST_ATOMIC_DETAIL_SIZEOF_LONG` -/
  sizeofInt : Nat := 4
  sizeofLong : Nat := 8
  deriving DecidableEq, Repr

/-- `BOOST_ATOMIC_DETAIL_WAIT_BACKEND`. -/
inductive Backend where
  | generic | windows | futex | darwin_ulock | freebsd_umtx | dragonfly_umtx
  deriving DecidableEq, Repr

/-- platform.hpp:144-176 and 193-196. -/
def Os.backend (s : Os) : Backend :=
  if s.forceFallback then .generic
  else if s.windows then .windows
  else if s.hasFutex then .futex
  else if s.apple then (if s.darwin16 then .darwin_ulock else .generic)
  else if s.freebsd then (if s.freebsd7 then .freebsd_umtx else .generic)
  else if s.dragonfly then .dragonfly_umtx
  else .generic

/-! ### Primitives -/

/-- `enum ulock_op` (wait_ops_darwin_ulock.hpp:48-59), the operations. -/
inductive UlockOp where
  | compare_and_wait | compare_and_wait_shared | compare_and_wait64 | compare_and_wait64_shared
  deriving DecidableEq, Repr

/-- The first argument but one of `_umtx_op` in waiting calls. -/
inductive UmtxWaitOp where
  | wait | wait_uint | wait_uint_private
  deriving DecidableEq, Repr

/-- The first argument but one of `_umtx_op` in waking calls. -/
inductive UmtxWakeOp where
  | wake | wake_private
  deriving DecidableEq, Repr

/-- What the waiting functions of a class block with. -/
inductive Sleep where
  /-- `WaitOnAddress(&storage, &old_val, Size, ...)` -/
  | waitOnAddress (size : Nat)
  /-- `futex(&storage, FUTEX_WAIT or FUTEX_WAIT_BITSET with all bits | private flag, old_val, ...)` -/
  | futex (priv : Bool)
  /-- `__ulock_wait` or `__ulock_wait2` -/
  | ulock (op : UlockOp)
  /-- `_umtx_op(&storage, op, old_val, ...)` -/
  | umtx (op : UmtxWaitOp)
  /-- `umtx_sleep((int*)&storage, (int)old_val, ...)` -/
  | umtxSleep
  /-- the wait state of the lock pool for `&storage` -/
  | pool
  /-- no blocking: repeated loads -/
  | poll
  /-- the function cannot be instantiated (`static_assert`) -/
  | rejected
  deriving DecidableEq, Repr

/-- What a notifying function of a class calls. -/
inductive Wake where
  | wakeByAddress (all : Bool)
  | futex (priv : Bool) (count : Nat)
  | ulock (op : UlockOp) (wakeAll : Bool)
  | umtx (op : UmtxWakeOp) (count : Nat)
  | umtxWakeup (count : Nat)
  | pool (all : Bool)
  | nothing
  | rejected
  deriving DecidableEq, Repr

/-- The constants and primitives of a `wait_operations` class. -/
structure WaitOps where
  /-- `always_has_native_wait_notify`, also the result of `has_native_wait_notify()` -/
  native : Bool
  sleep : Sleep
  notifyOne : Wake
  notifyAll : Wake
  deriving DecidableEq, Repr

/-- `(~static_cast< unsigned int >(0u)) >> 1u` (futex.hpp:222, wait_ops_freebsd_umtx.hpp:358). -/
def halfMax (sizeofInt : Nat) : Nat := (2 ^ (8 * sizeofInt) - 1) / 2

/-- `wait_operations_windows< Base, Size >` (wait_ops_windows.hpp:47-148). -/
def windowsOps (size : Nat) : WaitOps := ⟨true, .waitOnAddress size, .wakeByAddress false, .wakeByAddress true⟩

/-- `wait_operations< Base, 4u, true, Interprocess >` of wait_ops_futex.hpp:97-346, with
`futex_private_flag` of line 107. -/
def futexOps (s : Os) (ipc : Bool) : WaitOps :=
  let priv := if ipc then false else s.futexPrivate
  ⟨true, .futex priv, .futex priv 1, .futex priv (halfMax s.sizeofInt)⟩

/-- `wait_operations_darwin_ulock_common< Base, Opcode >` (wait_ops_darwin_ulock.hpp:68-189). -/
def ulockOps (op : UlockOp) : WaitOps := ⟨true, .ulock op, .ulock op false, .ulock op true⟩

/-- `wait_operations_freebsd_umtx_common< Base, UmtxOps >` (wait_ops_freebsd_umtx.hpp:66-360). -/
def umtxOps (s : Os) (wait_op : UmtxWaitOp) (wake_op : UmtxWakeOp) : WaitOps :=
  ⟨true, .umtx wait_op, .umtx wake_op 1, .umtx wake_op (halfMax s.sizeofInt)⟩

/-- `uint_umtx_ops< Interprocess >` (wait_ops_freebsd_umtx.hpp:364-374). -/
def uintUmtx (s : Os) (ipc : Bool) : WaitOps :=
  if s.umtxPrivate then
    umtxOps s (if ipc then .wait_uint else .wait_uint_private) (if ipc then .wake else .wake_private)
  else umtxOps s .wait_uint .wake

/-- `ulong_umtx_ops` (wait_ops_freebsd_umtx.hpp:386-390). -/
def ulongUmtx (s : Os) : WaitOps := umtxOps s .wait .wake

/-- wait_ops_dragonfly_umtx.hpp:36-136. -/
def dragonflyOps : WaitOps := ⟨true, .umtxSleep, .umtxWakeup 1, .umtxWakeup 0⟩

/-- `wait_operations_generic< Base, Interprocess >` (wait_ops_generic.hpp:47-239 and 241-370). -/
def genericOps (ipc : Bool) : WaitOps :=
  if ipc then ⟨false, .poll, .nothing, .nothing⟩ else ⟨false, .pool, .pool false, .pool true⟩

/-- `wait_operations_emulated< Base >` (wait_ops_emulated.hpp:41-227). -/
def emulatedOps (ipc : Bool) : WaitOps :=
  if ipc then ⟨false, .rejected, .rejected, .rejected⟩ else ⟨false, .pool, .pool false, .pool true⟩

/-! ### Specializations -/

/-- The specializations `wait_operations< Base, Size, true, Interprocess >` of the selected back end. -/
def Os.specs (s : Os) : List (Nat × Bool × WaitOps) :=
  match s.backend with
  | .generic => []
  -- wait_ops_windows.hpp:150-172
  | .windows =>
    [(1, false, windowsOps 1), (2, false, windowsOps 2), (4, false, windowsOps 4), (8, false, windowsOps 8)]
  -- wait_ops_futex.hpp:97-98
  | .futex => [(4, false, futexOps s false), (4, true, futexOps s true)]
  -- wait_ops_darwin_ulock.hpp:191-224
  | .darwin_ulock =>
    [(4, false, ulockOps .compare_and_wait)] ++
    (if s.darwin19 then
      [(4, true, ulockOps .compare_and_wait_shared), (8, false, ulockOps .compare_and_wait64),
       (8, true, ulockOps .compare_and_wait64_shared)]
     else [])
  -- wait_ops_freebsd_umtx.hpp:362-398
  | .freebsd_umtx =>
    (if s.umtxWaitUint then
      [(s.sizeofInt, false, uintUmtx s false), (s.sizeofInt, true, uintUmtx s true)]
     else []) ++
    (if s.umtxWait ∧ (s.umtxWaitUint = false ∨ s.sizeofInt < s.sizeofLong) then
      [(s.sizeofLong, false, ulongUmtx s), (s.sizeofLong, true, ulongUmtx s)]
     else [])
  -- wait_ops_dragonfly_umtx.hpp:36-37
  | .dragonfly_umtx => [(s.sizeofInt, false, dragonflyOps), (s.sizeofInt, true, dragonflyOps)]

/-- The specializations of the back end for one size. -/
def Os.specsFor (s : Os) (size : Nat) (ipc : Bool) : List WaitOps :=
  (s.specs.filter (fun x => x.1 = size ∧ x.2.1 = ipc)).map (·.2.2)

/-- `wait_operations< Base >` (wait_operations_fwd.hpp:29-35): by size of the storage and lock-freedom of
`Base`.  `AlwaysLockFree = false` is wait_ops_emulated.hpp:229-233, `true` without a specialization of the back end
is wait_ops_generic.hpp:372-376. -/
def Os.waitOps (s : Os) (o : Ops) (ipc : Bool) : WaitOps :=
  if o.is_always_lock_free then
    match s.specsFor o.sizeofStorage ipc with
    | [] => genericOps ipc
    | w :: _ => w
  else emulatedOps ipc

/-! ### Capability macros -/

/-- `BOOST_ATOMIC_HAS_NATIVE_INT{8*size}_WAIT_NOTIFY`, and with `ipc` the
`BOOST_ATOMIC_HAS_NATIVE_INT{8*size}_IPC_WAIT_NOTIFY` macro (wait_capabilities.hpp:24-65, wait_caps_*.hpp). -/
def waitMacro (s : Os) (p : Platform) (size : Nat) (ipc : Bool) : Nat :=
  match s.backend with
  | .generic => 0
  -- wait_caps_windows.hpp:30-33
  | .windows => if ipc = false ∧ (size = 1 ∨ size = 2 ∨ size = 4 ∨ size = 8) then p.lockFree size else 0
  -- wait_caps_futex.hpp:25-29
  | .futex => if size = 4 then p.lockFree 4 else 0
  -- wait_caps_darwin_ulock.hpp:24, 47-56
  | .darwin_ulock =>
    if size = 4 ∧ (ipc = false ∨ s.darwin19 = true) then p.lockFree 4
    else if size = 8 ∧ s.darwin19 = true then p.lockFree 8
    else 0
  -- wait_caps_freebsd_umtx.hpp:29-38
  | .freebsd_umtx =>
    if size = 4 ∧ ((s.umtxWaitUint = true ∧ s.sizeofInt = 4) ∨ (s.umtxWait = true ∧ s.sizeofLong = 4)) then
      p.lockFree 4
    else if size = 8 ∧ s.umtxWait = true ∧ s.sizeofLong = 8 then p.lockFree 8
    else 0
  -- wait_caps_dragonfly_umtx.hpp:27-28
  | .dragonfly_umtx => if size = 4 then p.lockFree 4 else 0

/-- `BOOST_ATOMIC_HAS_NATIVE_{FLOAT,DOUBLE,LONG_DOUBLE}[_IPC]_WAIT_NOTIFY` (wait_capabilities.hpp:275-361) by the size of the
value of the floating point type. -/
def floatMacro (s : Os) (p : Platform) (valueSize : Nat) (ipc : Bool) : Nat :=
  if valueSize = 2 then waitMacro s p 2 ipc
  else if valueSize = 4 then waitMacro s p 4 ipc
  else if valueSize = 8 then waitMacro s p 8 ipc
  else if 8 < valueSize ∧ valueSize ≤ 16 then waitMacro s p 16 ipc
  else 0

/-- `BOOST_ATOMIC_HAS_NATIVE_{WCHAR_T,SHORT,INT,LONG,LLONG}[_IPC]_WAIT_NOTIFY` (wait_capabilities.hpp:96-234) by the size of the
type; `CHAR`, `CHAR8_T`, `BOOL` (lines 68-80, 260-266) are size 1, `CHAR16_T` and `CHAR32_T` (82-94) sizes 2 and 4, and
`POINTER` (236-258) is one of the sizes 4 and 8. -/
def typeMacro (s : Os) (p : Platform) (size : Nat) (ipc : Bool) : Nat :=
  if size = 1 then waitMacro s p 1 ipc
  else if size = 2 then waitMacro s p 2 ipc
  else if size = 4 then waitMacro s p 4 ipc
  else if size = 8 then waitMacro s p 8 ipc
  else 0

/-- `BOOST_ATOMIC_HAS_NATIVE_FLAG[_IPC]_WAIT_NOTIFY` (wait_capabilities.hpp:268-273). -/
def flagMacro (s : Os) (p : Platform) (ipc : Bool) : Nat := waitMacro s p 4 ipc

/-- `atomic_flag_impl< IsInterprocess >::core_operations` (atomic_flag_impl.hpp:51). -/
def flagOps (p : Platform) : Ops := p.ops 4

end Verif.WaitSel
