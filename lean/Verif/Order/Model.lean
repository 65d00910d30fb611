import Verif.Order.Spec

/-
Memory orders: the order arithmetic of the library and the instruction sequences each back end emits
for load / store / read-modify-write / compare-exchange / fences.
Paths are relative to /repo/include/boost/atomic/detail unless said otherwise.

Simplifications.
* Only instructions that matter for ordering are listed (accesses to the atomic object, barrier
  instructions, compiler barriers); register arithmetic is treated in `Verif.Integral`.
* A retry loop is a list with an arbitrary number `n` of unsuccessful rounds.
* An architecture is described by which pairs of accesses of one thread its instructions keep in
  order.  Cumulativity of PowerPC barriers (ordering seen by third threads) is in
  `Verif.Pow`.
-/

namespace Verif.Order

/-! ### Order arithmetic -/

/-- Enumerator values (boost/memory_order.hpp, outside /repo), as relied on in memory_order_utils.hpp:34–39
(`15 == seq_cst | consume`) and by the `order & memory_order_release` tests in every back end. -/
def MO.val : MO → Nat
  | .relaxed => 0
  | .consume => 1
  | .acquire => 2
  | .release => 4
  | .acqRel => 6
  | .seqCst => 14

/-- memory_order_utils.hpp:29–32. -/
def deduceFailureOrder (o : MO) : MO :=
  if o = .acqRel then .acquire else if o = .release then .relaxed else o

/-- memory_order_utils.hpp:34–39. -/
def failureNotStronger (success failure : MO) : Bool :=
  decide (failure.val &&& 15 ≤ success.val &&& 15)

/-- The assertions of `compare_exchange_*(expected, desired, success, failure)`,
atomic_impl.hpp:252–254, 266–268 (and the same three lines in every specialization). -/
def casAsserts (success failure : MO) : Bool :=
  decide (failure ≠ .release) && decide (failure ≠ .acqRel) && failureNotStronger success failure

/-- The assertions of `load`, atomic_impl.hpp:238–239. -/
def loadAsserts (o : MO) : Bool := decide (o ≠ .release) && decide (o ≠ .acqRel)

/-- The assertions of `store`, atomic_impl.hpp:229–231. -/
def storeAsserts (o : MO) : Bool :=
  decide (o ≠ .consume) && decide (o ≠ .acquire) && decide (o ≠ .acqRel)

/-- gcc_atomic_memory_order_utils.hpp:53–58; the compiler's constants are
`__ATOMIC_RELAXED … __ATOMIC_SEQ_CST` = 0 … 5. -/
def toGcc (o : MO) : Nat :=
  if o = .relaxed then 0 else if o = .consume then 1 else if o = .acquire then 2
  else if o = .release then 3 else if o = .acqRel then 4 else 5

/-- `order & memory_order_release`. -/
def relBit (o : MO) : Bool := o.val &&& 4 != 0
/-- `order & (memory_order_consume | memory_order_acquire)`. -/
def acqBit (o : MO) : Bool := o.val &&& 3 != 0

/-- core_arch_ops_msvc_arm.hpp:111–116: `cas_common_order`, as an enumerator value. -/
def casCommonVal (s f : MO) : Nat :=
  ((f.val ||| s.val) &&& (15 - 1)) ||| (((f.val ||| s.val) &&& 1) <<< 1)

/-! ### Instructions and what they keep in order -/

/-- One emitted instruction, as far as ordering is concerned. -/
structure Instr where
  /-- it reads / writes memory -/
  rd : Bool := false
  wr : Bool := false
  /-- its read delivers the value the operation returns -/
  ret : Bool := false
  /-- its write is the modification the operation makes -/
  pub : Bool := false
  /-- `volatile` access or `asm volatile`: the compiler keeps these in order among themselves -/
  vol : Bool := false
  /-- asm with a "memory" clobber, or a compiler intrinsic: the compiler moves no access across it -/
  clob : Bool := false
  /-- acquire access: its read stays before everything later -/
  acq : Bool := false
  /-- release access: its write stays after everything earlier -/
  rel : Bool := false
  /-- acquire/release access of the RCsc kind (`ldar`, `stlr`): an earlier RCsc release stays before a
  later RCsc acquire -/
  sc : Bool := false
  /-- bus-locked instruction: stays after everything earlier and before everything later -/
  full : Bool := false
  /-- a conditional branch that depends on the value read follows immediately -/
  ctrl : Bool := false
  /-- barrier: keeps earlier reads/writes before later reads/writes -/
  ll : Bool := false
  ls : Bool := false
  sl : Bool := false
  ss : Bool := false
  /-- PowerPC `isync`: nothing later starts before earlier branches are resolved -/
  isync : Bool := false

/-- The instruction has this effect. -/
def Instr.has (x : Instr) : Part → Bool
  | .rd => x.rd
  | .wr => x.wr

/-- The barrier keeps an earlier `p` before a later `q`. -/
def Instr.bars (z : Instr) : Part → Part → Bool
  | .rd, .rd => z.ll || z.full
  | .rd, .wr => z.ls || z.full
  | .wr, .rd => z.sl || z.full
  | .wr, .wr => z.ss || z.full

/-- Hardware families, by the order they keep without any barrier. -/
inductive Hw where
  /-- x86: only write → later read may be reordered. -/
  | tso
  /-- everything may be reordered -/
  | weak

/-- Order kept by the hardware itself. -/
def Hw.base : Hw → Part → Part → Bool
  | .tso, .wr, .rd => false
  | .tso, _, _ => true
  | .weak, _, _ => false

/-- The hardware keeps effect `p` of `x` before effect `q` of the later `y`, `b` being the instructions
between them. -/
def HwKeeps (hw : Hw) (x : Instr) (p : Part) (b : List Instr) (y : Instr) (q : Part) : Prop :=
  hw.base p q = true ∨
  (x.acq = true ∧ p = .rd) ∨
  (y.rel = true ∧ q = .wr) ∨
  (x.full = true ∨ y.full = true) ∨
  (x.rel = true ∧ x.sc = true ∧ p = .wr ∧ y.acq = true ∧ y.sc = true ∧ q = .rd) ∨
  (∃ z ∈ b, z.bars p q = true) ∨
  (x.ctrl = true ∧ p = .rd ∧ ∃ z ∈ b, z.isync = true)

/-- The compiler keeps `x` before the later `y`. -/
def CompKeeps (x : Instr) (b : List Instr) (y : Instr) : Prop :=
  x.clob = true ∨ y.clob = true ∨ (∃ z ∈ b, z.clob = true) ∨ (x.vol = true ∧ y.vol = true)

/-- Effect `p` of `x` takes place before effect `q` of `y` in every execution of `x; b; y`: both the
compiler and the hardware keep them in order, directly or through accesses in between. -/
inductive Ordered (hw : Hw) : Instr → Part → List Instr → Instr → Part → Prop where
  | direct {x p b y q} : CompKeeps x b y → HwKeeps hw x p b y q → Ordered hw x p b y q
  | trans {x p b₁ m r b₂ y q} : m.has r = true → Ordered hw x p b₁ m r → Ordered hw m r b₂ y q →
      Ordered hw x p (b₁ ++ m :: b₂) y q

/-! ### Instruction constants -/

/-- Compiler barrier `asm volatile("" ::: "memory")` / `_ReadWriteBarrier()`. -/
def cbar : Instr := { vol := true, clob := true }
/-- Full hardware fence with "memory" clobber: `sync`, `dmb ish`, `mb`, `membar #Sync`,
`__sync_synchronize()`. -/
def fullFence : Instr := { vol := true, clob := true, ll := true, ls := true, sl := true, ss := true }
/-- PowerPC `lwsync`. -/
def lwsync : Instr := { vol := true, clob := true, ll := true, ls := true, ss := true }
/-- `dmb ishld`. -/
def dmbLd : Instr := { vol := true, clob := true, ll := true, ls := true }
/-- PowerPC `isync`. -/
def isyncI : Instr := { vol := true, clob := true, isync := true }
/-- SPARC `membar` with the given bits. -/
def membar (ll ls sl ss : Bool) : Instr := { vol := true, clob := true, ll, ls, sl, ss }
/-- Plain `volatile` load / store of the atomic object. -/
def vload : Instr := { rd := true, vol := true }
def vstore : Instr := { wr := true, vol := true }
/-- `lock`-prefixed instruction or `xchg` with "memory" clobber, `_Interlocked*` on x86 and the full
barrier `_Interlocked*` on ARM. -/
def locked : Instr := { rd := true, wr := true, vol := true, clob := true, full := true }
/-- The dummy `lock; notb` / `_InterlockedIncrement(&dummy)`: touches only a private stack byte. -/
def lockedDummy : Instr := { vol := true, clob := true, full := true }

def Instr.asRet (x : Instr) : Instr := { x with ret := true }
def Instr.asPub (x : Instr) : Instr := { x with pub := true }

/-- `[x]` if the condition holds. -/
def when (c : Bool) (x : Instr) : List Instr := if c then [x] else []

/-! ### Back ends -/

/-- The back ends with their compile-time variants. -/
inductive Backend where
  | gccX86 | msvcX86
  /-- objects of two words on x86, by inline assembly or by Microsoft's compiler; `vec`: vector instructions load and
  store them -/
  | x86Wide (msvc vec : Bool)
  | ppc64 | ppc32
  | gccArm | msvcArm
  /-- 8-byte objects -/
  | gccArmWide
  | aarch64 (lse rcpc : Bool)
  /-- 16-byte objects -/
  | aarch64Wide
  /-- `wide`: 8-byte objects -/
  | aarch32 (wide : Bool)
  | alpha | sparc
  | gccSync | linuxArm
  /-- objects wider than a pointer -/
  | gccSyncWide
  /-- `x86`: runs on an x86 processor -/
  | windows (x86 : Bool)
  /-- the compiler's intrinsics, on an unknown processor, and on x86 -/
  | gccAtomic | gccAtomicX86
  deriving DecidableEq

/-- Base ordering of the processors a back end runs on (`sparc`: RMO mode, the weakest the code has to
work in; `gccSync`, `gccAtomic`, `windows false`: unknown processor). -/
def Backend.hw : Backend → Hw
  | .gccX86 | .msvcX86 | .x86Wide _ _ | .windows true | .gccAtomicX86 => .tso
  | _ => .weak

/-- Processors, with the way the compiler's intrinsics are modelled on them. -/
inductive Cpu where
  | x86 | power | arm | armMsvc | aarch64 | aarch32 | alpha | sparc
  /-- unknown processors: with `__sync`, `__atomic` or interlocked functions -/
  | sync | atomic | interlocked
  deriving DecidableEq

/-- The order a processor keeps by itself. -/
def Cpu.hw : Cpu → Hw
  | .x86 => .tso
  | _ => .weak

/-- The back ends whose code can be part of one program (platform.hpp:50–136, core_operations.hpp:24–36,
core_arch_operations.hpp:24–40): objects of different sizes, the additional operations (extra_ops_*) and the fences may
come from different ones.  The intrinsics of the compiler are `gccAtomicX86` on x86 and `gccAtomic` on ARMv8; on POWER
and on ARM before version 8 compilers make the same code of them as the back ends `ppc64` and `gccArm` contain, on 32-bit
POWER too (trusted).  Alpha and SPARC: without the intrinsics. -/
def Cpu.runs : Cpu → Backend → Bool
  | .x86, .gccX86 | .x86, .msvcX86 | .x86, .x86Wide _ _ | .x86, .windows true | .x86, .gccAtomicX86 => true
  | .power, .ppc64 | .power, .ppc32 => true
  | .arm, .gccArm | .arm, .gccArmWide | .arm, .linuxArm => true
  | .armMsvc, .msvcArm => true
  | .aarch64, .aarch64 _ _ | .aarch64, .aarch64Wide | .aarch64, .gccAtomic => true
  | .aarch32, .aarch32 _ | .aarch32, .gccAtomic => true
  | .alpha, .alpha | .sparc, .sparc => true
  | .sync, .gccSync | .sync, .gccSyncWide | .atomic, .gccAtomic | .interlocked, .windows false => true
  | _, _ => false

/-- The processor for which the code of a back end is (of `gccAtomic`, an unknown one). -/
def Backend.cpu : Backend → Cpu
  | .gccX86 | .msvcX86 | .x86Wide _ _ | .windows true | .gccAtomicX86 => .x86
  | .ppc64 | .ppc32 => .power
  | .gccArm | .gccArmWide | .linuxArm => .arm
  | .msvcArm => .armMsvc
  | .aarch64 _ _ | .aarch64Wide => .aarch64
  | .aarch32 _ => .aarch32
  | .alpha => .alpha
  | .sparc => .sparc
  | .gccSync | .gccSyncWide => .sync
  | .windows false => .interlocked
  | .gccAtomic => .atomic

/-- What an operation did. -/
inductive Kind where
  | load
  | store
  /-- exchange, fetch_*, and the extra operations -/
  | rmw
  /-- compare_exchange that succeeded / failed, with the failure order -/
  | casOk (failure : MO)
  | casFail (failure : MO)
  /-- a read-modify-write that is a loop around `compare_exchange_weak`: objects kept in wider storage, floating point
  numbers, the generic extra operations, and objects that have nothing else -/
  | loop

/-- `a`/`l` suffix of the AArch64/AArch32 instruction for an order: MO_SWITCH,
ops_gcc_aarch64_common.hpp:24–43, ops_gcc_aarch32_common.hpp:24–43. -/
def moSwitchA : MO → Bool
  | .relaxed => false
  | .consume | .acquire => true
  | .release => false
  | _ => true
def moSwitchL : MO → Bool
  | .relaxed => false
  | .consume | .acquire => false
  | .release => true
  | _ => true

/-- `ld{a}xr`, `ld{a}ex`: load-exclusive inside an asm with "memory" clobber. -/
def ldx (a : Bool) : Instr := { rd := true, vol := true, clob := true, acq := a, sc := a }
/-- `st{l}xr`, `st{l}ex`. -/
def stx (l : Bool) : Instr := { wr := true, vol := true, clob := true, rel := l, sc := l }
/-- LSE `swp{a}{l}`, `ldadd{a}{l}`, `cas{a}{l}`. -/
def lse (a l : Bool) : Instr :=
  { rd := true, wr := true, vol := true, clob := true, acq := a, rel := l, sc := true }

/-- Read-modify-write on AArch64 / AArch32: core_arch_ops_gcc_aarch64.hpp:113–148 and so on,
core_arch_ops_gcc_aarch32.hpp:104–128; `n` failed store-exclusives first. -/
def aarchRmw (useLse : Bool) (o : MO) (n : Nat) : List Instr :=
  if useLse then [((lse (moSwitchA o) (moSwitchL o)).asRet).asPub]
  else List.replicate n (ldx (moSwitchA o)) ++ [(ldx (moSwitchA o)).asRet, (stx (moSwitchL o)).asPub]

/-- Failing compare-exchange on AArch64 / AArch32 (:150–190, :192–232): only `success_order` is
consulted. -/
def aarchFail (useLse : Bool) (s : MO) (n : Nat) : List Instr :=
  if useLse then [{ lse (moSwitchA s) (moSwitchL s) with wr := false, ret := true }]
  else List.replicate n (ldx (moSwitchA s)) ++ [(ldx (moSwitchA s)).asRet]

/-- Load- and store-exclusive of ARM, PowerPC, Alpha: asm volatile without "memory" clobber (PowerPC:
followed by a conditional branch). -/
def ll0 : Instr := { rd := true, vol := true, ctrl := true }
def sc0 : Instr := { wr := true, vol := true }

/-- Fences of the PowerPC back end, ops_gcc_ppc_common.hpp:47–64. -/
def ppcBefore (is64 : Bool) (o : MO) : List Instr :=
  if is64 then (if o = .seqCst then [fullFence] else when (relBit o) lwsync)
  else when (relBit o) fullFence
def ppcAfter (o : MO) : List Instr := when (acqBit o) isyncI

/-- Fences of the ARM back ends, ops_gcc_arm_common.hpp:38–54; of Alpha,
core_arch_ops_gcc_alpha.hpp:70–86; of the kernel-helper back end, core_ops_linux_arm.hpp:68–84; of
`__sync`, core_ops_gcc_sync.hpp:42–58. -/
def fenceBefore (o : MO) : List Instr := when (relBit o) fullFence
def fenceAfter (o : MO) : List Instr := when (acqBit o) fullFence
def fenceAfterStore (o : MO) : List Instr := when (o == .seqCst) fullFence

/-- Fences of the SPARC back end, core_arch_ops_gcc_sparc.hpp:42–62.  Note `fence_after`: the membar
for acquire is `#StoreStore | #LoadStore`. -/
def sparcBefore (o : MO) : List Instr :=
  if o = .seqCst then [fullFence] else when (relBit o) (membar false true false true)
def sparcAfter (o : MO) : List Instr :=
  if o = .seqCst then [fullFence] else when (acqBit o) (membar false true false true)

/-- SPARC `cas` / `swap`, core_arch_ops_gcc_sparc.hpp:89–134. -/
def sparcCas (ok : Bool) : Instr := { rd := true, wr := ok, vol := true, clob := true }

/-- The kernel's `cmpxchg` helper, core_ops_linux_arm.hpp:128–142: a call of an opaque function that
contains barriers on both sides. -/
def khCas (ok : Bool) : List Instr := [fullFence, { rd := true, wr := ok, vol := true, clob := true }, fullFence]

/-- `_InterlockedXxx_nf / _acq / _rel / plain` as chosen in core_arch_ops_msvc_arm.hpp:176–198. -/
def armInterlocked (o : MO) : Instr :=
  match o with
  | .relaxed => { rd := true, wr := true, vol := true, clob := true }
  | .consume | .acquire => { rd := true, wr := true, vol := true, clob := true, acq := true }
  | .release => { rd := true, wr := true, vol := true, clob := true, rel := true }
  | _ => locked

/-- The same for compare-exchange: the switch on `cas_common_order`,
core_arch_ops_msvc_arm.hpp:226–246. -/
def armInterlockedCas (s f : MO) : Instr :=
  match casCommonVal s f with
  | 0 => { rd := true, wr := true, vol := true, clob := true }
  | 1 | 2 => { rd := true, wr := true, vol := true, clob := true, acq := true }
  | 4 => { rd := true, wr := true, vol := true, clob := true, rel := true }
  | _ => locked

/-- `__sync_lock_test_and_set`: documented by GCC as an acquire barrier only. -/
def lockTestAndSet : Instr := { rd := true, wr := true, vol := true, clob := true, acq := true }

/-- An `__atomic_*` intrinsic called with an order: the compiler guarantees what C++ says (trusted). -/
def atomicI (r w : Bool) (acq rel sc : Bool) : Instr :=
  { rd := r, wr := w, vol := true, clob := acq || rel || sc, acq := acq, rel := rel, sc := sc }

/-- The `__atomic_*` intrinsic for GCC's order constant `g`. -/
def atomicG (r w : Bool) (g : Nat) : Instr :=
  match g with
  | 0 => atomicI r w false false false
  | 1 | 2 => atomicI r w true false false
  | 3 => atomicI r w false true false
  | 4 => atomicI r w true true false
  | _ => atomicI r w true true true

/-- GCC's order constant `g` includes acquire, release. -/
def gccAcq (g : Nat) : Bool := g == 1 || g == 2 || g == 4 || g == 5
def gccRel (g : Nat) : Bool := g == 3 || g == 4 || g == 5

/-- One failing round of a CAS loop whose `compare_exchange_weak` has orders (`o`, relaxed); it does not
deliver the result of the operation (core_ops_cas_based.hpp:40–75). -/
def sparcFailRound (o : MO) : List Instr := sparcBefore o ++ [sparcCas false]
def khFailRound : List Instr := khCas false ++ [vload]

/-- Sequence of `n` copies of a list. -/
def rounds (n : Nat) (l : List Instr) : List Instr := (List.replicate n l).flatten

/-- A read of the object that is not an atomic operation: `non_atomic_load`, storage_traits.hpp:36–39, 64–67, and the
reads of the two halves of an object before a loop.  What it finds may be torn; it is only the first value tried. -/
def plainRead : Instr := { rd := true }

/-- The instructions a call of a core operation of kind `k` with order `o` executes on back end `be`, `n` being the
number of unsuccessful rounds of its retry loop. -/
def call (be : Backend) (k : Kind) (o : MO) (n : Nat) : List Instr :=
  match be with
  /- core_arch_ops_gcc_x86.hpp:46–56, 70–91, 123–219. -/
  | .gccX86 =>
    match k with
    | .load => vload.asRet :: when (acqBit o) cbar
    | .store => if o = .seqCst then [locked.asPub]
                else when (relBit o) cbar ++ vstore.asPub :: when (acqBit o) cbar
    | .rmw => List.replicate n { locked with wr := false } ++ [locked.asRet.asPub]
    | .casOk _ => [locked.asRet.asPub]
    | .casFail _ => [{ locked with wr := false, ret := true }]
    | .loop => []
  /- core_arch_ops_msvc_x86.hpp:73–120, 150–180. -/
  | .msvcX86 =>
    match k with
    | .load => [vload.asRet, cbar]
    | .store => if o = .seqCst then [locked.asPub] else [cbar, vstore.asPub, cbar]
    | .rmw => List.replicate n { locked with wr := false } ++ [locked.asRet.asPub]
    | .casOk _ => [locked.asRet.asPub]
    | .casFail _ => [{ locked with wr := false, ret := true }]
    | .loop => []
  /- core_arch_ops_gcc_x86.hpp:451–806 and 914–1166, core_arch_ops_msvc_x86.hpp:571–758 and 822–895: aligned objects
  are loaded and, if not seq_cst, stored by one vector or x87 instruction, where there is one that is atomic; else by
  `cmpxchg8b` or `cmpxchg16b`, which writes the value back when it loads. -/
  | .x86Wide msvc vec =>
    match k with
    | .load =>
      if vec then
        if msvc then [{ rd := true, ret := true }, cbar] else [{ rd := true, ret := true, vol := true, clob := true }]
      else [locked.asRet]
    | .store =>
      if vec && o != .seqCst then
        if msvc then [cbar, { wr := true, pub := true }, cbar]
        else [{ wr := true, pub := true, vol := true, clob := true }]
      else plainRead :: List.replicate n { locked with wr := false } ++ [locked.asPub]
    | .rmw => plainRead :: List.replicate n { locked with wr := false } ++ [locked.asRet.asPub]
    | .casOk _ => [locked.asRet.asPub]
    | .casFail _ => [{ locked with wr := false, ret := true }]
    | .loop => []
  /- core_arch_ops_gcc_ppc.hpp:95–231; load 107–137, store 95–105. -/
  | .ppc64 => ppc true k
  | .ppc32 => ppc false k
  /- core_arch_ops_gcc_arm.hpp:70–145. -/
  | .gccArm => armLike k
  /- core_arch_ops_gcc_arm.hpp:1124–1412: `ldrexd` loads, an exclusive loop stores (`store` 1134–1137 is `exchange`). -/
  | .gccArmWide =>
    match k with
    | .store => fenceBefore o ++ List.replicate n ll0 ++ ll0 :: sc0.asPub :: fenceAfter o
    | _ => armLike k
  /- core_arch_ops_msvc_arm.hpp:79–109, 160–250. -/
  | .msvcArm =>
    match k with
    | .load => vload.asRet :: cbar :: fenceAfter o ++ [cbar]
    | .store => cbar :: fenceBefore o ++ cbar :: vstore.asPub :: cbar :: fenceAfterStore o ++ [cbar]
    | .rmw => List.replicate n { armInterlocked o with wr := false } ++ [(armInterlocked o).asRet.asPub]
    | .casOk f => [(armInterlockedCas o f).asRet.asPub]
    | .casFail f => [{ armInterlockedCas o f with wr := false, ret := true }]
    | .loop => []
  /- core_arch_ops_gcc_aarch64.hpp:60–232. -/
  | .aarch64 useLse rcpc =>
    match k with
    | .load =>
      if acqBit o then
        if rcpc && (o == .consume || o == .acquire) then
          [{ rd := true, ret := true, vol := true, clob := true, acq := true }]
        else [(ldx true).asRet]
      else [vload.asRet]
    | .store => if relBit o then [(stx true).asPub] else [vstore.asPub]
    | .rmw => aarchRmw useLse o n
    | .casOk _ => aarchRmw useLse o n
    | .casFail _ => aarchFail useLse o n
    | .loop => []
  /- core_arch_ops_gcc_aarch64.hpp:1684–2027: everything is a loop of `ldxp` and `stxp`; the load (1737–1774) writes the
  value back. -/
  | .aarch64Wide =>
    match k with
    | .load => List.replicate n (ldx (acqBit o)) ++ [(ldx (acqBit o)).asRet, stx false]
    | .store => List.replicate n (ldx false) ++ [ldx false, (stx (relBit o)).asPub]
    | .rmw => aarchRmw false o n
    | .casOk _ => aarchRmw false o n
    | .casFail _ => aarchFail false o n
    | .loop => []
  /- core_arch_ops_gcc_aarch32.hpp:63–190; the 8-byte load 959–982 has no "memory" clobber, the 8-byte
  store is an exclusive loop 924–957. -/
  | .aarch32 wide =>
    match k with
    | .load =>
      if acqBit o then [{ rd := true, ret := true, vol := true, clob := !wide, acq := true, sc := true }]
      else [vload.asRet]
    | .store =>
      if wide then List.replicate n (ldx false) ++ [ldx false, (stx (relBit o)).asPub]
      else if relBit o then [(stx true).asPub] else [vstore.asPub]
    | .rmw => aarchRmw false o n
    | .casOk _ => aarchRmw false o n
    | .casFail _ => aarchFail false o n
    | .loop => []
  /- core_arch_ops_gcc_alpha.hpp:101–215. -/
  | .alpha => armLike k
  /- core_arch_ops_gcc_sparc.hpp:76–134, 142–… ; core_ops_cas_based.hpp:37–76. -/
  | .sparc =>
    match k with
    | .load => vload.asRet :: sparcAfter o
    | .store => sparcBefore o ++ vstore.asPub :: fenceAfterStore o
    | .rmw => vload :: rounds n (sparcFailRound o) ++ sparcBefore o ++
        (sparcCas true).asRet.asPub :: sparcAfter o
    | .casOk _ => sparcBefore o ++ (sparcCas true).asRet.asPub :: sparcAfter o
    | .casFail f => sparcBefore o ++ (sparcCas false).asRet :: sparcAfter f
    | .loop => []
  /- core_ops_gcc_sync.hpp:79–188 (sizes up to a pointer). -/
  | .gccSync =>
    match k with
    | .load => vload.asRet :: fenceAfter o
    | .store => fenceBefore o ++ vstore.asPub :: fenceAfterStore o
    | .rmw => List.replicate n { locked with wr := false } ++ [locked.asRet.asPub]
    | .casOk _ => [locked.asRet.asPub]
    | .casFail _ => [{ locked with wr := false, ret := true }]
    | .loop => []
  /- core_ops_gcc_sync.hpp:85–89, 98–106: `exchange` stores, and a compare-and-swap of 0 by 0 loads, whose write
  (where it finds 0, it puts 0 back) is left out. -/
  | .gccSyncWide =>
    match k with
    | .load => [{ locked with wr := false, ret := true }]
    | .store => fenceBefore o ++ [lockTestAndSet.asPub]
    | .rmw => List.replicate n { locked with wr := false } ++ [locked.asRet.asPub]
    | .casOk _ => [locked.asRet.asPub]
    | .casFail _ => [{ locked with wr := false, ret := true }]
    | .loop => []
  /- core_ops_linux_arm.hpp:68–142; core_ops_cas_based.hpp:37–76. -/
  | .linuxArm =>
    match k with
    | .load => vload.asRet :: fenceAfter o
    | .store => fenceBefore o ++ vstore.asPub :: fenceAfterStore o
    | .rmw => vload :: rounds n khFailRound ++
        [fullFence, (sparcCas true).asRet.asPub, fullFence]
    | .casOk _ => [fullFence, (sparcCas true).asRet.asPub, fullFence]
    | .casFail _ => khCas false ++ [vload.asRet]
    | .loop => []
  /- core_ops_windows.hpp:50–92, 104–… : every operation is an `_Interlocked*` call. -/
  | .windows _ =>
    match k with
    | .load => [cbar, locked.asRet, cbar]
    | .store => [cbar, locked.asPub, cbar]
    | .rmw => List.replicate n { locked with wr := false } ++ [cbar, locked.asRet.asPub, cbar]
    | .casOk _ => [cbar, locked.asRet.asPub, cbar]
    | .casFail _ => [cbar, { locked with wr := false, ret := true }, cbar]
    | .loop => []
  /- core_ops_gcc_atomic.hpp:65–142: the intrinsics, with `convert_memory_order_to_gcc`. -/
  | .gccAtomic =>
    match k with
    | .load => [(atomicG true false (toGcc o)).asRet]
    | .store => [(atomicG false true (toGcc o)).asPub]
    | .rmw => List.replicate n (atomicG true false 0) ++ [(atomicG true true (toGcc o)).asRet.asPub]
    | .casOk _ => [(atomicG true true (toGcc o)).asRet.asPub]
    | .casFail f => [(atomicG true false (toGcc f)).asRet]
    | .loop => []
  /- core_ops_gcc_atomic.hpp:65–142 on x86: what the intrinsics are compiled to (trusted); a seq_cst store is an exchange,
  by lines 67–76 or by the compiler. -/
  | .gccAtomicX86 =>
    match k with
    | .load => vload.asRet :: when (gccAcq (toGcc o)) cbar
    | .store => if toGcc o = 5 then [locked.asPub] else when (gccRel (toGcc o)) cbar ++ [vstore.asPub]
    | .rmw => List.replicate n { locked with wr := false, clob := toGcc o != 0 } ++
        [{ locked.asRet.asPub with clob := toGcc o != 0 }]
    | .casOk _ => [{ locked.asRet.asPub with clob := toGcc o != 0 }]
    | .casFail f => [{ locked with wr := false, ret := true, clob := toGcc o != 0 || toGcc f != 0 }]
    | .loop => []
where
  ppc (is64 : Bool) (k : Kind) : List Instr :=
    match k with
    | .load =>
      when (o == .seqCst) fullFence ++
        (if acqBit o then [{ ll0 with clob := true, ret := true }, isyncI] else [vload.asRet])
    | .store => ppcBefore is64 o ++ [sc0.asPub]
    | .rmw => ppcBefore is64 o ++ List.replicate n ll0 ++ ll0.asRet :: sc0.asPub :: ppcAfter o
    | .casOk _ => ppcBefore is64 o ++ List.replicate n ll0 ++ ll0.asRet :: sc0.asPub :: ppcAfter o
    | .casFail f => ppcBefore is64 o ++ List.replicate n ll0 ++ ll0.asRet :: ppcAfter f
    | .loop => []
  armLike (k : Kind) : List Instr :=
    match k with
    | .load => vload.asRet :: fenceAfter o
    | .store => fenceBefore o ++ vstore.asPub :: fenceAfterStore o
    | .rmw => fenceBefore o ++ List.replicate n ll0 ++ ll0.asRet :: sc0.asPub :: fenceAfter o
    | .casOk _ => fenceBefore o ++ List.replicate n ll0 ++ ll0.asRet :: sc0.asPub :: fenceAfter o
    | .casFail f => fenceBefore o ++ List.replicate n ll0 ++ ll0.asRet :: fenceAfter f
    | .loop => []

/-- The instructions an operation of kind `k` with order `o` executes on back end `be`: a core operation, or a loop of
`compare_exchange_weak` with orders `o` and relaxed (core_ops_cas_based.hpp:37–76, cas_based_exchange.hpp:35–41,
extending_cas_based_arithmetic.hpp:39–64, extra_ops_generic.hpp:42–63, 207–300, fp_ops_generic.hpp:42–71,
extra_fp_ops_generic.hpp:57–163), of which `n` rounds are unsuccessful. -/
def trace (be : Backend) (k : Kind) (o : MO) (n : Nat) : List Instr :=
  match k with
  | .loop => plainRead :: rounds n ((call be (.casFail .relaxed) o 0).map fun x => { x with ret := false }) ++
      call be (.casOk .relaxed) o 0
  | k => call be k o n

/-- The back ends of core_ops_gcc_sync.hpp. -/
def Backend.isSync : Backend → Bool
  | .gccSync | .gccSyncWide => true
  | _ => false

/-- `exchange` / `test_and_set` / wide `store` of the `__sync` back end are not built from a full
barrier intrinsic: core_ops_gcc_sync.hpp:128–136, 176–181. -/
def gccSyncExchange (o : MO) : List Instr :=
  fenceBefore o ++ [lockTestAndSet.asRet.asPub]

/-- `clear` of the `__sync` back end, core_ops_gcc_sync.hpp:183–188. -/
def gccSyncClear (o : MO) : List Instr :=
  { wr := true, pub := true, vol := true, clob := true, rel := true : Instr } :: fenceAfterStore o

/-- The order that governs the read of an operation. -/
def Kind.readOrder (k : Kind) (o : MO) : MO :=
  match k with
  | .casFail f => f
  | _ => o

/-- The orders are ones the API accepts for this operation. -/
def Kind.accepts (k : Kind) (o : MO) : Bool :=
  match k with
  | .load => loadAsserts o
  | .store => storeAsserts o
  | .rmw | .loop => true
  | .casOk f | .casFail f => casAsserts o f

/-- The effect is the one the operation is about. -/
def Instr.main (x : Instr) : Part → Bool
  | .rd => x.ret
  | .wr => x.pub

/-- Seq_cst operations: the order applies, and for a failed compare-exchange the failure order is
seq_cst too. -/
def Kind.isSeqCst (k : Kind) (o : MO) : Bool :=
  match k with
  | .casFail f => o == .seqCst && f == .seqCst
  | _ => o == .seqCst

/-- The first operation is a failed compare-exchange of the kernel-helper back end, or a store of an object wider than a
pointer by `__sync_lock_test_and_set`. -/
def scBroken (be : Backend) (k₁ : Kind) : Bool :=
  match be, k₁ with
  | .linuxArm, .casFail _ => true
  | .gccSyncWide, .store => true
  | _, _ => false

/-- The cases in which the code does not provide acquire semantics (see the `_violated` theorems). -/
def acquireBroken (be : Backend) (k : Kind) (o : MO) : Bool :=
  match be, k with
  | .sparc, _ => k.readOrder o != .seqCst
  | .aarch64 _ _, .casFail f => o == .release && f.isAcquire
  | .aarch64Wide, .casFail f => o == .release && f.isAcquire
  | .aarch32 _, .casFail f => o == .release && f.isAcquire
  | .aarch32 wide, .load => wide
  | .linuxArm, .casFail _ => true
  | _, _ => false

/-! ### Fences -/

/-- What `atomic_thread_fence(order)` emits. -/
def threadFence (be : Backend) (o : MO) : List Instr :=
  match be with
  /- fence_arch_ops_gcc_x86.hpp:32–52. -/
  | .gccX86 | .x86Wide false _ => if o = .seqCst then [lockedDummy] else when (o.val &&& 6 != 0) cbar
  /- fence_arch_ops_msvc_x86.hpp:35–49. -/
  | .msvcX86 | .x86Wide true _ => if o = .seqCst then [lockedDummy] else when (o != .relaxed) cbar
  /- fence_arch_ops_gcc_ppc.hpp:32–45. -/
  | .ppc64 => when (o != .relaxed) (if o = .seqCst then fullFence else lwsync)
  | .ppc32 => when (o != .relaxed) fullFence
  /- fence_arch_ops_gcc_arm.hpp:35–39. -/
  | .gccArm | .gccArmWide => when (o != .relaxed) fullFence
  /- fence_arch_ops_msvc_arm.hpp:38–44. -/
  | .msvcArm => cbar :: when (o != .relaxed) fullFence ++ [cbar]
  /- fence_arch_ops_gcc_aarch64.hpp:32–45, fence_arch_ops_gcc_aarch32.hpp:33–46. -/
  | .aarch64 _ _ | .aarch64Wide | .aarch32 _ =>
    when (o != .relaxed) (if o = .consume ∨ o = .acquire then dmbLd else fullFence)
  /- fence_arch_ops_gcc_alpha.hpp:32–36. -/
  | .alpha => when (o != .relaxed) fullFence
  /- fence_arch_ops_gcc_sparc.hpp:32–58. -/
  | .sparc =>
    match o with
    | .release => [membar false true false true]
    | .consume | .acquire => [membar true true false false]
    | .acqRel => [membar true true false true]
    | .seqCst => [fullFence]
    | .relaxed => []
  /- fence_ops_gcc_sync.hpp:32–36. -/
  | .gccSync | .gccSyncWide => when (o != .relaxed) fullFence
  /- fence_ops_linux_arm.hpp:36–40, 48–53. -/
  | .linuxArm => when (o != .relaxed) fullFence
  /- fence_ops_windows.hpp:35–44, 52–56: a hardware fence only for seq_cst. -/
  | .windows _ => if o = .relaxed then [] else cbar :: when (o == .seqCst) lockedDummy ++ [cbar]
  /- fence_ops_gcc_atomic.hpp:43–59 on x86: a compiler barrier, and for seq_cst the fence of `.gccX86`. -/
  | .gccAtomicX86 => if o = .seqCst then [lockedDummy] else when (toGcc o != 0) cbar
  /- fence_ops_gcc_atomic.hpp:57 on other processors. -/
  | .gccAtomic =>
    match toGcc o with
    | 0 => []
    | 1 | 2 => [dmbLd]
    | 3 => [membar false true false true]
    | 4 => [membar true true false true]
    | _ => [fullFence]

/-- What `atomic_signal_fence(order)` emits: the `signal_fence` function of each fence file (e.g.
fence_arch_ops_gcc_x86.hpp:54–58, fence_ops_gcc_atomic.hpp:61–64). -/
def signalFence (_be : Backend) (o : MO) : List Instr := when (o != .relaxed) cbar

/-- The fences that are weaker than their order says (see the `_violated` theorems). -/
def fenceBroken (be : Backend) (o : MO) : Bool :=
  match be, o with
  | .gccX86, .consume | .x86Wide false _, .consume => true
  | .windows false, .consume | .windows false, .acquire | .windows false, .release
  | .windows false, .acqRel => true
  | _, _ => false

end Verif.Order
