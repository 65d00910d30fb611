import Verif.Asm.InterlockedCode
import Verif.Asm.MsvcCode
import Verif.Asm.X86DcasOps

/-
Atomic objects on Windows: core_arch_ops_msvc_x86.hpp, extra_ops_msvc_x86.hpp, core_arch_ops_msvc_arm.hpp,
extra_ops_msvc_arm.hpp, core_ops_windows.hpp.
-/

namespace Verif.Asm

/-- A call of an operation, with the memory order given and, for a compare-and-exchange, the one for failure. -/
structure OrderedCall (N : Nat) where
  op : Integral.Op N
  order : Order.MO
  failure : Order.MO

/-- An atomic object of `N` bits at any address and with any initial value is linearizable: all histories of
concurrent calls of all operations with any memory orders are explained by `Integral.spec`.  `f base c` is the function
executed for the call `c` on the object at `base`. -/
def AtomicCalls {R N : Nat} (f : BitVec R → OrderedCall N → Routine R N) : Prop :=
  ∀ (base : BitVec R) (v₀ : BitVec N), base ≠ 0 →
    (routineMachine (f base) base).IsLinearizable (fun s c s' r => Integral.spec s c.op s' r) ⟨v₀, 0⟩ v₀

namespace Interlocked

variable {R N : Nat}

/-! ### Functions that call an interlocked function -/

/-- The definition of a macro. -/
def Compiler.call (cc : Compiler) (n : Name) : Option Call := (cc.table.find? fun e => e.1 == n).map Prod.snd

/-- What the use of a macro means. -/
def resolve (cc : Compiler) (u : Option Use) : Option (Call × List Slot) :=
  u.bind fun u => (cc.call u.name).map fun c => (c, u.args)

/-- The instruction for the use of a macro whose results are assigned to `ds`; a macro that is not defined is an
error. -/
def run (c : Option (Call × List Slot)) (ds : List Slot) : Ins R N :=
  match c with
  | some (c, vars) => c.ins vars ds
  | none => wrong

/-- `fetch_add`, `exchange`, `fetch_and`, `fetch_or`, `fetch_xor`:
`return static_cast< storage_type >(MACRO(&storage, v));`, core_arch_ops_msvc_x86.hpp 157–165, 177–208, 228–236,
247–260, 403–411, 422–435, 787–795, 806–819; in core_arch_ops_msvc_arm.hpp and core_ops_windows.hpp by way of `v`. -/
def fetch (R N : Nat) (c : Option (Call × List Slot)) : Fn R N (BitVec N) (Integral.Ret N) where
  block := {
    prog := [run c [1]]
    opnds := [(0, .input), (1, .inout)]
    addr := [0]
    results := [1] }
  args a x := (x 1).setWidth N = a
  ret _ r := .val ((r 1).setWidth N)

/-- `compare_exchange_strong`, core_arch_ops_msvc_x86.hpp 167–174, 238–245, 413–420, 797–804,
core_arch_ops_msvc_arm.hpp 220–246, 385–411, 550–576, 715–741, core_ops_windows.hpp 128–138. -/
def compareExchange (R N : Nat) (c : Option (Call × List Slot)) : Fn R N (BitVec N × BitVec N) (Integral.Ret N) where
  block := {
    prog := [
      .comp [1] [3] (fun v fl => ([v0 v], fl)),             -- storage_type previous = expected;
      run c [4],                                            -- old_val = MACRO(&storage, desired, previous);
      .comp [4] [1] (fun v fl => ([v0 v], fl)),             -- expected = old_val;
      .comp [3, 4] [5] (fun v fl =>                         -- return (previous == old_val);
        ([if (v0 v).setWidth N = (v1 v).setWidth N then 1#R else 0#R], fl))]
    opnds := [(0, .input), (1, .inoutEarly), (2, .input), (3, .outEarly), (4, .outEarly), (5, .outEarly)]
    addr := [0]
    results := [1, 5] }
  args a x := (x 1).setWidth N = a.1 ∧ (x 2).setWidth N = a.2
  ret _ r := .cas (r 5 != 0) ((r 1).setWidth N)

/-- `compare_exchange_strong` of 16 bytes, core_arch_ops_msvc_x86.hpp 875–879:
`return !!MACRO(&storage, desired, &expected);`. -/
def compareExchange16 (R N : Nat) (c : Option (Call × List Slot)) : Fn R N (BitVec N × BitVec N) (Integral.Ret N) where
  block := {
    prog := [run c [5]]
    opnds := [(0, .input), (1, .inoutEarly), (2, .input), (5, .outEarly)]
    addr := [0]
    results := [1, 5] }
  args a x := (x 1).setWidth N = a.1 ∧ (x 2).setWidth N = a.2
  ret _ r := .cas (r 5 != 0) ((r 1).setWidth N)

/-- `load` of 16 bytes without AVX, core_arch_ops_msvc_x86.hpp 870–872:
`value = storage_type(); MACRO(&storage, value, &value); return value;`. -/
def load16 (R N : Nat) (c : Option (Call × List Slot)) : Fn R N Unit (Integral.Ret N) where
  block := {
    prog := [.comp [] [1] fun _ fl => ([0], fl), run c [5]]
    opnds := [(0, .input), (1, .outEarly), (5, .outEarly)]
    addr := [0]
    results := [1] }
  args _ _ := True
  ret _ r := .val ((r 1).setWidth N)

/-- `bit_test_and_set`, `bit_test_and_reset`: `return !!MACRO(&storage, bit_number);`,
extra_ops_msvc_x86.hpp 1254–1257, 1276–1279, 1309–1317, extra_ops_msvc_arm.hpp 42–96. -/
def bitTestAnd (R N : Nat) (c : Option (Call × List Slot)) : Fn R N (Fin N) (Integral.Ret N) where
  block := {
    prog := [run c [5]]
    opnds := [(0, .input), (1, .input), (5, .outEarly)]
    addr := [0]
    results := [5] }
  args a x := x 1 = BitVec.ofNat R a
  ret _ r := .flag (r 5 != 0)

/-- `extra_operations_generic` with its own `bit_test_and_set` and `bit_test_and_reset`. -/
def withBits (core : Core R N) (bts btr : Fin N → Code R N (Integral.Ret N)) : Integral.Op N → Routine R N
  | .bitTestAndSet b => .once (bts b)
  | .bitTestAndReset b => .once (btr b)
  | op => core.routine false op

/-! ### ARM: core_arch_ops_msvc_arm.hpp, extra_ops_msvc_arm.hpp -/

namespace Arm

/-- The functions for an object of `N` bits and the orders `o` and, for the failure of a compare-and-exchange, `f`.
Loads and stores are those of the processor (`__iso_volatile_load8` etc.), 160–172, 325–337, 490–502, 655–667;
`fetch_sub`, `compare_exchange_weak`: 129–139. -/
def core (R N : Nat) (cc : Compiler) (o f : Order.MO) : Core R N :=
  let cas e d := (Interlocked.compareExchange R N
    (resolve cc (compareExchangeStrong N (Order.casCommonVal o f)))).code (e, d)
  { load := .once ((plainLoad R N).code ())
    store := fun v => .once ((plainStore R N).code v)
    exchange := fun v => .once ((fetch R N (resolve cc (exchange N o.val))).code v)
    casWeak := cas
    casStrong := cas
    fetchAdd := fun v => .once ((fetch R N (resolve cc (fetchAdd N o.val))).code v)
    fetchSub := fun v => .once ((fetch R N (resolve cc (fetchAdd N o.val))).code (-v))
    fetchAnd := fun v => .once ((fetch R N (resolve cc (fetchAnd N o.val))).code v)
    fetchOr := fun v => .once ((fetch R N (resolve cc (fetchOr N o.val))).code v)
    fetchXor := fun v => .once ((fetch R N (resolve cc (fetchXor N o.val))).code v) }

/-- The order for failure: the loops of extra_ops_generic.hpp give `memory_order_relaxed`. -/
def failure (c : OrderedCall N) : Order.MO :=
  match c.op with
  | .casWeak _ _ | .casStrong _ _ => c.failure
  | _ => .relaxed

/-- All operations: extra_ops_generic.hpp, and for 4 bytes extra_ops_msvc_arm.hpp 34–97.  (As it stands, the latter
does not compile.) -/
def routine (R N : Nat) (cc : Compiler) (c : OrderedCall N) : Routine R N :=
  let core := core R N cc c.order (failure c)
  if N = 32 then
    withBits core (fun b => (bitTestAnd R N (resolve cc (ArmExtra.bitTestAndSet N c.order.val))).code b)
      (fun b => (bitTestAnd R N (resolve cc (ArmExtra.bitTestAndReset N c.order.val))).code b) c.op
  else core.routine false c.op

end Arm

/-! ### x86: core_arch_ops_msvc_x86.hpp, extra_ops_msvc_x86.hpp -/

namespace X86

/-- `while (!compare_exchange_strong(storage, res, f(res), order, memory_order_relaxed)) {} return res;`, 182–187,
196–201, 210–215, where the macro is not defined. -/
def fetchOrLoop (cas : BitVec N → BitVec N → Code R N (Integral.Ret N)) (c : Option (Call × List Slot))
    (f : BitVec N → BitVec N) (v : BitVec N) : Routine R N :=
  if c.isSome then .once ((fetch R N c).code v) else .loop (fun e => cas e (f e)) .val

/-- The functions for an object of `N` bits: 95–148 and 150–217 for 4 bytes, 219–261 and 394–436 for 1 and 2 bytes, 778–820
for 8 bytes in 64-bit mode.  (For 1, 2 and 8 bytes the macros that 4 bytes can do without are always defined.) -/
def core (R N : Nat) (cc : Compiler) (seqCst : Bool) : Core R N :=
  let cas e d := (Interlocked.compareExchange R N (resolve cc (compareExchangeStrong N))).code (e, d)
  let xchg v := (fetch R N (resolve cc (exchange N))).code v
  { load := .once ((plainLoad R N).code ())
    store := fun v => .once (if seqCst then (xchg v).map discard else (plainStore R N).code v)
    exchange := fun v => .once (xchg v)
    casWeak := cas
    casStrong := cas
    fetchAdd := fun v => .once ((fetch R N (resolve cc (fetchAdd N))).code v)
    fetchSub := fun v => .once ((fetch R N (resolve cc (fetchAdd N))).code (-v))
    fetchAnd := fun v => fetchOrLoop cas (resolve cc (fetchAnd N)) (· &&& v) v
    fetchOr := fun v => fetchOrLoop cas (resolve cc (fetchOr N)) (· ||| v) v
    fetchXor := fun v => fetchOrLoop cas (resolve cc (fetchXor N)) (· ^^^ v) v }

/-- All operations in 64-bit mode: extra_ops_generic.hpp and, for 4 and 8 bytes, extra_ops_msvc_x86.hpp 845–856,
1252–1257, 1274–1279, 1299–1318. -/
def routine64 (R N : Nat) (cc : Compiler) (c : OrderedCall N) : Routine R N :=
  let core := core R N cc (c.order = .seqCst)
  if N = 32 ∨ N = 64 then
    withBits core (fun b => (bitTestAnd R N (resolve cc (X86Extra.bitTestAndSet N))).code b)
      (fun b => (bitTestAnd R N (resolve cc (X86Extra.bitTestAndReset N))).code b) c.op
  else core.routine false c.op

/-! 16 bytes, `msvc_dcas_x86_64`, 826–893. -/

/-- `store`: `_mm_store_si128` or a loop, 839–855; `load`: `_mm_load_si128` or a compare-and-exchange, 857–873.  `avx`:
`__AVX__` is defined. -/
def core16 (R : Nat) (cc : Compiler) (avx : Bool) (base : BitVec R) (seqCst : Bool) : Core R 128 :=
  let cas e d := (compareExchange16 R 128 (resolve cc (compareExchangeStrong 128))).code (e, d)
  let load := if avx && base &&& 15 == 0 then X86.vector 16 base ((plainLoad R 128).code ())
    else (load16 R 128 (resolve cc (load_ 128))).code ()
  let store v := if avx && !seqCst && base &&& 15 == 0 then .once (X86.vector 16 base ((plainStore R 128).code v))
    else .loop (fun e => (compareExchange16 R 128 (resolve cc (store_ 128))).code (e, v)) fun _ => .unit
  casBased (.once load) store (casExchange cas) cas

/-- All operations: extra_ops_generic.hpp 199–393. -/
def routine16 (R : Nat) (cc : Compiler) (avx : Bool) (base : BitVec R) (c : OrderedCall 128) : Routine R 128 :=
  (core16 R cc avx base (c.order = .seqCst)).routine true c.op

end X86

/-! ### Others: core_ops_windows.hpp -/

namespace Windows

/-- The functions for an object of 4 bytes, 63–93, 107–181. -/
def core (R : Nat) (cc : Compiler) : Core R 32 :=
  let cas e d := (Interlocked.compareExchange R 32 (resolve cc (compareExchangeStrong 32))).code (e, d)
  { load := .once ((fetch R 32 (resolve cc (fetchAdd 32))).code 0)
    store := fun v => .once (((fetch R 32 (resolve cc (exchange 32))).code v).map discard)
    exchange := fun v => .once ((fetch R 32 (resolve cc (exchange 32))).code v)
    casWeak := cas
    casStrong := cas
    fetchAdd := fun v => .once ((fetch R 32 (resolve cc (fetchAdd 32))).code v)
    fetchSub := fun v => .once ((fetch R 32 (resolve cc (fetchAdd 32))).code (-v))
    fetchAnd := fun v => X86.fetchOrLoop cas (resolve cc (fetchAnd 32)) (· &&& v) v
    fetchOr := fun v => X86.fetchOrLoop cas (resolve cc (fetchOr 32)) (· ||| v) v
    fetchXor := fun v => X86.fetchOrLoop cas (resolve cc (fetchXor 32)) (· ^^^ v) v }

/-- All operations: extra_ops_generic.hpp. -/
def routine (R : Nat) (cc : Compiler) (c : OrderedCall 32) : Routine R 32 := (core R cc).routine false c.op

end Windows

end Interlocked

/-! ### 32-bit x86: the functions with `__asm` blocks -/

/-- What the choice of a definition depends on: `second` selects the second of two definitions of `opaque_negate` and
`opaque_complement`.  (With both, the header does not compile.) -/
structure MsvcCfg where
  second : Bool

namespace Msvc1

/-- The functions for an object of 1 byte where there are no interlocked functions for it, core_arch_ops_msvc_x86.hpp
95–148, 265–385. -/
def core (seqCst : Bool) : Core 32 8 where
  load := .once ((plainLoad 32 8).code ())
  store v := .once (if seqCst then (exchange.code v).map discard else (plainStore 32 8).code v)
  exchange v := .once (exchange.code v)
  casWeak e d := compareExchangeStrong.code (e, d)
  casStrong e d := compareExchangeStrong.code (e, d)
  fetchAdd v := .once (fetchAdd.code v)
  fetchSub v := .once (fetchAdd.code (-v))
  fetchAnd v := .once (fetchAnd.code v)
  fetchOr v := .once (fetchOr.code v)
  fetchXor v := .once (fetchXor.code v)

/-- All operations: extra_ops_msvc_x86.hpp 34–418; those it does not define are those of extra_ops_generic.hpp. -/
def routine (o : MsvcCfg) (core : Core 32 8) : Integral.Op 8 → Routine 32 8
  | .fetchNegate => .once (fetchNegate.code ())
  | .fetchComplement => .once (fetchComplement.code ())
  | .negate => .once (negate.code ())
  | .bitwiseComplement => .once (bitwiseComplement.code ())
  | .negateAndTest => .once (negateAndTest.code ())
  | .complementAndTest => .once (complementAndTest.code ())
  | .bitwiseAnd v => .once (bitwiseAnd.code v)
  | .bitwiseOr v => .once (bitwiseOr.code v)
  | .bitwiseXor v => .once (bitwiseXor.code v)
  | .opaqueAdd v => .once (opaqueAdd.code v)
  | .opaqueSub v => .once (opaqueSub.code v)
  | .opaqueAnd v => .once (opaqueAnd.code v)
  | .opaqueOr v => .once (opaqueOr.code v)
  | .opaqueXor v => .once (opaqueXor.code v)
  | .addAndTest v => .once (addAndTest.code v)
  | .subAndTest v => .once (subAndTest.code v)
  | .andAndTest v => .once (andAndTest.code v)
  | .orAndTest v => .once (orAndTest.code v)
  | .xorAndTest v => .once (xorAndTest.code v)
  | .opaqueNegate => .once ((if o.second then opaqueNegateLock else opaqueNegate).code ())
  | .opaqueComplement => .once ((if o.second then opaqueComplementLock else opaqueComplement).code ())
  | op => core.routine false op

/-- The functions for an object of 1 byte: those with interlocked functions if there are any,
`BOOST_ATOMIC_INTERLOCKED_COMPARE_EXCHANGE8`, core_arch_ops_msvc_x86.hpp 219–387. -/
def select (cc : Interlocked.Compiler) (seqCst : Bool) : Core 32 8 :=
  if (cc.call ⟨.compareExchange, 8, .full⟩).isSome then Interlocked.X86.core 32 8 cc seqCst else core seqCst

/-- The function called. -/
def object (o : MsvcCfg) (cc : Interlocked.Compiler) (c : OrderedCall 8) : Routine 32 8 :=
  routine o (select cc (c.order = .seqCst)) c.op

end Msvc1

namespace Msvc2

/-- The functions for an object of 2 bytes where there are no interlocked functions for it, core_arch_ops_msvc_x86.hpp
95–148, 440–556. -/
def core (seqCst : Bool) : Core 32 16 where
  load := .once ((plainLoad 32 16).code ())
  store v := .once (if seqCst then (exchange.code v).map discard else (plainStore 32 16).code v)
  exchange v := .once (exchange.code v)
  casWeak e d := compareExchangeStrong.code (e, d)
  casStrong e d := compareExchangeStrong.code (e, d)
  fetchAdd v := .once (fetchAdd.code v)
  fetchSub v := .once (fetchAdd.code (-v))
  fetchAnd v := .once (fetchAnd.code v)
  fetchOr v := .once (fetchOr.code v)
  fetchXor v := .once (fetchXor.code v)

/-- All operations: extra_ops_msvc_x86.hpp 420–840; those it does not define are those of extra_ops_generic.hpp. -/
def routine (o : MsvcCfg) (core : Core 32 16) : Integral.Op 16 → Routine 32 16
  | .fetchNegate => .once (fetchNegate.code ())
  | .fetchComplement => .once (fetchComplement.code ())
  | .negate => .once (negate.code ())
  | .bitwiseComplement => .once (bitwiseComplement.code ())
  | .negateAndTest => .once (negateAndTest.code ())
  | .complementAndTest => .once (complementAndTest.code ())
  | .bitwiseAnd v => .once (bitwiseAnd.code v)
  | .bitwiseOr v => .once (bitwiseOr.code v)
  | .bitwiseXor v => .once (bitwiseXor.code v)
  | .opaqueAdd v => .once (opaqueAdd.code v)
  | .opaqueSub v => .once (opaqueSub.code v)
  | .opaqueAnd v => .once (opaqueAnd.code v)
  | .opaqueOr v => .once (opaqueOr.code v)
  | .opaqueXor v => .once (opaqueXor.code v)
  | .addAndTest v => .once (addAndTest.code v)
  | .subAndTest v => .once (subAndTest.code v)
  | .andAndTest v => .once (andAndTest.code v)
  | .orAndTest v => .once (orAndTest.code v)
  | .xorAndTest v => .once (xorAndTest.code v)
  | .opaqueNegate => .once ((if o.second then opaqueNegateLock else opaqueNegate).code ())
  | .opaqueComplement => .once ((if o.second then opaqueComplementLock else opaqueComplement).code ())
  | .bitTestAndSet b => .once (bitTestAndSet.code b)
  | .bitTestAndReset b => .once (bitTestAndReset.code b)
  | .bitTestAndComplement b => .once (bitTestAndComplement.code b)
  | op => core.routine false op

/-- The functions for an object of 2 bytes: those with interlocked functions if there are any,
`BOOST_ATOMIC_INTERLOCKED_COMPARE_EXCHANGE16`, core_arch_ops_msvc_x86.hpp 394–562. -/
def select (cc : Interlocked.Compiler) (seqCst : Bool) : Core 32 16 :=
  if (cc.call ⟨.compareExchange, 16, .full⟩).isSome then Interlocked.X86.core 32 16 cc seqCst else core seqCst

/-- The function called. -/
def object (o : MsvcCfg) (cc : Interlocked.Compiler) (c : OrderedCall 16) : Routine 32 16 :=
  routine o (select cc (c.order = .seqCst)) c.op

end Msvc2

namespace Msvc4

/-- `bit_test_and_set`, extra_ops_msvc_x86.hpp 1252–1272: with the interlocked function if there is one. -/
def setBit (cc : Interlocked.Compiler) (b : Fin 32) : Code 32 32 (Integral.Ret 32) :=
  let c := Interlocked.resolve cc (Interlocked.X86Extra.bitTestAndSet 32)
  if c.isSome then (Interlocked.bitTestAnd 32 32 c).code b else bitTestAndSet.code b

/-- `bit_test_and_reset`, extra_ops_msvc_x86.hpp 1274–1294. -/
def resetBit (cc : Interlocked.Compiler) (b : Fin 32) : Code 32 32 (Integral.Ret 32) :=
  let c := Interlocked.resolve cc (Interlocked.X86Extra.bitTestAndReset 32)
  if c.isSome then (Interlocked.bitTestAnd 32 32 c).code b else bitTestAndReset.code b

/-- All operations: extra_ops_msvc_x86.hpp 845–1295; those it does not define are those of extra_ops_generic.hpp. -/
def routine (o : MsvcCfg) (cc : Interlocked.Compiler) (core : Core 32 32) : Integral.Op 32 → Routine 32 32
  | .fetchNegate => .once (fetchNegate.code ())
  | .fetchComplement => .once (fetchComplement.code ())
  | .negate => .once (negate.code ())
  | .bitwiseComplement => .once (bitwiseComplement.code ())
  | .negateAndTest => .once (negateAndTest.code ())
  | .complementAndTest => .once (complementAndTest.code ())
  | .bitwiseAnd v => .once (bitwiseAnd.code v)
  | .bitwiseOr v => .once (bitwiseOr.code v)
  | .bitwiseXor v => .once (bitwiseXor.code v)
  | .opaqueAdd v => .once (opaqueAdd.code v)
  | .opaqueSub v => .once (opaqueSub.code v)
  | .opaqueAnd v => .once (opaqueAnd.code v)
  | .opaqueOr v => .once (opaqueOr.code v)
  | .opaqueXor v => .once (opaqueXor.code v)
  | .addAndTest v => .once (addAndTest.code v)
  | .subAndTest v => .once (subAndTest.code v)
  | .andAndTest v => .once (andAndTest.code v)
  | .orAndTest v => .once (orAndTest.code v)
  | .xorAndTest v => .once (xorAndTest.code v)
  | .opaqueNegate => .once ((if o.second then opaqueNegateLock else opaqueNegate).code ())
  | .opaqueComplement => .once ((if o.second then opaqueComplementLock else opaqueComplement).code ())
  | .bitTestAndSet b => .once (setBit cc b)
  | .bitTestAndReset b => .once (resetBit cc b)
  | .bitTestAndComplement b => .once (bitTestAndComplement.code b)
  | op => core.routine false op

/-- The function called; the functions of `Core` are those of core_arch_ops_msvc_x86.hpp 95–217. -/
def object (o : MsvcCfg) (cc : Interlocked.Compiler) (c : OrderedCall 32) : Routine 32 32 :=
  routine o cc (Interlocked.X86.core 32 32 cc (c.order = .seqCst)) c.op

end Msvc4

/-! 8 bytes, `msvc_dcas_x86`, core_arch_ops_msvc_x86.hpp 569–776. -/

namespace Msvc8

/-- The instructions that the compiler may use for accesses of 8 bytes: `_M_IX86_FP >= 2` with and without `__AVX__`, or
neither. -/
inductive Unit8 where
  | avx | sse2 | x87

/-- `store`, 593–645. -/
def store_ (u : Unit8) (base : BitVec 32) (seqCst : Bool) (v : BitVec 64) : Code 32 64 (Integral.Ret 64) :=
  if !seqCst && base &&& 7 == 0 then
    X86.vector 8 base (match u with
      | .avx => storeAvx.code v
      | .sse2 => storeSse2.code v
      | .x87 => storeX87.code v)
  else storeLoop.code v

/-- `load`, 647–699. -/
def load_ (u : Unit8) (base : BitVec 32) : Code 32 64 (Integral.Ret 64) :=
  if base &&& 7 == 0 then
    X86.vector 8 base (match u with
      | .avx => loadAvx.code ()
      | .sse2 => loadSse2.code ()
      | .x87 => loadX87.code ())
  else loadCas.code ()

/-- The macro used by `compare_exchange_strong`, 710. -/
def casUse : Interlocked.Use := ⟨⟨.compareExchange, 64, .full⟩, [0, 2, 1]⟩

/-- As `Interlocked.Call.ins` for `_InterlockedCompareExchange64` where a variable of 64 bits is two registers, `s` and
`s + 20`. -/
def casIns (c : Interlocked.Call) (vars : List Slot) (ds : List Slot) : Ins 32 64 :=
  let s i := vars.getD i 98
  if c.fn.width ≠ 64 then Interlocked.wrong else
  match c.fn.prim, c.args with
  | .compareExchange, [.param p _, .param i k, .param j l] =>
    .rmw (s p) [s i, s i + 20, s j, s j + 20] ds fun m v fl =>
      if m = ((joined 64 (v.getD 3 0) (v2 v)).setWidth l).setWidth 64 then
        (some (((joined 64 (v1 v) (v0 v)).setWidth k).setWidth 64), [lower 32 m, upper 32 m], fl)
      else (none, [lower 32 m, upper 32 m], fl)
  | _, _ => Interlocked.wrong

/-- `compare_exchange_strong` with the interlocked function, 709–712. -/
def casCall (c : Interlocked.Call) (vars : List Slot) : Fn 32 64 (BitVec 64 × BitVec 64) (Integral.Ret 64) where
  block := {
    prog := [
      casIns c vars [4, 24],                                -- old_val = MACRO(p, desired, expected);
      .comp [4, 24, 1, 21] [3] (fun v fl =>                 -- const bool result = (old_val == expected);
        ([if v0 v = v2 v ∧ v1 v = v.getD 3 0 then 1#32 else 0#32], fl)),
      .comp [4, 24] [1, 21] (fun v fl => ([v0 v, v1 v], fl))]   -- expected = old_val;
    opnds := [(0, .input), (1, .inoutEarly), (2, .input), (3, .outEarly), (4, .outEarly), (21, .inoutEarly),
      (22, .input), (24, .outEarly)]
    addr := [0]
    results := [1, 21, 3] }
  args a x := x 1 = lower 32 a.1 ∧ x 21 = upper 32 a.1 ∧ x 2 = lower 32 a.2 ∧ x 22 = upper 32 a.2
  ret _ r := .cas (r 3 != 0) (joined 64 (r 21) (r 1))

/-- `compare_exchange_strong`, 701–735. -/
def compareExchange (cc : Interlocked.Compiler) (e d : BitVec 64) : Code 32 64 (Integral.Ret 64) :=
  match Interlocked.resolve cc (some casUse) with
  | some (c, vars) => (casCall c vars).code (e, d)
  | none => cas.code (e, d)

/-- `core_operations_cas_based< msvc_dcas_x86 >`, 772–776; `compare_exchange_weak`,
`exchange`: 737–769. -/
def core (cc : Interlocked.Compiler) (u : Unit8) (base : BitVec 32) (seqCst : Bool) : Core 32 64 :=
  casBased (.once (load_ u base)) (fun v => .once (store_ u base seqCst v)) (fun v => .once (exchange.code v))
    (compareExchange cc)

/-- All operations: extra_ops_generic.hpp 199–393. -/
def routine (cc : Interlocked.Compiler) (u : Unit8) (base : BitVec 32) (c : OrderedCall 64) : Routine 32 64 :=
  (core cc u base (c.order = .seqCst)).routine true c.op

end Msvc8

end Verif.Asm
