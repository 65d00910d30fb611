import Verif.Asm.X86DcasCode
import Verif.Asm.X86Call
import Verif.Asm.Loop

/-
Atomic objects on x86 of the size of two registers: 8 bytes in 32-bit mode, 16 bytes in 64-bit mode.
-/

namespace Verif.Asm

/-! ### Alignment -/

namespace X86

variable {R N : Nat}

/-- What an access by a vector or floating-point instruction is if the object is not aligned: not known to be
atomic, or (`vmovdqa`) a fault.  Modelled as a block that accesses other memory, so that no operation is
implemented by it. -/
def notAtomic : Code R N (Integral.Ret N) where
  block := { prog := [.store 0 [] fun _ => 0], opnds := [(0, .input)], addr := [], results := [] }
  pre _ := True
  ret _ := .unit

/-- A block with vector or floating-point instructions executed on the object at `base`: the manual guarantees
atomicity of such accesses of `n` bytes if they are aligned (volume 3, 9.1.1; 16 bytes with AVX). -/
def vector (n : Nat) (base : BitVec R) (c : Code R N (Integral.Ret N)) : Code R N (Integral.Ret N) :=
  if base.toNat % n = 0 then c else notAtomic

/-- An atomic object of `N` bits at any address and with any initial value is linearizable: all histories of
concurrent calls of all operations with any memory orders are explained by `Integral.spec`.  `core base seqCst` are
the functions of the back end for the object at `base` and calls with or without `memory_order_seq_cst`. -/
def AtomicAt (core : BitVec R → Bool → Core R N) : Prop :=
  ∀ (base : BitVec R) (v₀ : BitVec N), base ≠ 0 →
    (routineMachine (fun c : Call N => (core base c.seqCst).routine true c.op) base).IsLinearizable
      (fun s c s' r => Integral.spec s c.op s' r) ⟨v₀, 0⟩ v₀

end X86

open X86

/-! ### 8 bytes, `gcc_dcas_x86`, core_arch_ops_gcc_x86.hpp 451–800 -/

namespace X86d8

/-- The instructions that the compiler may use for accesses of 8 bytes: `__AVX__`, `__SSE2__`, `__SSE__`, none. -/
inductive Unit8 where
  | avx | sse2 | sse | x87

/-- What the choice of the blocks depends on: the vector unit, and the macros
`BOOST_ATOMIC_DETAIL_X86_ASM_PRESERVE_EBX`, `BOOST_ATOMIC_DETAIL_X86_NO_ASM_AX_DX_PAIRS`,
`BOOST_ATOMIC_DETAIL_ASM_HAS_FLAG_OUTPUTS`, and MinGW before gcc 4.7. -/
structure Cfg where
  unit : Unit8
  preserve : Bool
  noPairs : Bool
  flags : Bool
  mingw : Bool

/-- The block of `store` for `BOOST_ATOMIC_DETAIL_X86_ASM_PRESERVE_EBX` with `eax` and `esi` declared as changed:
the block changes both, and the source declares neither (510–523, see `Verif.Asm.Findings`). -/
def storePicDeclared : Fn 32 64 (BitVec 64) (Integral.Ret 64) :=
  { storePic with block := { storePic.block with
      opnds := [(0, .inoutEarly), (1, .input), (2, .input), (42, .outEarly), (43, .reserved), (46, .outEarly)]
      results := [43] } }

/-- `store`, 469–538. -/
def store (o : Cfg) (base : BitVec 32) (seqCst : Bool) (v : BitVec 64) : Code 32 64 (Integral.Ret 64) :=
  if !seqCst && base &&& 7 == 0 then
    vector 8 base (match o.unit with
      | .avx => storeAvx.code v
      | .sse2 => storeSse2.code v
      | .sse => storeSse.code v
      | .x87 => storeX87.code v)
  else if o.preserve then storePicDeclared.code v
  else storeLoop.code v

/-- `load`, 540–621. -/
def load (o : Cfg) (base : BitVec 32) : Code 32 64 (Integral.Ret 64) :=
  if base &&& 7 == 0 then
    vector 8 base (match o.unit with
      | .avx => loadAvx.code ()
      | .sse2 => loadSse2.code ()
      | .sse => loadSse.code ()
      | .x87 => loadX87.code ())
  else if o.noPairs then loadCasBits.code ()
  else loadCas.code ()

/-- `compare_exchange_strong`, 623–692 (clang uses a builtin function, which is not modelled here);
`compare_exchange_weak`, 694–698, calls it. -/
def compareExchange (o : Cfg) (e d : BitVec 64) : Code 32 64 (Integral.Ret 64) :=
  if o.preserve then if o.flags then casPic.code (e, d) else casPicSet.code (e, d)
  else if o.flags then cas.code (e, d) else casSet.code (e, d)

/-- `exchange`, 700–799. -/
def exchange_ (o : Cfg) (v : BitVec 64) : Code 32 64 (Integral.Ret 64) :=
  if o.preserve then if o.noPairs then exchangePicBits.code v else exchangePic.code v
  else if o.mingw then exchangeMinGw.code v
  else if o.noPairs then exchangeBits.code v
  else exchange.code v

/-- `core_operations_cas_based< gcc_dcas_x86 >`, 802–806. -/
def core (o : Cfg) (base : BitVec 32) (seqCst : Bool) : Core 32 64 :=
  casBased (.once (load o base)) (fun v => .once (store o base seqCst v)) (fun v => .once (exchange_ o v))
    (compareExchange o)

end X86d8

/-! ### 16 bytes, `gcc_dcas_x86_64`, core_arch_ops_gcc_x86.hpp 921–1161 -/

namespace X86d16

/-- What the choice of the blocks depends on: `__AVX__` and the macros
`BOOST_ATOMIC_DETAIL_X86_NO_ASM_AX_DX_PAIRS`, `BOOST_ATOMIC_DETAIL_ASM_HAS_FLAG_OUTPUTS`. -/
structure Cfg where
  avx : Bool
  noPairs : Bool
  flags : Bool

/-- `store`, 938–976. -/
def store (o : Cfg) (base : BitVec 64) (seqCst : Bool) (v : BitVec 128) : Code 64 128 (Integral.Ret 128) :=
  if o.avx && !seqCst && base &&& 15 == 0 then vector 16 base (storeAvx.code v)
  else storeLoop.code v

/-- `load`, 978–1052. -/
def load (o : Cfg) (base : BitVec 64) : Code 64 128 (Integral.Ret 128) :=
  if o.avx && base &&& 15 == 0 then vector 16 base (loadAvx.code ())
  else if o.noPairs then loadCasBits.code ()
  else loadCas.code ()

/-- `compare_exchange_strong`, 1054–1107 (clang uses a builtin function, which is not modelled here);
`compare_exchange_weak`, 1109–1113, calls it. -/
def compareExchange (o : Cfg) (e d : BitVec 128) : Code 64 128 (Integral.Ret 128) :=
  if o.noPairs then casBits.code (e, d)
  else if o.flags then cas.code (e, d) else casSet.code (e, d)

/-- `exchange`, 1115–1160. -/
def exchange_ (o : Cfg) (v : BitVec 128) : Code 64 128 (Integral.Ret 128) :=
  if o.noPairs then exchangeBits.code v else exchange.code v

/-- `core_operations_cas_based< gcc_dcas_x86_64 >`, 1163–1167. -/
def core (o : Cfg) (base : BitVec 64) (seqCst : Bool) : Core 64 128 :=
  casBased (.once (load o base)) (fun v => .once (store o base seqCst v)) (fun v => .once (exchange_ o v))
    (compareExchange o)

end X86d16

end Verif.Asm
