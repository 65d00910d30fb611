import Verif.Integral.Model
import Verif.Concurrent.Model
import Verif.Pair.Spec

/-!
Double-width operations on two registers: core_arch_ops_gcc_arm.hpp:1124–1412 and extra_ops_gcc_arm.hpp:851–1103
(8 bytes), core_arch_ops_gcc_aarch32.hpp:914–1217 and extra_ops_gcc_aarch32.hpp:866–1118 (8 bytes),
core_arch_ops_gcc_aarch64.hpp:1684–2027 and extra_ops_gcc_aarch64.hpp:1135–1406 (16 bytes).
-/

namespace Verif.Pair

open Verif.Integral Verif.Concurrent

/-- A register pair: `r0` holds the bytes at the lower address (`%1` or `original_0`), `r1` those at the higher address
(`%H1` or `original_1`). -/
structure Regs (h : Nat) where
  r0 : BitVec h
  r1 : BitVec h

/-- `BOOST_ATOMIC_DETAIL_ARM_ASM_ARG_LO` (gcc_arm_asm_common.hpp:71–77), `BOOST_ATOMIC_DETAIL_AARCH32_ASM_ARG_LO`
(ops_gcc_aarch32_common.hpp:45–51), `BOOST_ATOMIC_DETAIL_AARCH64_ASM_ARG_LO` (ops_gcc_aarch64_common.hpp:45–51). -/
def Regs.lo {h : Nat} (bigEndian : Bool) (r : Regs h) : BitVec h := if bigEndian then r.r1 else r.r0
/-- The `..._ARG_HI` macros, same places. -/
def Regs.hi {h : Nat} (bigEndian : Bool) (r : Regs h) : BitVec h := if bigEndian then r.r0 else r.r1
/-- A pair whose registers named LO and HI are `l` and `u`. -/
def mkRegs {h : Nat} (bigEndian : Bool) (u l : BitVec h) : Regs h := if bigEndian then ⟨u, l⟩ else ⟨l, u⟩

/-- `ldrexd`, `ldxp`, and the union `storage_union` (core_arch_ops_gcc_aarch64.hpp:1696–1700): the double word in memory
as two registers.  A little-endian machine keeps the low-order half at the lower address. -/
def toRegs (bigEndian : Bool) {h : Nat} (w : BitVec (h + h)) : Regs h :=
  let low := w.setWidth h
  let high := (w >>> h).setWidth h
  if bigEndian then ⟨high, low⟩ else ⟨low, high⟩

/-- `strexd`, `stxp`: back to memory. -/
def ofRegs (bigEndian : Bool) {h : Nat} (r : Regs h) : BitVec (h + h) :=
  if bigEndian then r.r0 ++ r.r1 else r.r1 ++ r.r0

/-! ### Instructions -/

/-- `adds`: sum and carry flag. -/
def adds {h : Nat} (a b : BitVec h) : BitVec h × Bool := (a + b, decide (2 ^ h ≤ a.toNat + b.toNat))
/-- `adc`: add with carry. -/
def adc {h : Nat} (a b : BitVec h) (c : Bool) : BitVec h := a + b + (if c then 1 else 0)
/-- `subs`: difference and carry flag, which is set when there was no borrow. -/
def subs {h : Nat} (a b : BitVec h) : BitVec h × Bool := (a - b, decide (b.toNat ≤ a.toNat))
/-- `sbc`: subtract with carry (one more if the carry flag is clear). -/
def sbc {h : Nat} (a b : BitVec h) (c : Bool) : BitVec h := a - b - (if c then 0 else 1)

/-! ### Bodies of the loops -/

variable (be : Bool) {h : Nat}

/-- `fetch_add`, `add`: `adds LO, LO, LO; adc HI, HI, HI` (arm 1273–1274, extra 925–926; aarch32 1086–1087,
extra 940–941; aarch64 1879–1880, extra 1216–1217). -/
def addRegs (r v : Regs h) : Regs h :=
  let (l, c) := adds (r.lo be) (v.lo be)
  mkRegs be (adc (r.hi be) (v.hi be) c) l
/-- `fetch_sub`, `sub`: `subs LO, LO, LO; sbc HI, HI, HI` (arm 1300–1301; aarch32 1113–1114; aarch64 1910–1911). -/
def subRegs (r v : Regs h) : Regs h :=
  let (l, c) := subs (r.lo be) (v.lo be)
  mkRegs be (sbc (r.hi be) (v.hi be) c) l
/-- `mvn` of both registers (extra arm 1060–1061, 1087–1088; extra aarch32 1075–1076; extra aarch64 1361–1362). -/
def notRegs (r : Regs h) : Regs h := ⟨~~~ r.r0, ~~~ r.r1⟩
/-- `fetch_negate`, `negate`: `mvn; mvn; adds LO, LO, #1; adc HI, HI, #0` (extra arm 867–870; aarch32 882–885;
aarch64 1154–1157). -/
def negRegs (r : Regs h) : Regs h :=
  let n := notRegs r
  let (l, c) := adds (n.lo be) 1
  mkRegs be (adc (n.hi be) 0 c) l
/-- `fetch_and`, `bitwise_and`: `and` register by register (arm 1327–1328; aarch64 1941–1942). -/
def andRegs (r v : Regs h) : Regs h := ⟨r.r0 &&& v.r0, r.r1 &&& v.r1⟩
/-- `fetch_or`, `bitwise_or` (arm 1354–1355; aarch64 1972–1973). -/
def orRegs (r v : Regs h) : Regs h := ⟨r.r0 ||| v.r0, r.r1 ||| v.r1⟩
/-- `fetch_xor`, `bitwise_xor` (arm 1381–1382; aarch64 2003–2004). -/
def xorRegs (r v : Regs h) : Regs h := ⟨r.r0 ^^^ v.r0, r.r1 ^^^ v.r1⟩
/-- `cmp r0; cmpeq r1` (arm 1202–1204, 1238–1240), `cmp; ccmp` (aarch64 1811–1812, 1845–1846): whether the registers are pairwise equal. -/
def eqRegs (r v : Regs h) : Bool := decide (r.r0 = v.r0) && decide (r.r1 = v.r1)

/-- A loop body applied to the double word in memory. -/
def onWord (f : Regs h → Regs h) (w : BitVec (h + h)) : BitVec (h + h) := ofRegs be (f (toRegs be w))

/-- The core operations.  Loads and stores are `Code.load` and `Code.store` here; `Concurrent.viaRmw` turns both into the
loops they are on AArch64 (1702–1767), `storeViaRmw` turns stores into the loop they are on ARM (1134–1137) and
AArch32 (924–957). -/
def corePair (h : Nat) : CoreOps (h + h) :=
  let p := corePlain (h + h)
  let fetch (f : Regs h → Regs h) : Code (BitVec (h + h)) (BitVec (h + h)) := .rmw (onWord be f) (fun old _ => old)
  { p with
    fetchAdd := fun v => fetch fun r => addRegs be r (toRegs be v)
    fetchSub := fun v => fetch fun r => subRegs be r (toRegs be v)
    fetchAnd := fun v => fetch fun r => andRegs r (toRegs be v)
    fetchOr := fun v => fetch fun r => orRegs r (toRegs be v)
    fetchXor := fun v => fetch fun r => xorRegs r (toRegs be v) }

/-- The extra operations; testing and opaque forms are derived as in `Integral.extraLlsc`
(extra_ops_gcc_arm.hpp:42–160, extra_ops_gcc_aarch64.hpp:42–130), bit operations inherited. -/
def extraPair (sgn : Bool) (h : Nat) : ExtraOps (h + h) :=
  let g := extraGeneric (h + h) sgn (corePair be h)
  let new (f : Regs h → Regs h) : Code (BitVec (h + h)) (BitVec (h + h)) := .rmw (onWord be f) (fun _ new => new)
  let old (f : Regs h → Regs h) : Code (BitVec (h + h)) (BitVec (h + h)) := .rmw (onWord be f) (fun old _ => old)
  let add := fun v => new fun r => addRegs be r (toRegs be v)
  let sub := fun v => new fun r => subRegs be r (toRegs be v)
  let band := fun v => new fun r => andRegs r (toRegs be v)
  let bor := fun v => new fun r => orRegs r (toRegs be v)
  let bxor := fun v => new fun r => xorRegs r (toRegs be v)
  let neg := new (negRegs be)
  let compl := new notRegs
  { g with
    fetchNegate := old (negRegs be)
    negate := neg
    add := add
    sub := sub
    bitwiseAnd := band
    bitwiseOr := bor
    bitwiseXor := bxor
    fetchComplement := old notRegs
    bitwiseComplement := compl
    opaqueAdd := fun v => (add v).map fun _ => ()
    opaqueSub := fun v => (sub v).map fun _ => ()
    opaqueNegate := neg.map fun _ => ()
    opaqueAnd := fun v => (band v).map fun _ => ()
    opaqueOr := fun v => (bor v).map fun _ => ()
    opaqueXor := fun v => (bxor v).map fun _ => ()
    opaqueComplement := compl.map fun _ => ()
    negateAndTest := neg.map nz
    addAndTest := fun v => (add v).map nz
    subAndTest := fun v => (sub v).map nz
    andAndTest := fun v => (band v).map nz
    orAndTest := fun v => (bor v).map nz
    xorAndTest := fun v => (bxor v).map nz
    complementAndTest := compl.map nz }

/-- The operations of an atomic integer of two registers. -/
def table (sgn : Bool) (h : Nat) : Op (h + h) → Code (BitVec (h + h)) (Ret (h + h)) :=
  api sgn (corePair be h) (extraPair be sgn h)

/-- ARM: `store` is `exchange` with the result dropped (core_arch_ops_gcc_arm.hpp:1134–1137); `load` is a single `ldrexd`
(1139–1165), which is indivisible. -/
def storeViaRmw {W R : Type} : Code W R → Code W R
  | .store v r => .rmw (fun _ => v) (fun _ _ => r)
  | c => c

/-! ### A load-exclusive pair that is not indivisible

`ldxp` of two 64-bit registers is, without the architecture extension FEAT_LSE2, single-copy atomic only for each
register; the pair is known to be consistent only once the matching `stxp` succeeds.  The load of the library takes this
into account (core_arch_ops_gcc_aarch64.hpp:1736–1767 stores the value back); `compare_exchange_weak` and
`compare_exchange_strong` (1797–1864) do not: on a mismatch they return what `ldxp` delivered. -/

/-- Private state of a call: `half first x v`: one register has been read, when memory held `x` and the store count was
`v` (`first`: it was `r0`); `linked x v`: both have been read. -/
inductive PairLoc (W Ret : Type) where
  | begin
  | half (first : Bool) (x : W) (ver : Nat)
  | linked (x : W) (ver : Nat)
  | fin (r : Ret)

/-- `tear x y` is the word with the first register of `x` and the second of `y`.  Otherwise as `Concurrent.LlStep`; loads
and stores are expected to be expressed as read-modify-writes (`viaRmw`). -/
inductive PairStep {W Op Ret : Type} (tear : W → W → W) (code : Op → Code W Ret) :
    Op → LlMem W → PairLoc W Ret → LlMem W → PairLoc W Ret → Prop where
  | link {op m} (first : Bool) : PairStep tear code op m .begin m (.half first m.word m.ver)
  | rest {op m first x v} :
      PairStep tear code op m (.half first x v) m (.linked (if first then tear x m.word else tear m.word x) v)
  | rmwSc {op f k m x} : code op = .rmw f k →
      PairStep tear code op m (.linked x m.ver) ⟨f x, m.ver + 1⟩ (.fin (k x (f x)))
  | rmwScFail {op f k m x v} : code op = .rmw f k → PairStep tear code op m (.linked x v) m .begin
  | weakMiss {op e d k m x v} : code op = .casWeak e d k → x ≠ e →
      PairStep tear code op m (.linked x v) m (.fin (k false x))
  | weakSc {op e d k m} : code op = .casWeak e d k →
      PairStep tear code op m (.linked e m.ver) ⟨d, m.ver + 1⟩ (.fin (k true e))
  | weakScFail {op e d k m v} : code op = .casWeak e d k →
      PairStep tear code op m (.linked e v) m (.fin (k false e))
  | strongMiss {op e d k m x v} : code op = .casStrong e d k → x ≠ e →
      PairStep tear code op m (.linked x v) m (.fin (k false x))
  | strongSc {op e d k m} : code op = .casStrong e d k →
      PairStep tear code op m (.linked e m.ver) ⟨d, m.ver + 1⟩ (.fin (k true e))
  | strongScFail {op e d k m v} : code op = .casStrong e d k →
      PairStep tear code op m (.linked e v) m .begin

/-- LL/SC back end with a load-exclusive pair that may be torn. -/
def pairMachine {W Op Ret : Type} (tear : W → W → W) (code : Op → Code W Ret) : Machine (LlMem W) Op Ret where
  Loc := PairLoc W Ret
  start _ := .begin
  step := PairStep tear code
  result | .fin r => some r | _ => none

/-- First register from `x`, second from `y`. -/
def tearWord (x y : BitVec (h + h)) : BitVec (h + h) := ofRegs be ⟨(toRegs be x).r0, (toRegs be y).r1⟩

end Verif.Pair
