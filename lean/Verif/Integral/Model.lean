import Verif.Common.Code
import Verif.Integral.Spec

/-
The integer operations of the library, function by function, on a storage word of `W`
bits.  Each definition cites the source it transcribes (paths are relative to
/repo/include/boost/atomic/detail unless stated otherwise).

Simplifications: C++ unsigned arithmetic on `storage_type` is `BitVec W` arithmetic (integer
promotions of `uint8_t`/`uint16_t` compute in `int` and convert back modulo `2^W`, which is the
same); memory-order arguments are dropped here and treated in `Verif.Order`.
-/

namespace Verif.Integral

/-- `integral_extend<Signed, Output>(x)` of integral_conversions.hpp:33–100, for an output at
least as wide as the input: sign extension when `Signed`, zero extension otherwise.  Also the
`static_cast<storage_type>(v)` of a value argument (atomic_impl.hpp:656, 669, …): converting a
signed value to a wider unsigned type sign-extends, converting an unsigned one zero-extends. -/
def ext (sgn : Bool) {N : Nat} (W : Nat) (x : BitVec N) : BitVec W :=
  if sgn then x.signExtend W else x.setWidth W

/-- `integral_truncate` (integral_conversions.hpp:56–61) and `static_cast<emulated_storage_type>`:
keep the low bits. -/
def trunc {W : Nat} (N : Nat) (w : BitVec W) : BitVec N := w.setWidth N

/-- The primitive operations a back end provides on its storage word. -/
structure CoreOps (W : Nat) where
  load : Code (BitVec W) (BitVec W)
  store : BitVec W → Code (BitVec W) Unit
  exchange : BitVec W → Code (BitVec W) (BitVec W)
  casWeak : BitVec W → BitVec W → Code (BitVec W) (Bool × BitVec W)
  casStrong : BitVec W → BitVec W → Code (BitVec W) (Bool × BitVec W)
  fetchAdd : BitVec W → Code (BitVec W) (BitVec W)
  fetchSub : BitVec W → Code (BitVec W) (BitVec W)
  fetchAnd : BitVec W → Code (BitVec W) (BitVec W)
  fetchOr : BitVec W → Code (BitVec W) (BitVec W)
  fetchXor : BitVec W → Code (BitVec W) (BitVec W)

/-- The extra operations of the library. `bit*` take the bit number. -/
structure ExtraOps (W : Nat) where
  fetchNegate : Code (BitVec W) (BitVec W)
  negate : Code (BitVec W) (BitVec W)
  add : BitVec W → Code (BitVec W) (BitVec W)
  sub : BitVec W → Code (BitVec W) (BitVec W)
  bitwiseAnd : BitVec W → Code (BitVec W) (BitVec W)
  bitwiseOr : BitVec W → Code (BitVec W) (BitVec W)
  bitwiseXor : BitVec W → Code (BitVec W) (BitVec W)
  fetchComplement : Code (BitVec W) (BitVec W)
  bitwiseComplement : Code (BitVec W) (BitVec W)
  opaqueAdd : BitVec W → Code (BitVec W) Unit
  opaqueSub : BitVec W → Code (BitVec W) Unit
  opaqueNegate : Code (BitVec W) Unit
  opaqueAnd : BitVec W → Code (BitVec W) Unit
  opaqueOr : BitVec W → Code (BitVec W) Unit
  opaqueXor : BitVec W → Code (BitVec W) Unit
  opaqueComplement : Code (BitVec W) Unit
  addAndTest : BitVec W → Code (BitVec W) Bool
  subAndTest : BitVec W → Code (BitVec W) Bool
  negateAndTest : Code (BitVec W) Bool
  andAndTest : BitVec W → Code (BitVec W) Bool
  orAndTest : BitVec W → Code (BitVec W) Bool
  xorAndTest : BitVec W → Code (BitVec W) Bool
  complementAndTest : Code (BitVec W) Bool
  bitTestAndSet : Nat → Code (BitVec W) Bool
  bitTestAndReset : Nat → Code (BitVec W) Bool
  bitTestAndComplement : Nat → Code (BitVec W) Bool

/-- `!!x`. -/
def nz {n : Nat} (x : BitVec n) : Bool := decide (x ≠ 0)

/-! ### Core operations -/

/-- The plain core operations: core_ops_cas_based.hpp:37–85 (`fetch_*` as CAS loops) with
`exchange` of cas_based_exchange.hpp:35–41; equally core_operations_emulated.hpp:69–173 (under the
lock) and the intrinsics of core_ops_gcc_atomic.hpp:99–142.  What is stored and returned is the
same in all of them; they differ in how the read-modify-write is made indivisible, which is
modelled by the machines of `Verif.Concurrent`. -/
def corePlain (W : Nat) : CoreOps W where
  load := .load fun w => w
  store v := .store v ()
  exchange v := .rmw (fun _ => v) (fun old _ => old)
  casWeak e d := .casWeak e d fun b w => (b, w)
  casStrong e d := .casStrong e d fun b w => (b, w)
  fetchAdd v := .rmw (fun old => old + v) (fun old _ => old)
  fetchSub v := .rmw (fun old => old - v) (fun old _ => old)
  fetchAnd v := .rmw (fun old => old &&& v) (fun old _ => old)
  fetchOr v := .rmw (fun old => old ||| v) (fun old _ => old)
  fetchXor v := .rmw (fun old => old ^^^ v) (fun old _ => old)

/-- x86: `fetch_sub` is `fetch_add(-v)` (core_arch_ops_gcc_x86.hpp:93–96; also
core_ops_windows.hpp:81–86), weak CAS forwards to strong CAS (98–102), the others are
`xadd`/`xchg`/`cmpxchg` loops (123–219, 224–439, 810–916). -/
def coreX86 (W : Nat) : CoreOps W :=
  let p := corePlain W
  { p with
    fetchSub := fun v => p.fetchAdd (-v)
    casWeak := p.casStrong }

/-- AArch64 with LSE: `fetch_sub` is `ldadd` of `-v` (core_arch_ops_gcc_aarch64.hpp:286–325) and
`fetch_and` is `ldclr` of `~v` (327–365), where `ldclr x` stores `old & ~x`. -/
def coreLse (W : Nat) : CoreOps W :=
  let ldclr : BitVec W → Code (BitVec W) (BitVec W) :=
    fun x => .rmw (fun old => old &&& ~~~x) (fun old _ => old)
  let p := corePlain W
  { p with
    fetchSub := fun v => p.fetchAdd (-v)
    fetchAnd := fun v => ldclr (~~~v) }

/-- LL/SC back ends for operands narrower than a register (core_arch_ops_gcc_arm.hpp:336–585 and
730–985, core_arch_ops_gcc_ppc.hpp:355–600, core_arch_ops_gcc_aarch64.hpp:55–900): the load-exclusive
zero-extends to an `R`-bit register, the arithmetic is done in the register, whose upper bits
for the argument are unspecified (`v` arrives as an arbitrary register content), and the
store-exclusive writes the low `W` bits. `up` is the unspecified upper part. -/
def coreNarrow (R W : Nat) (up : BitVec R) : CoreOps W :=
  let reg : BitVec W → BitVec R := fun v => (up <<< W) ||| v.setWidth R
  let zx : BitVec W → BitVec R := fun v => v.setWidth R
  let lo : BitVec R → BitVec W := fun r => r.setWidth W
  let p := corePlain W
  { p with
    fetchAdd := fun v => .rmw (fun old => lo (zx old + reg v)) (fun old _ => lo (zx old))
    fetchSub := fun v => .rmw (fun old => lo (zx old - reg v)) (fun old _ => lo (zx old))
    fetchAnd := fun v => .rmw (fun old => lo (zx old &&& reg v)) (fun old _ => lo (zx old))
    fetchOr := fun v => .rmw (fun old => lo (zx old ||| reg v)) (fun old _ => lo (zx old))
    fetchXor := fun v => .rmw (fun old => lo (zx old ^^^ reg v)) (fun old _ => lo (zx old)) }

/-- A core in which an `N`-bit value is kept extended in a `W`-bit word: `fetch_add`/`fetch_sub`
re-extend the result.  extending_cas_based_arithmetic.hpp:39–63, and the emulated 1- and 2-byte
operations of core_arch_ops_gcc_arm.hpp:589–715 (`uxtb`/`sxtb`) and 985–1110 (`uxth`/`sxth`),
core_arch_ops_gcc_ppc.hpp:603–710 (`rlwinm`/`extsb`) and 971–1078,
core_arch_ops_gcc_alpha.hpp:351–600 (`zapnot`/`sextb`…). Everything else is inherited. -/
def coreExtending (N : Nat) (sgn : Bool) {W : Nat} (base : CoreOps W) : CoreOps W :=
  { base with
    fetchAdd := fun v => .rmw (fun old => ext sgn W (trunc N (old + v))) (fun old _ => old)
    fetchSub := fun v => .rmw (fun old => ext sgn W (trunc N (old - v))) (fun old _ => old) }

/-! ### Extra operations -/

/-- `mask` of the `bit_test_and_*` functions (extra_ops_generic.hpp:172–173):
`integral_extend<Signed, storage_type>((emulated_storage_type)((emulated_storage_type)1u << bit))`. -/
def bitMask (E : Nat) (sgn : Bool) (W : Nat) (bit : Nat) : BitVec W :=
  ext sgn W ((1#E) <<< bit)

/-- `integral_extend<Signed, storage_type>((emulated_storage_type)~(emulated_storage_type)0u)`
(extra_ops_generic.hpp:90–91). -/
def onesMask (E : Nat) (sgn : Bool) (W : Nat) : BitVec W := ext sgn W (~~~(0#E))

/-- extra_ops_generic.hpp:34–195: the primary template, used when the back end has native
read-modify-write operations. `E` is the width of `emulated_storage_type`, i.e. the template
parameter `Size` times eight. -/
def extraGeneric (E : Nat) (sgn : Bool) {W : Nat} (c : CoreOps W) : ExtraOps W :=
  let neg : BitVec W → BitVec W := fun old => ext sgn W (trunc E (-old))
  let negate : Code (BitVec W) (BitVec W) := .rmw neg (fun _ new => new)
  let add := fun v => (c.fetchAdd v).map (· + v)
  let sub := fun v => (c.fetchSub v).map (· - v)
  let band := fun v => (c.fetchAnd v).map (· &&& v)
  let bor := fun v => (c.fetchOr v).map (· ||| v)
  let bxor := fun v => (c.fetchXor v).map (· ^^^ v)
  let fetchNegate : Code (BitVec W) (BitVec W) := .rmw neg (fun old _ => old)
  let fetchComplement := c.fetchXor (onesMask E sgn W)
  let complement := (c.fetchXor (onesMask E sgn W)).map (· ^^^ onesMask E sgn W)
  { fetchNegate := fetchNegate
    negate := negate
    add := add
    sub := sub
    bitwiseAnd := band
    bitwiseOr := bor
    bitwiseXor := bxor
    fetchComplement := fetchComplement
    bitwiseComplement := complement
    opaqueAdd := fun v => (c.fetchAdd v).map fun _ => ()
    opaqueSub := fun v => (c.fetchSub v).map fun _ => ()
    opaqueNegate := fetchNegate.map fun _ => ()
    opaqueAnd := fun v => (c.fetchAnd v).map fun _ => ()
    opaqueOr := fun v => (c.fetchOr v).map fun _ => ()
    opaqueXor := fun v => (c.fetchXor v).map fun _ => ()
    opaqueComplement := fetchComplement.map fun _ => ()
    addAndTest := fun v => (add v).map fun x => nz (trunc E x)
    subAndTest := fun v => (sub v).map fun x => nz (trunc E x)
    negateAndTest := negate.map nz
    andAndTest := fun v => (band v).map nz
    orAndTest := fun v => (bor v).map nz
    xorAndTest := fun v => (bxor v).map nz
    complementAndTest := complement.map fun x => nz (trunc E x)
    bitTestAndSet := fun b =>
      (c.fetchOr (bitMask E sgn W b)).map fun old => nz (old &&& bitMask E sgn W b)
    bitTestAndReset := fun b =>
      (c.fetchAnd (~~~ bitMask E sgn W b)).map fun old => nz (old &&& bitMask E sgn W b)
    bitTestAndComplement := fun b =>
      (c.fetchXor (bitMask E sgn W b)).map fun old => nz (old &&& bitMask E sgn W b) }

/-- extra_ops_generic.hpp:198–394: the specialization for back ends that only have CAS
(`full_cas_based`): the operations returning the new value are CAS loops of their own. -/
def extraCasBased (E : Nat) (sgn : Bool) {W : Nat} (c : CoreOps W) : ExtraOps W :=
  let loop (f : BitVec W → BitVec W) : Code (BitVec W) (BitVec W) :=
    .rmw (fun old => ext sgn W (trunc E (f old))) (fun _ new => new)
  let neg : BitVec W → BitVec W := fun old => ext sgn W (trunc E (-old))
  let negate : Code (BitVec W) (BitVec W) := .rmw neg (fun _ new => new)
  let add := fun v => loop (· + v)
  let sub := fun v => loop (· - v)
  let band := fun v => loop (· &&& v)
  let bor := fun v => loop (· ||| v)
  let bxor := fun v => loop (· ^^^ v)
  let fetchNegate : Code (BitVec W) (BitVec W) := .rmw neg (fun old _ => old)
  let fetchComplement := c.fetchXor (onesMask E sgn W)
  let complement := bxor (onesMask E sgn W)
  { fetchNegate := fetchNegate
    negate := negate
    add := add
    sub := sub
    bitwiseAnd := band
    bitwiseOr := bor
    bitwiseXor := bxor
    fetchComplement := fetchComplement
    bitwiseComplement := complement
    opaqueAdd := fun v => (c.fetchAdd v).map fun _ => ()
    opaqueSub := fun v => (c.fetchSub v).map fun _ => ()
    opaqueNegate := fetchNegate.map fun _ => ()
    opaqueAnd := fun v => (c.fetchAnd v).map fun _ => ()
    opaqueOr := fun v => (c.fetchOr v).map fun _ => ()
    opaqueXor := fun v => (c.fetchXor v).map fun _ => ()
    opaqueComplement := fetchComplement.map fun _ => ()
    addAndTest := fun v => (add v).map fun x => nz (trunc E x)
    subAndTest := fun v => (sub v).map fun x => nz (trunc E x)
    negateAndTest := negate.map nz
    andAndTest := fun v => (band v).map nz
    orAndTest := fun v => (bor v).map nz
    xorAndTest := fun v => (bxor v).map nz
    complementAndTest := complement.map fun x => nz (trunc E x)
    bitTestAndSet := fun b =>
      (c.fetchOr (bitMask E sgn W b)).map fun old => nz (old &&& bitMask E sgn W b)
    bitTestAndReset := fun b =>
      (c.fetchAnd (~~~ bitMask E sgn W b)).map fun old => nz (old &&& bitMask E sgn W b)
    bitTestAndComplement := fun b =>
      (c.fetchXor (bitMask E sgn W b)).map fun old => nz (old &&& bitMask E sgn W b) }

/-- extra_ops_emulated.hpp:41–242: the lock-based extra operations; the storage word has the
width of the value. -/
def extraEmulated {W : Nat} (c : CoreOps W) : ExtraOps W :=
  let new (f : BitVec W → BitVec W) : Code (BitVec W) (BitVec W) := .rmw f (fun _ n => n)
  let old (f : BitVec W → BitVec W) : Code (BitVec W) (BitVec W) := .rmw f (fun o _ => o)
  { fetchNegate := old (- ·)
    negate := new (- ·)
    add := fun v => new (· + v)
    sub := fun v => new (· - v)
    bitwiseAnd := fun v => new (· &&& v)
    bitwiseOr := fun v => new (· ||| v)
    bitwiseXor := fun v => new (· ^^^ v)
    fetchComplement := old (~~~ ·)
    bitwiseComplement := new (~~~ ·)
    opaqueAdd := fun v => (c.fetchAdd v).map fun _ => ()
    opaqueSub := fun v => (c.fetchSub v).map fun _ => ()
    opaqueNegate := (old (- ·)).map fun _ => ()
    opaqueAnd := fun v => (c.fetchAnd v).map fun _ => ()
    opaqueOr := fun v => (c.fetchOr v).map fun _ => ()
    opaqueXor := fun v => (c.fetchXor v).map fun _ => ()
    opaqueComplement := (old (~~~ ·)).map fun _ => ()
    addAndTest := fun v => (new (· + v)).map nz
    subAndTest := fun v => (new (· - v)).map nz
    negateAndTest := (new (- ·)).map nz
    andAndTest := fun v => (new (· &&& v)).map nz
    orAndTest := fun v => (new (· ||| v)).map nz
    xorAndTest := fun v => (new (· ^^^ v)).map nz
    complementAndTest := (new (~~~ ·)).map nz
    bitTestAndSet := fun b => (c.fetchOr ((1#W) <<< b)).map fun o => nz (o &&& (1#W) <<< b)
    bitTestAndReset := fun b =>
      (c.fetchAnd (~~~((1#W) <<< b))).map fun o => nz (o &&& (1#W) <<< b)
    bitTestAndComplement := fun b =>
      (c.fetchXor ((1#W) <<< b)).map fun o => nz (o &&& (1#W) <<< b) }

/-- extra_ops_gcc_x86.hpp:36–453 (1 byte), 456–951 (2), 954–1448 (4), 1453–1947 (8):
`lock`-prefixed single instructions for the opaque and testing forms, `cmpxchg` loops for the
forms that return the value; `add`/`sub` are inherited from the generic template.
`inc`/`dec` are chosen when the argument is the constant 1 (152–202, 269–373), modelled as such.
`setnz`/`@ccnz` reads the zero flag of the stored result; `bts/btr/btc` deliver the old bit in the
carry flag (873–950); the 1-byte type inherits the generic bit operations, `wide` tells which. -/
def extraX86 (wide : Bool) (sgn : Bool) {W : Nat} (c : CoreOps W) : ExtraOps W :=
  let g := extraGeneric W sgn c
  let new (f : BitVec W → BitVec W) : Code (BitVec W) (BitVec W) := .rmw f (fun _ n => n)
  let old (f : BitVec W → BitVec W) : Code (BitVec W) (BitVec W) := .rmw f (fun o _ => o)
  let void (f : BitVec W → BitVec W) : Code (BitVec W) Unit := .rmw f (fun _ _ => ())
  let zf (f : BitVec W → BitVec W) : Code (BitVec W) Bool := .rmw f (fun _ n => nz n)
  let incAdd (v : BitVec W) : BitVec W → BitVec W :=
    fun s => if v = 1#W then s + 1#W else s + v
  let decSub (v : BitVec W) : BitVec W → BitVec W :=
    fun s => if v = 1#W then s - 1#W else s - v
  { g with
    fetchNegate := old (- ·)
    fetchComplement := old (~~~ ·)
    negate := new (- ·)
    bitwiseComplement := new (~~~ ·)
    bitwiseAnd := fun v => new (fun al => v &&& al)
    bitwiseOr := fun v => new (fun al => v ||| al)
    bitwiseXor := fun v => new (fun al => v ^^^ al)
    negateAndTest := (new (- ·)).map nz
    complementAndTest := (new (~~~ ·)).map nz
    opaqueAdd := fun v => void (incAdd v)
    opaqueSub := fun v => void (decSub v)
    opaqueNegate := void (- ·)
    opaqueAnd := fun v => void (· &&& v)
    opaqueOr := fun v => void (· ||| v)
    opaqueXor := fun v => void (· ^^^ v)
    opaqueComplement := void (~~~ ·)
    addAndTest := fun v => zf (incAdd v)
    subAndTest := fun v => zf (decSub v)
    andAndTest := fun v => zf (· &&& v)
    orAndTest := fun v => zf (· ||| v)
    xorAndTest := fun v => zf (· ^^^ v)
    bitTestAndSet := fun b =>
      if wide then .rmw (fun s => s ||| BitVec.twoPow W b) (fun o _ => o.getLsbD b)
      else g.bitTestAndSet b
    bitTestAndReset := fun b =>
      if wide then .rmw (fun s => s &&& ~~~ BitVec.twoPow W b) (fun o _ => o.getLsbD b)
      else g.bitTestAndReset b
    bitTestAndComplement := fun b =>
      if wide then .rmw (fun s => s ^^^ BitVec.twoPow W b) (fun o _ => o.getLsbD b)
      else g.bitTestAndComplement b }

/-- The LL/SC back ends (extra_ops_gcc_arm.hpp:38–330, 350–846; extra_ops_gcc_ppc.hpp:36–905;
extra_ops_gcc_aarch64.hpp:38–1130; extra_ops_gcc_aarch32.hpp:38–865): loops returning the new or
the old value, computed in an `R`-bit register (`rsb`/`neg`, `mvn`/`nor`/`xor`), of which the low
`W` bits are stored and returned; the testing forms are `!!` of the operation returning the new
value; opaque forms call `fetch_*` or the new-value form; the bit operations are inherited. -/
def extraLlsc (R : Nat) (sgn : Bool) {W : Nat} (c : CoreOps W) : ExtraOps W :=
  let zx : BitVec W → BitVec R := fun v => v.setWidth R
  let lo : BitVec R → BitVec W := fun r => r.setWidth W
  let g := extraGeneric W sgn c
  let new (f : BitVec R → BitVec R) : Code (BitVec W) (BitVec W) :=
    .rmw (fun s => lo (f (zx s))) (fun s _ => lo (f (zx s)))
  let old (f : BitVec R → BitVec R) : Code (BitVec W) (BitVec W) :=
    .rmw (fun s => lo (f (zx s))) (fun s _ => lo (zx s))
  { g with
    fetchNegate := old (fun r => 0#R - r)
    negate := new (fun r => 0#R - r)
    add := fun v => new (· + zx v)
    sub := fun v => new (· - zx v)
    bitwiseAnd := fun v => new (· &&& zx v)
    bitwiseOr := fun v => new (· ||| zx v)
    bitwiseXor := fun v => new (· ^^^ zx v)
    fetchComplement := old (~~~ ·)
    bitwiseComplement := new (~~~ ·)
    opaqueAdd := fun v => (new (· + zx v)).map fun _ => ()
    opaqueSub := fun v => (new (· - zx v)).map fun _ => ()
    opaqueNegate := (new (fun r => 0#R - r)).map fun _ => ()
    opaqueAnd := fun v => (new (· &&& zx v)).map fun _ => ()
    opaqueOr := fun v => (new (· ||| zx v)).map fun _ => ()
    opaqueXor := fun v => (new (· ^^^ zx v)).map fun _ => ()
    opaqueComplement := (new (~~~ ·)).map fun _ => ()
    negateAndTest := (new (fun r => 0#R - r)).map nz
    addAndTest := fun v => (new (· + zx v)).map nz
    subAndTest := fun v => (new (· - zx v)).map nz
    andAndTest := fun v => (new (· &&& zx v)).map nz
    orAndTest := fun v => (new (· ||| zx v)).map nz
    xorAndTest := fun v => (new (· ^^^ zx v)).map nz
    complementAndTest := (new (~~~ ·)).map nz }

/-! ### The API layer -/

/-- The public operations of `atomic<T>` for integral `T` (atomic_impl.hpp:655–983; the same calls
appear in atomic_ref_impl.hpp:600–926): arguments are converted with `static_cast<storage_type>`,
results with `integral_truncate`; compare-exchange converts `expected` in and out (957–983). -/
def api {N W : Nat} (sgn : Bool) (c : CoreOps W) (x : ExtraOps W) :
    Op N → Code (BitVec W) (Ret N)
  | .load => c.load.map fun w => .val (trunc N w)
  | .store v => (c.store (ext sgn W v)).map fun _ => .unit
  | .exchange v => (c.exchange (ext sgn W v)).map fun w => .val (trunc N w)
  | .casWeak e d => (c.casWeak (ext sgn W e) (ext sgn W d)).map fun p => .cas p.1 (trunc N p.2)
  | .casStrong e d => (c.casStrong (ext sgn W e) (ext sgn W d)).map fun p => .cas p.1 (trunc N p.2)
  | .fetchAdd v => (c.fetchAdd (ext sgn W v)).map fun w => .val (trunc N w)
  | .fetchSub v => (c.fetchSub (ext sgn W v)).map fun w => .val (trunc N w)
  | .fetchAnd v => (c.fetchAnd (ext sgn W v)).map fun w => .val (trunc N w)
  | .fetchOr v => (c.fetchOr (ext sgn W v)).map fun w => .val (trunc N w)
  | .fetchXor v => (c.fetchXor (ext sgn W v)).map fun w => .val (trunc N w)
  | .fetchNegate => x.fetchNegate.map fun w => .val (trunc N w)
  | .fetchComplement => x.fetchComplement.map fun w => .val (trunc N w)
  | .add v => (x.add (ext sgn W v)).map fun w => .val (trunc N w)
  | .sub v => (x.sub (ext sgn W v)).map fun w => .val (trunc N w)
  | .negate => x.negate.map fun w => .val (trunc N w)
  | .bitwiseAnd v => (x.bitwiseAnd (ext sgn W v)).map fun w => .val (trunc N w)
  | .bitwiseOr v => (x.bitwiseOr (ext sgn W v)).map fun w => .val (trunc N w)
  | .bitwiseXor v => (x.bitwiseXor (ext sgn W v)).map fun w => .val (trunc N w)
  | .bitwiseComplement => x.bitwiseComplement.map fun w => .val (trunc N w)
  | .opaqueAdd v => (x.opaqueAdd (ext sgn W v)).map fun _ => .unit
  | .opaqueSub v => (x.opaqueSub (ext sgn W v)).map fun _ => .unit
  | .opaqueNegate => x.opaqueNegate.map fun _ => .unit
  | .opaqueAnd v => (x.opaqueAnd (ext sgn W v)).map fun _ => .unit
  | .opaqueOr v => (x.opaqueOr (ext sgn W v)).map fun _ => .unit
  | .opaqueXor v => (x.opaqueXor (ext sgn W v)).map fun _ => .unit
  | .opaqueComplement => x.opaqueComplement.map fun _ => .unit
  | .addAndTest v => (x.addAndTest (ext sgn W v)).map .flag
  | .subAndTest v => (x.subAndTest (ext sgn W v)).map .flag
  | .negateAndTest => x.negateAndTest.map .flag
  | .andAndTest v => (x.andAndTest (ext sgn W v)).map .flag
  | .orAndTest v => (x.orAndTest (ext sgn W v)).map .flag
  | .xorAndTest v => (x.xorAndTest (ext sgn W v)).map .flag
  | .complementAndTest => x.complementAndTest.map .flag
  | .bitTestAndSet b => (x.bitTestAndSet b.val).map .flag
  | .bitTestAndReset b => (x.bitTestAndReset b.val).map .flag
  | .bitTestAndComplement b => (x.bitTestAndComplement b.val).map .flag

/-- The constructor: `base_type(static_cast<storage_type>(v))` (atomic_impl.hpp:655). -/
def construct {N : Nat} (sgn : Bool) (W : Nat) (v : BitVec N) : BitVec W := ext sgn W v

/-! ### The configurations the library instantiates -/

/-- The back ends, as far as the arithmetic of integer operations is concerned. -/
inductive Backend where
  /-- compiler intrinsics: core_ops_gcc_atomic.hpp:53–156, core_ops_gcc_sync.hpp:60–190 with
  the generic extra operations -/
  | intrinsics
  /-- CAS-only back ends: core_arch_ops_gcc_sparc.hpp:65–201, core_ops_linux_arm.hpp:84–145,
  double-width x86 -/
  | casOnly
  /-- lock pool: core_operations_emulated.hpp, extra_ops_emulated.hpp -/
  | locked
  /-- core_arch_ops_gcc_x86.hpp + extra_ops_gcc_x86.hpp -/
  | x86 (wide : Bool)
  /-- LL/SC asm with operands narrower than or equal to an `R`-bit register; `up` are the
  unspecified upper register bits -/
  | llsc (R : Nat) (up : BitVec R)
  /-- AArch64 LSE, with the LL/SC or generic extra operations -/
  | lse (R : Nat)

/-- Operations of an `N`-bit integer stored in an `N`-bit word (no emulation through a wider word).
The extra operations get `Size = sizeof(storage_type)` (extra_operations_fwd.hpp:28), here `N`. -/
def native (b : Backend) (sgn : Bool) (N : Nat) : Op N → Code (BitVec N) (Ret N) :=
  match b with
  | .intrinsics => api sgn (corePlain N) (extraGeneric N sgn (corePlain N))
  | .casOnly => api sgn (corePlain N) (extraCasBased N sgn (corePlain N))
  | .locked => api sgn (corePlain N) (extraEmulated (corePlain N))
  | .x86 wide => api sgn (coreX86 N) (extraX86 wide sgn (coreX86 N))
  | .llsc R up => api sgn (coreNarrow R N up) (extraLlsc R sgn (coreNarrow R N up))
  | .lse R => api sgn (coreLse N) (extraLlsc R sgn (coreLse N))

/-- An `N`-bit integer emulated in a `W`-bit word, with the extra operations told the width `E`.
`casBased` selects extra_ops_generic.hpp:198 (`full_cas_based`) or :34. -/
def emulatedWith (E : Nat) (casBased sgn : Bool) (N W : Nat) : Op N → Code (BitVec W) (Ret N) :=
  let c := coreExtending N sgn (corePlain W)
  api sgn c (if casBased then extraCasBased E sgn c else extraGeneric E sgn c)

/-- What the library instantiates: `extra_operations<core_operations>` has the default argument
`Size = sizeof(typename Base::storage_type)` (extra_operations_fwd.hpp:28; atomic_impl.hpp:365, 638,
1160, 1385), so the extra operations work on the *storage* width, not on the value width. -/
def emulated (casBased sgn : Bool) (N W : Nat) : Op N → Code (BitVec W) (Ret N) :=
  emulatedWith W casBased sgn N W

end Verif.Integral
