import Verif.Asm.Ops
import Verif.Asm.IsaArm
import Verif.Asm.Half
import Verif.Order.Model

/-
The interlocked functions of Windows and the macros of interlocked.hpp through which the library calls them.

A function of the library is modelled as a block whose "registers" are the variables of the function; their width `R`
is any that can hold a value of the object and its address.  The variables are
0 `storage`, 1 `v`, `bit_number` or `expected`, 2 `desired`, 3 `previous`, 4 `old_val`, 5 the result of type `bool`.
-/

namespace Verif.Asm.Interlocked

variable {R M N : Nat}

/-- What an interlocked function does. -/
inductive Prim where
  | exchangeAdd | exchange | compareExchange | and | or | xor | bts | btr
  deriving DecidableEq, Repr

/-- The order it guarantees: `_nf`, `_acq`, `_rel`, or all (no suffix). -/
inductive Strength where
  | relaxed | acquire | release | full
  deriving DecidableEq, Repr

/-- The name of a macro, `BOOST_ATOMIC_INTERLOCKED_EXCHANGE_ADD8_RELAXED`, or of an interlocked function,
`_InterlockedExchangeAdd8_nf`.  Names without a number mean 32 bits. -/
structure Name where
  prim : Prim
  width : Nat
  order : Strength
  deriving DecidableEq, Repr

/-- An argument in the definition of a macro: parameter number `i` of the macro, converted to a type of `cast` bits; or
the element `k` of the parameter as an array of elements of 64 bits. -/
inductive Arg where
  | param (i cast : Nat)
  | part (i k : Nat)
  deriving DecidableEq, Repr

/-- The definition of a macro: a call of an interlocked function. -/
structure Call where
  fn : Name
  args : List Arg
  deriving DecidableEq, Repr

/-- The use of a macro in a function of the library, with the variables given as its arguments. -/
structure Use where
  name : Name
  args : List Slot
  deriving DecidableEq, Repr

/-- What a call that does not access the object as a whole is modelled by: an access of other memory. -/
def wrong : Ins R M := .store 99 [] fun _ => 0

/-- An element of 64 bits of a value of 128 bits. -/
def part (x : BitVec M) (k : Nat) : BitVec 64 := if k = 0 then x.setWidth 64 else (x >>> 64).setWidth 64

/-- An interlocked function with two parameters that returns the old value. -/
def old (f : BitVec M → BitVec M → BitVec M) (a x : Slot) (k : Nat) (ds : List Slot) : Ins R M :=
  .rmw a [x] ds fun m v fl => (some (f m (((v0 v).setWidth k).setWidth M)), [m.setWidth R], fl)

/-- `_interlockedbittestandset`, `_interlockedbittestandreset`: return the bit. -/
def bitTest (f : BitVec M → BitVec M → BitVec M) (a x : Slot) (k : Nat) (ds : List Slot) : Ins R M :=
  .rmw a [x] ds fun m v fl =>
    (some (f m (1#M <<< ((v0 v).setWidth k).toNat)), [if m.getLsbD ((v0 v).setWidth k).toNat then 1#R else 0#R], fl)

/-- The effect of a call of an interlocked function, after Microsoft's documentation.  `vars` are the variables given as
parameters of the macro, `ds` those the results are assigned to.  `_InterlockedCompareExchange128` has the upper and the
lower half of the new value as its second and third parameter, replaces the expected value by the old value, and
returns whether they were equal. -/
def Call.ins (c : Call) (vars ds : List Slot) : Ins R M :=
  let s i := vars.getD i 98
  if c.fn.width ≠ M then wrong else
  match c.fn.prim, c.args with
  | .exchangeAdd, [.param p _, .param i k] => old (· + ·) (s p) (s i) k ds
  | .exchange, [.param p _, .param i k] => old (fun _ x => x) (s p) (s i) k ds
  | .and, [.param p _, .param i k] => old (· &&& ·) (s p) (s i) k ds
  | .or, [.param p _, .param i k] => old (· ||| ·) (s p) (s i) k ds
  | .xor, [.param p _, .param i k] => old (· ^^^ ·) (s p) (s i) k ds
  | .bts, [.param p _, .param i k] => bitTest (· ||| ·) (s p) (s i) k ds
  | .btr, [.param p _, .param i k] => bitTest (fun m b => m &&& ~~~ b) (s p) (s i) k ds
  | .compareExchange, [.param p _, .param i k, .param j l] => .rmw (s p) [s i, s j] ds fun m v fl =>
      if m = ((v1 v).setWidth l).setWidth M then (some (((v0 v).setWidth k).setWidth M), [m.setWidth R], fl)
      else (none, [m.setWidth R], fl)
  | .compareExchange, [.param p _, .part i h, .part j l, .param e _] => .rmw (s p) [s i, s j, s e] (s e :: ds) fun m v fl =>
      if m = (v2 v).setWidth M then
        (some ((part (v0 v) h ++ part (v1 v) l).setWidth M), [m.setWidth R, 1#R], fl)
      else (none, [m.setWidth R, 0#R], fl)
  | _, _ => wrong

/-! ### Compilers -/

/-- The processors that Microsoft's compilers translate for (`_M_IX86`, `_M_AMD64`, `_M_ARM`, `_M_ARM64`,
`_M_ARM64EC` with `_M_AMD64`). -/
inductive Arch where
  | x86 | amd64 | arm | arm64 | arm64ec
  deriving DecidableEq, Repr

/-- The compilers interlocked.hpp distinguishes: those for Windows CE (`_WIN32_WCE`), Microsoft's (`_MSC_VER`), and
others, for which the functions are declared by `windows.h` or by the header itself; `_WIN64`. -/
inductive Compiler where
  | wce (ver : Nat)
  | msvc (arch : Arch) (ver : Nat)
  | windowsH (win64 : Bool)
  | declared (win64 : Bool)
  deriving DecidableEq, Repr

/-- Versions of Microsoft's compiler between which interlocked.hpp makes no difference; from `_MSC_VER` 1310 on. -/
inductive Era where
  | v1310 | v1400 | v1500 | v1600 | v1700 | v1800 | v1900
  deriving DecidableEq, Repr

/-- The comparisons of `_MSC_VER` in interlocked.hpp 55, 126, 134, 207, 237, 346. -/
def era (ver : Nat) : Era :=
  if ver < 1400 then .v1310 else if ver < 1500 then .v1400 else if ver < 1600 then .v1500 else if ver < 1700 then .v1600
  else if ver < 1800 then .v1700 else if ver < 1900 then .v1800 else .v1900

end Verif.Asm.Interlocked
