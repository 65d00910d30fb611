import Verif.Find.Model

/-
Model of how the search function is chosen and called: `cpuid`, the pointer `g_find_address`, its
initial value in each build, and concurrent calls of `find_address`.

Sources (all in /repo/src): `cpuid.hpp` 34-78, `lock_pool.cpp` 76-84, 117-198, `find_address.hpp` 29-38.
-/

namespace Verif.Find

/-! ### cpuid (src/cpuid.hpp) -/

/-- The general registers that the code of `cpuid` names or may be given. -/
inductive Reg where
  | a | b | c | d | si | di | bp
  deriving DecidableEq, Repr

/-- What the processor reports for a function number (`eax`) and a sub-function number (`ecx`). -/
structure Regs4 where
  eax : BitVec 32
  ebx : BitVec 32
  ecx : BitVec 32
  edx : BitVec 32
  deriving DecidableEq

/-- The instructions of the blocks. -/
inductive CpuidIns where
  /-- `cpuid`: reads `eax` and `ecx`, writes `eax`, `ebx`, `ecx` and `edx`. -/
  | cpuid
  /-- `xchgq` or `xchgl` of two whole registers. -/
  | xchg (r s : Reg)

/-- The effect of an instruction on the registers of `w` bits; writing 32 bits clears the upper
half of a 64-bit register. -/
def CpuidIns.exec {w : Nat} (leaf : BitVec 32 → BitVec 32 → Regs4) (i : CpuidIns) (s : Reg → BitVec w) : Reg → BitVec w :=
  match i with
  | .cpuid =>
    let o := leaf ((s .a).setWidth 32) ((s .c).setWidth 32)
    fun r => match r with
      | .a => o.eax.setWidth w
      | .b => o.ebx.setWidth w
      | .c => o.ecx.setWidth w
      | .d => o.edx.setWidth w
      | r => s r
  | .xchg x y => fun r => if r = x then s y else if r = y then s x else s r

/-- An `__asm__` block of `cpuid`: the instructions and the registers of the four operands, all
declared as read and written. -/
structure CpuidBlock where
  code : List CpuidIns
  eax : Reg
  ebx : Reg
  ecx : Reg
  edx : Reg

/-- The block that leaves `rbx` alone (cpuid.hpp:41-50 with 64-bit registers, 52-58 with 32-bit
ones): `%0` is `ebx`, with the constraint `"+DS"`, so that the compiler takes one of `rdi` and
`rsi` (`useDi`). -/
def cpuidPic (useDi : Bool) : CpuidBlock :=
  let p0 := if useDi then Reg.di else .si
  { code := [.xchg .b p0, .cpuid, .xchg .b p0], eax := .a, ebx := p0, ecx := .c, edx := .d }

/-- The block for other builds (cpuid.hpp:61-65). -/
def cpuidPlain : CpuidBlock :=
  { code := [.cpuid], eax := .a, ebx := .b, ecx := .c, edx := .d }

/-- Runs the block. -/
def CpuidBlock.run {w : Nat} (leaf : BitVec 32 → BitVec 32 → Regs4) (k : CpuidBlock) (s : Reg → BitVec w) : Reg → BitVec w :=
  k.code.foldl (fun s i => i.exec leaf s) s

/-- `cpuid(eax, ebx, ecx, edx)` (cpuid.hpp:35-78): the arguments are put in the operands, the block
runs, and the operands are the new values of the arguments.  `other` is what the other registers
hold.  Simplified: the operands are the only registers the compiler puts something in. -/
def CpuidBlock.call (w : Nat) (leaf : BitVec 32 → BitVec 32 → Regs4) (k : CpuidBlock) (x : Regs4) (other : Reg → BitVec w) :
    Regs4 × (Reg → BitVec w) :=
  let s : Reg → BitVec w := fun r =>
    if r = k.eax then x.eax.setWidth w else if r = k.ebx then x.ebx.setWidth w
    else if r = k.ecx then x.ecx.setWidth w else if r = k.edx then x.edx.setWidth w else other r
  let s' := k.run leaf s
  (⟨(s' k.eax).setWidth 32, (s' k.ebx).setWidth 32, (s' k.ecx).setWidth 32, (s' k.edx).setWidth 32⟩, s')

/-- `cpuid` with the Microsoft compiler (cpuid.hpp:68-74): `__cpuid(regs, eax)`, which asks for
sub-function 0. -/
def cpuidMsvc (leaf : BitVec 32 → BitVec 32 → Regs4) (x : Regs4) : Regs4 := leaf x.eax 0#32

/-! ### Choosing -/

/-- What is known when the library is built for x86: the size of pointers, the sources that are
part of the build (`BOOST_ATOMIC_USE_SSE2`, `BOOST_ATOMIC_USE_SSE41`) and the instructions the
compiler may use anyway (`BOOST_HW_SIMD_X86`, as a version number). -/
structure Build where
  ptr64 : Bool
  useSse2 : Bool
  useSse41 : Bool
  hw : Nat

/-- `BOOST_HW_SIMD_X86_SSE2_VERSION` of Boost.Predef (2.0.0). -/
def sse2Version : Nat := 200
/-- `BOOST_HW_SIMD_X86_SSE4_1_VERSION` (4.1.0). -/
def sse41Version : Nat := 410

/-- What `g_find_address` can point to. -/
inductive Callee where
  | impl (i : Impl)
  | dispatch
  deriving DecidableEq

/-- `BOOST_ATOMIC_DETAIL_X86_USE_RUNTIME_DISPATCH` (lock_pool.cpp:76-84). -/
def Build.runtimeDispatch (b : Build) : Bool :=
  (b.useSse2 || b.useSse41) &&
    ((b.ptr64 && decide (b.hw < sse41Version)) || (!b.ptr64 && decide (b.hw < sse2Version)))

/-- `find_address` goes through the pointer (lock_pool.cpp:117-118). -/
def Build.pointer (b : Build) : Bool := b.useSse2 || b.useSse41

/-- The initial value of `g_find_address` (lock_pool.cpp:133-142). -/
def Build.initial (b : Build) : Callee :=
  if b.useSse41 && b.ptr64 && decide (sse41Version ≤ b.hw) then .impl .sse41
  else if b.useSse2 && !b.ptr64 && decide (sse2Version ≤ b.hw) then .impl .sse2
  else .dispatch

/-- The functions that a build contains: `find_address_generic` (lock_pool.cpp:103), the functions
of the sources that are part of the build (build/Jamfile.v2:112-131, CMakeLists.txt:62-72;
`find_address_sse41` is empty unless pointers have 64 bits, find_address_sse41.cpp:16), and
`find_address_dispatch` (lock_pool.cpp:144-180). -/
def Build.has (b : Build) : Callee → Bool
  | .impl .generic => true
  | .impl .sse2 => b.useSse2
  | .impl .sse41 => b.useSse41 && b.ptr64
  | .dispatch => b.runtimeDispatch

/-- `find_address_dispatch` (lock_pool.cpp:146-171) with its calls of `cpuid`, given as the function
from argument values to results. -/
def Build.choose (b : Build) (cpuid : Regs4 → Regs4) : Impl :=
  let find_addr := Impl.generic
  if b.useSse2 then
    let r0 := cpuid ⟨0#32, 0#32, 0#32, 0#32⟩
    if 1#32 ≤ r0.eax then
      let r1 := cpuid ⟨1#32, 0#32, 0#32, 0#32⟩
      let find_addr := if r1.edx &&& (1#32 <<< 26) ≠ 0#32 then Impl.sse2 else find_addr
      if b.useSse41 && b.ptr64 then
        if r1.ecx &&& (1#32 <<< 19) ≠ 0#32 then Impl.sse41 else find_addr
      else find_addr
    else find_addr
  else find_addr

/-! ### Concurrent calls -/

/-- A call of `find_address`: not begun, the pointer read, or finished with the function that did
the search. -/
inductive Call where
  | start
  | loaded (f : Callee)
  | done (i : Impl)
  deriving DecidableEq

/-- The values ever stored in `g_find_address` and the calls in progress. -/
structure Calls where
  stored : List Callee
  call : Nat → Call

/-- The state before the first call. -/
def Build.start (b : Build) : Calls := ⟨[b.initial], fun _ => .start⟩

/-- A step of call `t`.  The load and the store of the pointer are relaxed (lock_pool.cpp:176, 185):
the load may read any value that was ever stored, which is more than any memory model allows.
`chosen` is the function the dispatcher chooses. -/
inductive CallStep (b : Build) (chosen : Impl) : Calls → Calls → Prop where
  /-- Without the pointer `find_address` calls the generic search (lock_pool.cpp:192-195). -/
  | plain {s : Calls} {t : Nat} (h : s.call t = .start) (hp : b.pointer = false) :
      CallStep b chosen s { s with call := fun u => if u = t then .done .generic else s.call u }
  /-- `func_ptr_operations::load` (lock_pool.cpp:184-185). -/
  | load {s : Calls} {t : Nat} {f : Callee} (h : s.call t = .start) (hp : b.pointer = true) (hf : f ∈ s.stored) :
      CallStep b chosen s { s with call := fun u => if u = t then .loaded f else s.call u }
  /-- `return ptr.as_ptr(addr, addrs, size)` (lock_pool.cpp:186) of a search function. -/
  | search {s : Calls} {t : Nat} {i : Impl} (h : s.call t = .loaded (.impl i)) :
      CallStep b chosen s { s with call := fun u => if u = t then .done i else s.call u }
  /-- The same of the dispatcher, which stores the function and calls it (lock_pool.cpp:173-177). -/
  | dispatch {s : Calls} {t : Nat} (h : s.call t = .loaded .dispatch) :
      CallStep b chosen s ⟨.impl chosen :: s.stored, fun u => if u = t then .done chosen else s.call u⟩

/-- The states that any number of calls in any interleaving can reach. -/
inductive Build.Reaches (b : Build) (chosen : Impl) : Calls → Prop where
  | start : b.Reaches chosen b.start
  | step {s s' : Calls} : b.Reaches chosen s → CallStep b chosen s s' → b.Reaches chosen s'

end Verif.Find
