import Verif.Asm.Tactic
import Verif.Asm.IsaSparc
import Verif.Asm.Tactic

/-
The assembly blocks of core_arch_ops_gcc_sparc.hpp.
Written by tools/asmgen.py from the source text.
-/

set_option linter.unusedVariables false

namespace Verif.Asm

namespace Sparc4
open Sparc

/-- `compare_exchange_strong`, core_arch_ops_gcc_sparc.hpp 90–109 (assembly block 95–101). 
Operands, in this order: %0 "+r" (desired); %1 "r" (&storage); %2 "r" (previous). -/
def compareExchangeStrong : Fn 64 32 (BitVec 32 × BitVec 32) (Integral.Ret 32) where
  block := {
    prog := [
      cas 1 2 0]                              -- cas [%1], %2, %0
    opnds := [(0, .inout), (1, .input), (2, .input)]
    addr := [1]
    results := [0] }
  args a x := (x 0).setWidth 32 = a.2 ∧ (x 2).setWidth 32 = a.1
  ret a r := .cas ((r 0).setWidth 32 == a.1) ((r 0).setWidth 32)

/-- `exchange`, core_arch_ops_gcc_sparc.hpp 117–129 (assembly block 120–126).  Operands, in this
order: %0 "+r" (v); %1 "r" (&storage). -/
def exchange : Fn 64 32 (BitVec 32) (Integral.Ret 32) where
  block := {
    prog := [
      swap 1 0]                               -- swap [%1], %0
    opnds := [(0, .inout), (1, .input)]
    addr := [1]
    results := [0] }
  args a x := (x 0).setWidth 32 = a
  ret _ r := .val ((r 0).setWidth 32)

end Sparc4

namespace Sparc8
open Sparc

/-- `compare_exchange_strong`, core_arch_ops_gcc_sparc.hpp 175–194 (assembly block 180–186). 
Operands, in this order: %0 "+r" (desired); %1 "r" (&storage); %2 "r" (previous). -/
def compareExchangeStrong : Fn 64 64 (BitVec 64 × BitVec 64) (Integral.Ret 64) where
  block := {
    prog := [
      casx 1 2 0]                             -- casx [%1], %2, %0
    opnds := [(0, .inout), (1, .input), (2, .input)]
    addr := [1]
    results := [0] }
  args a x := (x 0) = a.2 ∧ (x 2) = a.1
  ret a r := .cas ((r 0) == a.1) ((r 0))

end Sparc8

end Verif.Asm
