import Verif.Asm.Tactic
import Verif.Asm.IsaAlpha
import Verif.Asm.Assume

/-
The assembly blocks of core_arch_ops_gcc_alpha.hpp.
Written by tools/asmgen.py from the source text.
-/

set_option linter.unusedVariables false

namespace Verif.Asm

namespace Alpha4
open Alpha

/-- `exchange`, core_arch_ops_gcc_alpha.hpp 115–139 (assembly block 119–136).  Operands, in this
order: %0 "=&r" (original); %1 "=&r" (tmp); %2 "m" (storage); %3 "r" (v). -/
def exchange : Fn 64 32 (BitVec 32) (Integral.Ret 32) where
  block := {
    prog := [
      .label 1,                               -- 1:
      mov 3 1,                                -- mov %3, %1
      ldl_l 0 2,                              -- ldl_l %0, %2
      stl_c 1 2,                              -- stl_c %1, %2
      beq 1 6 2 true,                         -- beq %1, 2f
      skip 8,                                 -- skip 900f
      .label 2,                               -- 2:
      br 0 1 false,                           -- br 1b
      .label 900]                             -- 900:
    opnds := [(0, .outEarly), (1, .outEarly), (2, .input), (3, .input)]
    addr := [2]
    results := [0] }
  args a x := (x 3).setWidth 32 = a
  ret _ r := .val ((r 0).setWidth 32)

/-- `compare_exchange_weak`, core_arch_ops_gcc_alpha.hpp 141–169 (assembly block 147–163). 
Operands, in this order: %0 "+r" (expected); %1 "+r" (desired); %2 "=&r" (current); %3 "=&r"
(success); %4 "m" (storage). -/
def compareExchangeWeak : Fn 64 32 (BitVec 32 × BitVec 32) (Integral.Ret 32) where
  block := {
    prog := [
      .label 1,                               -- 1:
      ldl_l 2 4,                              -- ldl_l %2, %4
      cmpeq 2 0 3,                            -- cmpeq %2, %0, %3
      mov 2 0,                                -- mov %2, %0
      beq 3 7 2 true,                         -- beq %3, 2f
      stl_c 1 4,                              -- stl_c %1, %4
      mov 1 3,                                -- mov %1, %3
      .label 2]                               -- 2:
    opnds := [(0, .inout), (1, .inout), (2, .outEarly), (3, .outEarly), (4, .input)]
    addr := [4]
    results := [0, 3] }
  args a x := (x 0).setWidth 32 = a.1 ∧ (x 1).setWidth 32 = a.2
  ret _ r := .cas (!(r 3).setWidth 32 == 0) ((r 0).setWidth 32)

/-- `compare_exchange_strong`, core_arch_ops_gcc_alpha.hpp 171–207 (assembly block 177–201). 
Operands, in this order: %0 "+r" (expected); %1 "=&r" (tmp); %2 "=&r" (current); %3 "=&r" (success);
%4 "m" (storage); %5 "r" (desired). -/
def compareExchangeStrong : Fn 64 32 (BitVec 32 × BitVec 32) (Integral.Ret 32) where
  block := {
    prog := [
      .label 1,                               -- 1:
      mov 5 1,                                -- mov %5, %1
      ldl_l 2 4,                              -- ldl_l %2, %4
      cmpeq 2 0 3,                            -- cmpeq %2, %0, %3
      mov 2 0,                                -- mov %2, %0
      beq 3 9 2 true,                         -- beq %3, 2f
      stl_c 1 4,                              -- stl_c %1, %4
      beq 1 11 3 true,                        -- beq %1, 3f
      mov 1 3,                                -- mov %1, %3
      .label 2,                               -- 2:
      skip 13,                                -- skip 900f
      .label 3,                               -- 3:
      br 0 1 false,                           -- br 1b
      .label 900]                             -- 900:
    opnds := [(0, .inout), (1, .outEarly), (2, .outEarly), (3, .outEarly), (4, .input), (5, .input)]
    addr := [4]
    results := [0, 3] }
  args a x := (x 0).setWidth 32 = a.1 ∧ (x 5).setWidth 32 = a.2
  ret _ r := .cas (!(r 3).setWidth 32 == 0) ((r 0).setWidth 32)

/-- `fetch_add`, core_arch_ops_gcc_alpha.hpp 209–233 (assembly block 213–230).  Operands, in this
order: %0 "=&r" (original); %1 "=&r" (modified); %2 "m" (storage); %3 "r" (v). -/
def fetchAdd : Fn 64 32 (BitVec 32) (Integral.Ret 32) where
  block := {
    prog := [
      .label 1,                               -- 1:
      ldl_l 0 2,                              -- ldl_l %0, %2
      addl 0 3 1,                             -- addl %0, %3, %1
      stl_c 1 2,                              -- stl_c %1, %2
      beq 1 6 2 true,                         -- beq %1, 2f
      skip 8,                                 -- skip 900f
      .label 2,                               -- 2:
      br 0 1 false,                           -- br 1b
      .label 900]                             -- 900:
    opnds := [(0, .outEarly), (1, .outEarly), (2, .input), (3, .input)]
    addr := [2]
    results := [0] }
  args a x := (x 3).setWidth 32 = a
  ret _ r := .val ((r 0).setWidth 32)

/-- `fetch_sub`, core_arch_ops_gcc_alpha.hpp 235–259 (assembly block 239–256).  Operands, in this
order: %0 "=&r" (original); %1 "=&r" (modified); %2 "m" (storage); %3 "r" (v). -/
def fetchSub : Fn 64 32 (BitVec 32) (Integral.Ret 32) where
  block := {
    prog := [
      .label 1,                               -- 1:
      ldl_l 0 2,                              -- ldl_l %0, %2
      subl 0 3 1,                             -- subl %0, %3, %1
      stl_c 1 2,                              -- stl_c %1, %2
      beq 1 6 2 true,                         -- beq %1, 2f
      skip 8,                                 -- skip 900f
      .label 2,                               -- 2:
      br 0 1 false,                           -- br 1b
      .label 900]                             -- 900:
    opnds := [(0, .outEarly), (1, .outEarly), (2, .input), (3, .input)]
    addr := [2]
    results := [0] }
  args a x := (x 3).setWidth 32 = a
  ret _ r := .val ((r 0).setWidth 32)

/-- `fetch_and`, core_arch_ops_gcc_alpha.hpp 261–285 (assembly block 265–282).  Operands, in this
order: %0 "=&r" (original); %1 "=&r" (modified); %2 "m" (storage); %3 "r" (v). -/
def fetchAnd : Fn 64 32 (BitVec 32) (Integral.Ret 32) where
  block := {
    prog := [
      .label 1,                               -- 1:
      ldl_l 0 2,                              -- ldl_l %0, %2
      and 0 3 1,                              -- and %0, %3, %1
      stl_c 1 2,                              -- stl_c %1, %2
      beq 1 6 2 true,                         -- beq %1, 2f
      skip 8,                                 -- skip 900f
      .label 2,                               -- 2:
      br 0 1 false,                           -- br 1b
      .label 900]                             -- 900:
    opnds := [(0, .outEarly), (1, .outEarly), (2, .input), (3, .input)]
    addr := [2]
    results := [0] }
  args a x := (x 3).setWidth 32 = a
  ret _ r := .val ((r 0).setWidth 32)

/-- `fetch_or`, core_arch_ops_gcc_alpha.hpp 287–311 (assembly block 291–308).  Operands, in this
order: %0 "=&r" (original); %1 "=&r" (modified); %2 "m" (storage); %3 "r" (v). -/
def fetchOr : Fn 64 32 (BitVec 32) (Integral.Ret 32) where
  block := {
    prog := [
      .label 1,                               -- 1:
      ldl_l 0 2,                              -- ldl_l %0, %2
      bis 0 3 1,                              -- bis %0, %3, %1
      stl_c 1 2,                              -- stl_c %1, %2
      beq 1 6 2 true,                         -- beq %1, 2f
      skip 8,                                 -- skip 900f
      .label 2,                               -- 2:
      br 0 1 false,                           -- br 1b
      .label 900]                             -- 900:
    opnds := [(0, .outEarly), (1, .outEarly), (2, .input), (3, .input)]
    addr := [2]
    results := [0] }
  args a x := (x 3).setWidth 32 = a
  ret _ r := .val ((r 0).setWidth 32)

/-- `fetch_xor`, core_arch_ops_gcc_alpha.hpp 313–337 (assembly block 317–334).  Operands, in this
order: %0 "=&r" (original); %1 "=&r" (modified); %2 "m" (storage); %3 "r" (v). -/
def fetchXor : Fn 64 32 (BitVec 32) (Integral.Ret 32) where
  block := {
    prog := [
      .label 1,                               -- 1:
      ldl_l 0 2,                              -- ldl_l %0, %2
      xor 0 3 1,                              -- xor %0, %3, %1
      stl_c 1 2,                              -- stl_c %1, %2
      beq 1 6 2 true,                         -- beq %1, 2f
      skip 8,                                 -- skip 900f
      .label 2,                               -- 2:
      br 0 1 false,                           -- br 1b
      .label 900]                             -- 900:
    opnds := [(0, .outEarly), (1, .outEarly), (2, .input), (3, .input)]
    addr := [2]
    results := [0] }
  args a x := (x 3).setWidth 32 = a
  ret _ r := .val ((r 0).setWidth 32)

end Alpha4

namespace Alpha8
open Alpha

/-- `exchange`, core_arch_ops_gcc_alpha.hpp 626–650 (assembly block 630–647).  Operands, in this
order: %0 "=&r" (original); %1 "=&r" (tmp); %2 "m" (storage); %3 "r" (v). -/
def exchange : Fn 64 64 (BitVec 64) (Integral.Ret 64) where
  block := {
    prog := [
      .label 1,                               -- 1:
      mov 3 1,                                -- mov %3, %1
      ldq_l 0 2,                              -- ldq_l %0, %2
      stq_c 1 2,                              -- stq_c %1, %2
      beq 1 6 2 true,                         -- beq %1, 2f
      skip 8,                                 -- skip 900f
      .label 2,                               -- 2:
      br 0 1 false,                           -- br 1b
      .label 900]                             -- 900:
    opnds := [(0, .outEarly), (1, .outEarly), (2, .input), (3, .input)]
    addr := [2]
    results := [0] }
  args a x := (x 3).setWidth 64 = a
  ret _ r := .val ((r 0).setWidth 64)

/-- `compare_exchange_weak`, core_arch_ops_gcc_alpha.hpp 652–680 (assembly block 658–674). 
Operands, in this order: %0 "+r" (expected); %1 "+r" (desired); %2 "=&r" (current); %3 "=&r"
(success); %4 "m" (storage). -/
def compareExchangeWeak : Fn 64 64 (BitVec 64 × BitVec 64) (Integral.Ret 64) where
  block := {
    prog := [
      .label 1,                               -- 1:
      ldq_l 2 4,                              -- ldq_l %2, %4
      cmpeq 2 0 3,                            -- cmpeq %2, %0, %3
      mov 2 0,                                -- mov %2, %0
      beq 3 7 2 true,                         -- beq %3, 2f
      stq_c 1 4,                              -- stq_c %1, %4
      mov 1 3,                                -- mov %1, %3
      .label 2]                               -- 2:
    opnds := [(0, .inout), (1, .inout), (2, .outEarly), (3, .outEarly), (4, .input)]
    addr := [4]
    results := [0, 3] }
  args a x := (x 0).setWidth 64 = a.1 ∧ (x 1).setWidth 64 = a.2
  ret _ r := .cas (!(r 3).setWidth 32 == 0) ((r 0).setWidth 64)

/-- `compare_exchange_strong`, core_arch_ops_gcc_alpha.hpp 682–718 (assembly block 688–712). 
Operands, in this order: %0 "+r" (expected); %1 "=&r" (tmp); %2 "=&r" (current); %3 "=&r" (success);
%4 "m" (storage); %5 "r" (desired). -/
def compareExchangeStrong : Fn 64 64 (BitVec 64 × BitVec 64) (Integral.Ret 64) where
  block := {
    prog := [
      .label 1,                               -- 1:
      mov 5 1,                                -- mov %5, %1
      ldq_l 2 4,                              -- ldq_l %2, %4
      cmpeq 2 0 3,                            -- cmpeq %2, %0, %3
      mov 2 0,                                -- mov %2, %0
      beq 3 9 2 true,                         -- beq %3, 2f
      stq_c 1 4,                              -- stq_c %1, %4
      beq 1 11 3 true,                        -- beq %1, 3f
      mov 1 3,                                -- mov %1, %3
      .label 2,                               -- 2:
      skip 13,                                -- skip 900f
      .label 3,                               -- 3:
      br 0 1 false,                           -- br 1b
      .label 900]                             -- 900:
    opnds := [(0, .inout), (1, .outEarly), (2, .outEarly), (3, .outEarly), (4, .input), (5, .input)]
    addr := [4]
    results := [0, 3] }
  args a x := (x 0).setWidth 64 = a.1 ∧ (x 5).setWidth 64 = a.2
  ret _ r := .cas (!(r 3).setWidth 32 == 0) ((r 0).setWidth 64)

/-- `fetch_add`, core_arch_ops_gcc_alpha.hpp 720–744 (assembly block 724–741).  Operands, in this
order: %0 "=&r" (original); %1 "=&r" (modified); %2 "m" (storage); %3 "r" (v). -/
def fetchAdd : Fn 64 64 (BitVec 64) (Integral.Ret 64) where
  block := {
    prog := [
      .label 1,                               -- 1:
      ldq_l 0 2,                              -- ldq_l %0, %2
      addq 0 3 1,                             -- addq %0, %3, %1
      stq_c 1 2,                              -- stq_c %1, %2
      beq 1 6 2 true,                         -- beq %1, 2f
      skip 8,                                 -- skip 900f
      .label 2,                               -- 2:
      br 0 1 false,                           -- br 1b
      .label 900]                             -- 900:
    opnds := [(0, .outEarly), (1, .outEarly), (2, .input), (3, .input)]
    addr := [2]
    results := [0] }
  args a x := (x 3).setWidth 64 = a
  ret _ r := .val ((r 0).setWidth 64)

/-- `fetch_sub`, core_arch_ops_gcc_alpha.hpp 746–770 (assembly block 750–767).  Operands, in this
order: %0 "=&r" (original); %1 "=&r" (modified); %2 "m" (storage); %3 "r" (v). -/
def fetchSub : Fn 64 64 (BitVec 64) (Integral.Ret 64) where
  block := {
    prog := [
      .label 1,                               -- 1:
      ldq_l 0 2,                              -- ldq_l %0, %2
      subq 0 3 1,                             -- subq %0, %3, %1
      stq_c 1 2,                              -- stq_c %1, %2
      beq 1 6 2 true,                         -- beq %1, 2f
      skip 8,                                 -- skip 900f
      .label 2,                               -- 2:
      br 0 1 false,                           -- br 1b
      .label 900]                             -- 900:
    opnds := [(0, .outEarly), (1, .outEarly), (2, .input), (3, .input)]
    addr := [2]
    results := [0] }
  args a x := (x 3).setWidth 64 = a
  ret _ r := .val ((r 0).setWidth 64)

/-- `fetch_and`, core_arch_ops_gcc_alpha.hpp 772–796 (assembly block 776–793).  Operands, in this
order: %0 "=&r" (original); %1 "=&r" (modified); %2 "m" (storage); %3 "r" (v). -/
def fetchAnd : Fn 64 64 (BitVec 64) (Integral.Ret 64) where
  block := {
    prog := [
      .label 1,                               -- 1:
      ldq_l 0 2,                              -- ldq_l %0, %2
      and 0 3 1,                              -- and %0, %3, %1
      stq_c 1 2,                              -- stq_c %1, %2
      beq 1 6 2 true,                         -- beq %1, 2f
      skip 8,                                 -- skip 900f
      .label 2,                               -- 2:
      br 0 1 false,                           -- br 1b
      .label 900]                             -- 900:
    opnds := [(0, .outEarly), (1, .outEarly), (2, .input), (3, .input)]
    addr := [2]
    results := [0] }
  args a x := (x 3).setWidth 64 = a
  ret _ r := .val ((r 0).setWidth 64)

/-- `fetch_or`, core_arch_ops_gcc_alpha.hpp 798–822 (assembly block 802–819).  Operands, in this
order: %0 "=&r" (original); %1 "=&r" (modified); %2 "m" (storage); %3 "r" (v). -/
def fetchOr : Fn 64 64 (BitVec 64) (Integral.Ret 64) where
  block := {
    prog := [
      .label 1,                               -- 1:
      ldq_l 0 2,                              -- ldq_l %0, %2
      bis 0 3 1,                              -- bis %0, %3, %1
      stq_c 1 2,                              -- stq_c %1, %2
      beq 1 6 2 true,                         -- beq %1, 2f
      skip 8,                                 -- skip 900f
      .label 2,                               -- 2:
      br 0 1 false,                           -- br 1b
      .label 900]                             -- 900:
    opnds := [(0, .outEarly), (1, .outEarly), (2, .input), (3, .input)]
    addr := [2]
    results := [0] }
  args a x := (x 3).setWidth 64 = a
  ret _ r := .val ((r 0).setWidth 64)

/-- `fetch_xor`, core_arch_ops_gcc_alpha.hpp 824–848 (assembly block 828–845).  Operands, in this
order: %0 "=&r" (original); %1 "=&r" (modified); %2 "m" (storage); %3 "r" (v). -/
def fetchXor : Fn 64 64 (BitVec 64) (Integral.Ret 64) where
  block := {
    prog := [
      .label 1,                               -- 1:
      ldq_l 0 2,                              -- ldq_l %0, %2
      xor 0 3 1,                              -- xor %0, %3, %1
      stq_c 1 2,                              -- stq_c %1, %2
      beq 1 6 2 true,                         -- beq %1, 2f
      skip 8,                                 -- skip 900f
      .label 2,                               -- 2:
      br 0 1 false,                           -- br 1b
      .label 900]                             -- 900:
    opnds := [(0, .outEarly), (1, .outEarly), (2, .input), (3, .input)]
    addr := [2]
    results := [0] }
  args a x := (x 3).setWidth 64 = a
  ret _ r := .val ((r 0).setWidth 64)

end Alpha8

namespace AlphaWord
open Alpha

/-- `fetch_add`, core_arch_ops_gcc_alpha.hpp 358–383 (assembly block 362–380).  Operands, in this
order: %0 "=&r" (original); %1 "=&r" (modified); %2 "m" (storage); %3 "r" (v). -/
def fetchAdd1u : Fn 64 32 (BitVec 8) (Integral.Ret 32) where
  block := {
    prog := [
      .label 1,                               -- 1:
      ldl_l 0 2,                              -- ldl_l %0, %2
      addl 0 3 1,                             -- addl %0, %3, %1
      zapnot1 1 1,                            -- zapnot %1, 1, %1
      stl_c 1 2,                              -- stl_c %1, %2
      beq 1 7 2 true,                         -- beq %1, 2f
      skip 9,                                 -- skip 900f
      .label 2,                               -- 2:
      br 0 1 false,                           -- br 1b
      .label 900]                             -- 900:
    opnds := [(0, .outEarly), (1, .outEarly), (2, .input), (3, .input)]
    addr := [2]
    results := [0] }
  args a x := (x 3).setWidth 32 = (BitVec.setWidth 32) a
  ret _ r := .val ((r 0).setWidth 32)

/-- `fetch_sub`, core_arch_ops_gcc_alpha.hpp 385–410 (assembly block 389–407).  Operands, in this
order: %0 "=&r" (original); %1 "=&r" (modified); %2 "m" (storage); %3 "r" (v). -/
def fetchSub1u : Fn 64 32 (BitVec 8) (Integral.Ret 32) where
  block := {
    prog := [
      .label 1,                               -- 1:
      ldl_l 0 2,                              -- ldl_l %0, %2
      subl 0 3 1,                             -- subl %0, %3, %1
      zapnot1 1 1,                            -- zapnot %1, 1, %1
      stl_c 1 2,                              -- stl_c %1, %2
      beq 1 7 2 true,                         -- beq %1, 2f
      skip 9,                                 -- skip 900f
      .label 2,                               -- 2:
      br 0 1 false,                           -- br 1b
      .label 900]                             -- 900:
    opnds := [(0, .outEarly), (1, .outEarly), (2, .input), (3, .input)]
    addr := [2]
    results := [0] }
  args a x := (x 3).setWidth 32 = (BitVec.setWidth 32) a
  ret _ r := .val ((r 0).setWidth 32)

/-- `fetch_add`, core_arch_ops_gcc_alpha.hpp 420–445 (assembly block 424–442).  Operands, in this
order: %0 "=&r" (original); %1 "=&r" (modified); %2 "m" (storage); %3 "r" (v). -/
def fetchAdd1s : Fn 64 32 (BitVec 8) (Integral.Ret 32) where
  block := {
    prog := [
      .label 1,                               -- 1:
      ldl_l 0 2,                              -- ldl_l %0, %2
      addl 0 3 1,                             -- addl %0, %3, %1
      sextb 1 1,                              -- sextb %1, %1
      stl_c 1 2,                              -- stl_c %1, %2
      beq 1 7 2 true,                         -- beq %1, 2f
      skip 9,                                 -- skip 900f
      .label 2,                               -- 2:
      br 0 1 false,                           -- br 1b
      .label 900]                             -- 900:
    opnds := [(0, .outEarly), (1, .outEarly), (2, .input), (3, .input)]
    addr := [2]
    results := [0] }
  args a x := (x 3).setWidth 32 = (BitVec.signExtend 32) a
  ret _ r := .val ((r 0).setWidth 32)

/-- `fetch_sub`, core_arch_ops_gcc_alpha.hpp 447–472 (assembly block 451–469).  Operands, in this
order: %0 "=&r" (original); %1 "=&r" (modified); %2 "m" (storage); %3 "r" (v). -/
def fetchSub1s : Fn 64 32 (BitVec 8) (Integral.Ret 32) where
  block := {
    prog := [
      .label 1,                               -- 1:
      ldl_l 0 2,                              -- ldl_l %0, %2
      subl 0 3 1,                             -- subl %0, %3, %1
      sextb 1 1,                              -- sextb %1, %1
      stl_c 1 2,                              -- stl_c %1, %2
      beq 1 7 2 true,                         -- beq %1, 2f
      skip 9,                                 -- skip 900f
      .label 2,                               -- 2:
      br 0 1 false,                           -- br 1b
      .label 900]                             -- 900:
    opnds := [(0, .outEarly), (1, .outEarly), (2, .input), (3, .input)]
    addr := [2]
    results := [0] }
  args a x := (x 3).setWidth 32 = (BitVec.signExtend 32) a
  ret _ r := .val ((r 0).setWidth 32)

/-- `fetch_add`, core_arch_ops_gcc_alpha.hpp 483–508 (assembly block 487–505).  Operands, in this
order: %0 "=&r" (original); %1 "=&r" (modified); %2 "m" (storage); %3 "r" (v). -/
def fetchAdd2u : Fn 64 32 (BitVec 16) (Integral.Ret 32) where
  block := {
    prog := [
      .label 1,                               -- 1:
      ldl_l 0 2,                              -- ldl_l %0, %2
      addl 0 3 1,                             -- addl %0, %3, %1
      zapnot3 1 1,                            -- zapnot %1, 3, %1
      stl_c 1 2,                              -- stl_c %1, %2
      beq 1 7 2 true,                         -- beq %1, 2f
      skip 9,                                 -- skip 900f
      .label 2,                               -- 2:
      br 0 1 false,                           -- br 1b
      .label 900]                             -- 900:
    opnds := [(0, .outEarly), (1, .outEarly), (2, .input), (3, .input)]
    addr := [2]
    results := [0] }
  args a x := (x 3).setWidth 32 = (BitVec.setWidth 32) a
  ret _ r := .val ((r 0).setWidth 32)

/-- `fetch_sub`, core_arch_ops_gcc_alpha.hpp 510–535 (assembly block 514–532).  Operands, in this
order: %0 "=&r" (original); %1 "=&r" (modified); %2 "m" (storage); %3 "r" (v). -/
def fetchSub2u : Fn 64 32 (BitVec 16) (Integral.Ret 32) where
  block := {
    prog := [
      .label 1,                               -- 1:
      ldl_l 0 2,                              -- ldl_l %0, %2
      subl 0 3 1,                             -- subl %0, %3, %1
      zapnot3 1 1,                            -- zapnot %1, 3, %1
      stl_c 1 2,                              -- stl_c %1, %2
      beq 1 7 2 true,                         -- beq %1, 2f
      skip 9,                                 -- skip 900f
      .label 2,                               -- 2:
      br 0 1 false,                           -- br 1b
      .label 900]                             -- 900:
    opnds := [(0, .outEarly), (1, .outEarly), (2, .input), (3, .input)]
    addr := [2]
    results := [0] }
  args a x := (x 3).setWidth 32 = (BitVec.setWidth 32) a
  ret _ r := .val ((r 0).setWidth 32)

/-- `fetch_add`, core_arch_ops_gcc_alpha.hpp 545–570 (assembly block 549–567).  Operands, in this
order: %0 "=&r" (original); %1 "=&r" (modified); %2 "m" (storage); %3 "r" (v). -/
def fetchAdd2s : Fn 64 32 (BitVec 16) (Integral.Ret 32) where
  block := {
    prog := [
      .label 1,                               -- 1:
      ldl_l 0 2,                              -- ldl_l %0, %2
      addl 0 3 1,                             -- addl %0, %3, %1
      sextw 1 1,                              -- sextw %1, %1
      stl_c 1 2,                              -- stl_c %1, %2
      beq 1 7 2 true,                         -- beq %1, 2f
      skip 9,                                 -- skip 900f
      .label 2,                               -- 2:
      br 0 1 false,                           -- br 1b
      .label 900]                             -- 900:
    opnds := [(0, .outEarly), (1, .outEarly), (2, .input), (3, .input)]
    addr := [2]
    results := [0] }
  args a x := (x 3).setWidth 32 = (BitVec.signExtend 32) a
  ret _ r := .val ((r 0).setWidth 32)

/-- `fetch_sub`, core_arch_ops_gcc_alpha.hpp 572–597 (assembly block 576–594).  Operands, in this
order: %0 "=&r" (original); %1 "=&r" (modified); %2 "m" (storage); %3 "r" (v). -/
def fetchSub2s : Fn 64 32 (BitVec 16) (Integral.Ret 32) where
  block := {
    prog := [
      .label 1,                               -- 1:
      ldl_l 0 2,                              -- ldl_l %0, %2
      subl 0 3 1,                             -- subl %0, %3, %1
      sextw 1 1,                              -- sextw %1, %1
      stl_c 1 2,                              -- stl_c %1, %2
      beq 1 7 2 true,                         -- beq %1, 2f
      skip 9,                                 -- skip 900f
      .label 2,                               -- 2:
      br 0 1 false,                           -- br 1b
      .label 900]                             -- 900:
    opnds := [(0, .outEarly), (1, .outEarly), (2, .input), (3, .input)]
    addr := [2]
    results := [0] }
  args a x := (x 3).setWidth 32 = (BitVec.signExtend 32) a
  ret _ r := .val ((r 0).setWidth 32)

end AlphaWord

end Verif.Asm
