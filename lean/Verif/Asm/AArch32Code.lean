import Verif.Asm.Tactic
import Verif.Asm.IsaArm

/-
The assembly blocks of core_arch_ops_gcc_aarch32.hpp and extra_ops_gcc_aarch32.hpp.
Written by tools/asmgen.py from the source text.
-/

set_option linter.unusedVariables false

namespace Verif.Asm

namespace AArch32x1
open Arm

/-- `store`, core_arch_ops_gcc_aarch32.hpp 63–80 (assembly block 68–74).  Operands, in this order:
[storage] "=Q" (storage); [value] "r" (v). -/
def store_ : Fn 32 8 (BitVec 8) (Integral.Ret 8) where
  block := {
    prog := [
      stlb 1 0]                               -- stlb %[value], %[storage]
    opnds := [(0, .input), (1, .input)]
    addr := [0]
    results := [] }
  args a x := (x 1).setWidth 8 = a
  ret _ _ := .unit

/-- `load`, core_arch_ops_gcc_aarch32.hpp 82–102 (assembly block 87–93).  Operands, in this order:
[value] "=r" (v); [storage] "Q" (storage). -/
def load_ : Fn 32 8 (Unit) (Integral.Ret 8) where
  block := {
    prog := [
      ldab 0 1]                               -- ldab %[value], %[storage]
    opnds := [(0, .out), (1, .input)]
    addr := [1]
    results := [0] }
  args _ _ := True
  ret _ r := .val ((r 0).setWidth 8)

/-- `exchange`, core_arch_ops_gcc_aarch32.hpp 104–127 (assembly block 110–120).  Operands, in this
order: [tmp] "=&r" (tmp); [original] "=&r" (original); [storage] "+Q" (storage); [value] "r" (v). -/
def exchange : Fn 32 8 (BitVec 8) (Integral.Ret 8) where
  block := {
    prog := [
      .label 1,                               -- 1:
      ldrexb 1 2,                             -- ldexb %[original], %[storage]
      strexb 0 3 2,                           -- stexb %[tmp], %[value], %[storage]
      teqI 0 0,                               -- teq %[tmp], #0
      bne 0 1 false]                          -- bne 1b
    opnds := [(0, .outEarly), (1, .outEarly), (2, .input), (3, .input)]
    addr := [2]
    results := [1] }
  args a x := (x 3).setWidth 8 = a
  ret _ r := .val ((r 1).setWidth 8)

/-- `compare_exchange_weak`, core_arch_ops_gcc_aarch32.hpp 129–158 (assembly block 136–149). 
Operands, in this order: [original] "=&r" (original); [success] "=&r" (success); [storage] "+Q"
(storage); [expected] "r" (expected); [desired] "r" (desired). -/
def compareExchangeWeak : Fn 32 8 (BitVec 8 × BitVec 8) (Integral.Ret 8) where
  block := {
    prog := [
      uxtb 3 3,                               -- uxtb %[expected], %[expected]
      movI 1 0,                               -- mov %[success], #0
      ldrexb 0 2,                             -- ldexb %[original], %[storage]
      cmp 0 3,                                -- cmp %[original], %[expected]
      bne 7 1 true,                           -- bne 1f
      strexb 1 4 2,                           -- stexb %[success], %[desired], %[storage]
      eorI 1 1 1,                             -- eor %[success], %[success], #1
      .label 1]                               -- 1:
    opnds := [(0, .outEarly), (1, .outEarly), (2, .input), (3, .input), (4, .input)]
    addr := [2]
    results := [0, 1] }
  args a x := (x 3).setWidth 8 = a.1 ∧ (x 4).setWidth 8 = a.2
  ret _ r := bool8 (r 1) (.cas · ((r 0).setWidth 8))

/-- `compare_exchange_strong`, core_arch_ops_gcc_aarch32.hpp 160–191 (assembly block 167–182). 
Operands, in this order: [original] "=&r" (original); [success] "=&r" (success); [storage] "+Q"
(storage); [expected] "r" (expected); [desired] "r" (desired). -/
def compareExchangeStrong : Fn 32 8 (BitVec 8 × BitVec 8) (Integral.Ret 8) where
  block := {
    prog := [
      uxtb 3 3,                               -- uxtb %[expected], %[expected]
      movI 1 0,                               -- mov %[success], #0
      .label 1,                               -- 1:
      ldrexb 0 2,                             -- ldexb %[original], %[storage]
      cmp 0 3,                                -- cmp %[original], %[expected]
      bne 9 2 true,                           -- bne 2f
      strexb 1 4 2,                           -- stexb %[success], %[desired], %[storage]
      eorsI 1 1 1,                            -- eors %[success], %[success], #1
      beq 2 1 false,                          -- beq 1b
      .label 2]                               -- 2:
    opnds := [(0, .outEarly), (1, .outEarly), (2, .input), (3, .input), (4, .input)]
    addr := [2]
    results := [0, 1] }
  args a x := (x 3).setWidth 8 = a.1 ∧ (x 4).setWidth 8 = a.2
  ret _ r := bool8 (r 1) (.cas · ((r 0).setWidth 8))

/-- `fetch_add`, core_arch_ops_gcc_aarch32.hpp 193–217 (assembly block 199–210).  Operands, in this
order: [original] "=&r" (original); [result] "=&r" (result); [tmp] "=&r" (tmp); [storage] "+Q"
(storage); [value] "Ir" (v). -/
def fetchAdd : Fn 32 8 (BitVec 8) (Integral.Ret 8) where
  block := {
    prog := [
      .label 1,                               -- 1:
      ldrexb 0 3,                             -- ldexb %[original], %[storage]
      add 1 0 4,                              -- add %[result], %[original], %[value]
      strexb 2 1 3,                           -- stexb %[tmp], %[result], %[storage]
      teqI 2 0,                               -- teq %[tmp], #0
      bne 0 1 false]                          -- bne 1b
    opnds := [(0, .outEarly), (1, .outEarly), (2, .outEarly), (3, .input), (4, .input)]
    addr := [3]
    results := [0] }
  args a x := (x 4).setWidth 8 = a
  ret _ r := .val ((r 0).setWidth 8)

/-- `fetch_sub`, core_arch_ops_gcc_aarch32.hpp 219–243 (assembly block 225–236).  Operands, in this
order: [original] "=&r" (original); [result] "=&r" (result); [tmp] "=&r" (tmp); [storage] "+Q"
(storage); [value] "Ir" (v). -/
def fetchSub : Fn 32 8 (BitVec 8) (Integral.Ret 8) where
  block := {
    prog := [
      .label 1,                               -- 1:
      ldrexb 0 3,                             -- ldexb %[original], %[storage]
      sub 1 0 4,                              -- sub %[result], %[original], %[value]
      strexb 2 1 3,                           -- stexb %[tmp], %[result], %[storage]
      teqI 2 0,                               -- teq %[tmp], #0
      bne 0 1 false]                          -- bne 1b
    opnds := [(0, .outEarly), (1, .outEarly), (2, .outEarly), (3, .input), (4, .input)]
    addr := [3]
    results := [0] }
  args a x := (x 4).setWidth 8 = a
  ret _ r := .val ((r 0).setWidth 8)

/-- `fetch_and`, core_arch_ops_gcc_aarch32.hpp 245–269 (assembly block 251–262).  Operands, in this
order: [original] "=&r" (original); [result] "=&r" (result); [tmp] "=&r" (tmp); [storage] "+Q"
(storage); [value] "Ir" (v). -/
def fetchAnd : Fn 32 8 (BitVec 8) (Integral.Ret 8) where
  block := {
    prog := [
      .label 1,                               -- 1:
      ldrexb 0 3,                             -- ldexb %[original], %[storage]
      and 1 0 4,                              -- and %[result], %[original], %[value]
      strexb 2 1 3,                           -- stexb %[tmp], %[result], %[storage]
      teqI 2 0,                               -- teq %[tmp], #0
      bne 0 1 false]                          -- bne 1b
    opnds := [(0, .outEarly), (1, .outEarly), (2, .outEarly), (3, .input), (4, .input)]
    addr := [3]
    results := [0] }
  args a x := (x 4).setWidth 8 = a
  ret _ r := .val ((r 0).setWidth 8)

/-- `fetch_or`, core_arch_ops_gcc_aarch32.hpp 271–295 (assembly block 277–288).  Operands, in this
order: [original] "=&r" (original); [result] "=&r" (result); [tmp] "=&r" (tmp); [storage] "+Q"
(storage); [value] "Ir" (v). -/
def fetchOr : Fn 32 8 (BitVec 8) (Integral.Ret 8) where
  block := {
    prog := [
      .label 1,                               -- 1:
      ldrexb 0 3,                             -- ldexb %[original], %[storage]
      orr 1 0 4,                              -- orr %[result], %[original], %[value]
      strexb 2 1 3,                           -- stexb %[tmp], %[result], %[storage]
      teqI 2 0,                               -- teq %[tmp], #0
      bne 0 1 false]                          -- bne 1b
    opnds := [(0, .outEarly), (1, .outEarly), (2, .outEarly), (3, .input), (4, .input)]
    addr := [3]
    results := [0] }
  args a x := (x 4).setWidth 8 = a
  ret _ r := .val ((r 0).setWidth 8)

/-- `fetch_xor`, core_arch_ops_gcc_aarch32.hpp 297–321 (assembly block 303–314).  Operands, in this
order: [original] "=&r" (original); [result] "=&r" (result); [tmp] "=&r" (tmp); [storage] "+Q"
(storage); [value] "Ir" (v). -/
def fetchXor : Fn 32 8 (BitVec 8) (Integral.Ret 8) where
  block := {
    prog := [
      .label 1,                               -- 1:
      ldrexb 0 3,                             -- ldexb %[original], %[storage]
      eor 1 0 4,                              -- eor %[result], %[original], %[value]
      strexb 2 1 3,                           -- stexb %[tmp], %[result], %[storage]
      teqI 2 0,                               -- teq %[tmp], #0
      bne 0 1 false]                          -- bne 1b
    opnds := [(0, .outEarly), (1, .outEarly), (2, .outEarly), (3, .input), (4, .input)]
    addr := [3]
    results := [0] }
  args a x := (x 4).setWidth 8 = a
  ret _ r := .val ((r 0).setWidth 8)

/-- `fetch_negate`, extra_ops_gcc_aarch32.hpp 127–151 (assembly block 133–144).  Operands, in this
order: [original] "=&r" (original); [result] "=&r" (result); [tmp] "=&r" (tmp); [storage] "+Q"
(storage). -/
def fetchNegate : Fn 32 8 (Unit) (Integral.Ret 8) where
  block := {
    prog := [
      .label 1,                               -- 1:
      ldrexb 0 3,                             -- ldexb %[original], %[storage]
      rsbI 1 0 0,                             -- rsb %[result], %[original], #0
      strexb 2 1 3,                           -- stexb %[tmp], %[result], %[storage]
      teqI 2 0,                               -- teq %[tmp], #0
      bne 0 1 false]                          -- bne 1b
    opnds := [(0, .outEarly), (1, .outEarly), (2, .outEarly), (3, .input)]
    addr := [3]
    results := [0] }
  args _ _ := True
  ret _ r := .val ((r 0).setWidth 8)

/-- `negate`, extra_ops_gcc_aarch32.hpp 153–177 (assembly block 159–170).  Operands, in this order:
[result] "=&r" (result); [tmp] "=&r" (tmp); [storage] "+Q" (storage). -/
def negate : Fn 32 8 (Unit) (Integral.Ret 8) where
  block := {
    prog := [
      .label 1,                               -- 1:
      ldrexb 0 2,                             -- ldexb %[result], %[storage]
      rsbI 0 0 0,                             -- rsb %[result], #0
      strexb 1 0 2,                           -- stexb %[tmp], %[result], %[storage]
      teqI 1 0,                               -- teq %[tmp], #0
      bne 0 1 false]                          -- bne 1b
    opnds := [(0, .outEarly), (1, .outEarly), (2, .input)]
    addr := [2]
    results := [0] }
  args _ _ := True
  ret _ r := .val ((r 0).setWidth 8)

/-- `add`, extra_ops_gcc_aarch32.hpp 179–203 (assembly block 185–196).  Operands, in this order:
[result] "=&r" (result); [tmp] "=&r" (tmp); [storage] "+Q" (storage); [value] "Ir" (v). -/
def add_ : Fn 32 8 (BitVec 8) (Integral.Ret 8) where
  block := {
    prog := [
      .label 1,                               -- 1:
      ldrexb 0 2,                             -- ldexb %[result], %[storage]
      add 0 0 3,                              -- add %[result], %[value]
      strexb 1 0 2,                           -- stexb %[tmp], %[result], %[storage]
      teqI 1 0,                               -- teq %[tmp], #0
      bne 0 1 false]                          -- bne 1b
    opnds := [(0, .outEarly), (1, .outEarly), (2, .input), (3, .input)]
    addr := [2]
    results := [0] }
  args a x := (x 3).setWidth 8 = a
  ret _ r := .val ((r 0).setWidth 8)

/-- `sub`, extra_ops_gcc_aarch32.hpp 205–229 (assembly block 211–222).  Operands, in this order:
[result] "=&r" (result); [tmp] "=&r" (tmp); [storage] "+Q" (storage); [value] "Ir" (v). -/
def sub_ : Fn 32 8 (BitVec 8) (Integral.Ret 8) where
  block := {
    prog := [
      .label 1,                               -- 1:
      ldrexb 0 2,                             -- ldexb %[result], %[storage]
      sub 0 0 3,                              -- sub %[result], %[value]
      strexb 1 0 2,                           -- stexb %[tmp], %[result], %[storage]
      teqI 1 0,                               -- teq %[tmp], #0
      bne 0 1 false]                          -- bne 1b
    opnds := [(0, .outEarly), (1, .outEarly), (2, .input), (3, .input)]
    addr := [2]
    results := [0] }
  args a x := (x 3).setWidth 8 = a
  ret _ r := .val ((r 0).setWidth 8)

/-- `bitwise_and`, extra_ops_gcc_aarch32.hpp 231–255 (assembly block 237–248).  Operands, in this
order: [result] "=&r" (result); [tmp] "=&r" (tmp); [storage] "+Q" (storage); [value] "Ir" (v). -/
def bitwiseAnd : Fn 32 8 (BitVec 8) (Integral.Ret 8) where
  block := {
    prog := [
      .label 1,                               -- 1:
      ldrexb 0 2,                             -- ldexb %[result], %[storage]
      and 0 0 3,                              -- and %[result], %[value]
      strexb 1 0 2,                           -- stexb %[tmp], %[result], %[storage]
      teqI 1 0,                               -- teq %[tmp], #0
      bne 0 1 false]                          -- bne 1b
    opnds := [(0, .outEarly), (1, .outEarly), (2, .input), (3, .input)]
    addr := [2]
    results := [0] }
  args a x := (x 3).setWidth 8 = a
  ret _ r := .val ((r 0).setWidth 8)

/-- `bitwise_or`, extra_ops_gcc_aarch32.hpp 257–281 (assembly block 263–274).  Operands, in this
order: [result] "=&r" (result); [tmp] "=&r" (tmp); [storage] "+Q" (storage); [value] "Ir" (v). -/
def bitwiseOr : Fn 32 8 (BitVec 8) (Integral.Ret 8) where
  block := {
    prog := [
      .label 1,                               -- 1:
      ldrexb 0 2,                             -- ldexb %[result], %[storage]
      orr 0 0 3,                              -- orr %[result], %[value]
      strexb 1 0 2,                           -- stexb %[tmp], %[result], %[storage]
      teqI 1 0,                               -- teq %[tmp], #0
      bne 0 1 false]                          -- bne 1b
    opnds := [(0, .outEarly), (1, .outEarly), (2, .input), (3, .input)]
    addr := [2]
    results := [0] }
  args a x := (x 3).setWidth 8 = a
  ret _ r := .val ((r 0).setWidth 8)

/-- `bitwise_xor`, extra_ops_gcc_aarch32.hpp 283–307 (assembly block 289–300).  Operands, in this
order: [result] "=&r" (result); [tmp] "=&r" (tmp); [storage] "+Q" (storage); [value] "Ir" (v). -/
def bitwiseXor : Fn 32 8 (BitVec 8) (Integral.Ret 8) where
  block := {
    prog := [
      .label 1,                               -- 1:
      ldrexb 0 2,                             -- ldexb %[result], %[storage]
      eor 0 0 3,                              -- eor %[result], %[value]
      strexb 1 0 2,                           -- stexb %[tmp], %[result], %[storage]
      teqI 1 0,                               -- teq %[tmp], #0
      bne 0 1 false]                          -- bne 1b
    opnds := [(0, .outEarly), (1, .outEarly), (2, .input), (3, .input)]
    addr := [2]
    results := [0] }
  args a x := (x 3).setWidth 8 = a
  ret _ r := .val ((r 0).setWidth 8)

/-- `fetch_complement`, extra_ops_gcc_aarch32.hpp 309–333 (assembly block 315–326).  Operands, in
this order: [original] "=&r" (original); [result] "=&r" (result); [tmp] "=&r" (tmp); [storage] "+Q"
(storage). -/
def fetchComplement : Fn 32 8 (Unit) (Integral.Ret 8) where
  block := {
    prog := [
      .label 1,                               -- 1:
      ldrexb 0 3,                             -- ldexb %[original], %[storage]
      mvn 1 0,                                -- mvn %[result], %[original]
      strexb 2 1 3,                           -- stexb %[tmp], %[result], %[storage]
      teqI 2 0,                               -- teq %[tmp], #0
      bne 0 1 false]                          -- bne 1b
    opnds := [(0, .outEarly), (1, .outEarly), (2, .outEarly), (3, .input)]
    addr := [3]
    results := [0] }
  args _ _ := True
  ret _ r := .val ((r 0).setWidth 8)

/-- `bitwise_complement`, extra_ops_gcc_aarch32.hpp 335–359 (assembly block 341–352).  Operands, in
this order: [result] "=&r" (result); [tmp] "=&r" (tmp); [storage] "+Q" (storage). -/
def bitwiseComplement : Fn 32 8 (Unit) (Integral.Ret 8) where
  block := {
    prog := [
      .label 1,                               -- 1:
      ldrexb 0 2,                             -- ldexb %[result], %[storage]
      mvn 0 0,                                -- mvn %[result], %[result]
      strexb 1 0 2,                           -- stexb %[tmp], %[result], %[storage]
      teqI 1 0,                               -- teq %[tmp], #0
      bne 0 1 false]                          -- bne 1b
    opnds := [(0, .outEarly), (1, .outEarly), (2, .input)]
    addr := [2]
    results := [0] }
  args _ _ := True
  ret _ r := .val ((r 0).setWidth 8)

end AArch32x1

namespace AArch32x2
open Arm

/-- `store`, core_arch_ops_gcc_aarch32.hpp 345–362 (assembly block 350–356).  Operands, in this
order: [storage] "=Q" (storage); [value] "r" (v). -/
def store_ : Fn 32 16 (BitVec 16) (Integral.Ret 16) where
  block := {
    prog := [
      stlh 1 0]                               -- stlh %[value], %[storage]
    opnds := [(0, .input), (1, .input)]
    addr := [0]
    results := [] }
  args a x := (x 1).setWidth 16 = a
  ret _ _ := .unit

/-- `load`, core_arch_ops_gcc_aarch32.hpp 364–384 (assembly block 369–375).  Operands, in this
order: [value] "=r" (v); [storage] "Q" (storage). -/
def load_ : Fn 32 16 (Unit) (Integral.Ret 16) where
  block := {
    prog := [
      ldah 0 1]                               -- ldah %[value], %[storage]
    opnds := [(0, .out), (1, .input)]
    addr := [1]
    results := [0] }
  args _ _ := True
  ret _ r := .val ((r 0).setWidth 16)

/-- `exchange`, core_arch_ops_gcc_aarch32.hpp 386–409 (assembly block 392–402).  Operands, in this
order: [tmp] "=&r" (tmp); [original] "=&r" (original); [storage] "+Q" (storage); [value] "r" (v). -/
def exchange : Fn 32 16 (BitVec 16) (Integral.Ret 16) where
  block := {
    prog := [
      .label 1,                               -- 1:
      ldrexh 1 2,                             -- ldexh %[original], %[storage]
      strexh 0 3 2,                           -- stexh %[tmp], %[value], %[storage]
      teqI 0 0,                               -- teq %[tmp], #0
      bne 0 1 false]                          -- bne 1b
    opnds := [(0, .outEarly), (1, .outEarly), (2, .input), (3, .input)]
    addr := [2]
    results := [1] }
  args a x := (x 3).setWidth 16 = a
  ret _ r := .val ((r 1).setWidth 16)

/-- `compare_exchange_weak`, core_arch_ops_gcc_aarch32.hpp 411–440 (assembly block 418–431). 
Operands, in this order: [original] "=&r" (original); [success] "=&r" (success); [storage] "+Q"
(storage); [expected] "r" (expected); [desired] "r" (desired). -/
def compareExchangeWeak : Fn 32 16 (BitVec 16 × BitVec 16) (Integral.Ret 16) where
  block := {
    prog := [
      uxth 3 3,                               -- uxth %[expected], %[expected]
      movI 1 0,                               -- mov %[success], #0
      ldrexh 0 2,                             -- ldexh %[original], %[storage]
      cmp 0 3,                                -- cmp %[original], %[expected]
      bne 7 1 true,                           -- bne 1f
      strexh 1 4 2,                           -- stexh %[success], %[desired], %[storage]
      eorI 1 1 1,                             -- eor %[success], %[success], #1
      .label 1]                               -- 1:
    opnds := [(0, .outEarly), (1, .outEarly), (2, .input), (3, .input), (4, .input)]
    addr := [2]
    results := [0, 1] }
  args a x := (x 3).setWidth 16 = a.1 ∧ (x 4).setWidth 16 = a.2
  ret _ r := bool8 (r 1) (.cas · ((r 0).setWidth 16))

/-- `compare_exchange_strong`, core_arch_ops_gcc_aarch32.hpp 442–473 (assembly block 449–464). 
Operands, in this order: [original] "=&r" (original); [success] "=&r" (success); [storage] "+Q"
(storage); [expected] "r" (expected); [desired] "r" (desired). -/
def compareExchangeStrong : Fn 32 16 (BitVec 16 × BitVec 16) (Integral.Ret 16) where
  block := {
    prog := [
      uxth 3 3,                               -- uxth %[expected], %[expected]
      movI 1 0,                               -- mov %[success], #0
      .label 1,                               -- 1:
      ldrexh 0 2,                             -- ldexh %[original], %[storage]
      cmp 0 3,                                -- cmp %[original], %[expected]
      bne 9 2 true,                           -- bne 2f
      strexh 1 4 2,                           -- stexh %[success], %[desired], %[storage]
      eorsI 1 1 1,                            -- eors %[success], %[success], #1
      beq 2 1 false,                          -- beq 1b
      .label 2]                               -- 2:
    opnds := [(0, .outEarly), (1, .outEarly), (2, .input), (3, .input), (4, .input)]
    addr := [2]
    results := [0, 1] }
  args a x := (x 3).setWidth 16 = a.1 ∧ (x 4).setWidth 16 = a.2
  ret _ r := bool8 (r 1) (.cas · ((r 0).setWidth 16))

/-- `fetch_add`, core_arch_ops_gcc_aarch32.hpp 475–499 (assembly block 481–492).  Operands, in this
order: [original] "=&r" (original); [result] "=&r" (result); [tmp] "=&r" (tmp); [storage] "+Q"
(storage); [value] "Ir" (v). -/
def fetchAdd : Fn 32 16 (BitVec 16) (Integral.Ret 16) where
  block := {
    prog := [
      .label 1,                               -- 1:
      ldrexh 0 3,                             -- ldexh %[original], %[storage]
      add 1 0 4,                              -- add %[result], %[original], %[value]
      strexh 2 1 3,                           -- stexh %[tmp], %[result], %[storage]
      teqI 2 0,                               -- teq %[tmp], #0
      bne 0 1 false]                          -- bne 1b
    opnds := [(0, .outEarly), (1, .outEarly), (2, .outEarly), (3, .input), (4, .input)]
    addr := [3]
    results := [0] }
  args a x := (x 4).setWidth 16 = a
  ret _ r := .val ((r 0).setWidth 16)

/-- `fetch_sub`, core_arch_ops_gcc_aarch32.hpp 501–525 (assembly block 507–518).  Operands, in this
order: [original] "=&r" (original); [result] "=&r" (result); [tmp] "=&r" (tmp); [storage] "+Q"
(storage); [value] "Ir" (v). -/
def fetchSub : Fn 32 16 (BitVec 16) (Integral.Ret 16) where
  block := {
    prog := [
      .label 1,                               -- 1:
      ldrexh 0 3,                             -- ldexh %[original], %[storage]
      sub 1 0 4,                              -- sub %[result], %[original], %[value]
      strexh 2 1 3,                           -- stexh %[tmp], %[result], %[storage]
      teqI 2 0,                               -- teq %[tmp], #0
      bne 0 1 false]                          -- bne 1b
    opnds := [(0, .outEarly), (1, .outEarly), (2, .outEarly), (3, .input), (4, .input)]
    addr := [3]
    results := [0] }
  args a x := (x 4).setWidth 16 = a
  ret _ r := .val ((r 0).setWidth 16)

/-- `fetch_and`, core_arch_ops_gcc_aarch32.hpp 527–551 (assembly block 533–544).  Operands, in this
order: [original] "=&r" (original); [result] "=&r" (result); [tmp] "=&r" (tmp); [storage] "+Q"
(storage); [value] "Ir" (v). -/
def fetchAnd : Fn 32 16 (BitVec 16) (Integral.Ret 16) where
  block := {
    prog := [
      .label 1,                               -- 1:
      ldrexh 0 3,                             -- ldexh %[original], %[storage]
      and 1 0 4,                              -- and %[result], %[original], %[value]
      strexh 2 1 3,                           -- stexh %[tmp], %[result], %[storage]
      teqI 2 0,                               -- teq %[tmp], #0
      bne 0 1 false]                          -- bne 1b
    opnds := [(0, .outEarly), (1, .outEarly), (2, .outEarly), (3, .input), (4, .input)]
    addr := [3]
    results := [0] }
  args a x := (x 4).setWidth 16 = a
  ret _ r := .val ((r 0).setWidth 16)

/-- `fetch_or`, core_arch_ops_gcc_aarch32.hpp 553–577 (assembly block 559–570).  Operands, in this
order: [original] "=&r" (original); [result] "=&r" (result); [tmp] "=&r" (tmp); [storage] "+Q"
(storage); [value] "Ir" (v). -/
def fetchOr : Fn 32 16 (BitVec 16) (Integral.Ret 16) where
  block := {
    prog := [
      .label 1,                               -- 1:
      ldrexh 0 3,                             -- ldexh %[original], %[storage]
      orr 1 0 4,                              -- orr %[result], %[original], %[value]
      strexh 2 1 3,                           -- stexh %[tmp], %[result], %[storage]
      teqI 2 0,                               -- teq %[tmp], #0
      bne 0 1 false]                          -- bne 1b
    opnds := [(0, .outEarly), (1, .outEarly), (2, .outEarly), (3, .input), (4, .input)]
    addr := [3]
    results := [0] }
  args a x := (x 4).setWidth 16 = a
  ret _ r := .val ((r 0).setWidth 16)

/-- `fetch_xor`, core_arch_ops_gcc_aarch32.hpp 579–603 (assembly block 585–596).  Operands, in this
order: [original] "=&r" (original); [result] "=&r" (result); [tmp] "=&r" (tmp); [storage] "+Q"
(storage); [value] "Ir" (v). -/
def fetchXor : Fn 32 16 (BitVec 16) (Integral.Ret 16) where
  block := {
    prog := [
      .label 1,                               -- 1:
      ldrexh 0 3,                             -- ldexh %[original], %[storage]
      eor 1 0 4,                              -- eor %[result], %[original], %[value]
      strexh 2 1 3,                           -- stexh %[tmp], %[result], %[storage]
      teqI 2 0,                               -- teq %[tmp], #0
      bne 0 1 false]                          -- bne 1b
    opnds := [(0, .outEarly), (1, .outEarly), (2, .outEarly), (3, .input), (4, .input)]
    addr := [3]
    results := [0] }
  args a x := (x 4).setWidth 16 = a
  ret _ r := .val ((r 0).setWidth 16)

/-- `fetch_negate`, extra_ops_gcc_aarch32.hpp 376–400 (assembly block 382–393).  Operands, in this
order: [original] "=&r" (original); [result] "=&r" (result); [tmp] "=&r" (tmp); [storage] "+Q"
(storage). -/
def fetchNegate : Fn 32 16 (Unit) (Integral.Ret 16) where
  block := {
    prog := [
      .label 1,                               -- 1:
      ldrexh 0 3,                             -- ldexh %[original], %[storage]
      rsbI 1 0 0,                             -- rsb %[result], %[original], #0
      strexh 2 1 3,                           -- stexh %[tmp], %[result], %[storage]
      teqI 2 0,                               -- teq %[tmp], #0
      bne 0 1 false]                          -- bne 1b
    opnds := [(0, .outEarly), (1, .outEarly), (2, .outEarly), (3, .input)]
    addr := [3]
    results := [0] }
  args _ _ := True
  ret _ r := .val ((r 0).setWidth 16)

/-- `negate`, extra_ops_gcc_aarch32.hpp 402–426 (assembly block 408–419).  Operands, in this order:
[result] "=&r" (result); [tmp] "=&r" (tmp); [storage] "+Q" (storage). -/
def negate : Fn 32 16 (Unit) (Integral.Ret 16) where
  block := {
    prog := [
      .label 1,                               -- 1:
      ldrexh 0 2,                             -- ldexh %[result], %[storage]
      rsbI 0 0 0,                             -- rsb %[result], #0
      strexh 1 0 2,                           -- stexh %[tmp], %[result], %[storage]
      teqI 1 0,                               -- teq %[tmp], #0
      bne 0 1 false]                          -- bne 1b
    opnds := [(0, .outEarly), (1, .outEarly), (2, .input)]
    addr := [2]
    results := [0] }
  args _ _ := True
  ret _ r := .val ((r 0).setWidth 16)

/-- `add`, extra_ops_gcc_aarch32.hpp 428–452 (assembly block 434–445).  Operands, in this order:
[result] "=&r" (result); [tmp] "=&r" (tmp); [storage] "+Q" (storage); [value] "Ir" (v). -/
def add_ : Fn 32 16 (BitVec 16) (Integral.Ret 16) where
  block := {
    prog := [
      .label 1,                               -- 1:
      ldrexh 0 2,                             -- ldexh %[result], %[storage]
      add 0 0 3,                              -- add %[result], %[value]
      strexh 1 0 2,                           -- stexh %[tmp], %[result], %[storage]
      teqI 1 0,                               -- teq %[tmp], #0
      bne 0 1 false]                          -- bne 1b
    opnds := [(0, .outEarly), (1, .outEarly), (2, .input), (3, .input)]
    addr := [2]
    results := [0] }
  args a x := (x 3).setWidth 16 = a
  ret _ r := .val ((r 0).setWidth 16)

/-- `sub`, extra_ops_gcc_aarch32.hpp 454–478 (assembly block 460–471).  Operands, in this order:
[result] "=&r" (result); [tmp] "=&r" (tmp); [storage] "+Q" (storage); [value] "Ir" (v). -/
def sub_ : Fn 32 16 (BitVec 16) (Integral.Ret 16) where
  block := {
    prog := [
      .label 1,                               -- 1:
      ldrexh 0 2,                             -- ldexh %[result], %[storage]
      sub 0 0 3,                              -- sub %[result], %[value]
      strexh 1 0 2,                           -- stexh %[tmp], %[result], %[storage]
      teqI 1 0,                               -- teq %[tmp], #0
      bne 0 1 false]                          -- bne 1b
    opnds := [(0, .outEarly), (1, .outEarly), (2, .input), (3, .input)]
    addr := [2]
    results := [0] }
  args a x := (x 3).setWidth 16 = a
  ret _ r := .val ((r 0).setWidth 16)

/-- `bitwise_and`, extra_ops_gcc_aarch32.hpp 480–504 (assembly block 486–497).  Operands, in this
order: [result] "=&r" (result); [tmp] "=&r" (tmp); [storage] "+Q" (storage); [value] "Ir" (v). -/
def bitwiseAnd : Fn 32 16 (BitVec 16) (Integral.Ret 16) where
  block := {
    prog := [
      .label 1,                               -- 1:
      ldrexh 0 2,                             -- ldexh %[result], %[storage]
      and 0 0 3,                              -- and %[result], %[value]
      strexh 1 0 2,                           -- stexh %[tmp], %[result], %[storage]
      teqI 1 0,                               -- teq %[tmp], #0
      bne 0 1 false]                          -- bne 1b
    opnds := [(0, .outEarly), (1, .outEarly), (2, .input), (3, .input)]
    addr := [2]
    results := [0] }
  args a x := (x 3).setWidth 16 = a
  ret _ r := .val ((r 0).setWidth 16)

/-- `bitwise_or`, extra_ops_gcc_aarch32.hpp 506–530 (assembly block 512–523).  Operands, in this
order: [result] "=&r" (result); [tmp] "=&r" (tmp); [storage] "+Q" (storage); [value] "Ir" (v). -/
def bitwiseOr : Fn 32 16 (BitVec 16) (Integral.Ret 16) where
  block := {
    prog := [
      .label 1,                               -- 1:
      ldrexh 0 2,                             -- ldexh %[result], %[storage]
      orr 0 0 3,                              -- orr %[result], %[value]
      strexh 1 0 2,                           -- stexh %[tmp], %[result], %[storage]
      teqI 1 0,                               -- teq %[tmp], #0
      bne 0 1 false]                          -- bne 1b
    opnds := [(0, .outEarly), (1, .outEarly), (2, .input), (3, .input)]
    addr := [2]
    results := [0] }
  args a x := (x 3).setWidth 16 = a
  ret _ r := .val ((r 0).setWidth 16)

/-- `bitwise_xor`, extra_ops_gcc_aarch32.hpp 532–556 (assembly block 538–549).  Operands, in this
order: [result] "=&r" (result); [tmp] "=&r" (tmp); [storage] "+Q" (storage); [value] "Ir" (v). -/
def bitwiseXor : Fn 32 16 (BitVec 16) (Integral.Ret 16) where
  block := {
    prog := [
      .label 1,                               -- 1:
      ldrexh 0 2,                             -- ldexh %[result], %[storage]
      eor 0 0 3,                              -- eor %[result], %[value]
      strexh 1 0 2,                           -- stexh %[tmp], %[result], %[storage]
      teqI 1 0,                               -- teq %[tmp], #0
      bne 0 1 false]                          -- bne 1b
    opnds := [(0, .outEarly), (1, .outEarly), (2, .input), (3, .input)]
    addr := [2]
    results := [0] }
  args a x := (x 3).setWidth 16 = a
  ret _ r := .val ((r 0).setWidth 16)

/-- `fetch_complement`, extra_ops_gcc_aarch32.hpp 558–582 (assembly block 564–575).  Operands, in
this order: [original] "=&r" (original); [result] "=&r" (result); [tmp] "=&r" (tmp); [storage] "+Q"
(storage). -/
def fetchComplement : Fn 32 16 (Unit) (Integral.Ret 16) where
  block := {
    prog := [
      .label 1,                               -- 1:
      ldrexh 0 3,                             -- ldexh %[original], %[storage]
      mvn 1 0,                                -- mvn %[result], %[original]
      strexh 2 1 3,                           -- stexh %[tmp], %[result], %[storage]
      teqI 2 0,                               -- teq %[tmp], #0
      bne 0 1 false]                          -- bne 1b
    opnds := [(0, .outEarly), (1, .outEarly), (2, .outEarly), (3, .input)]
    addr := [3]
    results := [0] }
  args _ _ := True
  ret _ r := .val ((r 0).setWidth 16)

/-- `bitwise_complement`, extra_ops_gcc_aarch32.hpp 584–608 (assembly block 590–601).  Operands, in
this order: [result] "=&r" (result); [tmp] "=&r" (tmp); [storage] "+Q" (storage). -/
def bitwiseComplement : Fn 32 16 (Unit) (Integral.Ret 16) where
  block := {
    prog := [
      .label 1,                               -- 1:
      ldrexh 0 2,                             -- ldexh %[result], %[storage]
      mvn 0 0,                                -- mvn %[result], %[result]
      strexh 1 0 2,                           -- stexh %[tmp], %[result], %[storage]
      teqI 1 0,                               -- teq %[tmp], #0
      bne 0 1 false]                          -- bne 1b
    opnds := [(0, .outEarly), (1, .outEarly), (2, .input)]
    addr := [2]
    results := [0] }
  args _ _ := True
  ret _ r := .val ((r 0).setWidth 16)

end AArch32x2

namespace AArch32x4
open Arm

/-- `store`, core_arch_ops_gcc_aarch32.hpp 627–644 (assembly block 632–638).  Operands, in this
order: [storage] "=Q" (storage); [value] "r" (v). -/
def store_ : Fn 32 32 (BitVec 32) (Integral.Ret 32) where
  block := {
    prog := [
      stl 1 0]                                -- stl %[value], %[storage]
    opnds := [(0, .input), (1, .input)]
    addr := [0]
    results := [] }
  args a x := x 1 = a
  ret _ _ := .unit

/-- `load`, core_arch_ops_gcc_aarch32.hpp 646–666 (assembly block 651–657).  Operands, in this
order: [value] "=r" (v); [storage] "Q" (storage). -/
def load_ : Fn 32 32 (Unit) (Integral.Ret 32) where
  block := {
    prog := [
      lda 0 1]                                -- lda %[value], %[storage]
    opnds := [(0, .out), (1, .input)]
    addr := [1]
    results := [0] }
  args _ _ := True
  ret _ r := .val (r 0)

/-- `exchange`, core_arch_ops_gcc_aarch32.hpp 668–691 (assembly block 674–684).  Operands, in this
order: [tmp] "=&r" (tmp); [original] "=&r" (original); [storage] "+Q" (storage); [value] "r" (v). -/
def exchange : Fn 32 32 (BitVec 32) (Integral.Ret 32) where
  block := {
    prog := [
      .label 1,                               -- 1:
      ldrex 1 2,                              -- ldex %[original], %[storage]
      strex 0 3 2,                            -- stex %[tmp], %[value], %[storage]
      teqI 0 0,                               -- teq %[tmp], #0
      bne 0 1 false]                          -- bne 1b
    opnds := [(0, .outEarly), (1, .outEarly), (2, .input), (3, .input)]
    addr := [2]
    results := [1] }
  args a x := x 3 = a
  ret _ r := .val (r 1)

/-- `compare_exchange_weak`, core_arch_ops_gcc_aarch32.hpp 693–721 (assembly block 700–712). 
Operands, in this order: [original] "=&r" (original); [success] "=&r" (success); [storage] "+Q"
(storage); [expected] "Ir" (expected); [desired] "r" (desired). -/
def compareExchangeWeak : Fn 32 32 (BitVec 32 × BitVec 32) (Integral.Ret 32) where
  block := {
    prog := [
      movI 1 0,                               -- mov %[success], #0
      ldrex 0 2,                              -- ldex %[original], %[storage]
      cmp 0 3,                                -- cmp %[original], %[expected]
      bne 6 1 true,                           -- bne 1f
      strex 1 4 2,                            -- stex %[success], %[desired], %[storage]
      eorI 1 1 1,                             -- eor %[success], %[success], #1
      .label 1]                               -- 1:
    opnds := [(0, .outEarly), (1, .outEarly), (2, .input), (3, .input), (4, .input)]
    addr := [2]
    results := [0, 1] }
  args a x := x 3 = a.1 ∧ x 4 = a.2
  ret _ r := bool8 (r 1) (.cas · (r 0))

/-- `compare_exchange_strong`, core_arch_ops_gcc_aarch32.hpp 723–753 (assembly block 730–744). 
Operands, in this order: [original] "=&r" (original); [success] "=&r" (success); [storage] "+Q"
(storage); [expected] "Ir" (expected); [desired] "r" (desired). -/
def compareExchangeStrong : Fn 32 32 (BitVec 32 × BitVec 32) (Integral.Ret 32) where
  block := {
    prog := [
      movI 1 0,                               -- mov %[success], #0
      .label 1,                               -- 1:
      ldrex 0 2,                              -- ldex %[original], %[storage]
      cmp 0 3,                                -- cmp %[original], %[expected]
      bne 8 2 true,                           -- bne 2f
      strex 1 4 2,                            -- stex %[success], %[desired], %[storage]
      eorsI 1 1 1,                            -- eors %[success], %[success], #1
      beq 1 1 false,                          -- beq 1b
      .label 2]                               -- 2:
    opnds := [(0, .outEarly), (1, .outEarly), (2, .input), (3, .input), (4, .input)]
    addr := [2]
    results := [0, 1] }
  args a x := x 3 = a.1 ∧ x 4 = a.2
  ret _ r := bool8 (r 1) (.cas · (r 0))

/-- `fetch_add`, core_arch_ops_gcc_aarch32.hpp 755–779 (assembly block 761–772).  Operands, in this
order: [original] "=&r" (original); [result] "=&r" (result); [tmp] "=&r" (tmp); [storage] "+Q"
(storage); [value] "Ir" (v). -/
def fetchAdd : Fn 32 32 (BitVec 32) (Integral.Ret 32) where
  block := {
    prog := [
      .label 1,                               -- 1:
      ldrex 0 3,                              -- ldex %[original], %[storage]
      add 1 0 4,                              -- add %[result], %[original], %[value]
      strex 2 1 3,                            -- stex %[tmp], %[result], %[storage]
      teqI 2 0,                               -- teq %[tmp], #0
      bne 0 1 false]                          -- bne 1b
    opnds := [(0, .outEarly), (1, .outEarly), (2, .outEarly), (3, .input), (4, .input)]
    addr := [3]
    results := [0] }
  args a x := x 4 = a
  ret _ r := .val (r 0)

/-- `fetch_sub`, core_arch_ops_gcc_aarch32.hpp 781–805 (assembly block 787–798).  Operands, in this
order: [original] "=&r" (original); [result] "=&r" (result); [tmp] "=&r" (tmp); [storage] "+Q"
(storage); [value] "Ir" (v). -/
def fetchSub : Fn 32 32 (BitVec 32) (Integral.Ret 32) where
  block := {
    prog := [
      .label 1,                               -- 1:
      ldrex 0 3,                              -- ldex %[original], %[storage]
      sub 1 0 4,                              -- sub %[result], %[original], %[value]
      strex 2 1 3,                            -- stex %[tmp], %[result], %[storage]
      teqI 2 0,                               -- teq %[tmp], #0
      bne 0 1 false]                          -- bne 1b
    opnds := [(0, .outEarly), (1, .outEarly), (2, .outEarly), (3, .input), (4, .input)]
    addr := [3]
    results := [0] }
  args a x := x 4 = a
  ret _ r := .val (r 0)

/-- `fetch_and`, core_arch_ops_gcc_aarch32.hpp 807–831 (assembly block 813–824).  Operands, in this
order: [original] "=&r" (original); [result] "=&r" (result); [tmp] "=&r" (tmp); [storage] "+Q"
(storage); [value] "Ir" (v). -/
def fetchAnd : Fn 32 32 (BitVec 32) (Integral.Ret 32) where
  block := {
    prog := [
      .label 1,                               -- 1:
      ldrex 0 3,                              -- ldex %[original], %[storage]
      and 1 0 4,                              -- and %[result], %[original], %[value]
      strex 2 1 3,                            -- stex %[tmp], %[result], %[storage]
      teqI 2 0,                               -- teq %[tmp], #0
      bne 0 1 false]                          -- bne 1b
    opnds := [(0, .outEarly), (1, .outEarly), (2, .outEarly), (3, .input), (4, .input)]
    addr := [3]
    results := [0] }
  args a x := x 4 = a
  ret _ r := .val (r 0)

/-- `fetch_or`, core_arch_ops_gcc_aarch32.hpp 833–857 (assembly block 839–850).  Operands, in this
order: [original] "=&r" (original); [result] "=&r" (result); [tmp] "=&r" (tmp); [storage] "+Q"
(storage); [value] "Ir" (v). -/
def fetchOr : Fn 32 32 (BitVec 32) (Integral.Ret 32) where
  block := {
    prog := [
      .label 1,                               -- 1:
      ldrex 0 3,                              -- ldex %[original], %[storage]
      orr 1 0 4,                              -- orr %[result], %[original], %[value]
      strex 2 1 3,                            -- stex %[tmp], %[result], %[storage]
      teqI 2 0,                               -- teq %[tmp], #0
      bne 0 1 false]                          -- bne 1b
    opnds := [(0, .outEarly), (1, .outEarly), (2, .outEarly), (3, .input), (4, .input)]
    addr := [3]
    results := [0] }
  args a x := x 4 = a
  ret _ r := .val (r 0)

/-- `fetch_xor`, core_arch_ops_gcc_aarch32.hpp 859–883 (assembly block 865–876).  Operands, in this
order: [original] "=&r" (original); [result] "=&r" (result); [tmp] "=&r" (tmp); [storage] "+Q"
(storage); [value] "Ir" (v). -/
def fetchXor : Fn 32 32 (BitVec 32) (Integral.Ret 32) where
  block := {
    prog := [
      .label 1,                               -- 1:
      ldrex 0 3,                              -- ldex %[original], %[storage]
      eor 1 0 4,                              -- eor %[result], %[original], %[value]
      strex 2 1 3,                            -- stex %[tmp], %[result], %[storage]
      teqI 2 0,                               -- teq %[tmp], #0
      bne 0 1 false]                          -- bne 1b
    opnds := [(0, .outEarly), (1, .outEarly), (2, .outEarly), (3, .input), (4, .input)]
    addr := [3]
    results := [0] }
  args a x := x 4 = a
  ret _ r := .val (r 0)

/-- `fetch_negate`, extra_ops_gcc_aarch32.hpp 624–648 (assembly block 630–641).  Operands, in this
order: [original] "=&r" (original); [result] "=&r" (result); [tmp] "=&r" (tmp); [storage] "+Q"
(storage). -/
def fetchNegate : Fn 32 32 (Unit) (Integral.Ret 32) where
  block := {
    prog := [
      .label 1,                               -- 1:
      ldrex 0 3,                              -- ldex %[original], %[storage]
      rsbI 1 0 0,                             -- rsb %[result], %[original], #0
      strex 2 1 3,                            -- stex %[tmp], %[result], %[storage]
      teqI 2 0,                               -- teq %[tmp], #0
      bne 0 1 false]                          -- bne 1b
    opnds := [(0, .outEarly), (1, .outEarly), (2, .outEarly), (3, .input)]
    addr := [3]
    results := [0] }
  args _ _ := True
  ret _ r := .val (r 0)

/-- `negate`, extra_ops_gcc_aarch32.hpp 650–674 (assembly block 656–667).  Operands, in this order:
[result] "=&r" (result); [tmp] "=&r" (tmp); [storage] "+Q" (storage). -/
def negate : Fn 32 32 (Unit) (Integral.Ret 32) where
  block := {
    prog := [
      .label 1,                               -- 1:
      ldrex 0 2,                              -- ldex %[result], %[storage]
      rsbI 0 0 0,                             -- rsb %[result], #0
      strex 1 0 2,                            -- stex %[tmp], %[result], %[storage]
      teqI 1 0,                               -- teq %[tmp], #0
      bne 0 1 false]                          -- bne 1b
    opnds := [(0, .outEarly), (1, .outEarly), (2, .input)]
    addr := [2]
    results := [0] }
  args _ _ := True
  ret _ r := .val (r 0)

/-- `add`, extra_ops_gcc_aarch32.hpp 676–700 (assembly block 682–693).  Operands, in this order:
[result] "=&r" (result); [tmp] "=&r" (tmp); [storage] "+Q" (storage); [value] "Ir" (v). -/
def add_ : Fn 32 32 (BitVec 32) (Integral.Ret 32) where
  block := {
    prog := [
      .label 1,                               -- 1:
      ldrex 0 2,                              -- ldex %[result], %[storage]
      add 0 0 3,                              -- add %[result], %[value]
      strex 1 0 2,                            -- stex %[tmp], %[result], %[storage]
      teqI 1 0,                               -- teq %[tmp], #0
      bne 0 1 false]                          -- bne 1b
    opnds := [(0, .outEarly), (1, .outEarly), (2, .input), (3, .input)]
    addr := [2]
    results := [0] }
  args a x := x 3 = a
  ret _ r := .val (r 0)

/-- `sub`, extra_ops_gcc_aarch32.hpp 702–726 (assembly block 708–719).  Operands, in this order:
[result] "=&r" (result); [tmp] "=&r" (tmp); [storage] "+Q" (storage); [value] "Ir" (v). -/
def sub_ : Fn 32 32 (BitVec 32) (Integral.Ret 32) where
  block := {
    prog := [
      .label 1,                               -- 1:
      ldrex 0 2,                              -- ldex %[result], %[storage]
      sub 0 0 3,                              -- sub %[result], %[value]
      strex 1 0 2,                            -- stex %[tmp], %[result], %[storage]
      teqI 1 0,                               -- teq %[tmp], #0
      bne 0 1 false]                          -- bne 1b
    opnds := [(0, .outEarly), (1, .outEarly), (2, .input), (3, .input)]
    addr := [2]
    results := [0] }
  args a x := x 3 = a
  ret _ r := .val (r 0)

/-- `bitwise_and`, extra_ops_gcc_aarch32.hpp 728–752 (assembly block 734–745).  Operands, in this
order: [result] "=&r" (result); [tmp] "=&r" (tmp); [storage] "+Q" (storage); [value] "Ir" (v). -/
def bitwiseAnd : Fn 32 32 (BitVec 32) (Integral.Ret 32) where
  block := {
    prog := [
      .label 1,                               -- 1:
      ldrex 0 2,                              -- ldex %[result], %[storage]
      and 0 0 3,                              -- and %[result], %[value]
      strex 1 0 2,                            -- stex %[tmp], %[result], %[storage]
      teqI 1 0,                               -- teq %[tmp], #0
      bne 0 1 false]                          -- bne 1b
    opnds := [(0, .outEarly), (1, .outEarly), (2, .input), (3, .input)]
    addr := [2]
    results := [0] }
  args a x := x 3 = a
  ret _ r := .val (r 0)

/-- `bitwise_or`, extra_ops_gcc_aarch32.hpp 754–778 (assembly block 760–771).  Operands, in this
order: [result] "=&r" (result); [tmp] "=&r" (tmp); [storage] "+Q" (storage); [value] "Ir" (v). -/
def bitwiseOr : Fn 32 32 (BitVec 32) (Integral.Ret 32) where
  block := {
    prog := [
      .label 1,                               -- 1:
      ldrex 0 2,                              -- ldex %[result], %[storage]
      orr 0 0 3,                              -- orr %[result], %[value]
      strex 1 0 2,                            -- stex %[tmp], %[result], %[storage]
      teqI 1 0,                               -- teq %[tmp], #0
      bne 0 1 false]                          -- bne 1b
    opnds := [(0, .outEarly), (1, .outEarly), (2, .input), (3, .input)]
    addr := [2]
    results := [0] }
  args a x := x 3 = a
  ret _ r := .val (r 0)

/-- `bitwise_xor`, extra_ops_gcc_aarch32.hpp 780–804 (assembly block 786–797).  Operands, in this
order: [result] "=&r" (result); [tmp] "=&r" (tmp); [storage] "+Q" (storage); [value] "Ir" (v). -/
def bitwiseXor : Fn 32 32 (BitVec 32) (Integral.Ret 32) where
  block := {
    prog := [
      .label 1,                               -- 1:
      ldrex 0 2,                              -- ldex %[result], %[storage]
      eor 0 0 3,                              -- eor %[result], %[value]
      strex 1 0 2,                            -- stex %[tmp], %[result], %[storage]
      teqI 1 0,                               -- teq %[tmp], #0
      bne 0 1 false]                          -- bne 1b
    opnds := [(0, .outEarly), (1, .outEarly), (2, .input), (3, .input)]
    addr := [2]
    results := [0] }
  args a x := x 3 = a
  ret _ r := .val (r 0)

/-- `fetch_complement`, extra_ops_gcc_aarch32.hpp 806–830 (assembly block 812–823).  Operands, in
this order: [original] "=&r" (original); [result] "=&r" (result); [tmp] "=&r" (tmp); [storage] "+Q"
(storage). -/
def fetchComplement : Fn 32 32 (Unit) (Integral.Ret 32) where
  block := {
    prog := [
      .label 1,                               -- 1:
      ldrex 0 3,                              -- ldex %[original], %[storage]
      mvn 1 0,                                -- mvn %[result], %[original]
      strex 2 1 3,                            -- stex %[tmp], %[result], %[storage]
      teqI 2 0,                               -- teq %[tmp], #0
      bne 0 1 false]                          -- bne 1b
    opnds := [(0, .outEarly), (1, .outEarly), (2, .outEarly), (3, .input)]
    addr := [3]
    results := [0] }
  args _ _ := True
  ret _ r := .val (r 0)

/-- `bitwise_complement`, extra_ops_gcc_aarch32.hpp 832–856 (assembly block 838–849).  Operands, in
this order: [result] "=&r" (result); [tmp] "=&r" (tmp); [storage] "+Q" (storage). -/
def bitwiseComplement : Fn 32 32 (Unit) (Integral.Ret 32) where
  block := {
    prog := [
      .label 1,                               -- 1:
      ldrex 0 2,                              -- ldex %[result], %[storage]
      mvn 0 0,                                -- mvn %[result], %[result]
      strex 1 0 2,                            -- stex %[tmp], %[result], %[storage]
      teqI 1 0,                               -- teq %[tmp], #0
      bne 0 1 false]                          -- bne 1b
    opnds := [(0, .outEarly), (1, .outEarly), (2, .input)]
    addr := [2]
    results := [0] }
  args _ _ := True
  ret _ r := .val (r 0)

end AArch32x4

namespace AArch32x8
open Arm

/-- `store`, core_arch_ops_gcc_aarch32.hpp 924–957 (assembly block 931–941).  Operands, in this
order: %0 "=&r" (tmp); %1 "=&r" (original); %2 "+Q" (storage); %3 "r" (v). -/
def store_1 (be : Bool) : Fn 32 64 (BitVec 64) (Integral.Ret 64) where
  block := {
    prog := [
      .label 1,                               -- 1:
      ldrexd be 1 21 2,                       -- ldrexd %1, %H1, %2
      strexd be 0 3 23 2,                     -- stlexd %0, %3, %H3, %2
      teqI 0 0,                               -- teq %0, #0
      bne 0 1 false]                          -- bne 1b
    opnds := [(0, .outEarly), (1, .outEarly), (21, .outEarly), (2, .input), (3, .input), (23, .input)]
    addr := [2]
    results := [] }
  args a x := unwords be (x 3) (x 23) = a
  ret _ _ := .unit

/-- `store`, core_arch_ops_gcc_aarch32.hpp 924–957 (assembly block 945–955).  Operands, in this
order: %0 "=&r" (tmp); %1 "=&r" (original); %2 "+Q" (storage); %3 "r" (v). -/
def store_2 (be : Bool) : Fn 32 64 (BitVec 64) (Integral.Ret 64) where
  block := {
    prog := [
      .label 1,                               -- 1:
      ldrexd be 1 21 2,                       -- ldrexd %1, %H1, %2
      strexd be 0 3 23 2,                     -- strexd %0, %3, %H3, %2
      teqI 0 0,                               -- teq %0, #0
      bne 0 1 false]                          -- bne 1b
    opnds := [(0, .outEarly), (1, .outEarly), (21, .outEarly), (2, .input), (3, .input), (23, .input)]
    addr := [2]
    results := [] }
  args a x := unwords be (x 3) (x 23) = a
  ret _ _ := .unit

/-- `load`, core_arch_ops_gcc_aarch32.hpp 959–983 (assembly block 964–969).  Operands, in this
order: %0 "=&r" (original); %1 "Q" (storage). -/
def load_1 (be : Bool) : Fn 32 64 (Unit) (Integral.Ret 64) where
  block := {
    prog := [
      ldrexd be 0 20 1]                       -- ldaexd %0, %H0, %1
    opnds := [(0, .outEarly), (20, .outEarly), (1, .input)]
    addr := [1]
    results := [0, 20] }
  args _ _ := True
  ret _ r := .val (unwords be (r 0) (r 20))

/-- `load`, core_arch_ops_gcc_aarch32.hpp 959–983 (assembly block 973–978).  Operands, in this
order: %0 "=&r" (original); %1 "Q" (storage). -/
def load_2 (be : Bool) : Fn 32 64 (Unit) (Integral.Ret 64) where
  block := {
    prog := [
      ldrexd be 0 20 1]                       -- ldrexd %0, %H0, %1
    opnds := [(0, .outEarly), (20, .outEarly), (1, .input)]
    addr := [1]
    results := [0, 20] }
  args _ _ := True
  ret _ r := .val (unwords be (r 0) (r 20))

/-- `exchange`, core_arch_ops_gcc_aarch32.hpp 985–1008 (assembly block 991–1001).  Operands, in this
order: %0 "=&r" (tmp); %1 "=&r" (original); %2 "+Q" (storage); %3 "r" (v). -/
def exchange (be : Bool) : Fn 32 64 (BitVec 64) (Integral.Ret 64) where
  block := {
    prog := [
      .label 1,                               -- 1:
      ldrexd be 1 21 2,                       -- ldexd %1, %H1, %2
      strexd be 0 3 23 2,                     -- stexd %0, %3, %H3, %2
      teqI 0 0,                               -- teq %0, #0
      bne 0 1 false]                          -- bne 1b
    opnds := [(0, .outEarly), (1, .outEarly), (21, .outEarly), (2, .input), (3, .input), (23, .input)]
    addr := [2]
    results := [1, 21] }
  args a x := unwords be (x 3) (x 23) = a
  ret _ r := .val (unwords be (r 1) (r 21))

/-- `compare_exchange_weak`, core_arch_ops_gcc_aarch32.hpp 1010–1040 (assembly block 1017–1031). 
Operands, in this order: %0 "=&r" (original); %1 "=&r" (success); %2 "+Q" (storage); %3 "r"
(expected); %4 "r" (desired). -/
def compareExchangeWeak (be : Bool) : Fn 32 64 (BitVec 64 × BitVec 64) (Integral.Ret 64) where
  block := {
    prog := [
      movI 1 0,                               -- mov %1, #0
      ldrexd be 0 20 2,                       -- ldexd %0, %H0, %2
      cmp 0 3,                                -- cmp %0, %3
      nop,                                    -- it eq
      cmpeq 20 23,                            -- cmpeq %H0, %H3
      bne 8 1 true,                           -- bne 1f
      strexd be 1 4 24 2,                     -- stexd %1, %4, %H4, %2
      eorI 1 1 1,                             -- eor %1, %1, #1
      .label 1]                               -- 1:
    opnds := [(0, .outEarly), (20, .outEarly), (1, .outEarly), (2, .input), (3, .input), (23, .input), (4, .input), (24, .input)]
    addr := [2]
    results := [0, 20, 1] }
  args a x := unwords be (x 3) (x 23) = a.1 ∧ unwords be (x 4) (x 24) = a.2
  ret _ r := bool8 (r 1) (.cas · (unwords be (r 0) (r 20)))

/-- `compare_exchange_strong`, core_arch_ops_gcc_aarch32.hpp 1042–1074 (assembly block 1049–1065). 
Operands, in this order: %0 "=&r" (original); %1 "=&r" (success); %2 "+Q" (storage); %3 "r"
(expected); %4 "r" (desired). -/
def compareExchangeStrong (be : Bool) : Fn 32 64 (BitVec 64 × BitVec 64) (Integral.Ret 64) where
  block := {
    prog := [
      movI 1 0,                               -- mov %1, #0
      .label 1,                               -- 1:
      ldrexd be 0 20 2,                       -- ldexd %0, %H0, %2
      cmp 0 3,                                -- cmp %0, %3
      nop,                                    -- it eq
      cmpeq 20 23,                            -- cmpeq %H0, %H3
      bne 10 2 true,                          -- bne 2f
      strexd be 1 4 24 2,                     -- stexd %1, %4, %H4, %2
      eorsI 1 1 1,                            -- eors %1, %1, #1
      beq 1 1 false,                          -- beq 1b
      .label 2]                               -- 2:
    opnds := [(0, .outEarly), (20, .outEarly), (1, .outEarly), (2, .input), (3, .input), (23, .input), (4, .input), (24, .input)]
    addr := [2]
    results := [0, 20, 1] }
  args a x := unwords be (x 3) (x 23) = a.1 ∧ unwords be (x 4) (x 24) = a.2
  ret _ r := bool8 (r 1) (.cas · (unwords be (r 0) (r 20)))

/-- `fetch_add`, core_arch_ops_gcc_aarch32.hpp 1076–1101 (assembly block 1082–1094).  Operands, in
this order: %0 "=&r" (original); %1 "=&r" (tmp); %2 "+Q" (storage); %3 "=&r" (result); %4 "r" (v).
-/
def fetchAdd (be : Bool) : Fn 32 64 (BitVec 64) (Integral.Ret 64) where
  block := {
    prog := [
      .label 1,                               -- 1:
      ldrexd be 0 20 2,                       -- ldexd %0, %H0, %2
      adds (lo be 3) (lo be 0) (lo be 4),     -- adds %L3, %L0, %L4
      adc (hi be 3) (hi be 0) (hi be 4),      -- adc %U3, %U0, %U4
      strexd be 1 3 23 2,                     -- stexd %1, %3, %H3, %2
      teqI 1 0,                               -- teq %1, #0
      bne 0 1 false]                          -- bne 1b
    opnds := [(0, .outEarly), (20, .outEarly), (1, .outEarly), (2, .input), (3, .outEarly), (23, .outEarly), (4, .input), (24, .input)]
    addr := [2]
    results := [0, 20] }
  args a x := unwords be (x 4) (x 24) = a
  ret _ r := .val (unwords be (r 0) (r 20))

/-- `fetch_sub`, core_arch_ops_gcc_aarch32.hpp 1103–1128 (assembly block 1109–1121).  Operands, in
this order: %0 "=&r" (original); %1 "=&r" (tmp); %2 "+Q" (storage); %3 "=&r" (result); %4 "r" (v).
-/
def fetchSub (be : Bool) : Fn 32 64 (BitVec 64) (Integral.Ret 64) where
  block := {
    prog := [
      .label 1,                               -- 1:
      ldrexd be 0 20 2,                       -- ldexd %0, %H0, %2
      subs (lo be 3) (lo be 0) (lo be 4),     -- subs %L3, %L0, %L4
      sbc (hi be 3) (hi be 0) (hi be 4),      -- sbc %U3, %U0, %U4
      strexd be 1 3 23 2,                     -- stexd %1, %3, %H3, %2
      teqI 1 0,                               -- teq %1, #0
      bne 0 1 false]                          -- bne 1b
    opnds := [(0, .outEarly), (20, .outEarly), (1, .outEarly), (2, .input), (3, .outEarly), (23, .outEarly), (4, .input), (24, .input)]
    addr := [2]
    results := [0, 20] }
  args a x := unwords be (x 4) (x 24) = a
  ret _ r := .val (unwords be (r 0) (r 20))

/-- `fetch_and`, core_arch_ops_gcc_aarch32.hpp 1130–1155 (assembly block 1136–1148).  Operands, in
this order: %0 "=&r" (original); %1 "=&r" (tmp); %2 "+Q" (storage); %3 "=&r" (result); %4 "r" (v).
-/
def fetchAnd (be : Bool) : Fn 32 64 (BitVec 64) (Integral.Ret 64) where
  block := {
    prog := [
      .label 1,                               -- 1:
      ldrexd be 0 20 2,                       -- ldexd %0, %H0, %2
      and 3 0 4,                              -- and %3, %0, %4
      and 23 20 24,                           -- and %H3, %H0, %H4
      strexd be 1 3 23 2,                     -- stexd %1, %3, %H3, %2
      teqI 1 0,                               -- teq %1, #0
      bne 0 1 false]                          -- bne 1b
    opnds := [(0, .outEarly), (20, .outEarly), (1, .outEarly), (2, .input), (3, .outEarly), (23, .outEarly), (4, .input), (24, .input)]
    addr := [2]
    results := [0, 20] }
  args a x := unwords be (x 4) (x 24) = a
  ret _ r := .val (unwords be (r 0) (r 20))

/-- `fetch_or`, core_arch_ops_gcc_aarch32.hpp 1157–1182 (assembly block 1163–1175).  Operands, in
this order: %0 "=&r" (original); %1 "=&r" (tmp); %2 "+Q" (storage); %3 "=&r" (result); %4 "r" (v).
-/
def fetchOr (be : Bool) : Fn 32 64 (BitVec 64) (Integral.Ret 64) where
  block := {
    prog := [
      .label 1,                               -- 1:
      ldrexd be 0 20 2,                       -- ldexd %0, %H0, %2
      orr 3 0 4,                              -- orr %3, %0, %4
      orr 23 20 24,                           -- orr %H3, %H0, %H4
      strexd be 1 3 23 2,                     -- stexd %1, %3, %H3, %2
      teqI 1 0,                               -- teq %1, #0
      bne 0 1 false]                          -- bne 1b
    opnds := [(0, .outEarly), (20, .outEarly), (1, .outEarly), (2, .input), (3, .outEarly), (23, .outEarly), (4, .input), (24, .input)]
    addr := [2]
    results := [0, 20] }
  args a x := unwords be (x 4) (x 24) = a
  ret _ r := .val (unwords be (r 0) (r 20))

/-- `fetch_xor`, core_arch_ops_gcc_aarch32.hpp 1184–1209 (assembly block 1190–1202).  Operands, in
this order: %0 "=&r" (original); %1 "=&r" (tmp); %2 "+Q" (storage); %3 "=&r" (result); %4 "r" (v).
-/
def fetchXor (be : Bool) : Fn 32 64 (BitVec 64) (Integral.Ret 64) where
  block := {
    prog := [
      .label 1,                               -- 1:
      ldrexd be 0 20 2,                       -- ldexd %0, %H0, %2
      eor 3 0 4,                              -- eor %3, %0, %4
      eor 23 20 24,                           -- eor %H3, %H0, %H4
      strexd be 1 3 23 2,                     -- stexd %1, %3, %H3, %2
      teqI 1 0,                               -- teq %1, #0
      bne 0 1 false]                          -- bne 1b
    opnds := [(0, .outEarly), (20, .outEarly), (1, .outEarly), (2, .input), (3, .outEarly), (23, .outEarly), (4, .input), (24, .input)]
    addr := [2]
    results := [0, 20] }
  args a x := unwords be (x 4) (x 24) = a
  ret _ r := .val (unwords be (r 0) (r 20))

/-- `fetch_negate`, extra_ops_gcc_aarch32.hpp 872–899 (assembly block 878–892).  Operands, in this
order: %0 "=&r" (original); %1 "=&r" (tmp); %2 "+Q" (storage); %3 "=&r" (result). -/
def fetchNegate (be : Bool) : Fn 32 64 (Unit) (Integral.Ret 64) where
  block := {
    prog := [
      .label 1,                               -- 1:
      ldrexd be 0 20 2,                       -- ldexd %0, %H0, %2
      mvn 3 0,                                -- mvn %3, %0
      mvn 23 20,                              -- mvn %H3, %H0
      addsI (lo be 3) (lo be 3) 1,            -- adds %L3, #1
      adcI (hi be 3) (hi be 3) 0,             -- adc %U3, #0
      strexd be 1 3 23 2,                     -- stexd %1, %3, %H3, %2
      teqI 1 0,                               -- teq %1, #0
      bne 0 1 false]                          -- bne 1b
    opnds := [(0, .outEarly), (20, .outEarly), (1, .outEarly), (2, .input), (3, .outEarly), (23, .outEarly)]
    addr := [2]
    results := [0, 20] }
  args _ _ := True
  ret _ r := .val (unwords be (r 0) (r 20))

/-- `negate`, extra_ops_gcc_aarch32.hpp 901–928 (assembly block 907–921).  Operands, in this order:
%0 "=&r" (result); %1 "=&r" (tmp); %2 "+Q" (storage). -/
def negate (be : Bool) : Fn 32 64 (Unit) (Integral.Ret 64) where
  block := {
    prog := [
      .label 1,                               -- 1:
      ldrexd be 0 20 2,                       -- ldexd %0, %H0, %2
      mvn 0 0,                                -- mvn %0, %0
      mvn 20 20,                              -- mvn %H0, %H0
      addsI (lo be 0) (lo be 0) 1,            -- adds %L0, #1
      adcI (hi be 0) (hi be 0) 0,             -- adc %U0, #0
      strexd be 1 0 20 2,                     -- stexd %1, %0, %H0, %2
      teqI 1 0,                               -- teq %1, #0
      bne 0 1 false]                          -- bne 1b
    opnds := [(0, .outEarly), (20, .outEarly), (1, .outEarly), (2, .input)]
    addr := [2]
    results := [0, 20] }
  args _ _ := True
  ret _ r := .val (unwords be (r 0) (r 20))

/-- `add`, extra_ops_gcc_aarch32.hpp 930–955 (assembly block 936–948).  Operands, in this order: %0
"=&r" (result); %1 "=&r" (tmp); %2 "+Q" (storage); %3 "r" (v). -/
def add_ (be : Bool) : Fn 32 64 (BitVec 64) (Integral.Ret 64) where
  block := {
    prog := [
      .label 1,                               -- 1:
      ldrexd be 0 20 2,                       -- ldexd %0, %H0, %2
      adds (lo be 0) (lo be 0) (lo be 3),     -- adds %L0, %L3
      adc (hi be 0) (hi be 0) (hi be 3),      -- adc %U0, %U3
      strexd be 1 0 20 2,                     -- stexd %1, %0, %H0, %2
      teqI 1 0,                               -- teq %1, #0
      bne 0 1 false]                          -- bne 1b
    opnds := [(0, .outEarly), (20, .outEarly), (1, .outEarly), (2, .input), (3, .input), (23, .input)]
    addr := [2]
    results := [0, 20] }
  args a x := unwords be (x 3) (x 23) = a
  ret _ r := .val (unwords be (r 0) (r 20))

/-- `sub`, extra_ops_gcc_aarch32.hpp 957–982 (assembly block 963–975).  Operands, in this order: %0
"=&r" (result); %1 "=&r" (tmp); %2 "+Q" (storage); %3 "r" (v). -/
def sub_ (be : Bool) : Fn 32 64 (BitVec 64) (Integral.Ret 64) where
  block := {
    prog := [
      .label 1,                               -- 1:
      ldrexd be 0 20 2,                       -- ldexd %0, %H0, %2
      subs (lo be 0) (lo be 0) (lo be 3),     -- subs %L0, %L3
      sbc (hi be 0) (hi be 0) (hi be 3),      -- sbc %U0, %U3
      strexd be 1 0 20 2,                     -- stexd %1, %0, %H0, %2
      teqI 1 0,                               -- teq %1, #0
      bne 0 1 false]                          -- bne 1b
    opnds := [(0, .outEarly), (20, .outEarly), (1, .outEarly), (2, .input), (3, .input), (23, .input)]
    addr := [2]
    results := [0, 20] }
  args a x := unwords be (x 3) (x 23) = a
  ret _ r := .val (unwords be (r 0) (r 20))

/-- `bitwise_and`, extra_ops_gcc_aarch32.hpp 984–1009 (assembly block 990–1002).  Operands, in this
order: %0 "=&r" (result); %1 "=&r" (tmp); %2 "+Q" (storage); %3 "r" (v). -/
def bitwiseAnd (be : Bool) : Fn 32 64 (BitVec 64) (Integral.Ret 64) where
  block := {
    prog := [
      .label 1,                               -- 1:
      ldrexd be 0 20 2,                       -- ldexd %0, %H0, %2
      and 0 0 3,                              -- and %0, %3
      and 20 20 23,                           -- and %H0, %H3
      strexd be 1 0 20 2,                     -- stexd %1, %0, %H0, %2
      teqI 1 0,                               -- teq %1, #0
      bne 0 1 false]                          -- bne 1b
    opnds := [(0, .outEarly), (20, .outEarly), (1, .outEarly), (2, .input), (3, .input), (23, .input)]
    addr := [2]
    results := [0, 20] }
  args a x := unwords be (x 3) (x 23) = a
  ret _ r := .val (unwords be (r 0) (r 20))

/-- `bitwise_or`, extra_ops_gcc_aarch32.hpp 1011–1036 (assembly block 1017–1029).  Operands, in this
order: %0 "=&r" (result); %1 "=&r" (tmp); %2 "+Q" (storage); %3 "r" (v). -/
def bitwiseOr (be : Bool) : Fn 32 64 (BitVec 64) (Integral.Ret 64) where
  block := {
    prog := [
      .label 1,                               -- 1:
      ldrexd be 0 20 2,                       -- ldexd %0, %H0, %2
      orr 0 0 3,                              -- orr %0, %3
      orr 20 20 23,                           -- orr %H0, %H3
      strexd be 1 0 20 2,                     -- stexd %1, %0, %H0, %2
      teqI 1 0,                               -- teq %1, #0
      bne 0 1 false]                          -- bne 1b
    opnds := [(0, .outEarly), (20, .outEarly), (1, .outEarly), (2, .input), (3, .input), (23, .input)]
    addr := [2]
    results := [0, 20] }
  args a x := unwords be (x 3) (x 23) = a
  ret _ r := .val (unwords be (r 0) (r 20))

/-- `bitwise_xor`, extra_ops_gcc_aarch32.hpp 1038–1063 (assembly block 1044–1056).  Operands, in
this order: %0 "=&r" (result); %1 "=&r" (tmp); %2 "+Q" (storage); %3 "r" (v). -/
def bitwiseXor (be : Bool) : Fn 32 64 (BitVec 64) (Integral.Ret 64) where
  block := {
    prog := [
      .label 1,                               -- 1:
      ldrexd be 0 20 2,                       -- ldexd %0, %H0, %2
      eor 0 0 3,                              -- eor %0, %3
      eor 20 20 23,                           -- eor %H0, %H3
      strexd be 1 0 20 2,                     -- stexd %1, %0, %H0, %2
      teqI 1 0,                               -- teq %1, #0
      bne 0 1 false]                          -- bne 1b
    opnds := [(0, .outEarly), (20, .outEarly), (1, .outEarly), (2, .input), (3, .input), (23, .input)]
    addr := [2]
    results := [0, 20] }
  args a x := unwords be (x 3) (x 23) = a
  ret _ r := .val (unwords be (r 0) (r 20))

/-- `fetch_complement`, extra_ops_gcc_aarch32.hpp 1065–1090 (assembly block 1071–1083).  Operands,
in this order: %0 "=&r" (original); %1 "=&r" (tmp); %2 "+Q" (storage); %3 "=&r" (result). -/
def fetchComplement (be : Bool) : Fn 32 64 (Unit) (Integral.Ret 64) where
  block := {
    prog := [
      .label 1,                               -- 1:
      ldrexd be 0 20 2,                       -- ldexd %0, %H0, %2
      mvn 3 0,                                -- mvn %3, %0
      mvn 23 20,                              -- mvn %H3, %H0
      strexd be 1 3 23 2,                     -- stexd %1, %3, %H3, %2
      teqI 1 0,                               -- teq %1, #0
      bne 0 1 false]                          -- bne 1b
    opnds := [(0, .outEarly), (20, .outEarly), (1, .outEarly), (2, .input), (3, .outEarly), (23, .outEarly)]
    addr := [2]
    results := [0, 20] }
  args _ _ := True
  ret _ r := .val (unwords be (r 0) (r 20))

/-- `bitwise_complement`, extra_ops_gcc_aarch32.hpp 1092–1117 (assembly block 1098–1110).  Operands,
in this order: %0 "=&r" (result); %1 "=&r" (tmp); %2 "+Q" (storage). -/
def bitwiseComplement (be : Bool) : Fn 32 64 (Unit) (Integral.Ret 64) where
  block := {
    prog := [
      .label 1,                               -- 1:
      ldrexd be 0 20 2,                       -- ldexd %0, %H0, %2
      mvn 0 0,                                -- mvn %0, %0
      mvn 20 20,                              -- mvn %H0, %H0
      strexd be 1 0 20 2,                     -- stexd %1, %0, %H0, %2
      teqI 1 0,                               -- teq %1, #0
      bne 0 1 false]                          -- bne 1b
    opnds := [(0, .outEarly), (20, .outEarly), (1, .outEarly), (2, .input)]
    addr := [2]
    results := [0, 20] }
  args _ _ := True
  ret _ r := .val (unwords be (r 0) (r 20))

end AArch32x8

end Verif.Asm
