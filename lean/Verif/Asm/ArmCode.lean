import Verif.Asm.Tactic
import Verif.Asm.IsaArm

/-
The assembly blocks of core_arch_ops_gcc_arm.hpp and extra_ops_gcc_arm.hpp.
Written by tools/asmgen.py from the source text.
-/

set_option linter.unusedVariables false

namespace Verif.Asm

namespace Arm1
open Arm

/-- `exchange`, core_arch_ops_gcc_arm.hpp 350–370 (assembly block 355–367).  Operands, in this
order: [tmp] "=&l" (tmp); [original] "=&r" (original); [storage] "+Q" (storage); [value] "r" (v). -/
def exchange (thumb : Bool) : Fn 32 8 (BitVec 8) (Integral.Ret 8) where
  block := {
    prog := [
      mode thumb 0,                           -- @mode %[tmp]
      .label 1,                               -- 1:
      ldrexb 1 2,                             -- ldrexb %[original], %[storage]
      strexb 0 3 2,                           -- strexb %[tmp], %[value], %[storage]
      teqI 0 0,                               -- teq %[tmp], #0
      bne 1 1 false,                          -- bne 1b
      mode thumb 0]                           -- @mode %[tmp]
    opnds := [(0, .outEarly), (1, .outEarly), (2, .input), (3, .input)]
    addr := [2]
    results := [1] }
  args a x := (x 3).setWidth 8 = a
  ret _ r := .val ((r 1).setWidth 8)

/-- `compare_exchange_weak`, core_arch_ops_gcc_arm.hpp 372–406 (assembly block 381–399).  Operands,
in this order: [original] "=&r" (original); [success] "+r" (success); [tmp] "=&l" (tmp); [storage]
"+Q" (storage); [expected] "Ir" (atomics::detail::zero_extend< extended_storage_type >(expected));
[desired] "r" (desired). -/
def compareExchangeWeak (thumb : Bool) : Fn 32 8 (BitVec 8 × BitVec 8) (Integral.Ret 8) where
  block := {
    prog := [
      mode thumb 2,                           -- @mode %[tmp]
      ldrexb 0 3,                             -- ldrexb %[original], %[storage]
      cmp 0 4,                                -- cmp %[original], %[expected]
      nop,                                    -- itt eq
      strexbeq 1 5 3,                         -- strexbeq %[success], %[desired], %[storage]
      eoreqI 1 1 1,                           -- eoreq %[success], %[success], #1
      mode thumb 2]                           -- @mode %[tmp]
    opnds := (if thumb then [(2, .outEarly)] else []) ++
      [(0, .outEarly), (1, .inout), (3, .input), (4, .input), (5, .input)]
    addr := [3]
    results := [0, 1] }
  args a x := x 1 = 0 ∧ x 4 = a.1.setWidth 32 ∧ (x 5).setWidth 8 = a.2
  ret _ r := bool8 (r 1) (.cas · ((r 0).setWidth 8))

/-- `compare_exchange_strong`, core_arch_ops_gcc_arm.hpp 408–445 (assembly block 417–438). 
Operands, in this order: [original] "=&r" (original); [success] "+r" (success); [tmp] "=&l" (tmp);
[storage] "+Q" (storage); [expected] "Ir" (atomics::detail::zero_extend< extended_storage_type
>(expected)); [desired] "r" (desired). -/
def compareExchangeStrong (thumb : Bool) : Fn 32 8 (BitVec 8 × BitVec 8) (Integral.Ret 8) where
  block := {
    prog := [
      mode thumb 2,                           -- @mode %[tmp]
      .label 1,                               -- 1:
      ldrexb 0 3,                             -- ldrexb %[original], %[storage]
      cmp 0 4,                                -- cmp %[original], %[expected]
      bne 8 2 true,                           -- bne 2f
      strexb 1 5 3,                           -- strexb %[success], %[desired], %[storage]
      eorsI 1 1 1,                            -- eors %[success], %[success], #1
      beq 1 1 false,                          -- beq 1b
      .label 2,                               -- 2:
      mode thumb 2]                           -- @mode %[tmp]
    opnds := (if thumb then [(2, .outEarly)] else []) ++
      [(0, .outEarly), (1, .inout), (3, .input), (4, .input), (5, .input)]
    addr := [3]
    results := [0, 1] }
  args a x := x 1 = 0 ∧ x 4 = a.1.setWidth 32 ∧ (x 5).setWidth 8 = a.2
  ret _ r := bool8 (r 1) (.cas · ((r 0).setWidth 8))

/-- `fetch_add`, core_arch_ops_gcc_arm.hpp 447–471 (assembly block 452–468).  Operands, in this
order: [original] "=&r" (original); [result] "=&r" (result); [tmp] "=&l" (tmp); [storage] "+Q"
(storage); [value] "Ir" (v). -/
def fetchAdd (thumb : Bool) : Fn 32 8 (BitVec 8) (Integral.Ret 8) where
  block := {
    prog := [
      mode thumb 2,                           -- @mode %[tmp]
      .label 1,                               -- 1:
      ldrexb 0 3,                             -- ldrexb %[original], %[storage]
      add 1 0 4,                              -- add %[result], %[original], %[value]
      strexb 2 1 3,                           -- strexb %[tmp], %[result], %[storage]
      teqI 2 0,                               -- teq %[tmp], #0
      bne 1 1 false,                          -- bne 1b
      mode thumb 2]                           -- @mode %[tmp]
    opnds := [(0, .outEarly), (1, .outEarly), (2, .outEarly), (3, .input), (4, .input)]
    addr := [3]
    results := [0] }
  args a x := (x 4).setWidth 8 = a
  ret _ r := .val ((r 0).setWidth 8)

/-- `fetch_sub`, core_arch_ops_gcc_arm.hpp 473–497 (assembly block 478–494).  Operands, in this
order: [original] "=&r" (original); [result] "=&r" (result); [tmp] "=&l" (tmp); [storage] "+Q"
(storage); [value] "Ir" (v). -/
def fetchSub (thumb : Bool) : Fn 32 8 (BitVec 8) (Integral.Ret 8) where
  block := {
    prog := [
      mode thumb 2,                           -- @mode %[tmp]
      .label 1,                               -- 1:
      ldrexb 0 3,                             -- ldrexb %[original], %[storage]
      sub 1 0 4,                              -- sub %[result], %[original], %[value]
      strexb 2 1 3,                           -- strexb %[tmp], %[result], %[storage]
      teqI 2 0,                               -- teq %[tmp], #0
      bne 1 1 false,                          -- bne 1b
      mode thumb 2]                           -- @mode %[tmp]
    opnds := [(0, .outEarly), (1, .outEarly), (2, .outEarly), (3, .input), (4, .input)]
    addr := [3]
    results := [0] }
  args a x := (x 4).setWidth 8 = a
  ret _ r := .val ((r 0).setWidth 8)

/-- `fetch_and`, core_arch_ops_gcc_arm.hpp 499–523 (assembly block 504–520).  Operands, in this
order: [original] "=&r" (original); [result] "=&r" (result); [tmp] "=&l" (tmp); [storage] "+Q"
(storage); [value] "Ir" (v). -/
def fetchAnd (thumb : Bool) : Fn 32 8 (BitVec 8) (Integral.Ret 8) where
  block := {
    prog := [
      mode thumb 2,                           -- @mode %[tmp]
      .label 1,                               -- 1:
      ldrexb 0 3,                             -- ldrexb %[original], %[storage]
      and 1 0 4,                              -- and %[result], %[original], %[value]
      strexb 2 1 3,                           -- strexb %[tmp], %[result], %[storage]
      teqI 2 0,                               -- teq %[tmp], #0
      bne 1 1 false,                          -- bne 1b
      mode thumb 2]                           -- @mode %[tmp]
    opnds := [(0, .outEarly), (1, .outEarly), (2, .outEarly), (3, .input), (4, .input)]
    addr := [3]
    results := [0] }
  args a x := (x 4).setWidth 8 = a
  ret _ r := .val ((r 0).setWidth 8)

/-- `fetch_or`, core_arch_ops_gcc_arm.hpp 525–549 (assembly block 530–546).  Operands, in this
order: [original] "=&r" (original); [result] "=&r" (result); [tmp] "=&l" (tmp); [storage] "+Q"
(storage); [value] "Ir" (v). -/
def fetchOr (thumb : Bool) : Fn 32 8 (BitVec 8) (Integral.Ret 8) where
  block := {
    prog := [
      mode thumb 2,                           -- @mode %[tmp]
      .label 1,                               -- 1:
      ldrexb 0 3,                             -- ldrexb %[original], %[storage]
      orr 1 0 4,                              -- orr %[result], %[original], %[value]
      strexb 2 1 3,                           -- strexb %[tmp], %[result], %[storage]
      teqI 2 0,                               -- teq %[tmp], #0
      bne 1 1 false,                          -- bne 1b
      mode thumb 2]                           -- @mode %[tmp]
    opnds := [(0, .outEarly), (1, .outEarly), (2, .outEarly), (3, .input), (4, .input)]
    addr := [3]
    results := [0] }
  args a x := (x 4).setWidth 8 = a
  ret _ r := .val ((r 0).setWidth 8)

/-- `fetch_xor`, core_arch_ops_gcc_arm.hpp 551–575 (assembly block 556–572).  Operands, in this
order: [original] "=&r" (original); [result] "=&r" (result); [tmp] "=&l" (tmp); [storage] "+Q"
(storage); [value] "Ir" (v). -/
def fetchXor (thumb : Bool) : Fn 32 8 (BitVec 8) (Integral.Ret 8) where
  block := {
    prog := [
      mode thumb 2,                           -- @mode %[tmp]
      .label 1,                               -- 1:
      ldrexb 0 3,                             -- ldrexb %[original], %[storage]
      eor 1 0 4,                              -- eor %[result], %[original], %[value]
      strexb 2 1 3,                           -- strexb %[tmp], %[result], %[storage]
      teqI 2 0,                               -- teq %[tmp], #0
      bne 1 1 false,                          -- bne 1b
      mode thumb 2]                           -- @mode %[tmp]
    opnds := [(0, .outEarly), (1, .outEarly), (2, .outEarly), (3, .input), (4, .input)]
    addr := [3]
    results := [0] }
  args a x := (x 4).setWidth 8 = a
  ret _ r := .val ((r 0).setWidth 8)

/-- `fetch_negate`, extra_ops_gcc_arm.hpp 104–128 (assembly block 109–125).  Operands, in this
order: [original] "=&r" (original); [result] "=&r" (result); [tmp] "=&l" (tmp); [storage] "+Q"
(storage). -/
def fetchNegate (thumb : Bool) : Fn 32 8 (Unit) (Integral.Ret 8) where
  block := {
    prog := [
      mode thumb 2,                           -- @mode %[tmp]
      .label 1,                               -- 1:
      ldrexb 0 3,                             -- ldrexb %[original], %[storage]
      rsbI 1 0 0,                             -- rsb %[result], %[original], #0
      strexb 2 1 3,                           -- strexb %[tmp], %[result], %[storage]
      teqI 2 0,                               -- teq %[tmp], #0
      bne 1 1 false,                          -- bne 1b
      mode thumb 2]                           -- @mode %[tmp]
    opnds := [(0, .outEarly), (1, .outEarly), (2, .outEarly), (3, .input)]
    addr := [3]
    results := [0] }
  args _ _ := True
  ret _ r := .val ((r 0).setWidth 8)

/-- `negate`, extra_ops_gcc_arm.hpp 130–154 (assembly block 135–151).  Operands, in this order:
[original] "=&r" (original); [result] "=&r" (result); [tmp] "=&l" (tmp); [storage] "+Q" (storage).
-/
def negate (thumb : Bool) : Fn 32 8 (Unit) (Integral.Ret 8) where
  block := {
    prog := [
      mode thumb 2,                           -- @mode %[tmp]
      .label 1,                               -- 1:
      ldrexb 0 3,                             -- ldrexb %[original], %[storage]
      rsbI 1 0 0,                             -- rsb %[result], %[original], #0
      strexb 2 1 3,                           -- strexb %[tmp], %[result], %[storage]
      teqI 2 0,                               -- teq %[tmp], #0
      bne 1 1 false,                          -- bne 1b
      mode thumb 2]                           -- @mode %[tmp]
    opnds := [(0, .outEarly), (1, .outEarly), (2, .outEarly), (3, .input)]
    addr := [3]
    results := [1] }
  args _ _ := True
  ret _ r := .val ((r 1).setWidth 8)

/-- `add`, extra_ops_gcc_arm.hpp 156–180 (assembly block 161–177).  Operands, in this order:
[original] "=&r" (original); [result] "=&r" (result); [tmp] "=&l" (tmp); [storage] "+Q" (storage);
[value] "Ir" (v). -/
def add_ (thumb : Bool) : Fn 32 8 (BitVec 8) (Integral.Ret 8) where
  block := {
    prog := [
      mode thumb 2,                           -- @mode %[tmp]
      .label 1,                               -- 1:
      ldrexb 0 3,                             -- ldrexb %[original], %[storage]
      add 1 0 4,                              -- add %[result], %[original], %[value]
      strexb 2 1 3,                           -- strexb %[tmp], %[result], %[storage]
      teqI 2 0,                               -- teq %[tmp], #0
      bne 1 1 false,                          -- bne 1b
      mode thumb 2]                           -- @mode %[tmp]
    opnds := [(0, .outEarly), (1, .outEarly), (2, .outEarly), (3, .input), (4, .input)]
    addr := [3]
    results := [1] }
  args a x := (x 4).setWidth 8 = a
  ret _ r := .val ((r 1).setWidth 8)

/-- `sub`, extra_ops_gcc_arm.hpp 182–206 (assembly block 187–203).  Operands, in this order:
[original] "=&r" (original); [result] "=&r" (result); [tmp] "=&l" (tmp); [storage] "+Q" (storage);
[value] "Ir" (v). -/
def sub_ (thumb : Bool) : Fn 32 8 (BitVec 8) (Integral.Ret 8) where
  block := {
    prog := [
      mode thumb 2,                           -- @mode %[tmp]
      .label 1,                               -- 1:
      ldrexb 0 3,                             -- ldrexb %[original], %[storage]
      sub 1 0 4,                              -- sub %[result], %[original], %[value]
      strexb 2 1 3,                           -- strexb %[tmp], %[result], %[storage]
      teqI 2 0,                               -- teq %[tmp], #0
      bne 1 1 false,                          -- bne 1b
      mode thumb 2]                           -- @mode %[tmp]
    opnds := [(0, .outEarly), (1, .outEarly), (2, .outEarly), (3, .input), (4, .input)]
    addr := [3]
    results := [1] }
  args a x := (x 4).setWidth 8 = a
  ret _ r := .val ((r 1).setWidth 8)

/-- `bitwise_and`, extra_ops_gcc_arm.hpp 208–232 (assembly block 213–229).  Operands, in this order:
[original] "=&r" (original); [result] "=&r" (result); [tmp] "=&l" (tmp); [storage] "+Q" (storage);
[value] "Ir" (v). -/
def bitwiseAnd (thumb : Bool) : Fn 32 8 (BitVec 8) (Integral.Ret 8) where
  block := {
    prog := [
      mode thumb 2,                           -- @mode %[tmp]
      .label 1,                               -- 1:
      ldrexb 0 3,                             -- ldrexb %[original], %[storage]
      and 1 0 4,                              -- and %[result], %[original], %[value]
      strexb 2 1 3,                           -- strexb %[tmp], %[result], %[storage]
      teqI 2 0,                               -- teq %[tmp], #0
      bne 1 1 false,                          -- bne 1b
      mode thumb 2]                           -- @mode %[tmp]
    opnds := [(0, .outEarly), (1, .outEarly), (2, .outEarly), (3, .input), (4, .input)]
    addr := [3]
    results := [1] }
  args a x := (x 4).setWidth 8 = a
  ret _ r := .val ((r 1).setWidth 8)

/-- `bitwise_or`, extra_ops_gcc_arm.hpp 234–258 (assembly block 239–255).  Operands, in this order:
[original] "=&r" (original); [result] "=&r" (result); [tmp] "=&l" (tmp); [storage] "+Q" (storage);
[value] "Ir" (v). -/
def bitwiseOr (thumb : Bool) : Fn 32 8 (BitVec 8) (Integral.Ret 8) where
  block := {
    prog := [
      mode thumb 2,                           -- @mode %[tmp]
      .label 1,                               -- 1:
      ldrexb 0 3,                             -- ldrexb %[original], %[storage]
      orr 1 0 4,                              -- orr %[result], %[original], %[value]
      strexb 2 1 3,                           -- strexb %[tmp], %[result], %[storage]
      teqI 2 0,                               -- teq %[tmp], #0
      bne 1 1 false,                          -- bne 1b
      mode thumb 2]                           -- @mode %[tmp]
    opnds := [(0, .outEarly), (1, .outEarly), (2, .outEarly), (3, .input), (4, .input)]
    addr := [3]
    results := [1] }
  args a x := (x 4).setWidth 8 = a
  ret _ r := .val ((r 1).setWidth 8)

/-- `bitwise_xor`, extra_ops_gcc_arm.hpp 260–284 (assembly block 265–281).  Operands, in this order:
[original] "=&r" (original); [result] "=&r" (result); [tmp] "=&l" (tmp); [storage] "+Q" (storage);
[value] "Ir" (v). -/
def bitwiseXor (thumb : Bool) : Fn 32 8 (BitVec 8) (Integral.Ret 8) where
  block := {
    prog := [
      mode thumb 2,                           -- @mode %[tmp]
      .label 1,                               -- 1:
      ldrexb 0 3,                             -- ldrexb %[original], %[storage]
      eor 1 0 4,                              -- eor %[result], %[original], %[value]
      strexb 2 1 3,                           -- strexb %[tmp], %[result], %[storage]
      teqI 2 0,                               -- teq %[tmp], #0
      bne 1 1 false,                          -- bne 1b
      mode thumb 2]                           -- @mode %[tmp]
    opnds := [(0, .outEarly), (1, .outEarly), (2, .outEarly), (3, .input), (4, .input)]
    addr := [3]
    results := [1] }
  args a x := (x 4).setWidth 8 = a
  ret _ r := .val ((r 1).setWidth 8)

/-- `fetch_complement`, extra_ops_gcc_arm.hpp 286–310 (assembly block 291–307).  Operands, in this
order: [original] "=&r" (original); [result] "=&r" (result); [tmp] "=&l" (tmp); [storage] "+Q"
(storage). -/
def fetchComplement (thumb : Bool) : Fn 32 8 (Unit) (Integral.Ret 8) where
  block := {
    prog := [
      mode thumb 2,                           -- @mode %[tmp]
      .label 1,                               -- 1:
      ldrexb 0 3,                             -- ldrexb %[original], %[storage]
      mvn 1 0,                                -- mvn %[result], %[original]
      strexb 2 1 3,                           -- strexb %[tmp], %[result], %[storage]
      teqI 2 0,                               -- teq %[tmp], #0
      bne 1 1 false,                          -- bne 1b
      mode thumb 2]                           -- @mode %[tmp]
    opnds := [(0, .outEarly), (1, .outEarly), (2, .outEarly), (3, .input)]
    addr := [3]
    results := [0] }
  args _ _ := True
  ret _ r := .val ((r 0).setWidth 8)

/-- `bitwise_complement`, extra_ops_gcc_arm.hpp 312–336 (assembly block 317–333).  Operands, in this
order: [original] "=&r" (original); [result] "=&r" (result); [tmp] "=&l" (tmp); [storage] "+Q"
(storage). -/
def bitwiseComplement (thumb : Bool) : Fn 32 8 (Unit) (Integral.Ret 8) where
  block := {
    prog := [
      mode thumb 2,                           -- @mode %[tmp]
      .label 1,                               -- 1:
      ldrexb 0 3,                             -- ldrexb %[original], %[storage]
      mvn 1 0,                                -- mvn %[result], %[original]
      strexb 2 1 3,                           -- strexb %[tmp], %[result], %[storage]
      teqI 2 0,                               -- teq %[tmp], #0
      bne 1 1 false,                          -- bne 1b
      mode thumb 2]                           -- @mode %[tmp]
    opnds := [(0, .outEarly), (1, .outEarly), (2, .outEarly), (3, .input)]
    addr := [3]
    results := [1] }
  args _ _ := True
  ret _ r := .val ((r 1).setWidth 8)

end Arm1

namespace Arm2
open Arm

/-- `exchange`, core_arch_ops_gcc_arm.hpp 744–764 (assembly block 749–761).  Operands, in this
order: [tmp] "=&l" (tmp); [original] "=&r" (original); [storage] "+Q" (storage); [value] "r" (v). -/
def exchange (thumb : Bool) : Fn 32 16 (BitVec 16) (Integral.Ret 16) where
  block := {
    prog := [
      mode thumb 0,                           -- @mode %[tmp]
      .label 1,                               -- 1:
      ldrexh 1 2,                             -- ldrexh %[original], %[storage]
      strexh 0 3 2,                           -- strexh %[tmp], %[value], %[storage]
      teqI 0 0,                               -- teq %[tmp], #0
      bne 1 1 false,                          -- bne 1b
      mode thumb 0]                           -- @mode %[tmp]
    opnds := [(0, .outEarly), (1, .outEarly), (2, .input), (3, .input)]
    addr := [2]
    results := [1] }
  args a x := (x 3).setWidth 16 = a
  ret _ r := .val ((r 1).setWidth 16)

/-- `compare_exchange_weak`, core_arch_ops_gcc_arm.hpp 766–800 (assembly block 775–793).  Operands,
in this order: [original] "=&r" (original); [success] "+r" (success); [tmp] "=&l" (tmp); [storage]
"+Q" (storage); [expected] "Ir" (atomics::detail::zero_extend< extended_storage_type >(expected));
[desired] "r" (desired). -/
def compareExchangeWeak (thumb : Bool) : Fn 32 16 (BitVec 16 × BitVec 16) (Integral.Ret 16) where
  block := {
    prog := [
      mode thumb 2,                           -- @mode %[tmp]
      ldrexh 0 3,                             -- ldrexh %[original], %[storage]
      cmp 0 4,                                -- cmp %[original], %[expected]
      nop,                                    -- itt eq
      strexheq 1 5 3,                         -- strexheq %[success], %[desired], %[storage]
      eoreqI 1 1 1,                           -- eoreq %[success], %[success], #1
      mode thumb 2]                           -- @mode %[tmp]
    opnds := (if thumb then [(2, .outEarly)] else []) ++
      [(0, .outEarly), (1, .inout), (3, .input), (4, .input), (5, .input)]
    addr := [3]
    results := [0, 1] }
  args a x := x 1 = 0 ∧ x 4 = a.1.setWidth 32 ∧ (x 5).setWidth 16 = a.2
  ret _ r := bool8 (r 1) (.cas · ((r 0).setWidth 16))

/-- `compare_exchange_strong`, core_arch_ops_gcc_arm.hpp 802–839 (assembly block 811–832). 
Operands, in this order: [original] "=&r" (original); [success] "+r" (success); [tmp] "=&l" (tmp);
[storage] "+Q" (storage); [expected] "Ir" (atomics::detail::zero_extend< extended_storage_type
>(expected)); [desired] "r" (desired). -/
def compareExchangeStrong (thumb : Bool) : Fn 32 16 (BitVec 16 × BitVec 16) (Integral.Ret 16) where
  block := {
    prog := [
      mode thumb 2,                           -- @mode %[tmp]
      .label 1,                               -- 1:
      ldrexh 0 3,                             -- ldrexh %[original], %[storage]
      cmp 0 4,                                -- cmp %[original], %[expected]
      bne 8 2 true,                           -- bne 2f
      strexh 1 5 3,                           -- strexh %[success], %[desired], %[storage]
      eorsI 1 1 1,                            -- eors %[success], %[success], #1
      beq 1 1 false,                          -- beq 1b
      .label 2,                               -- 2:
      mode thumb 2]                           -- @mode %[tmp]
    opnds := (if thumb then [(2, .outEarly)] else []) ++
      [(0, .outEarly), (1, .inout), (3, .input), (4, .input), (5, .input)]
    addr := [3]
    results := [0, 1] }
  args a x := x 1 = 0 ∧ x 4 = a.1.setWidth 32 ∧ (x 5).setWidth 16 = a.2
  ret _ r := bool8 (r 1) (.cas · ((r 0).setWidth 16))

/-- `fetch_add`, core_arch_ops_gcc_arm.hpp 841–865 (assembly block 846–862).  Operands, in this
order: [original] "=&r" (original); [result] "=&r" (result); [tmp] "=&l" (tmp); [storage] "+Q"
(storage); [value] "Ir" (v). -/
def fetchAdd (thumb : Bool) : Fn 32 16 (BitVec 16) (Integral.Ret 16) where
  block := {
    prog := [
      mode thumb 2,                           -- @mode %[tmp]
      .label 1,                               -- 1:
      ldrexh 0 3,                             -- ldrexh %[original], %[storage]
      add 1 0 4,                              -- add %[result], %[original], %[value]
      strexh 2 1 3,                           -- strexh %[tmp], %[result], %[storage]
      teqI 2 0,                               -- teq %[tmp], #0
      bne 1 1 false,                          -- bne 1b
      mode thumb 2]                           -- @mode %[tmp]
    opnds := [(0, .outEarly), (1, .outEarly), (2, .outEarly), (3, .input), (4, .input)]
    addr := [3]
    results := [0] }
  args a x := (x 4).setWidth 16 = a
  ret _ r := .val ((r 0).setWidth 16)

/-- `fetch_sub`, core_arch_ops_gcc_arm.hpp 867–891 (assembly block 872–888).  Operands, in this
order: [original] "=&r" (original); [result] "=&r" (result); [tmp] "=&l" (tmp); [storage] "+Q"
(storage); [value] "Ir" (v). -/
def fetchSub (thumb : Bool) : Fn 32 16 (BitVec 16) (Integral.Ret 16) where
  block := {
    prog := [
      mode thumb 2,                           -- @mode %[tmp]
      .label 1,                               -- 1:
      ldrexh 0 3,                             -- ldrexh %[original], %[storage]
      sub 1 0 4,                              -- sub %[result], %[original], %[value]
      strexh 2 1 3,                           -- strexh %[tmp], %[result], %[storage]
      teqI 2 0,                               -- teq %[tmp], #0
      bne 1 1 false,                          -- bne 1b
      mode thumb 2]                           -- @mode %[tmp]
    opnds := [(0, .outEarly), (1, .outEarly), (2, .outEarly), (3, .input), (4, .input)]
    addr := [3]
    results := [0] }
  args a x := (x 4).setWidth 16 = a
  ret _ r := .val ((r 0).setWidth 16)

/-- `fetch_and`, core_arch_ops_gcc_arm.hpp 893–917 (assembly block 898–914).  Operands, in this
order: [original] "=&r" (original); [result] "=&r" (result); [tmp] "=&l" (tmp); [storage] "+Q"
(storage); [value] "Ir" (v). -/
def fetchAnd (thumb : Bool) : Fn 32 16 (BitVec 16) (Integral.Ret 16) where
  block := {
    prog := [
      mode thumb 2,                           -- @mode %[tmp]
      .label 1,                               -- 1:
      ldrexh 0 3,                             -- ldrexh %[original], %[storage]
      and 1 0 4,                              -- and %[result], %[original], %[value]
      strexh 2 1 3,                           -- strexh %[tmp], %[result], %[storage]
      teqI 2 0,                               -- teq %[tmp], #0
      bne 1 1 false,                          -- bne 1b
      mode thumb 2]                           -- @mode %[tmp]
    opnds := [(0, .outEarly), (1, .outEarly), (2, .outEarly), (3, .input), (4, .input)]
    addr := [3]
    results := [0] }
  args a x := (x 4).setWidth 16 = a
  ret _ r := .val ((r 0).setWidth 16)

/-- `fetch_or`, core_arch_ops_gcc_arm.hpp 919–943 (assembly block 924–940).  Operands, in this
order: [original] "=&r" (original); [result] "=&r" (result); [tmp] "=&l" (tmp); [storage] "+Q"
(storage); [value] "Ir" (v). -/
def fetchOr (thumb : Bool) : Fn 32 16 (BitVec 16) (Integral.Ret 16) where
  block := {
    prog := [
      mode thumb 2,                           -- @mode %[tmp]
      .label 1,                               -- 1:
      ldrexh 0 3,                             -- ldrexh %[original], %[storage]
      orr 1 0 4,                              -- orr %[result], %[original], %[value]
      strexh 2 1 3,                           -- strexh %[tmp], %[result], %[storage]
      teqI 2 0,                               -- teq %[tmp], #0
      bne 1 1 false,                          -- bne 1b
      mode thumb 2]                           -- @mode %[tmp]
    opnds := [(0, .outEarly), (1, .outEarly), (2, .outEarly), (3, .input), (4, .input)]
    addr := [3]
    results := [0] }
  args a x := (x 4).setWidth 16 = a
  ret _ r := .val ((r 0).setWidth 16)

/-- `fetch_xor`, core_arch_ops_gcc_arm.hpp 945–969 (assembly block 950–966).  Operands, in this
order: [original] "=&r" (original); [result] "=&r" (result); [tmp] "=&l" (tmp); [storage] "+Q"
(storage); [value] "Ir" (v). -/
def fetchXor (thumb : Bool) : Fn 32 16 (BitVec 16) (Integral.Ret 16) where
  block := {
    prog := [
      mode thumb 2,                           -- @mode %[tmp]
      .label 1,                               -- 1:
      ldrexh 0 3,                             -- ldrexh %[original], %[storage]
      eor 1 0 4,                              -- eor %[result], %[original], %[value]
      strexh 2 1 3,                           -- strexh %[tmp], %[result], %[storage]
      teqI 2 0,                               -- teq %[tmp], #0
      bne 1 1 false,                          -- bne 1b
      mode thumb 2]                           -- @mode %[tmp]
    opnds := [(0, .outEarly), (1, .outEarly), (2, .outEarly), (3, .input), (4, .input)]
    addr := [3]
    results := [0] }
  args a x := (x 4).setWidth 16 = a
  ret _ r := .val ((r 0).setWidth 16)

/-- `fetch_negate`, extra_ops_gcc_arm.hpp 357–381 (assembly block 362–378).  Operands, in this
order: [original] "=&r" (original); [result] "=&r" (result); [tmp] "=&l" (tmp); [storage] "+Q"
(storage). -/
def fetchNegate (thumb : Bool) : Fn 32 16 (Unit) (Integral.Ret 16) where
  block := {
    prog := [
      mode thumb 2,                           -- @mode %[tmp]
      .label 1,                               -- 1:
      ldrexh 0 3,                             -- ldrexh %[original], %[storage]
      rsbI 1 0 0,                             -- rsb %[result], %[original], #0
      strexh 2 1 3,                           -- strexh %[tmp], %[result], %[storage]
      teqI 2 0,                               -- teq %[tmp], #0
      bne 1 1 false,                          -- bne 1b
      mode thumb 2]                           -- @mode %[tmp]
    opnds := [(0, .outEarly), (1, .outEarly), (2, .outEarly), (3, .input)]
    addr := [3]
    results := [0] }
  args _ _ := True
  ret _ r := .val ((r 0).setWidth 16)

/-- `negate`, extra_ops_gcc_arm.hpp 383–407 (assembly block 388–404).  Operands, in this order:
[original] "=&r" (original); [result] "=&r" (result); [tmp] "=&l" (tmp); [storage] "+Q" (storage).
-/
def negate (thumb : Bool) : Fn 32 16 (Unit) (Integral.Ret 16) where
  block := {
    prog := [
      mode thumb 2,                           -- @mode %[tmp]
      .label 1,                               -- 1:
      ldrexh 0 3,                             -- ldrexh %[original], %[storage]
      rsbI 1 0 0,                             -- rsb %[result], %[original], #0
      strexh 2 1 3,                           -- strexh %[tmp], %[result], %[storage]
      teqI 2 0,                               -- teq %[tmp], #0
      bne 1 1 false,                          -- bne 1b
      mode thumb 2]                           -- @mode %[tmp]
    opnds := [(0, .outEarly), (1, .outEarly), (2, .outEarly), (3, .input)]
    addr := [3]
    results := [1] }
  args _ _ := True
  ret _ r := .val ((r 1).setWidth 16)

/-- `add`, extra_ops_gcc_arm.hpp 409–433 (assembly block 414–430).  Operands, in this order:
[original] "=&r" (original); [result] "=&r" (result); [tmp] "=&l" (tmp); [storage] "+Q" (storage);
[value] "Ir" (v). -/
def add_ (thumb : Bool) : Fn 32 16 (BitVec 16) (Integral.Ret 16) where
  block := {
    prog := [
      mode thumb 2,                           -- @mode %[tmp]
      .label 1,                               -- 1:
      ldrexh 0 3,                             -- ldrexh %[original], %[storage]
      add 1 0 4,                              -- add %[result], %[original], %[value]
      strexh 2 1 3,                           -- strexh %[tmp], %[result], %[storage]
      teqI 2 0,                               -- teq %[tmp], #0
      bne 1 1 false,                          -- bne 1b
      mode thumb 2]                           -- @mode %[tmp]
    opnds := [(0, .outEarly), (1, .outEarly), (2, .outEarly), (3, .input), (4, .input)]
    addr := [3]
    results := [1] }
  args a x := (x 4).setWidth 16 = a
  ret _ r := .val ((r 1).setWidth 16)

/-- `sub`, extra_ops_gcc_arm.hpp 435–459 (assembly block 440–456).  Operands, in this order:
[original] "=&r" (original); [result] "=&r" (result); [tmp] "=&l" (tmp); [storage] "+Q" (storage);
[value] "Ir" (v). -/
def sub_ (thumb : Bool) : Fn 32 16 (BitVec 16) (Integral.Ret 16) where
  block := {
    prog := [
      mode thumb 2,                           -- @mode %[tmp]
      .label 1,                               -- 1:
      ldrexh 0 3,                             -- ldrexh %[original], %[storage]
      sub 1 0 4,                              -- sub %[result], %[original], %[value]
      strexh 2 1 3,                           -- strexh %[tmp], %[result], %[storage]
      teqI 2 0,                               -- teq %[tmp], #0
      bne 1 1 false,                          -- bne 1b
      mode thumb 2]                           -- @mode %[tmp]
    opnds := [(0, .outEarly), (1, .outEarly), (2, .outEarly), (3, .input), (4, .input)]
    addr := [3]
    results := [1] }
  args a x := (x 4).setWidth 16 = a
  ret _ r := .val ((r 1).setWidth 16)

/-- `bitwise_and`, extra_ops_gcc_arm.hpp 461–485 (assembly block 466–482).  Operands, in this order:
[original] "=&r" (original); [result] "=&r" (result); [tmp] "=&l" (tmp); [storage] "+Q" (storage);
[value] "Ir" (v). -/
def bitwiseAnd (thumb : Bool) : Fn 32 16 (BitVec 16) (Integral.Ret 16) where
  block := {
    prog := [
      mode thumb 2,                           -- @mode %[tmp]
      .label 1,                               -- 1:
      ldrexh 0 3,                             -- ldrexh %[original], %[storage]
      and 1 0 4,                              -- and %[result], %[original], %[value]
      strexh 2 1 3,                           -- strexh %[tmp], %[result], %[storage]
      teqI 2 0,                               -- teq %[tmp], #0
      bne 1 1 false,                          -- bne 1b
      mode thumb 2]                           -- @mode %[tmp]
    opnds := [(0, .outEarly), (1, .outEarly), (2, .outEarly), (3, .input), (4, .input)]
    addr := [3]
    results := [1] }
  args a x := (x 4).setWidth 16 = a
  ret _ r := .val ((r 1).setWidth 16)

/-- `bitwise_or`, extra_ops_gcc_arm.hpp 487–511 (assembly block 492–508).  Operands, in this order:
[original] "=&r" (original); [result] "=&r" (result); [tmp] "=&l" (tmp); [storage] "+Q" (storage);
[value] "Ir" (v). -/
def bitwiseOr (thumb : Bool) : Fn 32 16 (BitVec 16) (Integral.Ret 16) where
  block := {
    prog := [
      mode thumb 2,                           -- @mode %[tmp]
      .label 1,                               -- 1:
      ldrexh 0 3,                             -- ldrexh %[original], %[storage]
      orr 1 0 4,                              -- orr %[result], %[original], %[value]
      strexh 2 1 3,                           -- strexh %[tmp], %[result], %[storage]
      teqI 2 0,                               -- teq %[tmp], #0
      bne 1 1 false,                          -- bne 1b
      mode thumb 2]                           -- @mode %[tmp]
    opnds := [(0, .outEarly), (1, .outEarly), (2, .outEarly), (3, .input), (4, .input)]
    addr := [3]
    results := [1] }
  args a x := (x 4).setWidth 16 = a
  ret _ r := .val ((r 1).setWidth 16)

/-- `bitwise_xor`, extra_ops_gcc_arm.hpp 513–537 (assembly block 518–534).  Operands, in this order:
[original] "=&r" (original); [result] "=&r" (result); [tmp] "=&l" (tmp); [storage] "+Q" (storage);
[value] "Ir" (v). -/
def bitwiseXor (thumb : Bool) : Fn 32 16 (BitVec 16) (Integral.Ret 16) where
  block := {
    prog := [
      mode thumb 2,                           -- @mode %[tmp]
      .label 1,                               -- 1:
      ldrexh 0 3,                             -- ldrexh %[original], %[storage]
      eor 1 0 4,                              -- eor %[result], %[original], %[value]
      strexh 2 1 3,                           -- strexh %[tmp], %[result], %[storage]
      teqI 2 0,                               -- teq %[tmp], #0
      bne 1 1 false,                          -- bne 1b
      mode thumb 2]                           -- @mode %[tmp]
    opnds := [(0, .outEarly), (1, .outEarly), (2, .outEarly), (3, .input), (4, .input)]
    addr := [3]
    results := [1] }
  args a x := (x 4).setWidth 16 = a
  ret _ r := .val ((r 1).setWidth 16)

/-- `fetch_complement`, extra_ops_gcc_arm.hpp 539–563 (assembly block 544–560).  Operands, in this
order: [original] "=&r" (original); [result] "=&r" (result); [tmp] "=&l" (tmp); [storage] "+Q"
(storage). -/
def fetchComplement (thumb : Bool) : Fn 32 16 (Unit) (Integral.Ret 16) where
  block := {
    prog := [
      mode thumb 2,                           -- @mode %[tmp]
      .label 1,                               -- 1:
      ldrexh 0 3,                             -- ldrexh %[original], %[storage]
      mvn 1 0,                                -- mvn %[result], %[original]
      strexh 2 1 3,                           -- strexh %[tmp], %[result], %[storage]
      teqI 2 0,                               -- teq %[tmp], #0
      bne 1 1 false,                          -- bne 1b
      mode thumb 2]                           -- @mode %[tmp]
    opnds := [(0, .outEarly), (1, .outEarly), (2, .outEarly), (3, .input)]
    addr := [3]
    results := [0] }
  args _ _ := True
  ret _ r := .val ((r 0).setWidth 16)

/-- `bitwise_complement`, extra_ops_gcc_arm.hpp 565–589 (assembly block 570–586).  Operands, in this
order: [original] "=&r" (original); [result] "=&r" (result); [tmp] "=&l" (tmp); [storage] "+Q"
(storage). -/
def bitwiseComplement (thumb : Bool) : Fn 32 16 (Unit) (Integral.Ret 16) where
  block := {
    prog := [
      mode thumb 2,                           -- @mode %[tmp]
      .label 1,                               -- 1:
      ldrexh 0 3,                             -- ldrexh %[original], %[storage]
      mvn 1 0,                                -- mvn %[result], %[original]
      strexh 2 1 3,                           -- strexh %[tmp], %[result], %[storage]
      teqI 2 0,                               -- teq %[tmp], #0
      bne 1 1 false,                          -- bne 1b
      mode thumb 2]                           -- @mode %[tmp]
    opnds := [(0, .outEarly), (1, .outEarly), (2, .outEarly), (3, .input)]
    addr := [3]
    results := [1] }
  args _ _ := True
  ret _ r := .val ((r 1).setWidth 16)

end Arm2

namespace Arm4
open Arm

/-- `exchange`, core_arch_ops_gcc_arm.hpp 84–104 (assembly block 89–101).  Operands, in this order:
[tmp] "=&l" (tmp); [original] "=&r" (original); [storage] "+Q" (storage); [value] "r" (v). -/
def exchange (thumb : Bool) : Fn 32 32 (BitVec 32) (Integral.Ret 32) where
  block := {
    prog := [
      mode thumb 0,                           -- @mode %[tmp]
      .label 1,                               -- 1:
      ldrex 1 2,                              -- ldrex %[original], %[storage]
      strex 0 3 2,                            -- strex %[tmp], %[value], %[storage]
      teqI 0 0,                               -- teq %[tmp], #0
      bne 1 1 false,                          -- bne 1b
      mode thumb 0]                           -- @mode %[tmp]
    opnds := [(0, .outEarly), (1, .outEarly), (2, .input), (3, .input)]
    addr := [2]
    results := [1] }
  args a x := x 3 = a
  ret _ r := .val (r 1)

/-- `compare_exchange_weak`, core_arch_ops_gcc_arm.hpp 106–140 (assembly block 115–133).  Operands,
in this order: [original] "=&r" (original); [success] "+r" (success); [tmp] "=&l" (tmp); [storage]
"+Q" (storage); [expected] "Ir" (expected); [desired] "r" (desired). -/
def compareExchangeWeak (thumb : Bool) : Fn 32 32 (BitVec 32 × BitVec 32) (Integral.Ret 32) where
  block := {
    prog := [
      mode thumb 2,                           -- @mode %[tmp]
      ldrex 0 3,                              -- ldrex %[original], %[storage]
      cmp 0 4,                                -- cmp %[original], %[expected]
      nop,                                    -- itt eq
      strexeq 1 5 3,                          -- strexeq %[success], %[desired], %[storage]
      eoreqI 1 1 1,                           -- eoreq %[success], %[success], #1
      mode thumb 2]                           -- @mode %[tmp]
    opnds := (if thumb then [(2, .outEarly)] else []) ++
      [(0, .outEarly), (1, .inout), (3, .input), (4, .input), (5, .input)]
    addr := [3]
    results := [0, 1] }
  args a x := x 1 = 0 ∧ x 4 = a.1 ∧ x 5 = a.2
  ret _ r := bool8 (r 1) (.cas · (r 0))

/-- `compare_exchange_strong`, core_arch_ops_gcc_arm.hpp 142–179 (assembly block 151–172). 
Operands, in this order: [original] "=&r" (original); [success] "+r" (success); [tmp] "=&l" (tmp);
[storage] "+Q" (storage); [expected] "Ir" (expected); [desired] "r" (desired). -/
def compareExchangeStrong (thumb : Bool) : Fn 32 32 (BitVec 32 × BitVec 32) (Integral.Ret 32) where
  block := {
    prog := [
      mode thumb 2,                           -- @mode %[tmp]
      .label 1,                               -- 1:
      ldrex 0 3,                              -- ldrex %[original], %[storage]
      cmp 0 4,                                -- cmp %[original], %[expected]
      bne 8 2 true,                           -- bne 2f
      strex 1 5 3,                            -- strex %[success], %[desired], %[storage]
      eorsI 1 1 1,                            -- eors %[success], %[success], #1
      beq 1 1 false,                          -- beq 1b
      .label 2,                               -- 2:
      mode thumb 2]                           -- @mode %[tmp]
    opnds := (if thumb then [(2, .outEarly)] else []) ++
      [(0, .outEarly), (1, .inout), (3, .input), (4, .input), (5, .input)]
    addr := [3]
    results := [0, 1] }
  args a x := x 1 = 0 ∧ x 4 = a.1 ∧ x 5 = a.2
  ret _ r := bool8 (r 1) (.cas · (r 0))

/-- `fetch_add`, core_arch_ops_gcc_arm.hpp 181–205 (assembly block 186–202).  Operands, in this
order: [original] "=&r" (original); [result] "=&r" (result); [tmp] "=&l" (tmp); [storage] "+Q"
(storage); [value] "Ir" (v). -/
def fetchAdd (thumb : Bool) : Fn 32 32 (BitVec 32) (Integral.Ret 32) where
  block := {
    prog := [
      mode thumb 2,                           -- @mode %[tmp]
      .label 1,                               -- 1:
      ldrex 0 3,                              -- ldrex %[original], %[storage]
      add 1 0 4,                              -- add %[result], %[original], %[value]
      strex 2 1 3,                            -- strex %[tmp], %[result], %[storage]
      teqI 2 0,                               -- teq %[tmp], #0
      bne 1 1 false,                          -- bne 1b
      mode thumb 2]                           -- @mode %[tmp]
    opnds := [(0, .outEarly), (1, .outEarly), (2, .outEarly), (3, .input), (4, .input)]
    addr := [3]
    results := [0] }
  args a x := x 4 = a
  ret _ r := .val (r 0)

/-- `fetch_sub`, core_arch_ops_gcc_arm.hpp 207–231 (assembly block 212–228).  Operands, in this
order: [original] "=&r" (original); [result] "=&r" (result); [tmp] "=&l" (tmp); [storage] "+Q"
(storage); [value] "Ir" (v). -/
def fetchSub (thumb : Bool) : Fn 32 32 (BitVec 32) (Integral.Ret 32) where
  block := {
    prog := [
      mode thumb 2,                           -- @mode %[tmp]
      .label 1,                               -- 1:
      ldrex 0 3,                              -- ldrex %[original], %[storage]
      sub 1 0 4,                              -- sub %[result], %[original], %[value]
      strex 2 1 3,                            -- strex %[tmp], %[result], %[storage]
      teqI 2 0,                               -- teq %[tmp], #0
      bne 1 1 false,                          -- bne 1b
      mode thumb 2]                           -- @mode %[tmp]
    opnds := [(0, .outEarly), (1, .outEarly), (2, .outEarly), (3, .input), (4, .input)]
    addr := [3]
    results := [0] }
  args a x := x 4 = a
  ret _ r := .val (r 0)

/-- `fetch_and`, core_arch_ops_gcc_arm.hpp 233–257 (assembly block 238–254).  Operands, in this
order: [original] "=&r" (original); [result] "=&r" (result); [tmp] "=&l" (tmp); [storage] "+Q"
(storage); [value] "Ir" (v). -/
def fetchAnd (thumb : Bool) : Fn 32 32 (BitVec 32) (Integral.Ret 32) where
  block := {
    prog := [
      mode thumb 2,                           -- @mode %[tmp]
      .label 1,                               -- 1:
      ldrex 0 3,                              -- ldrex %[original], %[storage]
      and 1 0 4,                              -- and %[result], %[original], %[value]
      strex 2 1 3,                            -- strex %[tmp], %[result], %[storage]
      teqI 2 0,                               -- teq %[tmp], #0
      bne 1 1 false,                          -- bne 1b
      mode thumb 2]                           -- @mode %[tmp]
    opnds := [(0, .outEarly), (1, .outEarly), (2, .outEarly), (3, .input), (4, .input)]
    addr := [3]
    results := [0] }
  args a x := x 4 = a
  ret _ r := .val (r 0)

/-- `fetch_or`, core_arch_ops_gcc_arm.hpp 259–283 (assembly block 264–280).  Operands, in this
order: [original] "=&r" (original); [result] "=&r" (result); [tmp] "=&l" (tmp); [storage] "+Q"
(storage); [value] "Ir" (v). -/
def fetchOr (thumb : Bool) : Fn 32 32 (BitVec 32) (Integral.Ret 32) where
  block := {
    prog := [
      mode thumb 2,                           -- @mode %[tmp]
      .label 1,                               -- 1:
      ldrex 0 3,                              -- ldrex %[original], %[storage]
      orr 1 0 4,                              -- orr %[result], %[original], %[value]
      strex 2 1 3,                            -- strex %[tmp], %[result], %[storage]
      teqI 2 0,                               -- teq %[tmp], #0
      bne 1 1 false,                          -- bne 1b
      mode thumb 2]                           -- @mode %[tmp]
    opnds := [(0, .outEarly), (1, .outEarly), (2, .outEarly), (3, .input), (4, .input)]
    addr := [3]
    results := [0] }
  args a x := x 4 = a
  ret _ r := .val (r 0)

/-- `fetch_xor`, core_arch_ops_gcc_arm.hpp 285–309 (assembly block 290–306).  Operands, in this
order: [original] "=&r" (original); [result] "=&r" (result); [tmp] "=&l" (tmp); [storage] "+Q"
(storage); [value] "Ir" (v). -/
def fetchXor (thumb : Bool) : Fn 32 32 (BitVec 32) (Integral.Ret 32) where
  block := {
    prog := [
      mode thumb 2,                           -- @mode %[tmp]
      .label 1,                               -- 1:
      ldrex 0 3,                              -- ldrex %[original], %[storage]
      eor 1 0 4,                              -- eor %[result], %[original], %[value]
      strex 2 1 3,                            -- strex %[tmp], %[result], %[storage]
      teqI 2 0,                               -- teq %[tmp], #0
      bne 1 1 false,                          -- bne 1b
      mode thumb 2]                           -- @mode %[tmp]
    opnds := [(0, .outEarly), (1, .outEarly), (2, .outEarly), (3, .input), (4, .input)]
    addr := [3]
    results := [0] }
  args a x := x 4 = a
  ret _ r := .val (r 0)

/-- `fetch_negate`, extra_ops_gcc_arm.hpp 607–631 (assembly block 612–628).  Operands, in this
order: [original] "=&r" (original); [result] "=&r" (result); [tmp] "=&l" (tmp); [storage] "+Q"
(storage). -/
def fetchNegate (thumb : Bool) : Fn 32 32 (Unit) (Integral.Ret 32) where
  block := {
    prog := [
      mode thumb 2,                           -- @mode %[tmp]
      .label 1,                               -- 1:
      ldrex 0 3,                              -- ldrex %[original], %[storage]
      rsbI 1 0 0,                             -- rsb %[result], %[original], #0
      strex 2 1 3,                            -- strex %[tmp], %[result], %[storage]
      teqI 2 0,                               -- teq %[tmp], #0
      bne 1 1 false,                          -- bne 1b
      mode thumb 2]                           -- @mode %[tmp]
    opnds := [(0, .outEarly), (1, .outEarly), (2, .outEarly), (3, .input)]
    addr := [3]
    results := [0] }
  args _ _ := True
  ret _ r := .val (r 0)

/-- `negate`, extra_ops_gcc_arm.hpp 633–657 (assembly block 638–654).  Operands, in this order:
[original] "=&r" (original); [result] "=&r" (result); [tmp] "=&l" (tmp); [storage] "+Q" (storage).
-/
def negate (thumb : Bool) : Fn 32 32 (Unit) (Integral.Ret 32) where
  block := {
    prog := [
      mode thumb 2,                           -- @mode %[tmp]
      .label 1,                               -- 1:
      ldrex 0 3,                              -- ldrex %[original], %[storage]
      rsbI 1 0 0,                             -- rsb %[result], %[original], #0
      strex 2 1 3,                            -- strex %[tmp], %[result], %[storage]
      teqI 2 0,                               -- teq %[tmp], #0
      bne 1 1 false,                          -- bne 1b
      mode thumb 2]                           -- @mode %[tmp]
    opnds := [(0, .outEarly), (1, .outEarly), (2, .outEarly), (3, .input)]
    addr := [3]
    results := [1] }
  args _ _ := True
  ret _ r := .val (r 1)

/-- `add`, extra_ops_gcc_arm.hpp 659–683 (assembly block 664–680).  Operands, in this order:
[original] "=&r" (original); [result] "=&r" (result); [tmp] "=&l" (tmp); [storage] "+Q" (storage);
[value] "Ir" (v). -/
def add_ (thumb : Bool) : Fn 32 32 (BitVec 32) (Integral.Ret 32) where
  block := {
    prog := [
      mode thumb 2,                           -- @mode %[tmp]
      .label 1,                               -- 1:
      ldrex 0 3,                              -- ldrex %[original], %[storage]
      add 1 0 4,                              -- add %[result], %[original], %[value]
      strex 2 1 3,                            -- strex %[tmp], %[result], %[storage]
      teqI 2 0,                               -- teq %[tmp], #0
      bne 1 1 false,                          -- bne 1b
      mode thumb 2]                           -- @mode %[tmp]
    opnds := [(0, .outEarly), (1, .outEarly), (2, .outEarly), (3, .input), (4, .input)]
    addr := [3]
    results := [1] }
  args a x := x 4 = a
  ret _ r := .val (r 1)

/-- `sub`, extra_ops_gcc_arm.hpp 685–709 (assembly block 690–706).  Operands, in this order:
[original] "=&r" (original); [result] "=&r" (result); [tmp] "=&l" (tmp); [storage] "+Q" (storage);
[value] "Ir" (v). -/
def sub_ (thumb : Bool) : Fn 32 32 (BitVec 32) (Integral.Ret 32) where
  block := {
    prog := [
      mode thumb 2,                           -- @mode %[tmp]
      .label 1,                               -- 1:
      ldrex 0 3,                              -- ldrex %[original], %[storage]
      sub 1 0 4,                              -- sub %[result], %[original], %[value]
      strex 2 1 3,                            -- strex %[tmp], %[result], %[storage]
      teqI 2 0,                               -- teq %[tmp], #0
      bne 1 1 false,                          -- bne 1b
      mode thumb 2]                           -- @mode %[tmp]
    opnds := [(0, .outEarly), (1, .outEarly), (2, .outEarly), (3, .input), (4, .input)]
    addr := [3]
    results := [1] }
  args a x := x 4 = a
  ret _ r := .val (r 1)

/-- `bitwise_and`, extra_ops_gcc_arm.hpp 711–735 (assembly block 716–732).  Operands, in this order:
[original] "=&r" (original); [result] "=&r" (result); [tmp] "=&l" (tmp); [storage] "+Q" (storage);
[value] "Ir" (v). -/
def bitwiseAnd (thumb : Bool) : Fn 32 32 (BitVec 32) (Integral.Ret 32) where
  block := {
    prog := [
      mode thumb 2,                           -- @mode %[tmp]
      .label 1,                               -- 1:
      ldrex 0 3,                              -- ldrex %[original], %[storage]
      and 1 0 4,                              -- and %[result], %[original], %[value]
      strex 2 1 3,                            -- strex %[tmp], %[result], %[storage]
      teqI 2 0,                               -- teq %[tmp], #0
      bne 1 1 false,                          -- bne 1b
      mode thumb 2]                           -- @mode %[tmp]
    opnds := [(0, .outEarly), (1, .outEarly), (2, .outEarly), (3, .input), (4, .input)]
    addr := [3]
    results := [1] }
  args a x := x 4 = a
  ret _ r := .val (r 1)

/-- `bitwise_or`, extra_ops_gcc_arm.hpp 737–761 (assembly block 742–758).  Operands, in this order:
[original] "=&r" (original); [result] "=&r" (result); [tmp] "=&l" (tmp); [storage] "+Q" (storage);
[value] "Ir" (v). -/
def bitwiseOr (thumb : Bool) : Fn 32 32 (BitVec 32) (Integral.Ret 32) where
  block := {
    prog := [
      mode thumb 2,                           -- @mode %[tmp]
      .label 1,                               -- 1:
      ldrex 0 3,                              -- ldrex %[original], %[storage]
      orr 1 0 4,                              -- orr %[result], %[original], %[value]
      strex 2 1 3,                            -- strex %[tmp], %[result], %[storage]
      teqI 2 0,                               -- teq %[tmp], #0
      bne 1 1 false,                          -- bne 1b
      mode thumb 2]                           -- @mode %[tmp]
    opnds := [(0, .outEarly), (1, .outEarly), (2, .outEarly), (3, .input), (4, .input)]
    addr := [3]
    results := [1] }
  args a x := x 4 = a
  ret _ r := .val (r 1)

/-- `bitwise_xor`, extra_ops_gcc_arm.hpp 763–787 (assembly block 768–784).  Operands, in this order:
[original] "=&r" (original); [result] "=&r" (result); [tmp] "=&l" (tmp); [storage] "+Q" (storage);
[value] "Ir" (v). -/
def bitwiseXor (thumb : Bool) : Fn 32 32 (BitVec 32) (Integral.Ret 32) where
  block := {
    prog := [
      mode thumb 2,                           -- @mode %[tmp]
      .label 1,                               -- 1:
      ldrex 0 3,                              -- ldrex %[original], %[storage]
      eor 1 0 4,                              -- eor %[result], %[original], %[value]
      strex 2 1 3,                            -- strex %[tmp], %[result], %[storage]
      teqI 2 0,                               -- teq %[tmp], #0
      bne 1 1 false,                          -- bne 1b
      mode thumb 2]                           -- @mode %[tmp]
    opnds := [(0, .outEarly), (1, .outEarly), (2, .outEarly), (3, .input), (4, .input)]
    addr := [3]
    results := [1] }
  args a x := x 4 = a
  ret _ r := .val (r 1)

/-- `fetch_complement`, extra_ops_gcc_arm.hpp 789–813 (assembly block 794–810).  Operands, in this
order: [original] "=&r" (original); [result] "=&r" (result); [tmp] "=&l" (tmp); [storage] "+Q"
(storage). -/
def fetchComplement (thumb : Bool) : Fn 32 32 (Unit) (Integral.Ret 32) where
  block := {
    prog := [
      mode thumb 2,                           -- @mode %[tmp]
      .label 1,                               -- 1:
      ldrex 0 3,                              -- ldrex %[original], %[storage]
      mvn 1 0,                                -- mvn %[result], %[original]
      strex 2 1 3,                            -- strex %[tmp], %[result], %[storage]
      teqI 2 0,                               -- teq %[tmp], #0
      bne 1 1 false,                          -- bne 1b
      mode thumb 2]                           -- @mode %[tmp]
    opnds := [(0, .outEarly), (1, .outEarly), (2, .outEarly), (3, .input)]
    addr := [3]
    results := [0] }
  args _ _ := True
  ret _ r := .val (r 0)

/-- `bitwise_complement`, extra_ops_gcc_arm.hpp 815–839 (assembly block 820–836).  Operands, in this
order: [original] "=&r" (original); [result] "=&r" (result); [tmp] "=&l" (tmp); [storage] "+Q"
(storage). -/
def bitwiseComplement (thumb : Bool) : Fn 32 32 (Unit) (Integral.Ret 32) where
  block := {
    prog := [
      mode thumb 2,                           -- @mode %[tmp]
      .label 1,                               -- 1:
      ldrex 0 3,                              -- ldrex %[original], %[storage]
      mvn 1 0,                                -- mvn %[result], %[original]
      strex 2 1 3,                            -- strex %[tmp], %[result], %[storage]
      teqI 2 0,                               -- teq %[tmp], #0
      bne 1 1 false,                          -- bne 1b
      mode thumb 2]                           -- @mode %[tmp]
    opnds := [(0, .outEarly), (1, .outEarly), (2, .outEarly), (3, .input)]
    addr := [3]
    results := [1] }
  args _ _ := True
  ret _ r := .val (r 1)

end Arm4

namespace Arm8
open Arm

/-- `load`, core_arch_ops_gcc_arm.hpp 1139–1165 (assembly block 1153–1161).  Operands, in this
order: %0 "=&l" (tmp); %1 "=&r" (original); %2 "Q" (storage). -/
def loadThumb (thumb be : Bool) : Fn 32 64 (Unit) (Integral.Ret 64) where
  block := {
    prog := [
      mode thumb 0,                           -- @mode %0
      ldrexd be 1 21 2,                       -- ldrexd %1, %H1, %2
      mode thumb 0]                           -- @mode %0
    opnds := [(0, .outEarly), (1, .outEarly), (21, .outEarly), (2, .input)]
    addr := [2]
    results := [1, 21] }
  args _ _ := True
  ret _ r := .val (unwords be (r 1) (r 21))

/-- `exchange`, core_arch_ops_gcc_arm.hpp 1167–1189 (assembly block 1172–1186).  Operands, in this
order: %0 "=&l" (tmp); %1 "=&r" (original); %2 "+Q" (storage); %3 "r" (v). -/
def exchange (thumb be : Bool) : Fn 32 64 (BitVec 64) (Integral.Ret 64) where
  block := {
    prog := [
      mode thumb 0,                           -- @mode %0
      .label 1,                               -- 1:
      ldrexd be 1 21 2,                       -- ldrexd %1, %H1, %2
      strexd be 0 3 23 2,                     -- strexd %0, %3, %H3, %2
      teqI 0 0,                               -- teq %0, #0
      bne 1 1 false,                          -- bne 1b
      mode thumb 0]                           -- @mode %0
    opnds := [(0, .outEarly), (1, .outEarly), (21, .outEarly), (2, .input), (3, .input), (23, .input)]
    addr := [2]
    results := [1, 21] }
  args a x := unwords be (x 3) (x 23) = a
  ret _ r := .val (unwords be (r 1) (r 21))

/-- `compare_exchange_weak`, core_arch_ops_gcc_arm.hpp 1191–1224 (assembly block 1198–1217). 
Operands, in this order: %0 "=&l" (tmp); %1 "=&r" (original); %2 "+r" (success); %3 "+Q" (storage);
%4 "r" (expected); %5 "r" (desired). -/
def compareExchangeWeak (thumb be : Bool) : Fn 32 64 (BitVec 64 × BitVec 64) (Integral.Ret 64) where
  block := {
    prog := [
      mode thumb 0,                           -- @mode %0
      ldrexd be 1 21 3,                       -- ldrexd %1, %H1, %3
      cmp 1 4,                                -- cmp %1, %4
      nop,                                    -- it eq
      cmpeq 21 24,                            -- cmpeq %H1, %H4
      bne 8 1 true,                           -- bne 1f
      strexd be 2 5 25 3,                     -- strexd %2, %5, %H5, %3
      eorI 2 2 1,                             -- eor %2, %2, #1
      .label 1,                               -- 1:
      mode thumb 0]                           -- @mode %0
    opnds := [(0, .outEarly), (1, .outEarly), (21, .outEarly), (2, .inout), (3, .input), (4, .input), (24, .input), (5, .input), (25, .input)]
    addr := [3]
    results := [1, 21, 2] }
  args a x := x 2 = 0 ∧ unwords be (x 4) (x 24) = a.1 ∧ unwords be (x 5) (x 25) = a.2
  ret _ r := bool8 (r 2) (.cas · (unwords be (r 1) (r 21)))

/-- `compare_exchange_strong`, core_arch_ops_gcc_arm.hpp 1226–1261 (assembly block 1233–1254). 
Operands, in this order: %0 "=&l" (tmp); %1 "=&r" (original); %2 "+r" (success); %3 "+Q" (storage);
%4 "r" (expected); %5 "r" (desired). -/
def compareExchangeStrong (thumb be : Bool) : Fn 32 64 (BitVec 64 × BitVec 64) (Integral.Ret 64) where
  block := {
    prog := [
      mode thumb 0,                           -- @mode %0
      .label 1,                               -- 1:
      ldrexd be 1 21 3,                       -- ldrexd %1, %H1, %3
      cmp 1 4,                                -- cmp %1, %4
      nop,                                    -- it eq
      cmpeq 21 24,                            -- cmpeq %H1, %H4
      bne 10 2 true,                          -- bne 2f
      strexd be 2 5 25 3,                     -- strexd %2, %5, %H5, %3
      eorsI 2 2 1,                            -- eors %2, %2, #1
      beq 1 1 false,                          -- beq 1b
      .label 2,                               -- 2:
      mode thumb 0]                           -- @mode %0
    opnds := [(0, .outEarly), (1, .outEarly), (21, .outEarly), (2, .inout), (3, .input), (4, .input), (24, .input), (5, .input), (25, .input)]
    addr := [3]
    results := [1, 21, 2] }
  args a x := x 2 = 0 ∧ unwords be (x 4) (x 24) = a.1 ∧ unwords be (x 5) (x 25) = a.2
  ret _ r := bool8 (r 2) (.cas · (unwords be (r 1) (r 21)))

/-- `fetch_add`, core_arch_ops_gcc_arm.hpp 1263–1288 (assembly block 1268–1285).  Operands, in this
order: %0 "=&l" (tmp); %1 "=&r" (original); %2 "=&r" (result); %3 "+Q" (storage); %4 "r" (v). -/
def fetchAdd (thumb be : Bool) : Fn 32 64 (BitVec 64) (Integral.Ret 64) where
  block := {
    prog := [
      mode thumb 0,                           -- @mode %0
      .label 1,                               -- 1:
      ldrexd be 1 21 3,                       -- ldrexd %1, %H1, %3
      adds (lo be 2) (lo be 1) (lo be 4),     -- adds %L2, %L1, %L4
      adc (hi be 2) (hi be 1) (hi be 4),      -- adc %U2, %U1, %U4
      strexd be 0 2 22 3,                     -- strexd %0, %2, %H2, %3
      teqI 0 0,                               -- teq %0, #0
      bne 1 1 false,                          -- bne 1b
      mode thumb 0]                           -- @mode %0
    opnds := [(0, .outEarly), (1, .outEarly), (21, .outEarly), (2, .outEarly), (22, .outEarly), (3, .input), (4, .input), (24, .input)]
    addr := [3]
    results := [1, 21] }
  args a x := unwords be (x 4) (x 24) = a
  ret _ r := .val (unwords be (r 1) (r 21))

/-- `fetch_sub`, core_arch_ops_gcc_arm.hpp 1290–1315 (assembly block 1295–1312).  Operands, in this
order: %0 "=&l" (tmp); %1 "=&r" (original); %2 "=&r" (result); %3 "+Q" (storage); %4 "r" (v). -/
def fetchSub (thumb be : Bool) : Fn 32 64 (BitVec 64) (Integral.Ret 64) where
  block := {
    prog := [
      mode thumb 0,                           -- @mode %0
      .label 1,                               -- 1:
      ldrexd be 1 21 3,                       -- ldrexd %1, %H1, %3
      subs (lo be 2) (lo be 1) (lo be 4),     -- subs %L2, %L1, %L4
      sbc (hi be 2) (hi be 1) (hi be 4),      -- sbc %U2, %U1, %U4
      strexd be 0 2 22 3,                     -- strexd %0, %2, %H2, %3
      teqI 0 0,                               -- teq %0, #0
      bne 1 1 false,                          -- bne 1b
      mode thumb 0]                           -- @mode %0
    opnds := [(0, .outEarly), (1, .outEarly), (21, .outEarly), (2, .outEarly), (22, .outEarly), (3, .input), (4, .input), (24, .input)]
    addr := [3]
    results := [1, 21] }
  args a x := unwords be (x 4) (x 24) = a
  ret _ r := .val (unwords be (r 1) (r 21))

/-- `fetch_and`, core_arch_ops_gcc_arm.hpp 1317–1342 (assembly block 1322–1339).  Operands, in this
order: %0 "=&l" (tmp); %1 "=&r" (original); %2 "=&r" (result); %3 "+Q" (storage); %4 "r" (v). -/
def fetchAnd (thumb be : Bool) : Fn 32 64 (BitVec 64) (Integral.Ret 64) where
  block := {
    prog := [
      mode thumb 0,                           -- @mode %0
      .label 1,                               -- 1:
      ldrexd be 1 21 3,                       -- ldrexd %1, %H1, %3
      and 2 1 4,                              -- and %2, %1, %4
      and 22 21 24,                           -- and %H2, %H1, %H4
      strexd be 0 2 22 3,                     -- strexd %0, %2, %H2, %3
      teqI 0 0,                               -- teq %0, #0
      bne 1 1 false,                          -- bne 1b
      mode thumb 0]                           -- @mode %0
    opnds := [(0, .outEarly), (1, .outEarly), (21, .outEarly), (2, .outEarly), (22, .outEarly), (3, .input), (4, .input), (24, .input)]
    addr := [3]
    results := [1, 21] }
  args a x := unwords be (x 4) (x 24) = a
  ret _ r := .val (unwords be (r 1) (r 21))

/-- `fetch_or`, core_arch_ops_gcc_arm.hpp 1344–1369 (assembly block 1349–1366).  Operands, in this
order: %0 "=&l" (tmp); %1 "=&r" (original); %2 "=&r" (result); %3 "+Q" (storage); %4 "r" (v). -/
def fetchOr (thumb be : Bool) : Fn 32 64 (BitVec 64) (Integral.Ret 64) where
  block := {
    prog := [
      mode thumb 0,                           -- @mode %0
      .label 1,                               -- 1:
      ldrexd be 1 21 3,                       -- ldrexd %1, %H1, %3
      orr 2 1 4,                              -- orr %2, %1, %4
      orr 22 21 24,                           -- orr %H2, %H1, %H4
      strexd be 0 2 22 3,                     -- strexd %0, %2, %H2, %3
      teqI 0 0,                               -- teq %0, #0
      bne 1 1 false,                          -- bne 1b
      mode thumb 0]                           -- @mode %0
    opnds := [(0, .outEarly), (1, .outEarly), (21, .outEarly), (2, .outEarly), (22, .outEarly), (3, .input), (4, .input), (24, .input)]
    addr := [3]
    results := [1, 21] }
  args a x := unwords be (x 4) (x 24) = a
  ret _ r := .val (unwords be (r 1) (r 21))

/-- `fetch_xor`, core_arch_ops_gcc_arm.hpp 1371–1396 (assembly block 1376–1393).  Operands, in this
order: %0 "=&l" (tmp); %1 "=&r" (original); %2 "=&r" (result); %3 "+Q" (storage); %4 "r" (v). -/
def fetchXor (thumb be : Bool) : Fn 32 64 (BitVec 64) (Integral.Ret 64) where
  block := {
    prog := [
      mode thumb 0,                           -- @mode %0
      .label 1,                               -- 1:
      ldrexd be 1 21 3,                       -- ldrexd %1, %H1, %3
      eor 2 1 4,                              -- eor %2, %1, %4
      eor 22 21 24,                           -- eor %H2, %H1, %H4
      strexd be 0 2 22 3,                     -- strexd %0, %2, %H2, %3
      teqI 0 0,                               -- teq %0, #0
      bne 1 1 false,                          -- bne 1b
      mode thumb 0]                           -- @mode %0
    opnds := [(0, .outEarly), (1, .outEarly), (21, .outEarly), (2, .outEarly), (22, .outEarly), (3, .input), (4, .input), (24, .input)]
    addr := [3]
    results := [1, 21] }
  args a x := unwords be (x 4) (x 24) = a
  ret _ r := .val (unwords be (r 1) (r 21))

/-- `fetch_negate`, extra_ops_gcc_arm.hpp 857–884 (assembly block 862–881).  Operands, in this
order: %0 "=&l" (tmp); %1 "=&r" (original); %2 "=&r" (result); %3 "+Q" (storage). -/
def fetchNegate (thumb be : Bool) : Fn 32 64 (Unit) (Integral.Ret 64) where
  block := {
    prog := [
      mode thumb 0,                           -- @mode %0
      .label 1,                               -- 1:
      ldrexd be 1 21 3,                       -- ldrexd %1, %H1, %3
      mvn 2 1,                                -- mvn %2, %1
      mvn 22 21,                              -- mvn %H2, %H1
      addsI (lo be 2) (lo be 2) 1,            -- adds %L2, %L2, #1
      adcI (hi be 2) (hi be 2) 0,             -- adc %U2, %U2, #0
      strexd be 0 2 22 3,                     -- strexd %0, %2, %H2, %3
      teqI 0 0,                               -- teq %0, #0
      bne 1 1 false,                          -- bne 1b
      mode thumb 0]                           -- @mode %0
    opnds := [(0, .outEarly), (1, .outEarly), (21, .outEarly), (2, .outEarly), (22, .outEarly), (3, .input)]
    addr := [3]
    results := [1, 21] }
  args _ _ := True
  ret _ r := .val (unwords be (r 1) (r 21))

/-- `negate`, extra_ops_gcc_arm.hpp 886–913 (assembly block 891–910).  Operands, in this order: %0
"=&l" (tmp); %1 "=&r" (original); %2 "=&r" (result); %3 "+Q" (storage). -/
def negate (thumb be : Bool) : Fn 32 64 (Unit) (Integral.Ret 64) where
  block := {
    prog := [
      mode thumb 0,                           -- @mode %0
      .label 1,                               -- 1:
      ldrexd be 1 21 3,                       -- ldrexd %1, %H1, %3
      mvn 2 1,                                -- mvn %2, %1
      mvn 22 21,                              -- mvn %H2, %H1
      addsI (lo be 2) (lo be 2) 1,            -- adds %L2, %L2, #1
      adcI (hi be 2) (hi be 2) 0,             -- adc %U2, %U2, #0
      strexd be 0 2 22 3,                     -- strexd %0, %2, %H2, %3
      teqI 0 0,                               -- teq %0, #0
      bne 1 1 false,                          -- bne 1b
      mode thumb 0]                           -- @mode %0
    opnds := [(0, .outEarly), (1, .outEarly), (21, .outEarly), (2, .outEarly), (22, .outEarly), (3, .input)]
    addr := [3]
    results := [2, 22] }
  args _ _ := True
  ret _ r := .val (unwords be (r 2) (r 22))

/-- `add`, extra_ops_gcc_arm.hpp 915–940 (assembly block 920–937).  Operands, in this order: %0
"=&l" (tmp); %1 "=&r" (original); %2 "=&r" (result); %3 "+Q" (storage); %4 "r" (v). -/
def add_ (thumb be : Bool) : Fn 32 64 (BitVec 64) (Integral.Ret 64) where
  block := {
    prog := [
      mode thumb 0,                           -- @mode %0
      .label 1,                               -- 1:
      ldrexd be 1 21 3,                       -- ldrexd %1, %H1, %3
      adds (lo be 2) (lo be 1) (lo be 4),     -- adds %L2, %L1, %L4
      adc (hi be 2) (hi be 1) (hi be 4),      -- adc %U2, %U1, %U4
      strexd be 0 2 22 3,                     -- strexd %0, %2, %H2, %3
      teqI 0 0,                               -- teq %0, #0
      bne 1 1 false,                          -- bne 1b
      mode thumb 0]                           -- @mode %0
    opnds := [(0, .outEarly), (1, .outEarly), (21, .outEarly), (2, .outEarly), (22, .outEarly), (3, .input), (4, .input), (24, .input)]
    addr := [3]
    results := [2, 22] }
  args a x := unwords be (x 4) (x 24) = a
  ret _ r := .val (unwords be (r 2) (r 22))

/-- `sub`, extra_ops_gcc_arm.hpp 942–967 (assembly block 947–964).  Operands, in this order: %0
"=&l" (tmp); %1 "=&r" (original); %2 "=&r" (result); %3 "+Q" (storage); %4 "r" (v). -/
def sub_ (thumb be : Bool) : Fn 32 64 (BitVec 64) (Integral.Ret 64) where
  block := {
    prog := [
      mode thumb 0,                           -- @mode %0
      .label 1,                               -- 1:
      ldrexd be 1 21 3,                       -- ldrexd %1, %H1, %3
      subs (lo be 2) (lo be 1) (lo be 4),     -- subs %L2, %L1, %L4
      sbc (hi be 2) (hi be 1) (hi be 4),      -- sbc %U2, %U1, %U4
      strexd be 0 2 22 3,                     -- strexd %0, %2, %H2, %3
      teqI 0 0,                               -- teq %0, #0
      bne 1 1 false,                          -- bne 1b
      mode thumb 0]                           -- @mode %0
    opnds := [(0, .outEarly), (1, .outEarly), (21, .outEarly), (2, .outEarly), (22, .outEarly), (3, .input), (4, .input), (24, .input)]
    addr := [3]
    results := [2, 22] }
  args a x := unwords be (x 4) (x 24) = a
  ret _ r := .val (unwords be (r 2) (r 22))

/-- `bitwise_and`, extra_ops_gcc_arm.hpp 969–994 (assembly block 974–991).  Operands, in this order:
%0 "=&l" (tmp); %1 "=&r" (original); %2 "=&r" (result); %3 "+Q" (storage); %4 "r" (v). -/
def bitwiseAnd (thumb be : Bool) : Fn 32 64 (BitVec 64) (Integral.Ret 64) where
  block := {
    prog := [
      mode thumb 0,                           -- @mode %0
      .label 1,                               -- 1:
      ldrexd be 1 21 3,                       -- ldrexd %1, %H1, %3
      and 2 1 4,                              -- and %2, %1, %4
      and 22 21 24,                           -- and %H2, %H1, %H4
      strexd be 0 2 22 3,                     -- strexd %0, %2, %H2, %3
      teqI 0 0,                               -- teq %0, #0
      bne 1 1 false,                          -- bne 1b
      mode thumb 0]                           -- @mode %0
    opnds := [(0, .outEarly), (1, .outEarly), (21, .outEarly), (2, .outEarly), (22, .outEarly), (3, .input), (4, .input), (24, .input)]
    addr := [3]
    results := [2, 22] }
  args a x := unwords be (x 4) (x 24) = a
  ret _ r := .val (unwords be (r 2) (r 22))

/-- `bitwise_or`, extra_ops_gcc_arm.hpp 996–1021 (assembly block 1001–1018).  Operands, in this
order: %0 "=&l" (tmp); %1 "=&r" (original); %2 "=&r" (result); %3 "+Q" (storage); %4 "r" (v). -/
def bitwiseOr (thumb be : Bool) : Fn 32 64 (BitVec 64) (Integral.Ret 64) where
  block := {
    prog := [
      mode thumb 0,                           -- @mode %0
      .label 1,                               -- 1:
      ldrexd be 1 21 3,                       -- ldrexd %1, %H1, %3
      orr 2 1 4,                              -- orr %2, %1, %4
      orr 22 21 24,                           -- orr %H2, %H1, %H4
      strexd be 0 2 22 3,                     -- strexd %0, %2, %H2, %3
      teqI 0 0,                               -- teq %0, #0
      bne 1 1 false,                          -- bne 1b
      mode thumb 0]                           -- @mode %0
    opnds := [(0, .outEarly), (1, .outEarly), (21, .outEarly), (2, .outEarly), (22, .outEarly), (3, .input), (4, .input), (24, .input)]
    addr := [3]
    results := [2, 22] }
  args a x := unwords be (x 4) (x 24) = a
  ret _ r := .val (unwords be (r 2) (r 22))

/-- `bitwise_xor`, extra_ops_gcc_arm.hpp 1023–1048 (assembly block 1028–1045).  Operands, in this
order: %0 "=&l" (tmp); %1 "=&r" (original); %2 "=&r" (result); %3 "+Q" (storage); %4 "r" (v). -/
def bitwiseXor (thumb be : Bool) : Fn 32 64 (BitVec 64) (Integral.Ret 64) where
  block := {
    prog := [
      mode thumb 0,                           -- @mode %0
      .label 1,                               -- 1:
      ldrexd be 1 21 3,                       -- ldrexd %1, %H1, %3
      eor 2 1 4,                              -- eor %2, %1, %4
      eor 22 21 24,                           -- eor %H2, %H1, %H4
      strexd be 0 2 22 3,                     -- strexd %0, %2, %H2, %3
      teqI 0 0,                               -- teq %0, #0
      bne 1 1 false,                          -- bne 1b
      mode thumb 0]                           -- @mode %0
    opnds := [(0, .outEarly), (1, .outEarly), (21, .outEarly), (2, .outEarly), (22, .outEarly), (3, .input), (4, .input), (24, .input)]
    addr := [3]
    results := [2, 22] }
  args a x := unwords be (x 4) (x 24) = a
  ret _ r := .val (unwords be (r 2) (r 22))

/-- `fetch_complement`, extra_ops_gcc_arm.hpp 1050–1075 (assembly block 1055–1072).  Operands, in
this order: %0 "=&l" (tmp); %1 "=&r" (original); %2 "=&r" (result); %3 "+Q" (storage). -/
def fetchComplement (thumb be : Bool) : Fn 32 64 (Unit) (Integral.Ret 64) where
  block := {
    prog := [
      mode thumb 0,                           -- @mode %0
      .label 1,                               -- 1:
      ldrexd be 1 21 3,                       -- ldrexd %1, %H1, %3
      mvn 2 1,                                -- mvn %2, %1
      mvn 22 21,                              -- mvn %H2, %H1
      strexd be 0 2 22 3,                     -- strexd %0, %2, %H2, %3
      teqI 0 0,                               -- teq %0, #0
      bne 1 1 false,                          -- bne 1b
      mode thumb 0]                           -- @mode %0
    opnds := [(0, .outEarly), (1, .outEarly), (21, .outEarly), (2, .outEarly), (22, .outEarly), (3, .input)]
    addr := [3]
    results := [1, 21] }
  args _ _ := True
  ret _ r := .val (unwords be (r 1) (r 21))

/-- `bitwise_complement`, extra_ops_gcc_arm.hpp 1077–1102 (assembly block 1082–1099).  Operands, in
this order: %0 "=&l" (tmp); %1 "=&r" (original); %2 "=&r" (result); %3 "+Q" (storage). -/
def bitwiseComplement (thumb be : Bool) : Fn 32 64 (Unit) (Integral.Ret 64) where
  block := {
    prog := [
      mode thumb 0,                           -- @mode %0
      .label 1,                               -- 1:
      ldrexd be 1 21 3,                       -- ldrexd %1, %H1, %3
      mvn 2 1,                                -- mvn %2, %1
      mvn 22 21,                              -- mvn %H2, %H1
      strexd be 0 2 22 3,                     -- strexd %0, %2, %H2, %3
      teqI 0 0,                               -- teq %0, #0
      bne 1 1 false,                          -- bne 1b
      mode thumb 0]                           -- @mode %0
    opnds := [(0, .outEarly), (1, .outEarly), (21, .outEarly), (2, .outEarly), (22, .outEarly), (3, .input)]
    addr := [3]
    results := [2, 22] }
  args _ _ := True
  ret _ r := .val (unwords be (r 2) (r 22))

/-- `load`, core_arch_ops_gcc_arm.hpp 1139–1165 (assembly block 1145–1150).  Operands, in this
order: %0 "=&r" (original); %1 "Q" (storage). -/
def load_ (thumb be : Bool) : Fn 32 64 (Unit) (Integral.Ret 64) where
  block := {
    prog := [
      ldrexd be 0 20 1]                       -- ldrexd %0, %H0, %1
    opnds := [(0, .outEarly), (20, .outEarly), (1, .input)]
    addr := [1]
    results := [0, 20] }
  args _ _ := True
  ret _ r := .val (unwords be (r 0) (r 20))

end Arm8

namespace ArmWord
open Arm

/-- `fetch_add`, core_arch_ops_gcc_arm.hpp 597–622 (assembly block 602–619).  Operands, in this
order: [original] "=&r" (original); [result] "=&r" (result); [tmp] "=&l" (tmp); [storage] "+Q"
(storage); [value] "Ir" (v). -/
def fetchAdd1u (thumb : Bool) : Fn 32 32 (BitVec 8) (Integral.Ret 32) where
  block := {
    prog := [
      mode thumb 2,                           -- @mode %[tmp]
      .label 1,                               -- 1:
      ldrex 0 3,                              -- ldrex %[original], %[storage]
      add 1 0 4,                              -- add %[result], %[original], %[value]
      uxtb 1 1,                               -- uxtb %[result], %[result]
      strex 2 1 3,                            -- strex %[tmp], %[result], %[storage]
      teqI 2 0,                               -- teq %[tmp], #0
      bne 1 1 false,                          -- bne 1b
      mode thumb 2]                           -- @mode %[tmp]
    opnds := [(0, .outEarly), (1, .outEarly), (2, .outEarly), (3, .input), (4, .input)]
    addr := [3]
    results := [0] }
  args a x := x 4 = (BitVec.setWidth 32) a
  ret _ r := .val (r 0)

/-- `fetch_sub`, core_arch_ops_gcc_arm.hpp 624–649 (assembly block 629–646).  Operands, in this
order: [original] "=&r" (original); [result] "=&r" (result); [tmp] "=&l" (tmp); [storage] "+Q"
(storage); [value] "Ir" (v). -/
def fetchSub1u (thumb : Bool) : Fn 32 32 (BitVec 8) (Integral.Ret 32) where
  block := {
    prog := [
      mode thumb 2,                           -- @mode %[tmp]
      .label 1,                               -- 1:
      ldrex 0 3,                              -- ldrex %[original], %[storage]
      sub 1 0 4,                              -- sub %[result], %[original], %[value]
      uxtb 1 1,                               -- uxtb %[result], %[result]
      strex 2 1 3,                            -- strex %[tmp], %[result], %[storage]
      teqI 2 0,                               -- teq %[tmp], #0
      bne 1 1 false,                          -- bne 1b
      mode thumb 2]                           -- @mode %[tmp]
    opnds := [(0, .outEarly), (1, .outEarly), (2, .outEarly), (3, .input), (4, .input)]
    addr := [3]
    results := [0] }
  args a x := x 4 = (BitVec.setWidth 32) a
  ret _ r := .val (r 0)

/-- `fetch_add`, core_arch_ops_gcc_arm.hpp 659–684 (assembly block 664–681).  Operands, in this
order: [original] "=&r" (original); [result] "=&r" (result); [tmp] "=&l" (tmp); [storage] "+Q"
(storage); [value] "Ir" (v). -/
def fetchAdd1s (thumb : Bool) : Fn 32 32 (BitVec 8) (Integral.Ret 32) where
  block := {
    prog := [
      mode thumb 2,                           -- @mode %[tmp]
      .label 1,                               -- 1:
      ldrex 0 3,                              -- ldrex %[original], %[storage]
      add 1 0 4,                              -- add %[result], %[original], %[value]
      sxtb 1 1,                               -- sxtb %[result], %[result]
      strex 2 1 3,                            -- strex %[tmp], %[result], %[storage]
      teqI 2 0,                               -- teq %[tmp], #0
      bne 1 1 false,                          -- bne 1b
      mode thumb 2]                           -- @mode %[tmp]
    opnds := [(0, .outEarly), (1, .outEarly), (2, .outEarly), (3, .input), (4, .input)]
    addr := [3]
    results := [0] }
  args a x := x 4 = (BitVec.signExtend 32) a
  ret _ r := .val (r 0)

/-- `fetch_sub`, core_arch_ops_gcc_arm.hpp 686–711 (assembly block 691–708).  Operands, in this
order: [original] "=&r" (original); [result] "=&r" (result); [tmp] "=&l" (tmp); [storage] "+Q"
(storage); [value] "Ir" (v). -/
def fetchSub1s (thumb : Bool) : Fn 32 32 (BitVec 8) (Integral.Ret 32) where
  block := {
    prog := [
      mode thumb 2,                           -- @mode %[tmp]
      .label 1,                               -- 1:
      ldrex 0 3,                              -- ldrex %[original], %[storage]
      sub 1 0 4,                              -- sub %[result], %[original], %[value]
      sxtb 1 1,                               -- sxtb %[result], %[result]
      strex 2 1 3,                            -- strex %[tmp], %[result], %[storage]
      teqI 2 0,                               -- teq %[tmp], #0
      bne 1 1 false,                          -- bne 1b
      mode thumb 2]                           -- @mode %[tmp]
    opnds := [(0, .outEarly), (1, .outEarly), (2, .outEarly), (3, .input), (4, .input)]
    addr := [3]
    results := [0] }
  args a x := x 4 = (BitVec.signExtend 32) a
  ret _ r := .val (r 0)

/-- `fetch_add`, core_arch_ops_gcc_arm.hpp 991–1016 (assembly block 996–1013).  Operands, in this
order: [original] "=&r" (original); [result] "=&r" (result); [tmp] "=&l" (tmp); [storage] "+Q"
(storage); [value] "Ir" (v). -/
def fetchAdd2u (thumb : Bool) : Fn 32 32 (BitVec 16) (Integral.Ret 32) where
  block := {
    prog := [
      mode thumb 2,                           -- @mode %[tmp]
      .label 1,                               -- 1:
      ldrex 0 3,                              -- ldrex %[original], %[storage]
      add 1 0 4,                              -- add %[result], %[original], %[value]
      uxth 1 1,                               -- uxth %[result], %[result]
      strex 2 1 3,                            -- strex %[tmp], %[result], %[storage]
      teqI 2 0,                               -- teq %[tmp], #0
      bne 1 1 false,                          -- bne 1b
      mode thumb 2]                           -- @mode %[tmp]
    opnds := [(0, .outEarly), (1, .outEarly), (2, .outEarly), (3, .input), (4, .input)]
    addr := [3]
    results := [0] }
  args a x := x 4 = (BitVec.setWidth 32) a
  ret _ r := .val (r 0)

/-- `fetch_sub`, core_arch_ops_gcc_arm.hpp 1018–1043 (assembly block 1023–1040).  Operands, in this
order: [original] "=&r" (original); [result] "=&r" (result); [tmp] "=&l" (tmp); [storage] "+Q"
(storage); [value] "Ir" (v). -/
def fetchSub2u (thumb : Bool) : Fn 32 32 (BitVec 16) (Integral.Ret 32) where
  block := {
    prog := [
      mode thumb 2,                           -- @mode %[tmp]
      .label 1,                               -- 1:
      ldrex 0 3,                              -- ldrex %[original], %[storage]
      sub 1 0 4,                              -- sub %[result], %[original], %[value]
      uxth 1 1,                               -- uxth %[result], %[result]
      strex 2 1 3,                            -- strex %[tmp], %[result], %[storage]
      teqI 2 0,                               -- teq %[tmp], #0
      bne 1 1 false,                          -- bne 1b
      mode thumb 2]                           -- @mode %[tmp]
    opnds := [(0, .outEarly), (1, .outEarly), (2, .outEarly), (3, .input), (4, .input)]
    addr := [3]
    results := [0] }
  args a x := x 4 = (BitVec.setWidth 32) a
  ret _ r := .val (r 0)

/-- `fetch_add`, core_arch_ops_gcc_arm.hpp 1053–1078 (assembly block 1058–1075).  Operands, in this
order: [original] "=&r" (original); [result] "=&r" (result); [tmp] "=&l" (tmp); [storage] "+Q"
(storage); [value] "Ir" (v). -/
def fetchAdd2s (thumb : Bool) : Fn 32 32 (BitVec 16) (Integral.Ret 32) where
  block := {
    prog := [
      mode thumb 2,                           -- @mode %[tmp]
      .label 1,                               -- 1:
      ldrex 0 3,                              -- ldrex %[original], %[storage]
      add 1 0 4,                              -- add %[result], %[original], %[value]
      sxth 1 1,                               -- sxth %[result], %[result]
      strex 2 1 3,                            -- strex %[tmp], %[result], %[storage]
      teqI 2 0,                               -- teq %[tmp], #0
      bne 1 1 false,                          -- bne 1b
      mode thumb 2]                           -- @mode %[tmp]
    opnds := [(0, .outEarly), (1, .outEarly), (2, .outEarly), (3, .input), (4, .input)]
    addr := [3]
    results := [0] }
  args a x := x 4 = (BitVec.signExtend 32) a
  ret _ r := .val (r 0)

/-- `fetch_sub`, core_arch_ops_gcc_arm.hpp 1080–1105 (assembly block 1085–1102).  Operands, in this
order: [original] "=&r" (original); [result] "=&r" (result); [tmp] "=&l" (tmp); [storage] "+Q"
(storage); [value] "Ir" (v). -/
def fetchSub2s (thumb : Bool) : Fn 32 32 (BitVec 16) (Integral.Ret 32) where
  block := {
    prog := [
      mode thumb 2,                           -- @mode %[tmp]
      .label 1,                               -- 1:
      ldrex 0 3,                              -- ldrex %[original], %[storage]
      sub 1 0 4,                              -- sub %[result], %[original], %[value]
      sxth 1 1,                               -- sxth %[result], %[result]
      strex 2 1 3,                            -- strex %[tmp], %[result], %[storage]
      teqI 2 0,                               -- teq %[tmp], #0
      bne 1 1 false,                          -- bne 1b
      mode thumb 2]                           -- @mode %[tmp]
    opnds := [(0, .outEarly), (1, .outEarly), (2, .outEarly), (3, .input), (4, .input)]
    addr := [3]
    results := [0] }
  args a x := x 4 = (BitVec.signExtend 32) a
  ret _ r := .val (r 0)

end ArmWord

end Verif.Asm
