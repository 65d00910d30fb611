import Verif.Asm.Tactic
import Verif.Asm.IsaA64

/-
The assembly blocks of core_arch_ops_gcc_aarch64.hpp and extra_ops_gcc_aarch64.hpp.
Written by tools/asmgen.py from the source text.
-/

set_option linter.unusedVariables false

namespace Verif.Asm

namespace A64x1
open A64

/-- `store`, core_arch_ops_gcc_aarch64.hpp 59–76 (assembly block 64–70).  Operands, in this order:
[storage] "=Q" (storage); [value] "r" (v). -/
def store_ : Fn 64 8 (BitVec 8) (Integral.Ret 8) where
  block := {
    prog := [
      stlrbw 1 0]                             -- stlrb %w[value], %[storage]
    opnds := [(0, .input), (1, .input)]
    addr := [0]
    results := [] }
  args a x := (x 1).setWidth 8 = a
  ret _ _ := .unit

/-- `load`, core_arch_ops_gcc_aarch64.hpp 78–113 (assembly block 97–103).  Operands, in this order:
[value] "=r" (v); [storage] "Q" (storage). -/
def load_ : Fn 64 8 (Unit) (Integral.Ret 8) where
  block := {
    prog := [
      ldarbw 0 1]                             -- ldarb %w[value], %[storage]
    opnds := [(0, .out), (1, .input)]
    addr := [1]
    results := [0] }
  args _ _ := True
  ret _ r := .val ((r 0).setWidth 8)

/-- `exchange`, core_arch_ops_gcc_aarch64.hpp 115–149 (assembly block 132–141).  Operands, in this
order: [tmp] "=&r" (tmp); [storage] "+Q" (storage); [original] "=&r" (original); [value] "r" (v). -/
def exchange : Fn 64 8 (BitVec 8) (Integral.Ret 8) where
  block := {
    prog := [
      .label 1,                               -- 1:
      ldxrbw 2 1,                             -- ldxrb %w[original], %[storage]
      stxrbw 0 3 1,                           -- stxrb %w[tmp], %w[value], %[storage]
      cbnzw 0 0 1 false]                      -- cbnz %w[tmp], 1b
    opnds := [(0, .outEarly), (1, .input), (2, .outEarly), (3, .input)]
    addr := [1]
    results := [2] }
  args a x := (x 3).setWidth 8 = a
  ret _ r := .val ((r 2).setWidth 8)

/-- `compare_exchange_weak`, core_arch_ops_gcc_aarch64.hpp 151–197 (assembly block 174–187). 
Operands, in this order: [success] "=&r" (success); [storage] "+Q" (storage); [original] "=&r"
(original); [desired] "r" (desired); [expected] "r" (expected). -/
def compareExchangeWeak : Fn 64 8 (BitVec 8 × BitVec 8) (Integral.Ret 8) where
  block := {
    prog := [
      uxtbw 4 4,                              -- uxtb %w[expected], %w[expected]
      movwI 0 0,                              -- mov %w[success], #0
      ldxrbw 2 1,                             -- ldxrb %w[original], %[storage]
      cmpw 2 4,                               -- cmp %w[original], %w[expected]
      bne 7 1 true,                           -- b.ne 1f
      stxrbw 0 3 1,                           -- stxrb %w[success], %w[desired], %[storage]
      eorwI 0 0 1,                            -- eor %w[success], %w[success], #1
      .label 1]                               -- 1:
    opnds := [(0, .outEarly), (1, .input), (2, .outEarly), (3, .input), (4, .input)]
    addr := [1]
    results := [2, 0] }
  args a x := (x 3).setWidth 8 = a.2 ∧ (x 4).setWidth 8 = a.1
  ret _ r := bool8 (r 0) (.cas · ((r 2).setWidth 8))

/-- `compare_exchange_strong`, core_arch_ops_gcc_aarch64.hpp 199–246 (assembly block 222–236). 
Operands, in this order: [success] "=&r" (success); [storage] "+Q" (storage); [original] "=&r"
(original); [desired] "r" (desired); [expected] "r" (expected). -/
def compareExchangeStrong : Fn 64 8 (BitVec 8 × BitVec 8) (Integral.Ret 8) where
  block := {
    prog := [
      uxtbw 4 4,                              -- uxtb %w[expected], %w[expected]
      .label 1,                               -- 1:
      ldxrbw 2 1,                             -- ldxrb %w[original], %[storage]
      cmpw 2 4,                               -- cmp %w[original], %w[expected]
      bne 7 2 true,                           -- b.ne 2f
      stxrbw 0 3 1,                           -- stxrb %w[success], %w[desired], %[storage]
      cbnzw 0 1 1 false,                      -- cbnz %w[success], 1b
      .label 2,                               -- 2:
      cseteqw 0]                              -- cset %w[success], eq
    opnds := [(0, .outEarly), (1, .input), (2, .outEarly), (3, .input), (4, .input)]
    addr := [1]
    results := [2, 0] }
  args a x := (x 3).setWidth 8 = a.2 ∧ (x 4).setWidth 8 = a.1
  ret _ r := bool8 (r 0) (.cas · ((r 2).setWidth 8))

/-- `fetch_add`, core_arch_ops_gcc_aarch64.hpp 248–284 (assembly block 266–276).  Operands, in this
order: [tmp] "=&r" (tmp); [result] "=&r" (result); [storage] "+Q" (storage); [original] "=&r"
(original); [value] "Ir" (v). -/
def fetchAdd : Fn 64 8 (BitVec 8) (Integral.Ret 8) where
  block := {
    prog := [
      .label 1,                               -- 1:
      ldxrbw 3 2,                             -- ldxrb %w[original], %[storage]
      addw 1 3 4,                             -- add %w[result], %w[original], %w[value]
      stxrbw 0 1 2,                           -- stxrb %w[tmp], %w[result], %[storage]
      cbnzw 0 0 1 false]                      -- cbnz %w[tmp], 1b
    opnds := [(0, .outEarly), (1, .outEarly), (2, .input), (3, .outEarly), (4, .input)]
    addr := [2]
    results := [3] }
  args a x := (x 4).setWidth 8 = a
  ret _ r := .val ((r 3).setWidth 8)

/-- `fetch_sub`, core_arch_ops_gcc_aarch64.hpp 286–325 (assembly block 307–317).  Operands, in this
order: [tmp] "=&r" (tmp); [result] "=&r" (result); [storage] "+Q" (storage); [original] "=&r"
(original); [value] "Ir" (v). -/
def fetchSub : Fn 64 8 (BitVec 8) (Integral.Ret 8) where
  block := {
    prog := [
      .label 1,                               -- 1:
      ldxrbw 3 2,                             -- ldxrb %w[original], %[storage]
      subw 1 3 4,                             -- sub %w[result], %w[original], %w[value]
      stxrbw 0 1 2,                           -- stxrb %w[tmp], %w[result], %[storage]
      cbnzw 0 0 1 false]                      -- cbnz %w[tmp], 1b
    opnds := [(0, .outEarly), (1, .outEarly), (2, .input), (3, .outEarly), (4, .input)]
    addr := [2]
    results := [3] }
  args a x := (x 4).setWidth 8 = a
  ret _ r := .val ((r 3).setWidth 8)

/-- `fetch_and`, core_arch_ops_gcc_aarch64.hpp 327–365 (assembly block 347–357).  Operands, in this
order: [tmp] "=&r" (tmp); [result] "=&r" (result); [storage] "+Q" (storage); [original] "=&r"
(original); [value] "Kr" (v). -/
def fetchAnd : Fn 64 8 (BitVec 8) (Integral.Ret 8) where
  block := {
    prog := [
      .label 1,                               -- 1:
      ldxrbw 3 2,                             -- ldxrb %w[original], %[storage]
      andw 1 3 4,                             -- and %w[result], %w[original], %w[value]
      stxrbw 0 1 2,                           -- stxrb %w[tmp], %w[result], %[storage]
      cbnzw 0 0 1 false]                      -- cbnz %w[tmp], 1b
    opnds := [(0, .outEarly), (1, .outEarly), (2, .input), (3, .outEarly), (4, .input)]
    addr := [2]
    results := [3] }
  args a x := (x 4).setWidth 8 = a
  ret _ r := .val ((r 3).setWidth 8)

/-- `fetch_or`, core_arch_ops_gcc_aarch64.hpp 367–403 (assembly block 385–395).  Operands, in this
order: [tmp] "=&r" (tmp); [result] "=&r" (result); [storage] "+Q" (storage); [original] "=&r"
(original); [value] "Kr" (v). -/
def fetchOr : Fn 64 8 (BitVec 8) (Integral.Ret 8) where
  block := {
    prog := [
      .label 1,                               -- 1:
      ldxrbw 3 2,                             -- ldxrb %w[original], %[storage]
      orrw 1 3 4,                             -- orr %w[result], %w[original], %w[value]
      stxrbw 0 1 2,                           -- stxrb %w[tmp], %w[result], %[storage]
      cbnzw 0 0 1 false]                      -- cbnz %w[tmp], 1b
    opnds := [(0, .outEarly), (1, .outEarly), (2, .input), (3, .outEarly), (4, .input)]
    addr := [2]
    results := [3] }
  args a x := (x 4).setWidth 8 = a
  ret _ r := .val ((r 3).setWidth 8)

/-- `fetch_xor`, core_arch_ops_gcc_aarch64.hpp 405–441 (assembly block 423–433).  Operands, in this
order: [tmp] "=&r" (tmp); [result] "=&r" (result); [storage] "+Q" (storage); [original] "=&r"
(original); [value] "Kr" (v). -/
def fetchXor : Fn 64 8 (BitVec 8) (Integral.Ret 8) where
  block := {
    prog := [
      .label 1,                               -- 1:
      ldxrbw 3 2,                             -- ldxrb %w[original], %[storage]
      eorw 1 3 4,                             -- eor %w[result], %w[original], %w[value]
      stxrbw 0 1 2,                           -- stxrb %w[tmp], %w[result], %[storage]
      cbnzw 0 0 1 false]                      -- cbnz %w[tmp], 1b
    opnds := [(0, .outEarly), (1, .outEarly), (2, .input), (3, .outEarly), (4, .input)]
    addr := [2]
    results := [3] }
  args a x := (x 4).setWidth 8 = a
  ret _ r := .val ((r 3).setWidth 8)

/-- `fetch_negate`, extra_ops_gcc_aarch64.hpp 129–153 (assembly block 136–146).  Operands, in this
order: [tmp] "=&r" (tmp); [result] "=&r" (result); [storage] "+Q" (storage); [original] "=&r"
(original). -/
def fetchNegate : Fn 64 8 (Unit) (Integral.Ret 8) where
  block := {
    prog := [
      .label 1,                               -- 1:
      ldxrbw 3 2,                             -- ldxrb %w[original], %[storage]
      negw 1 3,                               -- neg %w[result], %w[original]
      stxrbw 0 1 2,                           -- stxrb %w[tmp], %w[result], %[storage]
      cbnzw 0 0 1 false]                      -- cbnz %w[tmp], 1b
    opnds := [(0, .outEarly), (1, .outEarly), (2, .input), (3, .outEarly)]
    addr := [2]
    results := [3] }
  args _ _ := True
  ret _ r := .val ((r 3).setWidth 8)

/-- `negate`, extra_ops_gcc_aarch64.hpp 155–179 (assembly block 162–172).  Operands, in this order:
[tmp] "=&r" (tmp); [storage] "+Q" (storage); [result] "=&r" (result). -/
def negate : Fn 64 8 (Unit) (Integral.Ret 8) where
  block := {
    prog := [
      .label 1,                               -- 1:
      ldxrbw 2 1,                             -- ldxrb %w[result], %[storage]
      negw 2 2,                               -- neg %w[result], %w[result]
      stxrbw 0 2 1,                           -- stxrb %w[tmp], %w[result], %[storage]
      cbnzw 0 0 1 false]                      -- cbnz %w[tmp], 1b
    opnds := [(0, .outEarly), (1, .input), (2, .outEarly)]
    addr := [1]
    results := [2] }
  args _ _ := True
  ret _ r := .val ((r 2).setWidth 8)

/-- `add`, extra_ops_gcc_aarch64.hpp 183–207 (assembly block 190–200).  Operands, in this order:
[tmp] "=&r" (tmp); [storage] "+Q" (storage); [result] "=&r" (result); [value] "Ir" (v). -/
def add_ : Fn 64 8 (BitVec 8) (Integral.Ret 8) where
  block := {
    prog := [
      .label 1,                               -- 1:
      ldxrbw 2 1,                             -- ldxrb %w[result], %[storage]
      addw 2 2 3,                             -- add %w[result], %w[result], %w[value]
      stxrbw 0 2 1,                           -- stxrb %w[tmp], %w[result], %[storage]
      cbnzw 0 0 1 false]                      -- cbnz %w[tmp], 1b
    opnds := [(0, .outEarly), (1, .input), (2, .outEarly), (3, .input)]
    addr := [1]
    results := [2] }
  args a x := (x 3).setWidth 8 = a
  ret _ r := .val ((r 2).setWidth 8)

/-- `sub`, extra_ops_gcc_aarch64.hpp 209–233 (assembly block 216–226).  Operands, in this order:
[tmp] "=&r" (tmp); [storage] "+Q" (storage); [result] "=&r" (result); [value] "Ir" (v). -/
def sub_ : Fn 64 8 (BitVec 8) (Integral.Ret 8) where
  block := {
    prog := [
      .label 1,                               -- 1:
      ldxrbw 2 1,                             -- ldxrb %w[result], %[storage]
      subw 2 2 3,                             -- sub %w[result], %w[result], %w[value]
      stxrbw 0 2 1,                           -- stxrb %w[tmp], %w[result], %[storage]
      cbnzw 0 0 1 false]                      -- cbnz %w[tmp], 1b
    opnds := [(0, .outEarly), (1, .input), (2, .outEarly), (3, .input)]
    addr := [1]
    results := [2] }
  args a x := (x 3).setWidth 8 = a
  ret _ r := .val ((r 2).setWidth 8)

/-- `bitwise_and`, extra_ops_gcc_aarch64.hpp 235–259 (assembly block 242–252).  Operands, in this
order: [tmp] "=&r" (tmp); [storage] "+Q" (storage); [result] "=&r" (result); [value] "Kr" (v). -/
def bitwiseAnd : Fn 64 8 (BitVec 8) (Integral.Ret 8) where
  block := {
    prog := [
      .label 1,                               -- 1:
      ldxrbw 2 1,                             -- ldxrb %w[result], %[storage]
      andw 2 2 3,                             -- and %w[result], %w[result], %w[value]
      stxrbw 0 2 1,                           -- stxrb %w[tmp], %w[result], %[storage]
      cbnzw 0 0 1 false]                      -- cbnz %w[tmp], 1b
    opnds := [(0, .outEarly), (1, .input), (2, .outEarly), (3, .input)]
    addr := [1]
    results := [2] }
  args a x := (x 3).setWidth 8 = a
  ret _ r := .val ((r 2).setWidth 8)

/-- `bitwise_or`, extra_ops_gcc_aarch64.hpp 261–285 (assembly block 268–278).  Operands, in this
order: [tmp] "=&r" (tmp); [storage] "+Q" (storage); [result] "=&r" (result); [value] "Kr" (v). -/
def bitwiseOr : Fn 64 8 (BitVec 8) (Integral.Ret 8) where
  block := {
    prog := [
      .label 1,                               -- 1:
      ldxrbw 2 1,                             -- ldxrb %w[result], %[storage]
      orrw 2 2 3,                             -- orr %w[result], %w[result], %w[value]
      stxrbw 0 2 1,                           -- stxrb %w[tmp], %w[result], %[storage]
      cbnzw 0 0 1 false]                      -- cbnz %w[tmp], 1b
    opnds := [(0, .outEarly), (1, .input), (2, .outEarly), (3, .input)]
    addr := [1]
    results := [2] }
  args a x := (x 3).setWidth 8 = a
  ret _ r := .val ((r 2).setWidth 8)

/-- `bitwise_xor`, extra_ops_gcc_aarch64.hpp 287–311 (assembly block 294–304).  Operands, in this
order: [tmp] "=&r" (tmp); [storage] "+Q" (storage); [result] "=&r" (result); [value] "Kr" (v). -/
def bitwiseXor : Fn 64 8 (BitVec 8) (Integral.Ret 8) where
  block := {
    prog := [
      .label 1,                               -- 1:
      ldxrbw 2 1,                             -- ldxrb %w[result], %[storage]
      eorw 2 2 3,                             -- eor %w[result], %w[result], %w[value]
      stxrbw 0 2 1,                           -- stxrb %w[tmp], %w[result], %[storage]
      cbnzw 0 0 1 false]                      -- cbnz %w[tmp], 1b
    opnds := [(0, .outEarly), (1, .input), (2, .outEarly), (3, .input)]
    addr := [1]
    results := [2] }
  args a x := (x 3).setWidth 8 = a
  ret _ r := .val ((r 2).setWidth 8)

/-- `fetch_complement`, extra_ops_gcc_aarch64.hpp 313–337 (assembly block 320–330).  Operands, in
this order: [tmp] "=&r" (tmp); [result] "=&r" (result); [storage] "+Q" (storage); [original] "=&r"
(original). -/
def fetchComplement : Fn 64 8 (Unit) (Integral.Ret 8) where
  block := {
    prog := [
      .label 1,                               -- 1:
      ldxrbw 3 2,                             -- ldxrb %w[original], %[storage]
      mvnw 1 3,                               -- mvn %w[result], %w[original]
      stxrbw 0 1 2,                           -- stxrb %w[tmp], %w[result], %[storage]
      cbnzw 0 0 1 false]                      -- cbnz %w[tmp], 1b
    opnds := [(0, .outEarly), (1, .outEarly), (2, .input), (3, .outEarly)]
    addr := [2]
    results := [3] }
  args _ _ := True
  ret _ r := .val ((r 3).setWidth 8)

/-- `bitwise_complement`, extra_ops_gcc_aarch64.hpp 339–363 (assembly block 346–356).  Operands, in
this order: [tmp] "=&r" (tmp); [storage] "+Q" (storage); [result] "=&r" (result). -/
def bitwiseComplement : Fn 64 8 (Unit) (Integral.Ret 8) where
  block := {
    prog := [
      .label 1,                               -- 1:
      ldxrbw 2 1,                             -- ldxrb %w[result], %[storage]
      mvnw 2 2,                               -- mvn %w[result], %w[result]
      stxrbw 0 2 1,                           -- stxrb %w[tmp], %w[result], %[storage]
      cbnzw 0 0 1 false]                      -- cbnz %w[tmp], 1b
    opnds := [(0, .outEarly), (1, .input), (2, .outEarly)]
    addr := [1]
    results := [2] }
  args _ _ := True
  ret _ r := .val ((r 2).setWidth 8)

end A64x1

namespace A64Lse1
open A64

/-- `load`, core_arch_ops_gcc_aarch64.hpp 78–113 (assembly block 86–92, with the extensions LSE and
RCPC).  Operands, in this order: [value] "=r" (v); [storage] "Q" (storage). -/
def load_1 : Fn 64 8 (Unit) (Integral.Ret 8) where
  block := {
    prog := [
      ldarbw 0 1]                             -- ldaprb %w[value], %[storage]
    opnds := [(0, .out), (1, .input)]
    addr := [1]
    results := [0] }
  args _ _ := True
  ret _ r := .val ((r 0).setWidth 8)

/-- `load`, core_arch_ops_gcc_aarch64.hpp 78–113 (assembly block 97–103, with the extensions LSE and
RCPC).  Operands, in this order: [value] "=r" (v); [storage] "Q" (storage). -/
def load_2 : Fn 64 8 (Unit) (Integral.Ret 8) where
  block := {
    prog := [
      ldarbw 0 1]                             -- ldarb %w[value], %[storage]
    opnds := [(0, .out), (1, .input)]
    addr := [1]
    results := [0] }
  args _ _ := True
  ret _ r := .val ((r 0).setWidth 8)

/-- `exchange`, core_arch_ops_gcc_aarch64.hpp 115–149 (assembly block 121–127, with the extensions
LSE and RCPC).  Operands, in this order: [storage] "+Q" (storage); [original] "=r" (original);
[value] "r" (v). -/
def exchange : Fn 64 8 (BitVec 8) (Integral.Ret 8) where
  block := {
    prog := [
      swp (M := 8) 2 1 0]                     -- swpb %w[value], %w[original], %[storage]
    opnds := [(0, .input), (1, .out), (2, .input)]
    addr := [0]
    results := [1] }
  args a x := (x 2).setWidth 8 = a
  ret _ r := .val ((r 1).setWidth 8)

/-- `compare_exchange_weak`, core_arch_ops_gcc_aarch64.hpp 151–197 (assembly block 160–166, with the
extensions LSE and RCPC).  Operands, in this order: [storage] "+Q" (storage); [original] "+r"
(original); [desired] "r" (desired). -/
def compareExchangeWeak : Fn 64 8 (BitVec 8 × BitVec 8) (Integral.Ret 8) where
  block := {
    prog := [
      cas (M := 8) 1 2 0]                     -- casb %w[original], %w[desired], %[storage]
    opnds := [(0, .input), (1, .inout), (2, .input)]
    addr := [0]
    results := [1] }
  args a x := (x 1).setWidth 8 = a.1 ∧ (x 2).setWidth 8 = a.2
  ret a r := .cas (decide ((r 1).setWidth 8 = a.1)) ((r 1).setWidth 8)

/-- `compare_exchange_strong`, core_arch_ops_gcc_aarch64.hpp 199–246 (assembly block 208–214, with
the extensions LSE and RCPC).  Operands, in this order: [storage] "+Q" (storage); [original] "+r"
(original); [desired] "r" (desired). -/
def compareExchangeStrong : Fn 64 8 (BitVec 8 × BitVec 8) (Integral.Ret 8) where
  block := {
    prog := [
      cas (M := 8) 1 2 0]                     -- casb %w[original], %w[desired], %[storage]
    opnds := [(0, .input), (1, .inout), (2, .input)]
    addr := [0]
    results := [1] }
  args a x := (x 1).setWidth 8 = a.1 ∧ (x 2).setWidth 8 = a.2
  ret a r := .cas (decide ((r 1).setWidth 8 = a.1)) ((r 1).setWidth 8)

/-- `fetch_add`, core_arch_ops_gcc_aarch64.hpp 248–284 (assembly block 254–260, with the extensions
LSE and RCPC).  Operands, in this order: [storage] "+Q" (storage); [original] "=r" (original);
[value] "r" (v). -/
def fetchAdd : Fn 64 8 (BitVec 8) (Integral.Ret 8) where
  block := {
    prog := [
      ldadd (M := 8) 2 1 0]                   -- ldaddb %w[value], %w[original], %[storage]
    opnds := [(0, .input), (1, .out), (2, .input)]
    addr := [0]
    results := [1] }
  args a x := (x 2).setWidth 8 = a
  ret _ r := .val ((r 1).setWidth 8)

/-- `fetch_sub`, core_arch_ops_gcc_aarch64.hpp 286–325 (assembly block 294–300, with the extensions
LSE and RCPC).  Operands, in this order: [storage] "+Q" (storage); [original] "=r" (original);
[value] "r" (v). -/
def fetchSub : Fn 64 8 (BitVec 8) (Integral.Ret 8) where
  block := {
    prog := [
      ldadd (M := 8) 2 1 0]                   -- ldaddb %w[value], %w[original], %[storage]
    opnds := [(0, .input), (1, .out), (2, .input)]
    addr := [0]
    results := [1] }
  args a x := (x 2).setWidth 8 = -a
  ret _ r := .val ((r 1).setWidth 8)

/-- `fetch_and`, core_arch_ops_gcc_aarch64.hpp 327–365 (assembly block 335–341, with the extensions
LSE and RCPC).  Operands, in this order: [storage] "+Q" (storage); [original] "=r" (original);
[value] "r" (v). -/
def fetchAnd : Fn 64 8 (BitVec 8) (Integral.Ret 8) where
  block := {
    prog := [
      ldclr (M := 8) 2 1 0]                   -- ldclrb %w[value], %w[original], %[storage]
    opnds := [(0, .input), (1, .out), (2, .input)]
    addr := [0]
    results := [1] }
  args a x := (x 2).setWidth 8 = ~~~ a
  ret _ r := .val ((r 1).setWidth 8)

/-- `fetch_or`, core_arch_ops_gcc_aarch64.hpp 367–403 (assembly block 373–379, with the extensions
LSE and RCPC).  Operands, in this order: [storage] "+Q" (storage); [original] "=r" (original);
[value] "r" (v). -/
def fetchOr : Fn 64 8 (BitVec 8) (Integral.Ret 8) where
  block := {
    prog := [
      ldset (M := 8) 2 1 0]                   -- ldsetb %w[value], %w[original], %[storage]
    opnds := [(0, .input), (1, .out), (2, .input)]
    addr := [0]
    results := [1] }
  args a x := (x 2).setWidth 8 = a
  ret _ r := .val ((r 1).setWidth 8)

/-- `fetch_xor`, core_arch_ops_gcc_aarch64.hpp 405–441 (assembly block 411–417, with the extensions
LSE and RCPC).  Operands, in this order: [storage] "+Q" (storage); [original] "=r" (original);
[value] "r" (v). -/
def fetchXor : Fn 64 8 (BitVec 8) (Integral.Ret 8) where
  block := {
    prog := [
      ldeor (M := 8) 2 1 0]                   -- ldeorb %w[value], %w[original], %[storage]
    opnds := [(0, .input), (1, .out), (2, .input)]
    addr := [0]
    results := [1] }
  args a x := (x 2).setWidth 8 = a
  ret _ r := .val ((r 1).setWidth 8)

end A64Lse1

namespace A64x2
open A64

/-- `store`, core_arch_ops_gcc_aarch64.hpp 465–482 (assembly block 470–476).  Operands, in this
order: [storage] "=Q" (storage); [value] "r" (v). -/
def store_ : Fn 64 16 (BitVec 16) (Integral.Ret 16) where
  block := {
    prog := [
      stlrhw 1 0]                             -- stlrh %w[value], %[storage]
    opnds := [(0, .input), (1, .input)]
    addr := [0]
    results := [] }
  args a x := (x 1).setWidth 16 = a
  ret _ _ := .unit

/-- `load`, core_arch_ops_gcc_aarch64.hpp 484–519 (assembly block 503–509).  Operands, in this
order: [value] "=r" (v); [storage] "Q" (storage). -/
def load_ : Fn 64 16 (Unit) (Integral.Ret 16) where
  block := {
    prog := [
      ldarhw 0 1]                             -- ldarh %w[value], %[storage]
    opnds := [(0, .out), (1, .input)]
    addr := [1]
    results := [0] }
  args _ _ := True
  ret _ r := .val ((r 0).setWidth 16)

/-- `exchange`, core_arch_ops_gcc_aarch64.hpp 521–555 (assembly block 538–547).  Operands, in this
order: [tmp] "=&r" (tmp); [storage] "+Q" (storage); [original] "=&r" (original); [value] "r" (v). -/
def exchange : Fn 64 16 (BitVec 16) (Integral.Ret 16) where
  block := {
    prog := [
      .label 1,                               -- 1:
      ldxrhw 2 1,                             -- ldxrh %w[original], %[storage]
      stxrhw 0 3 1,                           -- stxrh %w[tmp], %w[value], %[storage]
      cbnzw 0 0 1 false]                      -- cbnz %w[tmp], 1b
    opnds := [(0, .outEarly), (1, .input), (2, .outEarly), (3, .input)]
    addr := [1]
    results := [2] }
  args a x := (x 3).setWidth 16 = a
  ret _ r := .val ((r 2).setWidth 16)

/-- `compare_exchange_weak`, core_arch_ops_gcc_aarch64.hpp 557–603 (assembly block 580–593). 
Operands, in this order: [success] "=&r" (success); [storage] "+Q" (storage); [original] "=&r"
(original); [desired] "r" (desired); [expected] "r" (expected). -/
def compareExchangeWeak : Fn 64 16 (BitVec 16 × BitVec 16) (Integral.Ret 16) where
  block := {
    prog := [
      uxthw 4 4,                              -- uxth %w[expected], %w[expected]
      movwI 0 0,                              -- mov %w[success], #0
      ldxrhw 2 1,                             -- ldxrh %w[original], %[storage]
      cmpw 2 4,                               -- cmp %w[original], %w[expected]
      bne 7 1 true,                           -- b.ne 1f
      stxrhw 0 3 1,                           -- stxrh %w[success], %w[desired], %[storage]
      eorwI 0 0 1,                            -- eor %w[success], %w[success], #1
      .label 1]                               -- 1:
    opnds := [(0, .outEarly), (1, .input), (2, .outEarly), (3, .input), (4, .input)]
    addr := [1]
    results := [2, 0] }
  args a x := (x 3).setWidth 16 = a.2 ∧ (x 4).setWidth 16 = a.1
  ret _ r := bool8 (r 0) (.cas · ((r 2).setWidth 16))

/-- `compare_exchange_strong`, core_arch_ops_gcc_aarch64.hpp 605–652 (assembly block 628–642). 
Operands, in this order: [success] "=&r" (success); [storage] "+Q" (storage); [original] "=&r"
(original); [desired] "r" (desired); [expected] "r" (expected). -/
def compareExchangeStrong : Fn 64 16 (BitVec 16 × BitVec 16) (Integral.Ret 16) where
  block := {
    prog := [
      uxthw 4 4,                              -- uxth %w[expected], %w[expected]
      .label 1,                               -- 1:
      ldxrhw 2 1,                             -- ldxrh %w[original], %[storage]
      cmpw 2 4,                               -- cmp %w[original], %w[expected]
      bne 7 2 true,                           -- b.ne 2f
      stxrhw 0 3 1,                           -- stxrh %w[success], %w[desired], %[storage]
      cbnzw 0 1 1 false,                      -- cbnz %w[success], 1b
      .label 2,                               -- 2:
      cseteqw 0]                              -- cset %w[success], eq
    opnds := [(0, .outEarly), (1, .input), (2, .outEarly), (3, .input), (4, .input)]
    addr := [1]
    results := [2, 0] }
  args a x := (x 3).setWidth 16 = a.2 ∧ (x 4).setWidth 16 = a.1
  ret _ r := bool8 (r 0) (.cas · ((r 2).setWidth 16))

/-- `fetch_add`, core_arch_ops_gcc_aarch64.hpp 654–690 (assembly block 672–682).  Operands, in this
order: [tmp] "=&r" (tmp); [result] "=&r" (result); [storage] "+Q" (storage); [original] "=&r"
(original); [value] "Ir" (v). -/
def fetchAdd : Fn 64 16 (BitVec 16) (Integral.Ret 16) where
  block := {
    prog := [
      .label 1,                               -- 1:
      ldxrhw 3 2,                             -- ldxrh %w[original], %[storage]
      addw 1 3 4,                             -- add %w[result], %w[original], %w[value]
      stxrhw 0 1 2,                           -- stxrh %w[tmp], %w[result], %[storage]
      cbnzw 0 0 1 false]                      -- cbnz %w[tmp], 1b
    opnds := [(0, .outEarly), (1, .outEarly), (2, .input), (3, .outEarly), (4, .input)]
    addr := [2]
    results := [3] }
  args a x := (x 4).setWidth 16 = a
  ret _ r := .val ((r 3).setWidth 16)

/-- `fetch_sub`, core_arch_ops_gcc_aarch64.hpp 692–731 (assembly block 713–723).  Operands, in this
order: [tmp] "=&r" (tmp); [result] "=&r" (result); [storage] "+Q" (storage); [original] "=&r"
(original); [value] "Ir" (v). -/
def fetchSub : Fn 64 16 (BitVec 16) (Integral.Ret 16) where
  block := {
    prog := [
      .label 1,                               -- 1:
      ldxrhw 3 2,                             -- ldxrh %w[original], %[storage]
      subw 1 3 4,                             -- sub %w[result], %w[original], %w[value]
      stxrhw 0 1 2,                           -- stxrh %w[tmp], %w[result], %[storage]
      cbnzw 0 0 1 false]                      -- cbnz %w[tmp], 1b
    opnds := [(0, .outEarly), (1, .outEarly), (2, .input), (3, .outEarly), (4, .input)]
    addr := [2]
    results := [3] }
  args a x := (x 4).setWidth 16 = a
  ret _ r := .val ((r 3).setWidth 16)

/-- `fetch_and`, core_arch_ops_gcc_aarch64.hpp 733–771 (assembly block 753–763).  Operands, in this
order: [tmp] "=&r" (tmp); [result] "=&r" (result); [storage] "+Q" (storage); [original] "=&r"
(original); [value] "Kr" (v). -/
def fetchAnd : Fn 64 16 (BitVec 16) (Integral.Ret 16) where
  block := {
    prog := [
      .label 1,                               -- 1:
      ldxrhw 3 2,                             -- ldxrh %w[original], %[storage]
      andw 1 3 4,                             -- and %w[result], %w[original], %w[value]
      stxrhw 0 1 2,                           -- stxrh %w[tmp], %w[result], %[storage]
      cbnzw 0 0 1 false]                      -- cbnz %w[tmp], 1b
    opnds := [(0, .outEarly), (1, .outEarly), (2, .input), (3, .outEarly), (4, .input)]
    addr := [2]
    results := [3] }
  args a x := (x 4).setWidth 16 = a
  ret _ r := .val ((r 3).setWidth 16)

/-- `fetch_or`, core_arch_ops_gcc_aarch64.hpp 773–809 (assembly block 791–801).  Operands, in this
order: [tmp] "=&r" (tmp); [result] "=&r" (result); [storage] "+Q" (storage); [original] "=&r"
(original); [value] "Kr" (v). -/
def fetchOr : Fn 64 16 (BitVec 16) (Integral.Ret 16) where
  block := {
    prog := [
      .label 1,                               -- 1:
      ldxrhw 3 2,                             -- ldxrh %w[original], %[storage]
      orrw 1 3 4,                             -- orr %w[result], %w[original], %w[value]
      stxrhw 0 1 2,                           -- stxrh %w[tmp], %w[result], %[storage]
      cbnzw 0 0 1 false]                      -- cbnz %w[tmp], 1b
    opnds := [(0, .outEarly), (1, .outEarly), (2, .input), (3, .outEarly), (4, .input)]
    addr := [2]
    results := [3] }
  args a x := (x 4).setWidth 16 = a
  ret _ r := .val ((r 3).setWidth 16)

/-- `fetch_xor`, core_arch_ops_gcc_aarch64.hpp 811–847 (assembly block 829–839).  Operands, in this
order: [tmp] "=&r" (tmp); [result] "=&r" (result); [storage] "+Q" (storage); [original] "=&r"
(original); [value] "Kr" (v). -/
def fetchXor : Fn 64 16 (BitVec 16) (Integral.Ret 16) where
  block := {
    prog := [
      .label 1,                               -- 1:
      ldxrhw 3 2,                             -- ldxrh %w[original], %[storage]
      eorw 1 3 4,                             -- eor %w[result], %w[original], %w[value]
      stxrhw 0 1 2,                           -- stxrh %w[tmp], %w[result], %[storage]
      cbnzw 0 0 1 false]                      -- cbnz %w[tmp], 1b
    opnds := [(0, .outEarly), (1, .outEarly), (2, .input), (3, .outEarly), (4, .input)]
    addr := [2]
    results := [3] }
  args a x := (x 4).setWidth 16 = a
  ret _ r := .val ((r 3).setWidth 16)

/-- `fetch_negate`, extra_ops_gcc_aarch64.hpp 382–406 (assembly block 389–399).  Operands, in this
order: [tmp] "=&r" (tmp); [result] "=&r" (result); [storage] "+Q" (storage); [original] "=&r"
(original). -/
def fetchNegate : Fn 64 16 (Unit) (Integral.Ret 16) where
  block := {
    prog := [
      .label 1,                               -- 1:
      ldxrhw 3 2,                             -- ldxrh %w[original], %[storage]
      negw 1 3,                               -- neg %w[result], %w[original]
      stxrhw 0 1 2,                           -- stxrh %w[tmp], %w[result], %[storage]
      cbnzw 0 0 1 false]                      -- cbnz %w[tmp], 1b
    opnds := [(0, .outEarly), (1, .outEarly), (2, .input), (3, .outEarly)]
    addr := [2]
    results := [3] }
  args _ _ := True
  ret _ r := .val ((r 3).setWidth 16)

/-- `negate`, extra_ops_gcc_aarch64.hpp 408–432 (assembly block 415–425).  Operands, in this order:
[tmp] "=&r" (tmp); [storage] "+Q" (storage); [result] "=&r" (result). -/
def negate : Fn 64 16 (Unit) (Integral.Ret 16) where
  block := {
    prog := [
      .label 1,                               -- 1:
      ldxrhw 2 1,                             -- ldxrh %w[result], %[storage]
      negw 2 2,                               -- neg %w[result], %w[result]
      stxrhw 0 2 1,                           -- stxrh %w[tmp], %w[result], %[storage]
      cbnzw 0 0 1 false]                      -- cbnz %w[tmp], 1b
    opnds := [(0, .outEarly), (1, .input), (2, .outEarly)]
    addr := [1]
    results := [2] }
  args _ _ := True
  ret _ r := .val ((r 2).setWidth 16)

/-- `add`, extra_ops_gcc_aarch64.hpp 436–460 (assembly block 443–453).  Operands, in this order:
[tmp] "=&r" (tmp); [storage] "+Q" (storage); [result] "=&r" (result); [value] "Ir" (v). -/
def add_ : Fn 64 16 (BitVec 16) (Integral.Ret 16) where
  block := {
    prog := [
      .label 1,                               -- 1:
      ldxrhw 2 1,                             -- ldxrh %w[result], %[storage]
      addw 2 2 3,                             -- add %w[result], %w[result], %w[value]
      stxrhw 0 2 1,                           -- stxrh %w[tmp], %w[result], %[storage]
      cbnzw 0 0 1 false]                      -- cbnz %w[tmp], 1b
    opnds := [(0, .outEarly), (1, .input), (2, .outEarly), (3, .input)]
    addr := [1]
    results := [2] }
  args a x := (x 3).setWidth 16 = a
  ret _ r := .val ((r 2).setWidth 16)

/-- `sub`, extra_ops_gcc_aarch64.hpp 462–486 (assembly block 469–479).  Operands, in this order:
[tmp] "=&r" (tmp); [storage] "+Q" (storage); [result] "=&r" (result); [value] "Ir" (v). -/
def sub_ : Fn 64 16 (BitVec 16) (Integral.Ret 16) where
  block := {
    prog := [
      .label 1,                               -- 1:
      ldxrhw 2 1,                             -- ldxrh %w[result], %[storage]
      subw 2 2 3,                             -- sub %w[result], %w[result], %w[value]
      stxrhw 0 2 1,                           -- stxrh %w[tmp], %w[result], %[storage]
      cbnzw 0 0 1 false]                      -- cbnz %w[tmp], 1b
    opnds := [(0, .outEarly), (1, .input), (2, .outEarly), (3, .input)]
    addr := [1]
    results := [2] }
  args a x := (x 3).setWidth 16 = a
  ret _ r := .val ((r 2).setWidth 16)

/-- `bitwise_and`, extra_ops_gcc_aarch64.hpp 488–512 (assembly block 495–505).  Operands, in this
order: [tmp] "=&r" (tmp); [storage] "+Q" (storage); [result] "=&r" (result); [value] "Kr" (v). -/
def bitwiseAnd : Fn 64 16 (BitVec 16) (Integral.Ret 16) where
  block := {
    prog := [
      .label 1,                               -- 1:
      ldxrhw 2 1,                             -- ldxrh %w[result], %[storage]
      andw 2 2 3,                             -- and %w[result], %w[result], %w[value]
      stxrhw 0 2 1,                           -- stxrh %w[tmp], %w[result], %[storage]
      cbnzw 0 0 1 false]                      -- cbnz %w[tmp], 1b
    opnds := [(0, .outEarly), (1, .input), (2, .outEarly), (3, .input)]
    addr := [1]
    results := [2] }
  args a x := (x 3).setWidth 16 = a
  ret _ r := .val ((r 2).setWidth 16)

/-- `bitwise_or`, extra_ops_gcc_aarch64.hpp 514–538 (assembly block 521–531).  Operands, in this
order: [tmp] "=&r" (tmp); [storage] "+Q" (storage); [result] "=&r" (result); [value] "Kr" (v). -/
def bitwiseOr : Fn 64 16 (BitVec 16) (Integral.Ret 16) where
  block := {
    prog := [
      .label 1,                               -- 1:
      ldxrhw 2 1,                             -- ldxrh %w[result], %[storage]
      orrw 2 2 3,                             -- orr %w[result], %w[result], %w[value]
      stxrhw 0 2 1,                           -- stxrh %w[tmp], %w[result], %[storage]
      cbnzw 0 0 1 false]                      -- cbnz %w[tmp], 1b
    opnds := [(0, .outEarly), (1, .input), (2, .outEarly), (3, .input)]
    addr := [1]
    results := [2] }
  args a x := (x 3).setWidth 16 = a
  ret _ r := .val ((r 2).setWidth 16)

/-- `bitwise_xor`, extra_ops_gcc_aarch64.hpp 540–564 (assembly block 547–557).  Operands, in this
order: [tmp] "=&r" (tmp); [storage] "+Q" (storage); [result] "=&r" (result); [value] "Kr" (v). -/
def bitwiseXor : Fn 64 16 (BitVec 16) (Integral.Ret 16) where
  block := {
    prog := [
      .label 1,                               -- 1:
      ldxrhw 2 1,                             -- ldxrh %w[result], %[storage]
      eorw 2 2 3,                             -- eor %w[result], %w[result], %w[value]
      stxrhw 0 2 1,                           -- stxrh %w[tmp], %w[result], %[storage]
      cbnzw 0 0 1 false]                      -- cbnz %w[tmp], 1b
    opnds := [(0, .outEarly), (1, .input), (2, .outEarly), (3, .input)]
    addr := [1]
    results := [2] }
  args a x := (x 3).setWidth 16 = a
  ret _ r := .val ((r 2).setWidth 16)

/-- `fetch_complement`, extra_ops_gcc_aarch64.hpp 566–590 (assembly block 573–583).  Operands, in
this order: [tmp] "=&r" (tmp); [result] "=&r" (result); [storage] "+Q" (storage); [original] "=&r"
(original). -/
def fetchComplement : Fn 64 16 (Unit) (Integral.Ret 16) where
  block := {
    prog := [
      .label 1,                               -- 1:
      ldxrhw 3 2,                             -- ldxrh %w[original], %[storage]
      mvnw 1 3,                               -- mvn %w[result], %w[original]
      stxrhw 0 1 2,                           -- stxrh %w[tmp], %w[result], %[storage]
      cbnzw 0 0 1 false]                      -- cbnz %w[tmp], 1b
    opnds := [(0, .outEarly), (1, .outEarly), (2, .input), (3, .outEarly)]
    addr := [2]
    results := [3] }
  args _ _ := True
  ret _ r := .val ((r 3).setWidth 16)

/-- `bitwise_complement`, extra_ops_gcc_aarch64.hpp 592–616 (assembly block 599–609).  Operands, in
this order: [tmp] "=&r" (tmp); [storage] "+Q" (storage); [result] "=&r" (result). -/
def bitwiseComplement : Fn 64 16 (Unit) (Integral.Ret 16) where
  block := {
    prog := [
      .label 1,                               -- 1:
      ldxrhw 2 1,                             -- ldxrh %w[result], %[storage]
      mvnw 2 2,                               -- mvn %w[result], %w[result]
      stxrhw 0 2 1,                           -- stxrh %w[tmp], %w[result], %[storage]
      cbnzw 0 0 1 false]                      -- cbnz %w[tmp], 1b
    opnds := [(0, .outEarly), (1, .input), (2, .outEarly)]
    addr := [1]
    results := [2] }
  args _ _ := True
  ret _ r := .val ((r 2).setWidth 16)

end A64x2

namespace A64Lse2
open A64

/-- `load`, core_arch_ops_gcc_aarch64.hpp 484–519 (assembly block 492–498, with the extensions LSE
and RCPC).  Operands, in this order: [value] "=r" (v); [storage] "Q" (storage). -/
def load_1 : Fn 64 16 (Unit) (Integral.Ret 16) where
  block := {
    prog := [
      ldarhw 0 1]                             -- ldaprh %w[value], %[storage]
    opnds := [(0, .out), (1, .input)]
    addr := [1]
    results := [0] }
  args _ _ := True
  ret _ r := .val ((r 0).setWidth 16)

/-- `load`, core_arch_ops_gcc_aarch64.hpp 484–519 (assembly block 503–509, with the extensions LSE
and RCPC).  Operands, in this order: [value] "=r" (v); [storage] "Q" (storage). -/
def load_2 : Fn 64 16 (Unit) (Integral.Ret 16) where
  block := {
    prog := [
      ldarhw 0 1]                             -- ldarh %w[value], %[storage]
    opnds := [(0, .out), (1, .input)]
    addr := [1]
    results := [0] }
  args _ _ := True
  ret _ r := .val ((r 0).setWidth 16)

/-- `exchange`, core_arch_ops_gcc_aarch64.hpp 521–555 (assembly block 527–533, with the extensions
LSE and RCPC).  Operands, in this order: [storage] "+Q" (storage); [original] "=r" (original);
[value] "r" (v). -/
def exchange : Fn 64 16 (BitVec 16) (Integral.Ret 16) where
  block := {
    prog := [
      swp (M := 16) 2 1 0]                    -- swph %w[value], %w[original], %[storage]
    opnds := [(0, .input), (1, .out), (2, .input)]
    addr := [0]
    results := [1] }
  args a x := (x 2).setWidth 16 = a
  ret _ r := .val ((r 1).setWidth 16)

/-- `compare_exchange_weak`, core_arch_ops_gcc_aarch64.hpp 557–603 (assembly block 566–572, with the
extensions LSE and RCPC).  Operands, in this order: [storage] "+Q" (storage); [original] "+r"
(original); [desired] "r" (desired). -/
def compareExchangeWeak : Fn 64 16 (BitVec 16 × BitVec 16) (Integral.Ret 16) where
  block := {
    prog := [
      cas (M := 16) 1 2 0]                    -- cash %w[original], %w[desired], %[storage]
    opnds := [(0, .input), (1, .inout), (2, .input)]
    addr := [0]
    results := [1] }
  args a x := (x 1).setWidth 16 = a.1 ∧ (x 2).setWidth 16 = a.2
  ret a r := .cas (decide ((r 1).setWidth 16 = a.1)) ((r 1).setWidth 16)

/-- `compare_exchange_strong`, core_arch_ops_gcc_aarch64.hpp 605–652 (assembly block 614–620, with
the extensions LSE and RCPC).  Operands, in this order: [storage] "+Q" (storage); [original] "+r"
(original); [desired] "r" (desired). -/
def compareExchangeStrong : Fn 64 16 (BitVec 16 × BitVec 16) (Integral.Ret 16) where
  block := {
    prog := [
      cas (M := 16) 1 2 0]                    -- cash %w[original], %w[desired], %[storage]
    opnds := [(0, .input), (1, .inout), (2, .input)]
    addr := [0]
    results := [1] }
  args a x := (x 1).setWidth 16 = a.1 ∧ (x 2).setWidth 16 = a.2
  ret a r := .cas (decide ((r 1).setWidth 16 = a.1)) ((r 1).setWidth 16)

/-- `fetch_add`, core_arch_ops_gcc_aarch64.hpp 654–690 (assembly block 660–666, with the extensions
LSE and RCPC).  Operands, in this order: [storage] "+Q" (storage); [original] "=r" (original);
[value] "r" (v). -/
def fetchAdd : Fn 64 16 (BitVec 16) (Integral.Ret 16) where
  block := {
    prog := [
      ldadd (M := 16) 2 1 0]                  -- ldaddh %w[value], %w[original], %[storage]
    opnds := [(0, .input), (1, .out), (2, .input)]
    addr := [0]
    results := [1] }
  args a x := (x 2).setWidth 16 = a
  ret _ r := .val ((r 1).setWidth 16)

/-- `fetch_sub`, core_arch_ops_gcc_aarch64.hpp 692–731 (assembly block 700–706, with the extensions
LSE and RCPC).  Operands, in this order: [storage] "+Q" (storage); [original] "=r" (original);
[value] "r" (v). -/
def fetchSub : Fn 64 16 (BitVec 16) (Integral.Ret 16) where
  block := {
    prog := [
      ldadd (M := 16) 2 1 0]                  -- ldaddh %w[value], %w[original], %[storage]
    opnds := [(0, .input), (1, .out), (2, .input)]
    addr := [0]
    results := [1] }
  args a x := (x 2).setWidth 16 = -a
  ret _ r := .val ((r 1).setWidth 16)

/-- `fetch_and`, core_arch_ops_gcc_aarch64.hpp 733–771 (assembly block 741–747, with the extensions
LSE and RCPC).  Operands, in this order: [storage] "+Q" (storage); [original] "=r" (original);
[value] "r" (v). -/
def fetchAnd : Fn 64 16 (BitVec 16) (Integral.Ret 16) where
  block := {
    prog := [
      ldclr (M := 16) 2 1 0]                  -- ldclrh %w[value], %w[original], %[storage]
    opnds := [(0, .input), (1, .out), (2, .input)]
    addr := [0]
    results := [1] }
  args a x := (x 2).setWidth 16 = ~~~ a
  ret _ r := .val ((r 1).setWidth 16)

/-- `fetch_or`, core_arch_ops_gcc_aarch64.hpp 773–809 (assembly block 779–785, with the extensions
LSE and RCPC).  Operands, in this order: [storage] "+Q" (storage); [original] "=r" (original);
[value] "r" (v). -/
def fetchOr : Fn 64 16 (BitVec 16) (Integral.Ret 16) where
  block := {
    prog := [
      ldset (M := 16) 2 1 0]                  -- ldseth %w[value], %w[original], %[storage]
    opnds := [(0, .input), (1, .out), (2, .input)]
    addr := [0]
    results := [1] }
  args a x := (x 2).setWidth 16 = a
  ret _ r := .val ((r 1).setWidth 16)

/-- `fetch_xor`, core_arch_ops_gcc_aarch64.hpp 811–847 (assembly block 817–823, with the extensions
LSE and RCPC).  Operands, in this order: [storage] "+Q" (storage); [original] "=r" (original);
[value] "r" (v). -/
def fetchXor : Fn 64 16 (BitVec 16) (Integral.Ret 16) where
  block := {
    prog := [
      ldeor (M := 16) 2 1 0]                  -- ldeorh %w[value], %w[original], %[storage]
    opnds := [(0, .input), (1, .out), (2, .input)]
    addr := [0]
    results := [1] }
  args a x := (x 2).setWidth 16 = a
  ret _ r := .val ((r 1).setWidth 16)

end A64Lse2

namespace A64x4
open A64

/-- `store`, core_arch_ops_gcc_aarch64.hpp 871–888 (assembly block 876–882).  Operands, in this
order: [storage] "=Q" (storage); [value] "r" (v). -/
def store_ : Fn 64 32 (BitVec 32) (Integral.Ret 32) where
  block := {
    prog := [
      stlrw 1 0]                              -- stlr %w[value], %[storage]
    opnds := [(0, .input), (1, .input)]
    addr := [0]
    results := [] }
  args a x := (x 1).setWidth 32 = a
  ret _ _ := .unit

/-- `load`, core_arch_ops_gcc_aarch64.hpp 890–925 (assembly block 909–915).  Operands, in this
order: [value] "=r" (v); [storage] "Q" (storage). -/
def load_ : Fn 64 32 (Unit) (Integral.Ret 32) where
  block := {
    prog := [
      ldarw 0 1]                              -- ldar %w[value], %[storage]
    opnds := [(0, .out), (1, .input)]
    addr := [1]
    results := [0] }
  args _ _ := True
  ret _ r := .val ((r 0).setWidth 32)

/-- `exchange`, core_arch_ops_gcc_aarch64.hpp 927–961 (assembly block 944–953).  Operands, in this
order: [tmp] "=&r" (tmp); [storage] "+Q" (storage); [original] "=&r" (original); [value] "r" (v). -/
def exchange : Fn 64 32 (BitVec 32) (Integral.Ret 32) where
  block := {
    prog := [
      .label 1,                               -- 1:
      ldxrw 2 1,                              -- ldxr %w[original], %[storage]
      stxrw 0 3 1,                            -- stxr %w[tmp], %w[value], %[storage]
      cbnzw 0 0 1 false]                      -- cbnz %w[tmp], 1b
    opnds := [(0, .outEarly), (1, .input), (2, .outEarly), (3, .input)]
    addr := [1]
    results := [2] }
  args a x := (x 3).setWidth 32 = a
  ret _ r := .val ((r 2).setWidth 32)

/-- `compare_exchange_weak`, core_arch_ops_gcc_aarch64.hpp 963–1008 (assembly block 986–998). 
Operands, in this order: [success] "=&r" (success); [storage] "+Q" (storage); [original] "=&r"
(original); [desired] "r" (desired); [expected] "Ir" (expected). -/
def compareExchangeWeak : Fn 64 32 (BitVec 32 × BitVec 32) (Integral.Ret 32) where
  block := {
    prog := [
      movwI 0 0,                              -- mov %w[success], #0
      ldxrw 2 1,                              -- ldxr %w[original], %[storage]
      cmpw 2 4,                               -- cmp %w[original], %w[expected]
      bne 6 1 true,                           -- b.ne 1f
      stxrw 0 3 1,                            -- stxr %w[success], %w[desired], %[storage]
      eorwI 0 0 1,                            -- eor %w[success], %w[success], #1
      .label 1]                               -- 1:
    opnds := [(0, .outEarly), (1, .input), (2, .outEarly), (3, .input), (4, .input)]
    addr := [1]
    results := [2, 0] }
  args a x := (x 3).setWidth 32 = a.2 ∧ (x 4).setWidth 32 = a.1
  ret _ r := bool8 (r 0) (.cas · ((r 2).setWidth 32))

/-- `compare_exchange_strong`, core_arch_ops_gcc_aarch64.hpp 1010–1056 (assembly block 1033–1046). 
Operands, in this order: [success] "=&r" (success); [storage] "+Q" (storage); [original] "=&r"
(original); [desired] "r" (desired); [expected] "Ir" (expected). -/
def compareExchangeStrong : Fn 64 32 (BitVec 32 × BitVec 32) (Integral.Ret 32) where
  block := {
    prog := [
      .label 1,                               -- 1:
      ldxrw 2 1,                              -- ldxr %w[original], %[storage]
      cmpw 2 4,                               -- cmp %w[original], %w[expected]
      bne 6 2 true,                           -- b.ne 2f
      stxrw 0 3 1,                            -- stxr %w[success], %w[desired], %[storage]
      cbnzw 0 0 1 false,                      -- cbnz %w[success], 1b
      .label 2,                               -- 2:
      cseteqw 0]                              -- cset %w[success], eq
    opnds := [(0, .outEarly), (1, .input), (2, .outEarly), (3, .input), (4, .input)]
    addr := [1]
    results := [2, 0] }
  args a x := (x 3).setWidth 32 = a.2 ∧ (x 4).setWidth 32 = a.1
  ret _ r := bool8 (r 0) (.cas · ((r 2).setWidth 32))

/-- `fetch_add`, core_arch_ops_gcc_aarch64.hpp 1058–1094 (assembly block 1076–1086).  Operands, in
this order: [tmp] "=&r" (tmp); [result] "=&r" (result); [storage] "+Q" (storage); [original] "=&r"
(original); [value] "Ir" (v). -/
def fetchAdd : Fn 64 32 (BitVec 32) (Integral.Ret 32) where
  block := {
    prog := [
      .label 1,                               -- 1:
      ldxrw 3 2,                              -- ldxr %w[original], %[storage]
      addw 1 3 4,                             -- add %w[result], %w[original], %w[value]
      stxrw 0 1 2,                            -- stxr %w[tmp], %w[result], %[storage]
      cbnzw 0 0 1 false]                      -- cbnz %w[tmp], 1b
    opnds := [(0, .outEarly), (1, .outEarly), (2, .input), (3, .outEarly), (4, .input)]
    addr := [2]
    results := [3] }
  args a x := (x 4).setWidth 32 = a
  ret _ r := .val ((r 3).setWidth 32)

/-- `fetch_sub`, core_arch_ops_gcc_aarch64.hpp 1096–1135 (assembly block 1117–1127).  Operands, in
this order: [tmp] "=&r" (tmp); [result] "=&r" (result); [storage] "+Q" (storage); [original] "=&r"
(original); [value] "Ir" (v). -/
def fetchSub : Fn 64 32 (BitVec 32) (Integral.Ret 32) where
  block := {
    prog := [
      .label 1,                               -- 1:
      ldxrw 3 2,                              -- ldxr %w[original], %[storage]
      subw 1 3 4,                             -- sub %w[result], %w[original], %w[value]
      stxrw 0 1 2,                            -- stxr %w[tmp], %w[result], %[storage]
      cbnzw 0 0 1 false]                      -- cbnz %w[tmp], 1b
    opnds := [(0, .outEarly), (1, .outEarly), (2, .input), (3, .outEarly), (4, .input)]
    addr := [2]
    results := [3] }
  args a x := (x 4).setWidth 32 = a
  ret _ r := .val ((r 3).setWidth 32)

/-- `fetch_and`, core_arch_ops_gcc_aarch64.hpp 1137–1175 (assembly block 1157–1167).  Operands, in
this order: [tmp] "=&r" (tmp); [result] "=&r" (result); [storage] "+Q" (storage); [original] "=&r"
(original); [value] "Kr" (v). -/
def fetchAnd : Fn 64 32 (BitVec 32) (Integral.Ret 32) where
  block := {
    prog := [
      .label 1,                               -- 1:
      ldxrw 3 2,                              -- ldxr %w[original], %[storage]
      andw 1 3 4,                             -- and %w[result], %w[original], %w[value]
      stxrw 0 1 2,                            -- stxr %w[tmp], %w[result], %[storage]
      cbnzw 0 0 1 false]                      -- cbnz %w[tmp], 1b
    opnds := [(0, .outEarly), (1, .outEarly), (2, .input), (3, .outEarly), (4, .input)]
    addr := [2]
    results := [3] }
  args a x := (x 4).setWidth 32 = a
  ret _ r := .val ((r 3).setWidth 32)

/-- `fetch_or`, core_arch_ops_gcc_aarch64.hpp 1177–1213 (assembly block 1195–1205).  Operands, in
this order: [tmp] "=&r" (tmp); [result] "=&r" (result); [storage] "+Q" (storage); [original] "=&r"
(original); [value] "Kr" (v). -/
def fetchOr : Fn 64 32 (BitVec 32) (Integral.Ret 32) where
  block := {
    prog := [
      .label 1,                               -- 1:
      ldxrw 3 2,                              -- ldxr %w[original], %[storage]
      orrw 1 3 4,                             -- orr %w[result], %w[original], %w[value]
      stxrw 0 1 2,                            -- stxr %w[tmp], %w[result], %[storage]
      cbnzw 0 0 1 false]                      -- cbnz %w[tmp], 1b
    opnds := [(0, .outEarly), (1, .outEarly), (2, .input), (3, .outEarly), (4, .input)]
    addr := [2]
    results := [3] }
  args a x := (x 4).setWidth 32 = a
  ret _ r := .val ((r 3).setWidth 32)

/-- `fetch_xor`, core_arch_ops_gcc_aarch64.hpp 1215–1251 (assembly block 1233–1243).  Operands, in
this order: [tmp] "=&r" (tmp); [result] "=&r" (result); [storage] "+Q" (storage); [original] "=&r"
(original); [value] "Kr" (v). -/
def fetchXor : Fn 64 32 (BitVec 32) (Integral.Ret 32) where
  block := {
    prog := [
      .label 1,                               -- 1:
      ldxrw 3 2,                              -- ldxr %w[original], %[storage]
      eorw 1 3 4,                             -- eor %w[result], %w[original], %w[value]
      stxrw 0 1 2,                            -- stxr %w[tmp], %w[result], %[storage]
      cbnzw 0 0 1 false]                      -- cbnz %w[tmp], 1b
    opnds := [(0, .outEarly), (1, .outEarly), (2, .input), (3, .outEarly), (4, .input)]
    addr := [2]
    results := [3] }
  args a x := (x 4).setWidth 32 = a
  ret _ r := .val ((r 3).setWidth 32)

/-- `fetch_negate`, extra_ops_gcc_aarch64.hpp 635–659 (assembly block 642–652).  Operands, in this
order: [tmp] "=&r" (tmp); [result] "=&r" (result); [storage] "+Q" (storage); [original] "=&r"
(original). -/
def fetchNegate : Fn 64 32 (Unit) (Integral.Ret 32) where
  block := {
    prog := [
      .label 1,                               -- 1:
      ldxrw 3 2,                              -- ldxr %w[original], %[storage]
      negw 1 3,                               -- neg %w[result], %w[original]
      stxrw 0 1 2,                            -- stxr %w[tmp], %w[result], %[storage]
      cbnzw 0 0 1 false]                      -- cbnz %w[tmp], 1b
    opnds := [(0, .outEarly), (1, .outEarly), (2, .input), (3, .outEarly)]
    addr := [2]
    results := [3] }
  args _ _ := True
  ret _ r := .val ((r 3).setWidth 32)

/-- `negate`, extra_ops_gcc_aarch64.hpp 661–685 (assembly block 668–678).  Operands, in this order:
[tmp] "=&r" (tmp); [storage] "+Q" (storage); [result] "=&r" (result). -/
def negate : Fn 64 32 (Unit) (Integral.Ret 32) where
  block := {
    prog := [
      .label 1,                               -- 1:
      ldxrw 2 1,                              -- ldxr %w[result], %[storage]
      negw 2 2,                               -- neg %w[result], %w[result]
      stxrw 0 2 1,                            -- stxr %w[tmp], %w[result], %[storage]
      cbnzw 0 0 1 false]                      -- cbnz %w[tmp], 1b
    opnds := [(0, .outEarly), (1, .input), (2, .outEarly)]
    addr := [1]
    results := [2] }
  args _ _ := True
  ret _ r := .val ((r 2).setWidth 32)

/-- `add`, extra_ops_gcc_aarch64.hpp 689–713 (assembly block 696–706).  Operands, in this order:
[tmp] "=&r" (tmp); [storage] "+Q" (storage); [result] "=&r" (result); [value] "Ir" (v). -/
def add_ : Fn 64 32 (BitVec 32) (Integral.Ret 32) where
  block := {
    prog := [
      .label 1,                               -- 1:
      ldxrw 2 1,                              -- ldxr %w[result], %[storage]
      addw 2 2 3,                             -- add %w[result], %w[result], %w[value]
      stxrw 0 2 1,                            -- stxr %w[tmp], %w[result], %[storage]
      cbnzw 0 0 1 false]                      -- cbnz %w[tmp], 1b
    opnds := [(0, .outEarly), (1, .input), (2, .outEarly), (3, .input)]
    addr := [1]
    results := [2] }
  args a x := (x 3).setWidth 32 = a
  ret _ r := .val ((r 2).setWidth 32)

/-- `sub`, extra_ops_gcc_aarch64.hpp 715–739 (assembly block 722–732).  Operands, in this order:
[tmp] "=&r" (tmp); [storage] "+Q" (storage); [result] "=&r" (result); [value] "Ir" (v). -/
def sub_ : Fn 64 32 (BitVec 32) (Integral.Ret 32) where
  block := {
    prog := [
      .label 1,                               -- 1:
      ldxrw 2 1,                              -- ldxr %w[result], %[storage]
      subw 2 2 3,                             -- sub %w[result], %w[result], %w[value]
      stxrw 0 2 1,                            -- stxr %w[tmp], %w[result], %[storage]
      cbnzw 0 0 1 false]                      -- cbnz %w[tmp], 1b
    opnds := [(0, .outEarly), (1, .input), (2, .outEarly), (3, .input)]
    addr := [1]
    results := [2] }
  args a x := (x 3).setWidth 32 = a
  ret _ r := .val ((r 2).setWidth 32)

/-- `bitwise_and`, extra_ops_gcc_aarch64.hpp 741–765 (assembly block 748–758).  Operands, in this
order: [tmp] "=&r" (tmp); [storage] "+Q" (storage); [result] "=&r" (result); [value] "Kr" (v). -/
def bitwiseAnd : Fn 64 32 (BitVec 32) (Integral.Ret 32) where
  block := {
    prog := [
      .label 1,                               -- 1:
      ldxrw 2 1,                              -- ldxr %w[result], %[storage]
      andw 2 2 3,                             -- and %w[result], %w[result], %w[value]
      stxrw 0 2 1,                            -- stxr %w[tmp], %w[result], %[storage]
      cbnzw 0 0 1 false]                      -- cbnz %w[tmp], 1b
    opnds := [(0, .outEarly), (1, .input), (2, .outEarly), (3, .input)]
    addr := [1]
    results := [2] }
  args a x := (x 3).setWidth 32 = a
  ret _ r := .val ((r 2).setWidth 32)

/-- `bitwise_or`, extra_ops_gcc_aarch64.hpp 767–791 (assembly block 774–784).  Operands, in this
order: [tmp] "=&r" (tmp); [storage] "+Q" (storage); [result] "=&r" (result); [value] "Kr" (v). -/
def bitwiseOr : Fn 64 32 (BitVec 32) (Integral.Ret 32) where
  block := {
    prog := [
      .label 1,                               -- 1:
      ldxrw 2 1,                              -- ldxr %w[result], %[storage]
      orrw 2 2 3,                             -- orr %w[result], %w[result], %w[value]
      stxrw 0 2 1,                            -- stxr %w[tmp], %w[result], %[storage]
      cbnzw 0 0 1 false]                      -- cbnz %w[tmp], 1b
    opnds := [(0, .outEarly), (1, .input), (2, .outEarly), (3, .input)]
    addr := [1]
    results := [2] }
  args a x := (x 3).setWidth 32 = a
  ret _ r := .val ((r 2).setWidth 32)

/-- `bitwise_xor`, extra_ops_gcc_aarch64.hpp 793–817 (assembly block 800–810).  Operands, in this
order: [tmp] "=&r" (tmp); [storage] "+Q" (storage); [result] "=&r" (result); [value] "Kr" (v). -/
def bitwiseXor : Fn 64 32 (BitVec 32) (Integral.Ret 32) where
  block := {
    prog := [
      .label 1,                               -- 1:
      ldxrw 2 1,                              -- ldxr %w[result], %[storage]
      eorw 2 2 3,                             -- eor %w[result], %w[result], %w[value]
      stxrw 0 2 1,                            -- stxr %w[tmp], %w[result], %[storage]
      cbnzw 0 0 1 false]                      -- cbnz %w[tmp], 1b
    opnds := [(0, .outEarly), (1, .input), (2, .outEarly), (3, .input)]
    addr := [1]
    results := [2] }
  args a x := (x 3).setWidth 32 = a
  ret _ r := .val ((r 2).setWidth 32)

/-- `fetch_complement`, extra_ops_gcc_aarch64.hpp 819–843 (assembly block 826–836).  Operands, in
this order: [tmp] "=&r" (tmp); [result] "=&r" (result); [storage] "+Q" (storage); [original] "=&r"
(original). -/
def fetchComplement : Fn 64 32 (Unit) (Integral.Ret 32) where
  block := {
    prog := [
      .label 1,                               -- 1:
      ldxrw 3 2,                              -- ldxr %w[original], %[storage]
      mvnw 1 3,                               -- mvn %w[result], %w[original]
      stxrw 0 1 2,                            -- stxr %w[tmp], %w[result], %[storage]
      cbnzw 0 0 1 false]                      -- cbnz %w[tmp], 1b
    opnds := [(0, .outEarly), (1, .outEarly), (2, .input), (3, .outEarly)]
    addr := [2]
    results := [3] }
  args _ _ := True
  ret _ r := .val ((r 3).setWidth 32)

/-- `bitwise_complement`, extra_ops_gcc_aarch64.hpp 845–869 (assembly block 852–862).  Operands, in
this order: [tmp] "=&r" (tmp); [storage] "+Q" (storage); [result] "=&r" (result). -/
def bitwiseComplement : Fn 64 32 (Unit) (Integral.Ret 32) where
  block := {
    prog := [
      .label 1,                               -- 1:
      ldxrw 2 1,                              -- ldxr %w[result], %[storage]
      mvnw 2 2,                               -- mvn %w[result], %w[result]
      stxrw 0 2 1,                            -- stxr %w[tmp], %w[result], %[storage]
      cbnzw 0 0 1 false]                      -- cbnz %w[tmp], 1b
    opnds := [(0, .outEarly), (1, .input), (2, .outEarly)]
    addr := [1]
    results := [2] }
  args _ _ := True
  ret _ r := .val ((r 2).setWidth 32)

end A64x4

namespace A64Lse4
open A64

/-- `load`, core_arch_ops_gcc_aarch64.hpp 890–925 (assembly block 898–904, with the extensions LSE
and RCPC).  Operands, in this order: [value] "=r" (v); [storage] "Q" (storage). -/
def load_1 : Fn 64 32 (Unit) (Integral.Ret 32) where
  block := {
    prog := [
      ldarw 0 1]                              -- ldapr %w[value], %[storage]
    opnds := [(0, .out), (1, .input)]
    addr := [1]
    results := [0] }
  args _ _ := True
  ret _ r := .val ((r 0).setWidth 32)

/-- `load`, core_arch_ops_gcc_aarch64.hpp 890–925 (assembly block 909–915, with the extensions LSE
and RCPC).  Operands, in this order: [value] "=r" (v); [storage] "Q" (storage). -/
def load_2 : Fn 64 32 (Unit) (Integral.Ret 32) where
  block := {
    prog := [
      ldarw 0 1]                              -- ldar %w[value], %[storage]
    opnds := [(0, .out), (1, .input)]
    addr := [1]
    results := [0] }
  args _ _ := True
  ret _ r := .val ((r 0).setWidth 32)

/-- `exchange`, core_arch_ops_gcc_aarch64.hpp 927–961 (assembly block 933–939, with the extensions
LSE and RCPC).  Operands, in this order: [storage] "+Q" (storage); [original] "=r" (original);
[value] "r" (v). -/
def exchange : Fn 64 32 (BitVec 32) (Integral.Ret 32) where
  block := {
    prog := [
      swp (M := 32) 2 1 0]                    -- swp %w[value], %w[original], %[storage]
    opnds := [(0, .input), (1, .out), (2, .input)]
    addr := [0]
    results := [1] }
  args a x := (x 2).setWidth 32 = a
  ret _ r := .val ((r 1).setWidth 32)

/-- `compare_exchange_weak`, core_arch_ops_gcc_aarch64.hpp 963–1008 (assembly block 972–978, with
the extensions LSE and RCPC).  Operands, in this order: [storage] "+Q" (storage); [original] "+r"
(original); [desired] "r" (desired). -/
def compareExchangeWeak : Fn 64 32 (BitVec 32 × BitVec 32) (Integral.Ret 32) where
  block := {
    prog := [
      cas (M := 32) 1 2 0]                    -- cas %w[original], %w[desired], %[storage]
    opnds := [(0, .input), (1, .inout), (2, .input)]
    addr := [0]
    results := [1] }
  args a x := (x 1).setWidth 32 = a.1 ∧ (x 2).setWidth 32 = a.2
  ret a r := .cas (decide ((r 1).setWidth 32 = a.1)) ((r 1).setWidth 32)

/-- `compare_exchange_strong`, core_arch_ops_gcc_aarch64.hpp 1010–1056 (assembly block 1019–1025,
with the extensions LSE and RCPC).  Operands, in this order: [storage] "+Q" (storage); [original]
"+r" (original); [desired] "r" (desired). -/
def compareExchangeStrong : Fn 64 32 (BitVec 32 × BitVec 32) (Integral.Ret 32) where
  block := {
    prog := [
      cas (M := 32) 1 2 0]                    -- cas %w[original], %w[desired], %[storage]
    opnds := [(0, .input), (1, .inout), (2, .input)]
    addr := [0]
    results := [1] }
  args a x := (x 1).setWidth 32 = a.1 ∧ (x 2).setWidth 32 = a.2
  ret a r := .cas (decide ((r 1).setWidth 32 = a.1)) ((r 1).setWidth 32)

/-- `fetch_add`, core_arch_ops_gcc_aarch64.hpp 1058–1094 (assembly block 1064–1070, with the
extensions LSE and RCPC).  Operands, in this order: [storage] "+Q" (storage); [original] "=r"
(original); [value] "r" (v). -/
def fetchAdd : Fn 64 32 (BitVec 32) (Integral.Ret 32) where
  block := {
    prog := [
      ldadd (M := 32) 2 1 0]                  -- ldadd %w[value], %w[original], %[storage]
    opnds := [(0, .input), (1, .out), (2, .input)]
    addr := [0]
    results := [1] }
  args a x := (x 2).setWidth 32 = a
  ret _ r := .val ((r 1).setWidth 32)

/-- `fetch_sub`, core_arch_ops_gcc_aarch64.hpp 1096–1135 (assembly block 1104–1110, with the
extensions LSE and RCPC).  Operands, in this order: [storage] "+Q" (storage); [original] "=r"
(original); [value] "r" (v). -/
def fetchSub : Fn 64 32 (BitVec 32) (Integral.Ret 32) where
  block := {
    prog := [
      ldadd (M := 32) 2 1 0]                  -- ldadd %w[value], %w[original], %[storage]
    opnds := [(0, .input), (1, .out), (2, .input)]
    addr := [0]
    results := [1] }
  args a x := (x 2).setWidth 32 = -a
  ret _ r := .val ((r 1).setWidth 32)

/-- `fetch_and`, core_arch_ops_gcc_aarch64.hpp 1137–1175 (assembly block 1145–1151, with the
extensions LSE and RCPC).  Operands, in this order: [storage] "+Q" (storage); [original] "=r"
(original); [value] "r" (v). -/
def fetchAnd : Fn 64 32 (BitVec 32) (Integral.Ret 32) where
  block := {
    prog := [
      ldclr (M := 32) 2 1 0]                  -- ldclr %w[value], %w[original], %[storage]
    opnds := [(0, .input), (1, .out), (2, .input)]
    addr := [0]
    results := [1] }
  args a x := (x 2).setWidth 32 = ~~~ a
  ret _ r := .val ((r 1).setWidth 32)

/-- `fetch_or`, core_arch_ops_gcc_aarch64.hpp 1177–1213 (assembly block 1183–1189, with the
extensions LSE and RCPC).  Operands, in this order: [storage] "+Q" (storage); [original] "=r"
(original); [value] "r" (v). -/
def fetchOr : Fn 64 32 (BitVec 32) (Integral.Ret 32) where
  block := {
    prog := [
      ldset (M := 32) 2 1 0]                  -- ldset %w[value], %w[original], %[storage]
    opnds := [(0, .input), (1, .out), (2, .input)]
    addr := [0]
    results := [1] }
  args a x := (x 2).setWidth 32 = a
  ret _ r := .val ((r 1).setWidth 32)

/-- `fetch_xor`, core_arch_ops_gcc_aarch64.hpp 1215–1251 (assembly block 1221–1227, with the
extensions LSE and RCPC).  Operands, in this order: [storage] "+Q" (storage); [original] "=r"
(original); [value] "r" (v). -/
def fetchXor : Fn 64 32 (BitVec 32) (Integral.Ret 32) where
  block := {
    prog := [
      ldeor (M := 32) 2 1 0]                  -- ldeor %w[value], %w[original], %[storage]
    opnds := [(0, .input), (1, .out), (2, .input)]
    addr := [0]
    results := [1] }
  args a x := (x 2).setWidth 32 = a
  ret _ r := .val ((r 1).setWidth 32)

end A64Lse4

namespace A64x8
open A64

/-- `store`, core_arch_ops_gcc_aarch64.hpp 1275–1292 (assembly block 1280–1286).  Operands, in this
order: [storage] "=Q" (storage); [value] "r" (v). -/
def store_ : Fn 64 64 (BitVec 64) (Integral.Ret 64) where
  block := {
    prog := [
      stlrx 1 0]                              -- stlr %x[value], %[storage]
    opnds := [(0, .input), (1, .input)]
    addr := [0]
    results := [] }
  args a x := (x 1).setWidth 64 = a
  ret _ _ := .unit

/-- `load`, core_arch_ops_gcc_aarch64.hpp 1294–1329 (assembly block 1313–1319).  Operands, in this
order: [value] "=r" (v); [storage] "Q" (storage). -/
def load_ : Fn 64 64 (Unit) (Integral.Ret 64) where
  block := {
    prog := [
      ldarx 0 1]                              -- ldar %x[value], %[storage]
    opnds := [(0, .out), (1, .input)]
    addr := [1]
    results := [0] }
  args _ _ := True
  ret _ r := .val ((r 0).setWidth 64)

/-- `exchange`, core_arch_ops_gcc_aarch64.hpp 1331–1365 (assembly block 1348–1357).  Operands, in
this order: [tmp] "=&r" (tmp); [storage] "+Q" (storage); [original] "=&r" (original); [value] "r"
(v). -/
def exchange : Fn 64 64 (BitVec 64) (Integral.Ret 64) where
  block := {
    prog := [
      .label 1,                               -- 1:
      ldxrx 2 1,                              -- ldxr %x[original], %[storage]
      stxrx 0 3 1,                            -- stxr %w[tmp], %x[value], %[storage]
      cbnzw 0 0 1 false]                      -- cbnz %w[tmp], 1b
    opnds := [(0, .outEarly), (1, .input), (2, .outEarly), (3, .input)]
    addr := [1]
    results := [2] }
  args a x := (x 3).setWidth 64 = a
  ret _ r := .val ((r 2).setWidth 64)

/-- `compare_exchange_weak`, core_arch_ops_gcc_aarch64.hpp 1367–1412 (assembly block 1390–1402). 
Operands, in this order: [success] "=&r" (success); [storage] "+Q" (storage); [original] "=&r"
(original); [desired] "r" (desired); [expected] "Ir" (expected). -/
def compareExchangeWeak : Fn 64 64 (BitVec 64 × BitVec 64) (Integral.Ret 64) where
  block := {
    prog := [
      movwI 0 0,                              -- mov %w[success], #0
      ldxrx 2 1,                              -- ldxr %x[original], %[storage]
      cmpx 2 4,                               -- cmp %x[original], %x[expected]
      bne 6 1 true,                           -- b.ne 1f
      stxrx 0 3 1,                            -- stxr %w[success], %x[desired], %[storage]
      eorwI 0 0 1,                            -- eor %w[success], %w[success], #1
      .label 1]                               -- 1:
    opnds := [(0, .outEarly), (1, .input), (2, .outEarly), (3, .input), (4, .input)]
    addr := [1]
    results := [2, 0] }
  args a x := (x 3).setWidth 64 = a.2 ∧ (x 4).setWidth 64 = a.1
  ret _ r := bool8 (r 0) (.cas · ((r 2).setWidth 64))

/-- `compare_exchange_strong`, core_arch_ops_gcc_aarch64.hpp 1414–1460 (assembly block 1437–1450). 
Operands, in this order: [success] "=&r" (success); [storage] "+Q" (storage); [original] "=&r"
(original); [desired] "r" (desired); [expected] "Ir" (expected). -/
def compareExchangeStrong : Fn 64 64 (BitVec 64 × BitVec 64) (Integral.Ret 64) where
  block := {
    prog := [
      .label 1,                               -- 1:
      ldxrx 2 1,                              -- ldxr %x[original], %[storage]
      cmpx 2 4,                               -- cmp %x[original], %x[expected]
      bne 6 2 true,                           -- b.ne 2f
      stxrx 0 3 1,                            -- stxr %w[success], %x[desired], %[storage]
      cbnzw 0 0 1 false,                      -- cbnz %w[success], 1b
      .label 2,                               -- 2:
      cseteqw 0]                              -- cset %w[success], eq
    opnds := [(0, .outEarly), (1, .input), (2, .outEarly), (3, .input), (4, .input)]
    addr := [1]
    results := [2, 0] }
  args a x := (x 3).setWidth 64 = a.2 ∧ (x 4).setWidth 64 = a.1
  ret _ r := bool8 (r 0) (.cas · ((r 2).setWidth 64))

/-- `fetch_add`, core_arch_ops_gcc_aarch64.hpp 1462–1498 (assembly block 1480–1490).  Operands, in
this order: [tmp] "=&r" (tmp); [result] "=&r" (result); [storage] "+Q" (storage); [original] "=&r"
(original); [value] "Ir" (v). -/
def fetchAdd : Fn 64 64 (BitVec 64) (Integral.Ret 64) where
  block := {
    prog := [
      .label 1,                               -- 1:
      ldxrx 3 2,                              -- ldxr %x[original], %[storage]
      addx 1 3 4,                             -- add %x[result], %x[original], %x[value]
      stxrx 0 1 2,                            -- stxr %w[tmp], %x[result], %[storage]
      cbnzw 0 0 1 false]                      -- cbnz %w[tmp], 1b
    opnds := [(0, .outEarly), (1, .outEarly), (2, .input), (3, .outEarly), (4, .input)]
    addr := [2]
    results := [3] }
  args a x := (x 4).setWidth 64 = a
  ret _ r := .val ((r 3).setWidth 64)

/-- `fetch_sub`, core_arch_ops_gcc_aarch64.hpp 1500–1539 (assembly block 1521–1531).  Operands, in
this order: [tmp] "=&r" (tmp); [result] "=&r" (result); [storage] "+Q" (storage); [original] "=&r"
(original); [value] "Ir" (v). -/
def fetchSub : Fn 64 64 (BitVec 64) (Integral.Ret 64) where
  block := {
    prog := [
      .label 1,                               -- 1:
      ldxrx 3 2,                              -- ldxr %x[original], %[storage]
      subx 1 3 4,                             -- sub %x[result], %x[original], %x[value]
      stxrx 0 1 2,                            -- stxr %w[tmp], %x[result], %[storage]
      cbnzw 0 0 1 false]                      -- cbnz %w[tmp], 1b
    opnds := [(0, .outEarly), (1, .outEarly), (2, .input), (3, .outEarly), (4, .input)]
    addr := [2]
    results := [3] }
  args a x := (x 4).setWidth 64 = a
  ret _ r := .val ((r 3).setWidth 64)

/-- `fetch_and`, core_arch_ops_gcc_aarch64.hpp 1541–1579 (assembly block 1561–1571).  Operands, in
this order: [tmp] "=&r" (tmp); [result] "=&r" (result); [storage] "+Q" (storage); [original] "=&r"
(original); [value] "Lr" (v). -/
def fetchAnd : Fn 64 64 (BitVec 64) (Integral.Ret 64) where
  block := {
    prog := [
      .label 1,                               -- 1:
      ldxrx 3 2,                              -- ldxr %x[original], %[storage]
      andx 1 3 4,                             -- and %x[result], %x[original], %x[value]
      stxrx 0 1 2,                            -- stxr %w[tmp], %x[result], %[storage]
      cbnzw 0 0 1 false]                      -- cbnz %w[tmp], 1b
    opnds := [(0, .outEarly), (1, .outEarly), (2, .input), (3, .outEarly), (4, .input)]
    addr := [2]
    results := [3] }
  args a x := (x 4).setWidth 64 = a
  ret _ r := .val ((r 3).setWidth 64)

/-- `fetch_or`, core_arch_ops_gcc_aarch64.hpp 1581–1617 (assembly block 1599–1609).  Operands, in
this order: [tmp] "=&r" (tmp); [result] "=&r" (result); [storage] "+Q" (storage); [original] "=&r"
(original); [value] "Lr" (v). -/
def fetchOr : Fn 64 64 (BitVec 64) (Integral.Ret 64) where
  block := {
    prog := [
      .label 1,                               -- 1:
      ldxrx 3 2,                              -- ldxr %x[original], %[storage]
      orrx 1 3 4,                             -- orr %x[result], %x[original], %x[value]
      stxrx 0 1 2,                            -- stxr %w[tmp], %x[result], %[storage]
      cbnzw 0 0 1 false]                      -- cbnz %w[tmp], 1b
    opnds := [(0, .outEarly), (1, .outEarly), (2, .input), (3, .outEarly), (4, .input)]
    addr := [2]
    results := [3] }
  args a x := (x 4).setWidth 64 = a
  ret _ r := .val ((r 3).setWidth 64)

/-- `fetch_xor`, core_arch_ops_gcc_aarch64.hpp 1619–1655 (assembly block 1637–1647).  Operands, in
this order: [tmp] "=&r" (tmp); [result] "=&r" (result); [storage] "+Q" (storage); [original] "=&r"
(original); [value] "Lr" (v). -/
def fetchXor : Fn 64 64 (BitVec 64) (Integral.Ret 64) where
  block := {
    prog := [
      .label 1,                               -- 1:
      ldxrx 3 2,                              -- ldxr %x[original], %[storage]
      eorx 1 3 4,                             -- eor %x[result], %x[original], %x[value]
      stxrx 0 1 2,                            -- stxr %w[tmp], %x[result], %[storage]
      cbnzw 0 0 1 false]                      -- cbnz %w[tmp], 1b
    opnds := [(0, .outEarly), (1, .outEarly), (2, .input), (3, .outEarly), (4, .input)]
    addr := [2]
    results := [3] }
  args a x := (x 4).setWidth 64 = a
  ret _ r := .val ((r 3).setWidth 64)

/-- `fetch_negate`, extra_ops_gcc_aarch64.hpp 888–912 (assembly block 895–905).  Operands, in this
order: [tmp] "=&r" (tmp); [result] "=&r" (result); [storage] "+Q" (storage); [original] "=&r"
(original). -/
def fetchNegate : Fn 64 64 (Unit) (Integral.Ret 64) where
  block := {
    prog := [
      .label 1,                               -- 1:
      ldxrx 3 2,                              -- ldxr %x[original], %[storage]
      negx 1 3,                               -- neg %x[result], %x[original]
      stxrx 0 1 2,                            -- stxr %w[tmp], %x[result], %[storage]
      cbnzw 0 0 1 false]                      -- cbnz %w[tmp], 1b
    opnds := [(0, .outEarly), (1, .outEarly), (2, .input), (3, .outEarly)]
    addr := [2]
    results := [3] }
  args _ _ := True
  ret _ r := .val ((r 3).setWidth 64)

/-- `negate`, extra_ops_gcc_aarch64.hpp 914–938 (assembly block 921–931).  Operands, in this order:
[tmp] "=&r" (tmp); [storage] "+Q" (storage); [result] "=&r" (result). -/
def negate : Fn 64 64 (Unit) (Integral.Ret 64) where
  block := {
    prog := [
      .label 1,                               -- 1:
      ldxrx 2 1,                              -- ldxr %x[result], %[storage]
      negx 2 2,                               -- neg %x[result], %x[result]
      stxrx 0 2 1,                            -- stxr %w[tmp], %x[result], %[storage]
      cbnzw 0 0 1 false]                      -- cbnz %w[tmp], 1b
    opnds := [(0, .outEarly), (1, .input), (2, .outEarly)]
    addr := [1]
    results := [2] }
  args _ _ := True
  ret _ r := .val ((r 2).setWidth 64)

/-- `add`, extra_ops_gcc_aarch64.hpp 942–966 (assembly block 949–959).  Operands, in this order:
[tmp] "=&r" (tmp); [storage] "+Q" (storage); [result] "=&r" (result); [value] "Ir" (v). -/
def add_ : Fn 64 64 (BitVec 64) (Integral.Ret 64) where
  block := {
    prog := [
      .label 1,                               -- 1:
      ldxrx 2 1,                              -- ldxr %x[result], %[storage]
      addx 2 2 3,                             -- add %x[result], %x[result], %x[value]
      stxrx 0 2 1,                            -- stxr %w[tmp], %x[result], %[storage]
      cbnzw 0 0 1 false]                      -- cbnz %w[tmp], 1b
    opnds := [(0, .outEarly), (1, .input), (2, .outEarly), (3, .input)]
    addr := [1]
    results := [2] }
  args a x := (x 3).setWidth 64 = a
  ret _ r := .val ((r 2).setWidth 64)

/-- `sub`, extra_ops_gcc_aarch64.hpp 968–992 (assembly block 975–985).  Operands, in this order:
[tmp] "=&r" (tmp); [storage] "+Q" (storage); [result] "=&r" (result); [value] "Ir" (v). -/
def sub_ : Fn 64 64 (BitVec 64) (Integral.Ret 64) where
  block := {
    prog := [
      .label 1,                               -- 1:
      ldxrx 2 1,                              -- ldxr %x[result], %[storage]
      subx 2 2 3,                             -- sub %x[result], %x[result], %x[value]
      stxrx 0 2 1,                            -- stxr %w[tmp], %x[result], %[storage]
      cbnzw 0 0 1 false]                      -- cbnz %w[tmp], 1b
    opnds := [(0, .outEarly), (1, .input), (2, .outEarly), (3, .input)]
    addr := [1]
    results := [2] }
  args a x := (x 3).setWidth 64 = a
  ret _ r := .val ((r 2).setWidth 64)

/-- `bitwise_and`, extra_ops_gcc_aarch64.hpp 994–1018 (assembly block 1001–1011).  Operands, in this
order: [tmp] "=&r" (tmp); [storage] "+Q" (storage); [result] "=&r" (result); [value] "Lr" (v). -/
def bitwiseAnd : Fn 64 64 (BitVec 64) (Integral.Ret 64) where
  block := {
    prog := [
      .label 1,                               -- 1:
      ldxrx 2 1,                              -- ldxr %x[result], %[storage]
      andx 2 2 3,                             -- and %x[result], %x[result], %x[value]
      stxrx 0 2 1,                            -- stxr %w[tmp], %x[result], %[storage]
      cbnzw 0 0 1 false]                      -- cbnz %w[tmp], 1b
    opnds := [(0, .outEarly), (1, .input), (2, .outEarly), (3, .input)]
    addr := [1]
    results := [2] }
  args a x := (x 3).setWidth 64 = a
  ret _ r := .val ((r 2).setWidth 64)

/-- `bitwise_or`, extra_ops_gcc_aarch64.hpp 1020–1044 (assembly block 1027–1037).  Operands, in this
order: [tmp] "=&r" (tmp); [storage] "+Q" (storage); [result] "=&r" (result); [value] "Lr" (v). -/
def bitwiseOr : Fn 64 64 (BitVec 64) (Integral.Ret 64) where
  block := {
    prog := [
      .label 1,                               -- 1:
      ldxrx 2 1,                              -- ldxr %x[result], %[storage]
      orrx 2 2 3,                             -- orr %x[result], %x[result], %x[value]
      stxrx 0 2 1,                            -- stxr %w[tmp], %x[result], %[storage]
      cbnzw 0 0 1 false]                      -- cbnz %w[tmp], 1b
    opnds := [(0, .outEarly), (1, .input), (2, .outEarly), (3, .input)]
    addr := [1]
    results := [2] }
  args a x := (x 3).setWidth 64 = a
  ret _ r := .val ((r 2).setWidth 64)

/-- `bitwise_xor`, extra_ops_gcc_aarch64.hpp 1046–1070 (assembly block 1053–1063).  Operands, in
this order: [tmp] "=&r" (tmp); [storage] "+Q" (storage); [result] "=&r" (result); [value] "Lr" (v).
-/
def bitwiseXor : Fn 64 64 (BitVec 64) (Integral.Ret 64) where
  block := {
    prog := [
      .label 1,                               -- 1:
      ldxrx 2 1,                              -- ldxr %x[result], %[storage]
      eorx 2 2 3,                             -- eor %x[result], %x[result], %x[value]
      stxrx 0 2 1,                            -- stxr %w[tmp], %x[result], %[storage]
      cbnzw 0 0 1 false]                      -- cbnz %w[tmp], 1b
    opnds := [(0, .outEarly), (1, .input), (2, .outEarly), (3, .input)]
    addr := [1]
    results := [2] }
  args a x := (x 3).setWidth 64 = a
  ret _ r := .val ((r 2).setWidth 64)

/-- `fetch_complement`, extra_ops_gcc_aarch64.hpp 1072–1096 (assembly block 1079–1089).  Operands,
in this order: [tmp] "=&r" (tmp); [result] "=&r" (result); [storage] "+Q" (storage); [original]
"=&r" (original). -/
def fetchComplement : Fn 64 64 (Unit) (Integral.Ret 64) where
  block := {
    prog := [
      .label 1,                               -- 1:
      ldxrx 3 2,                              -- ldxr %x[original], %[storage]
      mvnx 1 3,                               -- mvn %x[result], %x[original]
      stxrx 0 1 2,                            -- stxr %w[tmp], %x[result], %[storage]
      cbnzw 0 0 1 false]                      -- cbnz %w[tmp], 1b
    opnds := [(0, .outEarly), (1, .outEarly), (2, .input), (3, .outEarly)]
    addr := [2]
    results := [3] }
  args _ _ := True
  ret _ r := .val ((r 3).setWidth 64)

/-- `bitwise_complement`, extra_ops_gcc_aarch64.hpp 1098–1122 (assembly block 1105–1115).  Operands,
in this order: [tmp] "=&r" (tmp); [storage] "+Q" (storage); [result] "=&r" (result). -/
def bitwiseComplement : Fn 64 64 (Unit) (Integral.Ret 64) where
  block := {
    prog := [
      .label 1,                               -- 1:
      ldxrx 2 1,                              -- ldxr %x[result], %[storage]
      mvnx 2 2,                               -- mvn %x[result], %x[result]
      stxrx 0 2 1,                            -- stxr %w[tmp], %x[result], %[storage]
      cbnzw 0 0 1 false]                      -- cbnz %w[tmp], 1b
    opnds := [(0, .outEarly), (1, .input), (2, .outEarly)]
    addr := [1]
    results := [2] }
  args _ _ := True
  ret _ r := .val ((r 2).setWidth 64)

end A64x8

namespace A64Lse8
open A64

/-- `load`, core_arch_ops_gcc_aarch64.hpp 1294–1329 (assembly block 1302–1308, with the extensions
LSE and RCPC).  Operands, in this order: [value] "=r" (v); [storage] "Q" (storage). -/
def load_1 : Fn 64 64 (Unit) (Integral.Ret 64) where
  block := {
    prog := [
      ldarx 0 1]                              -- ldapr %x[value], %[storage]
    opnds := [(0, .out), (1, .input)]
    addr := [1]
    results := [0] }
  args _ _ := True
  ret _ r := .val ((r 0).setWidth 64)

/-- `load`, core_arch_ops_gcc_aarch64.hpp 1294–1329 (assembly block 1313–1319, with the extensions
LSE and RCPC).  Operands, in this order: [value] "=r" (v); [storage] "Q" (storage). -/
def load_2 : Fn 64 64 (Unit) (Integral.Ret 64) where
  block := {
    prog := [
      ldarx 0 1]                              -- ldar %x[value], %[storage]
    opnds := [(0, .out), (1, .input)]
    addr := [1]
    results := [0] }
  args _ _ := True
  ret _ r := .val ((r 0).setWidth 64)

/-- `exchange`, core_arch_ops_gcc_aarch64.hpp 1331–1365 (assembly block 1337–1343, with the
extensions LSE and RCPC).  Operands, in this order: [storage] "+Q" (storage); [original] "=r"
(original); [value] "r" (v). -/
def exchange : Fn 64 64 (BitVec 64) (Integral.Ret 64) where
  block := {
    prog := [
      swp (M := 64) 2 1 0]                    -- swp %x[value], %x[original], %[storage]
    opnds := [(0, .input), (1, .out), (2, .input)]
    addr := [0]
    results := [1] }
  args a x := (x 2).setWidth 64 = a
  ret _ r := .val ((r 1).setWidth 64)

/-- `compare_exchange_weak`, core_arch_ops_gcc_aarch64.hpp 1367–1412 (assembly block 1376–1382, with
the extensions LSE and RCPC).  Operands, in this order: [storage] "+Q" (storage); [original] "+r"
(original); [desired] "r" (desired). -/
def compareExchangeWeak : Fn 64 64 (BitVec 64 × BitVec 64) (Integral.Ret 64) where
  block := {
    prog := [
      cas (M := 64) 1 2 0]                    -- cas %x[original], %x[desired], %[storage]
    opnds := [(0, .input), (1, .inout), (2, .input)]
    addr := [0]
    results := [1] }
  args a x := (x 1).setWidth 64 = a.1 ∧ (x 2).setWidth 64 = a.2
  ret a r := .cas (decide ((r 1).setWidth 64 = a.1)) ((r 1).setWidth 64)

/-- `compare_exchange_strong`, core_arch_ops_gcc_aarch64.hpp 1414–1460 (assembly block 1423–1429,
with the extensions LSE and RCPC).  Operands, in this order: [storage] "+Q" (storage); [original]
"+r" (original); [desired] "r" (desired). -/
def compareExchangeStrong : Fn 64 64 (BitVec 64 × BitVec 64) (Integral.Ret 64) where
  block := {
    prog := [
      cas (M := 64) 1 2 0]                    -- cas %x[original], %x[desired], %[storage]
    opnds := [(0, .input), (1, .inout), (2, .input)]
    addr := [0]
    results := [1] }
  args a x := (x 1).setWidth 64 = a.1 ∧ (x 2).setWidth 64 = a.2
  ret a r := .cas (decide ((r 1).setWidth 64 = a.1)) ((r 1).setWidth 64)

/-- `fetch_add`, core_arch_ops_gcc_aarch64.hpp 1462–1498 (assembly block 1468–1474, with the
extensions LSE and RCPC).  Operands, in this order: [storage] "+Q" (storage); [original] "=r"
(original); [value] "r" (v). -/
def fetchAdd : Fn 64 64 (BitVec 64) (Integral.Ret 64) where
  block := {
    prog := [
      ldadd (M := 64) 2 1 0]                  -- ldadd %x[value], %x[original], %[storage]
    opnds := [(0, .input), (1, .out), (2, .input)]
    addr := [0]
    results := [1] }
  args a x := (x 2).setWidth 64 = a
  ret _ r := .val ((r 1).setWidth 64)

/-- `fetch_sub`, core_arch_ops_gcc_aarch64.hpp 1500–1539 (assembly block 1508–1514, with the
extensions LSE and RCPC).  Operands, in this order: [storage] "+Q" (storage); [original] "=r"
(original); [value] "r" (v). -/
def fetchSub : Fn 64 64 (BitVec 64) (Integral.Ret 64) where
  block := {
    prog := [
      ldadd (M := 64) 2 1 0]                  -- ldadd %x[value], %x[original], %[storage]
    opnds := [(0, .input), (1, .out), (2, .input)]
    addr := [0]
    results := [1] }
  args a x := (x 2).setWidth 64 = -a
  ret _ r := .val ((r 1).setWidth 64)

/-- `fetch_and`, core_arch_ops_gcc_aarch64.hpp 1541–1579 (assembly block 1549–1555, with the
extensions LSE and RCPC).  Operands, in this order: [storage] "+Q" (storage); [original] "=r"
(original); [value] "r" (v). -/
def fetchAnd : Fn 64 64 (BitVec 64) (Integral.Ret 64) where
  block := {
    prog := [
      ldclr (M := 64) 2 1 0]                  -- ldclr %x[value], %x[original], %[storage]
    opnds := [(0, .input), (1, .out), (2, .input)]
    addr := [0]
    results := [1] }
  args a x := (x 2).setWidth 64 = ~~~ a
  ret _ r := .val ((r 1).setWidth 64)

/-- `fetch_or`, core_arch_ops_gcc_aarch64.hpp 1581–1617 (assembly block 1587–1593, with the
extensions LSE and RCPC).  Operands, in this order: [storage] "+Q" (storage); [original] "=r"
(original); [value] "r" (v). -/
def fetchOr : Fn 64 64 (BitVec 64) (Integral.Ret 64) where
  block := {
    prog := [
      ldset (M := 64) 2 1 0]                  -- ldset %x[value], %x[original], %[storage]
    opnds := [(0, .input), (1, .out), (2, .input)]
    addr := [0]
    results := [1] }
  args a x := (x 2).setWidth 64 = a
  ret _ r := .val ((r 1).setWidth 64)

/-- `fetch_xor`, core_arch_ops_gcc_aarch64.hpp 1619–1655 (assembly block 1625–1631, with the
extensions LSE and RCPC).  Operands, in this order: [storage] "+Q" (storage); [original] "=r"
(original); [value] "r" (v). -/
def fetchXor : Fn 64 64 (BitVec 64) (Integral.Ret 64) where
  block := {
    prog := [
      ldeor (M := 64) 2 1 0]                  -- ldeor %x[value], %x[original], %[storage]
    opnds := [(0, .input), (1, .out), (2, .input)]
    addr := [0]
    results := [1] }
  args a x := (x 2).setWidth 64 = a
  ret _ r := .val ((r 1).setWidth 64)

end A64Lse8

namespace A64x16
open A64

/-- `store`, core_arch_ops_gcc_aarch64.hpp 1701–1734 (assembly block 1710–1719).  Operands, in this
order: [tmp] "=&r" (tmp); [storage] "+Q" (storage); [original_0] "=&r" (original.as_uint64[0u]);
[original_1] "=&r" (original.as_uint64[1u]); [value_0] "r" (value.as_uint64[0u]); [value_1] "r"
(value.as_uint64[1u]). -/
def store_1 (be : Bool) : Fn 64 128 (BitVec 128) (Integral.Ret 128) where
  block := {
    prog := [
      .label 1,                               -- 1:
      ldxp1 be 2 1,                           -- ldxp1 %x[original_0], %[storage]
      ldxp2 be 3 1,                           -- ldxp2 %x[original_1], %[storage]
      stxp be 0 4 5 1,                        -- stlxp %w[tmp], %x[value_0], %x[value_1], %[storage]
      cbnzw 0 0 1 false]                      -- cbnz %w[tmp], 1b
    opnds := [(0, .outEarly), (1, .input), (2, .outEarly), (3, .outEarly), (4, .input), (5, .input)]
    addr := [1]
    results := [] }
  args a x := pair be (x 4) (x 5) = a
  ret _ _ := .unit

/-- `store`, core_arch_ops_gcc_aarch64.hpp 1701–1734 (assembly block 1723–1732).  Operands, in this
order: [tmp] "=&r" (tmp); [storage] "+Q" (storage); [original_0] "=&r" (original.as_uint64[0u]);
[original_1] "=&r" (original.as_uint64[1u]); [value_0] "r" (value.as_uint64[0u]); [value_1] "r"
(value.as_uint64[1u]). -/
def store_2 (be : Bool) : Fn 64 128 (BitVec 128) (Integral.Ret 128) where
  block := {
    prog := [
      .label 1,                               -- 1:
      ldxp1 be 2 1,                           -- ldxp1 %x[original_0], %[storage]
      ldxp2 be 3 1,                           -- ldxp2 %x[original_1], %[storage]
      stxp be 0 4 5 1,                        -- stxp %w[tmp], %x[value_0], %x[value_1], %[storage]
      cbnzw 0 0 1 false]                      -- cbnz %w[tmp], 1b
    opnds := [(0, .outEarly), (1, .input), (2, .outEarly), (3, .outEarly), (4, .input), (5, .input)]
    addr := [1]
    results := [] }
  args a x := pair be (x 4) (x 5) = a
  ret _ _ := .unit

/-- `load`, core_arch_ops_gcc_aarch64.hpp 1736–1769 (assembly block 1742–1751).  Operands, in this
order: [tmp] "=&r" (tmp); [value_0] "=&r" (v.as_uint64[0u]); [value_1] "=&r" (v.as_uint64[1u]);
[storage] "Q" (storage). -/
def load_1 (be : Bool) : Fn 64 128 (Unit) (Integral.Ret 128) where
  block := {
    prog := [
      .label 1,                               -- 1:
      ldxp1 be 1 3,                           -- ldxp1 %x[value_0], %[storage]
      ldxp2 be 2 3,                           -- ldxp2 %x[value_1], %[storage]
      stxp be 0 1 2 3,                        -- stxp %w[tmp], %x[value_0], %x[value_1], %[storage]
      cbnzw 0 0 1 false]                      -- cbnz %w[tmp], 1b
    opnds := [(0, .outEarly), (1, .outEarly), (2, .outEarly), (3, .input)]
    addr := [3]
    results := [1, 2] }
  args _ _ := True
  ret _ r := .val (pair be (r 1) (r 2))

/-- `load`, core_arch_ops_gcc_aarch64.hpp 1736–1769 (assembly block 1755–1764).  Operands, in this
order: [tmp] "=&r" (tmp); [value_0] "=&r" (v.as_uint64[0u]); [value_1] "=&r" (v.as_uint64[1u]);
[storage] "Q" (storage). -/
def load_2 (be : Bool) : Fn 64 128 (Unit) (Integral.Ret 128) where
  block := {
    prog := [
      .label 1,                               -- 1:
      ldxp1 be 1 3,                           -- ldxp1 %x[value_0], %[storage]
      ldxp2 be 2 3,                           -- ldxp2 %x[value_1], %[storage]
      stxp be 0 1 2 3,                        -- stxp %w[tmp], %x[value_0], %x[value_1], %[storage]
      cbnzw 0 0 1 false]                      -- cbnz %w[tmp], 1b
    opnds := [(0, .outEarly), (1, .outEarly), (2, .outEarly), (3, .input)]
    addr := [3]
    results := [1, 2] }
  args _ _ := True
  ret _ r := .val (pair be (r 1) (r 2))

/-- `exchange`, core_arch_ops_gcc_aarch64.hpp 1771–1795 (assembly block 1779–1788).  Operands, in
this order: [tmp] "=&r" (tmp); [storage] "+Q" (storage); [original_0] "=&r"
(original.as_uint64[0u]); [original_1] "=&r" (original.as_uint64[1u]); [value_0] "r"
(value.as_uint64[0u]); [value_1] "r" (value.as_uint64[1u]). -/
def exchange (be : Bool) : Fn 64 128 (BitVec 128) (Integral.Ret 128) where
  block := {
    prog := [
      .label 1,                               -- 1:
      ldxp1 be 2 1,                           -- ldxp1 %x[original_0], %[storage]
      ldxp2 be 3 1,                           -- ldxp2 %x[original_1], %[storage]
      stxp be 0 4 5 1,                        -- stxp %w[tmp], %x[value_0], %x[value_1], %[storage]
      cbnzw 0 0 1 false]                      -- cbnz %w[tmp], 1b
    opnds := [(0, .outEarly), (1, .input), (2, .outEarly), (3, .outEarly), (4, .input), (5, .input)]
    addr := [1]
    results := [2, 3] }
  args a x := pair be (x 4) (x 5) = a
  ret _ r := .val (pair be (r 2) (r 3))

/-- `compare_exchange_weak`, core_arch_ops_gcc_aarch64.hpp 1797–1829 (assembly block 1807–1820). 
Operands, in this order: [success] "=&r" (success); [storage] "+Q" (storage); [original_0] "=&r"
(original.as_uint64[0u]); [original_1] "=&r" (original.as_uint64[1u]); [desired_0] "r"
(d.as_uint64[0u]); [desired_1] "r" (d.as_uint64[1u]); [expected_0] "r" (e.as_uint64[0u]);
[expected_1] "r" (e.as_uint64[1u]). -/
def compareExchangeWeak (be : Bool) : Fn 64 128 (BitVec 128 × BitVec 128) (Integral.Ret 128) where
  block := {
    prog := [
      movwI 0 0,                              -- mov %w[success], #0
      ldxp1 be 2 1,                           -- ldxp1 %x[original_0], %[storage]
      ldxp2 be 3 1,                           -- ldxp2 %x[original_1], %[storage]
      cmpx 2 6,                               -- cmp %x[original_0], %x[expected_0]
      ccmpxEq0 3 7,                           -- ccmp %x[original_1], %x[expected_1], #0, eq
      bne 8 1 true,                           -- b.ne 1f
      stxp be 0 4 5 1,                        -- stxp %w[success], %x[desired_0], %x[desired_1], %[storage]
      eorwI 0 0 1,                            -- eor %w[success], %w[success], #1
      .label 1]                               -- 1:
    opnds := [(0, .outEarly), (1, .input), (2, .outEarly), (3, .outEarly), (4, .input), (5, .input), (6, .input), (7, .input)]
    addr := [1]
    results := [2, 3, 0] }
  args a x := pair be (x 4) (x 5) = a.2 ∧ pair be (x 6) (x 7) = a.1
  ret _ r := bool8 (r 0) (.cas · (pair be (r 2) (r 3)))

/-- `compare_exchange_strong`, core_arch_ops_gcc_aarch64.hpp 1831–1864 (assembly block 1841–1855). 
Operands, in this order: [success] "=&r" (success); [storage] "+Q" (storage); [original_0] "=&r"
(original.as_uint64[0u]); [original_1] "=&r" (original.as_uint64[1u]); [desired_0] "r"
(d.as_uint64[0u]); [desired_1] "r" (d.as_uint64[1u]); [expected_0] "r" (e.as_uint64[0u]);
[expected_1] "r" (e.as_uint64[1u]). -/
def compareExchangeStrong (be : Bool) : Fn 64 128 (BitVec 128 × BitVec 128) (Integral.Ret 128) where
  block := {
    prog := [
      .label 1,                               -- 1:
      ldxp1 be 2 1,                           -- ldxp1 %x[original_0], %[storage]
      ldxp2 be 3 1,                           -- ldxp2 %x[original_1], %[storage]
      cmpx 2 6,                               -- cmp %x[original_0], %x[expected_0]
      ccmpxEq0 3 7,                           -- ccmp %x[original_1], %x[expected_1], #0, eq
      bne 8 2 true,                           -- b.ne 2f
      stxp be 0 4 5 1,                        -- stxp %w[success], %x[desired_0], %x[desired_1], %[storage]
      cbnzw 0 0 1 false,                      -- cbnz %w[success], 1b
      .label 2,                               -- 2:
      cseteqw 0]                              -- cset %w[success], eq
    opnds := [(0, .outEarly), (1, .input), (2, .outEarly), (3, .outEarly), (4, .input), (5, .input), (6, .input), (7, .input)]
    addr := [1]
    results := [2, 3, 0] }
  args a x := pair be (x 4) (x 5) = a.2 ∧ pair be (x 6) (x 7) = a.1
  ret _ r := bool8 (r 0) (.cas · (pair be (r 2) (r 3)))

/-- `fetch_add`, core_arch_ops_gcc_aarch64.hpp 1866–1895 (assembly block 1875–1888).  Operands, in
this order: [tmp] "=&r" (tmp); [storage] "+Q" (storage); [original_0] "=&r"
(original.as_uint64[0u]); [original_1] "=&r" (original.as_uint64[1u]); [result_0] "=&r"
(result.as_uint64[0u]); [result_1] "=&r" (result.as_uint64[1u]); [value_0] "r"
(value.as_uint64[0u]); [value_1] "r" (value.as_uint64[1u]). -/
def fetchAdd (be : Bool) : Fn 64 128 (BitVec 128) (Integral.Ret 128) where
  block := {
    prog := [
      .label 1,                               -- 1:
      ldxp1 be 2 1,                           -- ldxp1 %x[original_0], %[storage]
      ldxp2 be 3 1,                           -- ldxp2 %x[original_1], %[storage]
      addsx (lo be 4) (lo be 2) (lo be 6),    -- adds %x[result_@LO], %x[original_@LO], %x[value_@LO]
      adcx (hi be 4) (hi be 2) (hi be 6),     -- adc %x[result_@HI], %x[original_@HI], %x[value_@HI]
      stxp be 0 4 5 1,                        -- stxp %w[tmp], %x[result_0], %x[result_1], %[storage]
      cbnzw 0 0 1 false]                      -- cbnz %w[tmp], 1b
    opnds := [(0, .outEarly), (1, .input), (2, .outEarly), (3, .outEarly), (4, .outEarly), (5, .outEarly), (6, .input), (7, .input)]
    addr := [1]
    results := [2, 3] }
  args a x := pair be (x 6) (x 7) = a
  ret _ r := .val (pair be (r 2) (r 3))

/-- `fetch_sub`, core_arch_ops_gcc_aarch64.hpp 1897–1926 (assembly block 1906–1919).  Operands, in
this order: [tmp] "=&r" (tmp); [storage] "+Q" (storage); [original_0] "=&r"
(original.as_uint64[0u]); [original_1] "=&r" (original.as_uint64[1u]); [result_0] "=&r"
(result.as_uint64[0u]); [result_1] "=&r" (result.as_uint64[1u]); [value_0] "r"
(value.as_uint64[0u]); [value_1] "r" (value.as_uint64[1u]). -/
def fetchSub (be : Bool) : Fn 64 128 (BitVec 128) (Integral.Ret 128) where
  block := {
    prog := [
      .label 1,                               -- 1:
      ldxp1 be 2 1,                           -- ldxp1 %x[original_0], %[storage]
      ldxp2 be 3 1,                           -- ldxp2 %x[original_1], %[storage]
      subsx (lo be 4) (lo be 2) (lo be 6),    -- subs %x[result_@LO], %x[original_@LO], %x[value_@LO]
      sbcx (hi be 4) (hi be 2) (hi be 6),     -- sbc %x[result_@HI], %x[original_@HI], %x[value_@HI]
      stxp be 0 4 5 1,                        -- stxp %w[tmp], %x[result_0], %x[result_1], %[storage]
      cbnzw 0 0 1 false]                      -- cbnz %w[tmp], 1b
    opnds := [(0, .outEarly), (1, .input), (2, .outEarly), (3, .outEarly), (4, .outEarly), (5, .outEarly), (6, .input), (7, .input)]
    addr := [1]
    results := [2, 3] }
  args a x := pair be (x 6) (x 7) = a
  ret _ r := .val (pair be (r 2) (r 3))

/-- `fetch_and`, core_arch_ops_gcc_aarch64.hpp 1928–1957 (assembly block 1937–1950).  Operands, in
this order: [tmp] "=&r" (tmp); [storage] "+Q" (storage); [original_0] "=&r"
(original.as_uint64[0u]); [original_1] "=&r" (original.as_uint64[1u]); [result_0] "=&r"
(result.as_uint64[0u]); [result_1] "=&r" (result.as_uint64[1u]); [value_0] "Lr"
(value.as_uint64[0u]); [value_1] "Lr" (value.as_uint64[1u]). -/
def fetchAnd (be : Bool) : Fn 64 128 (BitVec 128) (Integral.Ret 128) where
  block := {
    prog := [
      .label 1,                               -- 1:
      ldxp1 be 2 1,                           -- ldxp1 %x[original_0], %[storage]
      ldxp2 be 3 1,                           -- ldxp2 %x[original_1], %[storage]
      andx 4 2 6,                             -- and %x[result_0], %x[original_0], %x[value_0]
      andx 5 3 7,                             -- and %x[result_1], %x[original_1], %x[value_1]
      stxp be 0 4 5 1,                        -- stxp %w[tmp], %x[result_0], %x[result_1], %[storage]
      cbnzw 0 0 1 false]                      -- cbnz %w[tmp], 1b
    opnds := [(0, .outEarly), (1, .input), (2, .outEarly), (3, .outEarly), (4, .outEarly), (5, .outEarly), (6, .input), (7, .input)]
    addr := [1]
    results := [2, 3] }
  args a x := pair be (x 6) (x 7) = a
  ret _ r := .val (pair be (r 2) (r 3))

/-- `fetch_or`, core_arch_ops_gcc_aarch64.hpp 1959–1988 (assembly block 1968–1981).  Operands, in
this order: [tmp] "=&r" (tmp); [storage] "+Q" (storage); [original_0] "=&r"
(original.as_uint64[0u]); [original_1] "=&r" (original.as_uint64[1u]); [result_0] "=&r"
(result.as_uint64[0u]); [result_1] "=&r" (result.as_uint64[1u]); [value_0] "Lr"
(value.as_uint64[0u]); [value_1] "Lr" (value.as_uint64[1u]). -/
def fetchOr (be : Bool) : Fn 64 128 (BitVec 128) (Integral.Ret 128) where
  block := {
    prog := [
      .label 1,                               -- 1:
      ldxp1 be 2 1,                           -- ldxp1 %x[original_0], %[storage]
      ldxp2 be 3 1,                           -- ldxp2 %x[original_1], %[storage]
      orrx 4 2 6,                             -- orr %x[result_0], %x[original_0], %x[value_0]
      orrx 5 3 7,                             -- orr %x[result_1], %x[original_1], %x[value_1]
      stxp be 0 4 5 1,                        -- stxp %w[tmp], %x[result_0], %x[result_1], %[storage]
      cbnzw 0 0 1 false]                      -- cbnz %w[tmp], 1b
    opnds := [(0, .outEarly), (1, .input), (2, .outEarly), (3, .outEarly), (4, .outEarly), (5, .outEarly), (6, .input), (7, .input)]
    addr := [1]
    results := [2, 3] }
  args a x := pair be (x 6) (x 7) = a
  ret _ r := .val (pair be (r 2) (r 3))

/-- `fetch_xor`, core_arch_ops_gcc_aarch64.hpp 1990–2019 (assembly block 1999–2012).  Operands, in
this order: [tmp] "=&r" (tmp); [storage] "+Q" (storage); [original_0] "=&r"
(original.as_uint64[0u]); [original_1] "=&r" (original.as_uint64[1u]); [result_0] "=&r"
(result.as_uint64[0u]); [result_1] "=&r" (result.as_uint64[1u]); [value_0] "Lr"
(value.as_uint64[0u]); [value_1] "Lr" (value.as_uint64[1u]). -/
def fetchXor (be : Bool) : Fn 64 128 (BitVec 128) (Integral.Ret 128) where
  block := {
    prog := [
      .label 1,                               -- 1:
      ldxp1 be 2 1,                           -- ldxp1 %x[original_0], %[storage]
      ldxp2 be 3 1,                           -- ldxp2 %x[original_1], %[storage]
      eorx 4 2 6,                             -- eor %x[result_0], %x[original_0], %x[value_0]
      eorx 5 3 7,                             -- eor %x[result_1], %x[original_1], %x[value_1]
      stxp be 0 4 5 1,                        -- stxp %w[tmp], %x[result_0], %x[result_1], %[storage]
      cbnzw 0 0 1 false]                      -- cbnz %w[tmp], 1b
    opnds := [(0, .outEarly), (1, .input), (2, .outEarly), (3, .outEarly), (4, .outEarly), (5, .outEarly), (6, .input), (7, .input)]
    addr := [1]
    results := [2, 3] }
  args a x := pair be (x 6) (x 7) = a
  ret _ r := .val (pair be (r 2) (r 3))

/-- `fetch_negate`, extra_ops_gcc_aarch64.hpp 1142–1172 (assembly block 1150–1165).  Operands, in
this order: [tmp] "=&r" (tmp); [storage] "+Q" (storage); [original_0] "=&r"
(original.as_uint64[0u]); [original_1] "=&r" (original.as_uint64[1u]); [result_0] "=&r"
(result.as_uint64[0u]); [result_1] "=&r" (result.as_uint64[1u]). -/
def fetchNegate (be : Bool) : Fn 64 128 (Unit) (Integral.Ret 128) where
  block := {
    prog := [
      .label 1,                               -- 1:
      ldxp1 be 2 1,                           -- ldxp1 %x[original_0], %[storage]
      ldxp2 be 3 1,                           -- ldxp2 %x[original_1], %[storage]
      mvnx 4 2,                               -- mvn %x[result_0], %x[original_0]
      mvnx 5 3,                               -- mvn %x[result_1], %x[original_1]
      addsxI (lo be 4) (lo be 4) 1,           -- adds %x[result_@LO], %x[result_@LO], #1
      adcxZero (hi be 4) (hi be 4),           -- adc %x[result_@HI], %x[result_@HI], xzr
      stxp be 0 4 5 1,                        -- stxp %w[tmp], %x[result_0], %x[result_1], %[storage]
      cbnzw 0 0 1 false]                      -- cbnz %w[tmp], 1b
    opnds := [(0, .outEarly), (1, .input), (2, .outEarly), (3, .outEarly), (4, .outEarly), (5, .outEarly)]
    addr := [1]
    results := [2, 3] }
  args _ _ := True
  ret _ r := .val (pair be (r 2) (r 3))

/-- `negate`, extra_ops_gcc_aarch64.hpp 1174–1202 (assembly block 1181–1195).  Operands, in this
order: [tmp] "=&r" (tmp); [storage] "+Q" (storage); [result_0] "=&r" (result.as_uint64[0u]);
[result_1] "=&r" (result.as_uint64[1u]). -/
def negate (be : Bool) : Fn 64 128 (Unit) (Integral.Ret 128) where
  block := {
    prog := [
      .label 1,                               -- 1:
      ldxp1 be 2 1,                           -- ldxp1 %x[result_0], %[storage]
      ldxp2 be 3 1,                           -- ldxp2 %x[result_1], %[storage]
      mvnx 2 2,                               -- mvn %x[result_0], %x[result_0]
      mvnx 3 3,                               -- mvn %x[result_1], %x[result_1]
      addsxI (lo be 2) (lo be 2) 1,           -- adds %x[result_@LO], %x[result_@LO], #1
      adcxZero (hi be 2) (hi be 2),           -- adc %x[result_@HI], %x[result_@HI], xzr
      stxp be 0 2 3 1,                        -- stxp %w[tmp], %x[result_0], %x[result_1], %[storage]
      cbnzw 0 0 1 false]                      -- cbnz %w[tmp], 1b
    opnds := [(0, .outEarly), (1, .input), (2, .outEarly), (3, .outEarly)]
    addr := [1]
    results := [2, 3] }
  args _ _ := True
  ret _ r := .val (pair be (r 2) (r 3))

/-- `add`, extra_ops_gcc_aarch64.hpp 1204–1231 (assembly block 1212–1224).  Operands, in this order:
[tmp] "=&r" (tmp); [storage] "+Q" (storage); [result_0] "=&r" (result.as_uint64[0u]); [result_1]
"=&r" (result.as_uint64[1u]); [value_0] "r" (value.as_uint64[0u]); [value_1] "r"
(value.as_uint64[1u]). -/
def add_ (be : Bool) : Fn 64 128 (BitVec 128) (Integral.Ret 128) where
  block := {
    prog := [
      .label 1,                               -- 1:
      ldxp1 be 2 1,                           -- ldxp1 %x[result_0], %[storage]
      ldxp2 be 3 1,                           -- ldxp2 %x[result_1], %[storage]
      addsx (lo be 2) (lo be 2) (lo be 4),    -- adds %x[result_@LO], %x[result_@LO], %x[value_@LO]
      adcx (hi be 2) (hi be 2) (hi be 4),     -- adc %x[result_@HI], %x[result_@HI], %x[value_@HI]
      stxp be 0 2 3 1,                        -- stxp %w[tmp], %x[result_0], %x[result_1], %[storage]
      cbnzw 0 0 1 false]                      -- cbnz %w[tmp], 1b
    opnds := [(0, .outEarly), (1, .input), (2, .outEarly), (3, .outEarly), (4, .input), (5, .input)]
    addr := [1]
    results := [2, 3] }
  args a x := pair be (x 4) (x 5) = a
  ret _ r := .val (pair be (r 2) (r 3))

/-- `sub`, extra_ops_gcc_aarch64.hpp 1233–1260 (assembly block 1241–1253).  Operands, in this order:
[tmp] "=&r" (tmp); [storage] "+Q" (storage); [result_0] "=&r" (result.as_uint64[0u]); [result_1]
"=&r" (result.as_uint64[1u]); [value_0] "r" (value.as_uint64[0u]); [value_1] "r"
(value.as_uint64[1u]). -/
def sub_ (be : Bool) : Fn 64 128 (BitVec 128) (Integral.Ret 128) where
  block := {
    prog := [
      .label 1,                               -- 1:
      ldxp1 be 2 1,                           -- ldxp1 %x[result_0], %[storage]
      ldxp2 be 3 1,                           -- ldxp2 %x[result_1], %[storage]
      subsx (lo be 2) (lo be 2) (lo be 4),    -- subs %x[result_@LO], %x[result_@LO], %x[value_@LO]
      sbcx (hi be 2) (hi be 2) (hi be 4),     -- sbc %x[result_@HI], %x[result_@HI], %x[value_@HI]
      stxp be 0 2 3 1,                        -- stxp %w[tmp], %x[result_0], %x[result_1], %[storage]
      cbnzw 0 0 1 false]                      -- cbnz %w[tmp], 1b
    opnds := [(0, .outEarly), (1, .input), (2, .outEarly), (3, .outEarly), (4, .input), (5, .input)]
    addr := [1]
    results := [2, 3] }
  args a x := pair be (x 4) (x 5) = a
  ret _ r := .val (pair be (r 2) (r 3))

/-- `bitwise_and`, extra_ops_gcc_aarch64.hpp 1262–1289 (assembly block 1270–1282).  Operands, in
this order: [tmp] "=&r" (tmp); [storage] "+Q" (storage); [result_0] "=&r" (result.as_uint64[0u]);
[result_1] "=&r" (result.as_uint64[1u]); [value_0] "Lr" (value.as_uint64[0u]); [value_1] "Lr"
(value.as_uint64[1u]). -/
def bitwiseAnd (be : Bool) : Fn 64 128 (BitVec 128) (Integral.Ret 128) where
  block := {
    prog := [
      .label 1,                               -- 1:
      ldxp1 be 2 1,                           -- ldxp1 %x[result_0], %[storage]
      ldxp2 be 3 1,                           -- ldxp2 %x[result_1], %[storage]
      andx 2 2 4,                             -- and %x[result_0], %x[result_0], %x[value_0]
      andx 3 3 5,                             -- and %x[result_1], %x[result_1], %x[value_1]
      stxp be 0 2 3 1,                        -- stxp %w[tmp], %x[result_0], %x[result_1], %[storage]
      cbnzw 0 0 1 false]                      -- cbnz %w[tmp], 1b
    opnds := [(0, .outEarly), (1, .input), (2, .outEarly), (3, .outEarly), (4, .input), (5, .input)]
    addr := [1]
    results := [2, 3] }
  args a x := pair be (x 4) (x 5) = a
  ret _ r := .val (pair be (r 2) (r 3))

/-- `bitwise_or`, extra_ops_gcc_aarch64.hpp 1291–1318 (assembly block 1299–1311).  Operands, in this
order: [tmp] "=&r" (tmp); [storage] "+Q" (storage); [result_0] "=&r" (result.as_uint64[0u]);
[result_1] "=&r" (result.as_uint64[1u]); [value_0] "Lr" (value.as_uint64[0u]); [value_1] "Lr"
(value.as_uint64[1u]). -/
def bitwiseOr (be : Bool) : Fn 64 128 (BitVec 128) (Integral.Ret 128) where
  block := {
    prog := [
      .label 1,                               -- 1:
      ldxp1 be 2 1,                           -- ldxp1 %x[result_0], %[storage]
      ldxp2 be 3 1,                           -- ldxp2 %x[result_1], %[storage]
      orrx 2 2 4,                             -- orr %x[result_0], %x[result_0], %x[value_0]
      orrx 3 3 5,                             -- orr %x[result_1], %x[result_1], %x[value_1]
      stxp be 0 2 3 1,                        -- stxp %w[tmp], %x[result_0], %x[result_1], %[storage]
      cbnzw 0 0 1 false]                      -- cbnz %w[tmp], 1b
    opnds := [(0, .outEarly), (1, .input), (2, .outEarly), (3, .outEarly), (4, .input), (5, .input)]
    addr := [1]
    results := [2, 3] }
  args a x := pair be (x 4) (x 5) = a
  ret _ r := .val (pair be (r 2) (r 3))

/-- `bitwise_xor`, extra_ops_gcc_aarch64.hpp 1320–1347 (assembly block 1328–1340).  Operands, in
this order: [tmp] "=&r" (tmp); [storage] "+Q" (storage); [result_0] "=&r" (result.as_uint64[0u]);
[result_1] "=&r" (result.as_uint64[1u]); [value_0] "Lr" (value.as_uint64[0u]); [value_1] "Lr"
(value.as_uint64[1u]). -/
def bitwiseXor (be : Bool) : Fn 64 128 (BitVec 128) (Integral.Ret 128) where
  block := {
    prog := [
      .label 1,                               -- 1:
      ldxp1 be 2 1,                           -- ldxp1 %x[result_0], %[storage]
      ldxp2 be 3 1,                           -- ldxp2 %x[result_1], %[storage]
      eorx 2 2 4,                             -- eor %x[result_0], %x[result_0], %x[value_0]
      eorx 3 3 5,                             -- eor %x[result_1], %x[result_1], %x[value_1]
      stxp be 0 2 3 1,                        -- stxp %w[tmp], %x[result_0], %x[result_1], %[storage]
      cbnzw 0 0 1 false]                      -- cbnz %w[tmp], 1b
    opnds := [(0, .outEarly), (1, .input), (2, .outEarly), (3, .outEarly), (4, .input), (5, .input)]
    addr := [1]
    results := [2, 3] }
  args a x := pair be (x 4) (x 5) = a
  ret _ r := .val (pair be (r 2) (r 3))

/-- `fetch_complement`, extra_ops_gcc_aarch64.hpp 1349–1377 (assembly block 1357–1370).  Operands,
in this order: [tmp] "=&r" (tmp); [storage] "+Q" (storage); [original_0] "=&r"
(original.as_uint64[0u]); [original_1] "=&r" (original.as_uint64[1u]); [result_0] "=&r"
(result.as_uint64[0u]); [result_1] "=&r" (result.as_uint64[1u]). -/
def fetchComplement (be : Bool) : Fn 64 128 (Unit) (Integral.Ret 128) where
  block := {
    prog := [
      .label 1,                               -- 1:
      ldxp1 be 2 1,                           -- ldxp1 %x[original_0], %[storage]
      ldxp2 be 3 1,                           -- ldxp2 %x[original_1], %[storage]
      mvnx 4 2,                               -- mvn %x[result_0], %x[original_0]
      mvnx 5 3,                               -- mvn %x[result_1], %x[original_1]
      stxp be 0 4 5 1,                        -- stxp %w[tmp], %x[result_0], %x[result_1], %[storage]
      cbnzw 0 0 1 false]                      -- cbnz %w[tmp], 1b
    opnds := [(0, .outEarly), (1, .input), (2, .outEarly), (3, .outEarly), (4, .outEarly), (5, .outEarly)]
    addr := [1]
    results := [2, 3] }
  args _ _ := True
  ret _ r := .val (pair be (r 2) (r 3))

/-- `bitwise_complement`, extra_ops_gcc_aarch64.hpp 1379–1405 (assembly block 1386–1398).  Operands,
in this order: [tmp] "=&r" (tmp); [storage] "+Q" (storage); [result_0] "=&r" (result.as_uint64[0u]);
[result_1] "=&r" (result.as_uint64[1u]). -/
def bitwiseComplement (be : Bool) : Fn 64 128 (Unit) (Integral.Ret 128) where
  block := {
    prog := [
      .label 1,                               -- 1:
      ldxp1 be 2 1,                           -- ldxp1 %x[result_0], %[storage]
      ldxp2 be 3 1,                           -- ldxp2 %x[result_1], %[storage]
      mvnx 2 2,                               -- mvn %x[result_0], %x[result_0]
      mvnx 3 3,                               -- mvn %x[result_1], %x[result_1]
      stxp be 0 2 3 1,                        -- stxp %w[tmp], %x[result_0], %x[result_1], %[storage]
      cbnzw 0 0 1 false]                      -- cbnz %w[tmp], 1b
    opnds := [(0, .outEarly), (1, .input), (2, .outEarly), (3, .outEarly)]
    addr := [1]
    results := [2, 3] }
  args _ _ := True
  ret _ r := .val (pair be (r 2) (r 3))

end A64x16

end Verif.Asm
