import Verif.Asm.Tactic
import Verif.Asm.IsaX86

/-
The assembly blocks of core_arch_ops_gcc_x86.hpp for objects of two registers.
Written by tools/asmgen.py from the source text.
-/

set_option linter.unusedVariables false

namespace Verif.Asm

namespace X86d8
open X86

/-- `store`, core_arch_ops_gcc_x86.hpp 469–538 (assembly block 483–495, with `__SSE__`, `__SSE2__`,
`__AVX__`).  Operands, in this order: [storage] "=m" (storage); [value] "x" (value). -/
def storeAvx : Fn 32 64 (BitVec 64) (Integral.Ret 64) where
  block := {
    prog := [
      stx 1 21 0]                             -- vmovq %[value], %[storage]
    opnds := [(0, .input), (1, .input), (21, .input)]
    addr := [0]
    results := [] }
  args a x := x 1 = lower 32 a ∧ x 21 = upper 32 a
  ret _ _ := .unit

/-- `store`, core_arch_ops_gcc_x86.hpp 469–538 (assembly block 483–495, with `__SSE__`, `__SSE2__`).
Operands, in this order: [storage] "=m" (storage); [value] "x" (value). -/
def storeSse2 : Fn 32 64 (BitVec 64) (Integral.Ret 64) where
  block := {
    prog := [
      stx 1 21 0]                             -- movq %[value], %[storage]
    opnds := [(0, .input), (1, .input), (21, .input)]
    addr := [0]
    results := [] }
  args a x := x 1 = lower 32 a ∧ x 21 = upper 32 a
  ret _ _ := .unit

/-- `store`, core_arch_ops_gcc_x86.hpp 469–538 (assembly block 483–495, with `__SSE__`).  Operands,
in this order: [storage] "=m" (storage); [value] "x" (value). -/
def storeSse : Fn 32 64 (BitVec 64) (Integral.Ret 64) where
  block := {
    prog := [
      stx 1 21 0]                             -- movlps %[value], %[storage]
    opnds := [(0, .input), (1, .input), (21, .input)]
    addr := [0]
    results := [] }
  args a x := x 1 = lower 32 a ∧ x 21 = upper 32 a
  ret _ _ := .unit

/-- `store`, core_arch_ops_gcc_x86.hpp 469–538 (assembly block 497–504).  Operands, in this order:
[storage] "=m" (storage); [value] "m" (v). -/
def storeX87 : Fn 32 64 (BitVec 64) (Integral.Ret 64) where
  block := {
    prog := [
      mov2 1 21 50 51,                        -- fildll %[value]
      stx 50 51 0]                            -- fistpll %[storage]
    opnds := [(0, .input), (1, .input), (21, .input), (50, .outEarly), (51, .outEarly)]
    addr := [0]
    results := [] }
  args a x := x 1 = lower 32 a ∧ x 21 = upper 32 a
  ret _ _ := .unit

/-- `store`, core_arch_ops_gcc_x86.hpp 469–538 (assembly block 525–535).  Operands, in this order:
[dest_lo] "=m" (storage); [dest_hi] "=m" (reinterpret_cast< volatile aliasing_uint32_t*
>(&storage)[1]); [value_lo] "b" ((std::uint32_t)v); %3 "c" ((std::uint32_t)(v >> 32u)). -/
def storeLoop : Fn 32 64 (BitVec 64) (Integral.Ret 64) where
  block := {
    prog := [
      ldlo 0 40,                              -- movl %[dest_lo], %%eax
      ldhi 1 42,                              -- movl %[dest_hi], %%edx
      .label 1,                               -- 1:
      cmpxchg2 40 42 2 3 0,                   -- lock; cmpxchg8b %[dest_lo]
      jne 2 1 false]                          -- jne 1b
    opnds := [(0, .input), (1, .input), (2, .input), (3, .input), (40, .outEarly), (42, .outEarly)]
    fixed := [(2, 3), (3, 1), (40, 0), (42, 2)]
    addr := [0, 1]
    results := [] }
  args a x := x 2 = lower 32 a ∧ x 3 = upper 32 a
  ret _ _ := .unit

/-- `store`, core_arch_ops_gcc_x86.hpp 469–538 (assembly block 510–523, with
`BOOST_ATOMIC_DETAIL_X86_ASM_PRESERVE_EBX`).  Operands, in this order: %0 "a" ((std::uint32_t)v); %1
"c" ((std::uint32_t)(v >> 32u)); [dest] "D" (&storage). -/
def storePic : Fn 32 64 (BitVec 64) (Integral.Ret 64) where
  block := {
    prog := [
      xchgr 43 46,                            -- xchgl %%ebx, %%esi
      mov 32 0 43,                            -- movl %%eax, %%ebx
      ldlo 2 0,                               -- movl (%[dest]), %%eax
      ldhi 2 42,                              -- movl 4(%[dest]), %%edx
      .label 1,                               -- 1:
      cmpxchg2 0 42 43 1 2,                   -- lock; cmpxchg8b (%[dest])
      jne 4 1 false,                          -- jne 1b
      xchgr 43 46]                            -- xchgl %%ebx, %%esi
    opnds := [(0, .input), (1, .input), (2, .input), (42, .outEarly), (43, .reserved)]
    fixed := [(0, 0), (1, 1), (2, 7), (42, 2), (43, 3), (46, 6)]
    addr := [2]
    results := [] }
  args a x := x 0 = lower 32 a ∧ x 1 = upper 32 a
  ret _ _ := .unit

/-- `load`, core_arch_ops_gcc_x86.hpp 540–621 (assembly block 548–561, with `__SSE__`, `__SSE2__`,
`__AVX__`).  Operands, in this order: [value] "=x" (v); [storage] "m" (storage). -/
def loadAvx : Fn 32 64 (Unit) (Integral.Ret 64) where
  block := {
    prog := [
      ldx 1 0 20]                             -- vmovq %[storage], %[value]
    opnds := [(0, .out), (20, .out), (1, .input)]
    addr := [1]
    results := [0, 20] }
  args _ _ := True
  ret _ r := .val (joined 64 (r 20) (r 0))

/-- `load`, core_arch_ops_gcc_x86.hpp 540–621 (assembly block 548–561, with `__SSE__`, `__SSE2__`). 
Operands, in this order: [value] "=x" (v); [storage] "m" (storage). -/
def loadSse2 : Fn 32 64 (Unit) (Integral.Ret 64) where
  block := {
    prog := [
      ldx 1 0 20]                             -- movq %[storage], %[value]
    opnds := [(0, .out), (20, .out), (1, .input)]
    addr := [1]
    results := [0, 20] }
  args _ _ := True
  ret _ r := .val (joined 64 (r 20) (r 0))

/-- `load`, core_arch_ops_gcc_x86.hpp 540–621 (assembly block 548–561, with `__SSE__`).  Operands,
in this order: [value] "=x" (v); [storage] "m" (storage). -/
def loadSse : Fn 32 64 (Unit) (Integral.Ret 64) where
  block := {
    prog := [
      xorps 0 20,                             -- xorps %[value], %[value]
      ldx 1 0 20]                             -- movlps %[storage], %[value]
    opnds := [(0, .out), (20, .out), (1, .input)]
    differ := [(0, 1), (20, 1)]
    addr := [1]
    results := [0, 20] }
  args _ _ := True
  ret _ r := .val (joined 64 (r 20) (r 0))

/-- `load`, core_arch_ops_gcc_x86.hpp 540–621 (assembly block 569–576).  Operands, in this order:
[value] "=m" (value); [storage] "m" (storage). -/
def loadX87 : Fn 32 64 (Unit) (Integral.Ret 64) where
  block := {
    prog := [
      ldx 1 50 51,                            -- fildll %[storage]
      mov2 50 51 0 20]                        -- fistpll %[value]
    opnds := [(0, .out), (20, .out), (1, .input), (50, .outEarly), (51, .outEarly)]
    addr := [1]
    results := [0, 20] }
  args _ _ := True
  ret _ r := .val (joined 64 (r 20) (r 0))

/-- `load`, core_arch_ops_gcc_x86.hpp 540–621 (assembly block 605–613).  Operands, in this order: %0
"=&A" (value); [storage] "m" (storage). -/
def loadCas : Fn 32 64 (Unit) (Integral.Ret 64) where
  block := {
    prog := [
      mov 32 43 0,                            -- movl %%ebx, %%eax
      mov 32 41 20,                           -- movl %%ecx, %%edx
      cmpxchg2 0 20 43 41 1]                  -- lock; cmpxchg8b %[storage]
    opnds := [(0, .outEarly), (20, .outEarly), (1, .input)]
    fixed := [(0, 0), (20, 2), (43, 3), (41, 1)]
    addr := [1]
    results := [0, 20] }
  args _ _ := True
  ret _ r := .val (joined 64 (r 20) (r 0))

/-- `load`, core_arch_ops_gcc_x86.hpp 540–621 (assembly block 590–598, with
`BOOST_ATOMIC_DETAIL_X86_NO_ASM_AX_DX_PAIRS`).  Operands, in this order: %0 "=&a" (value_bits[0]);
%1 "=&d" (value_bits[1]); [storage] "m" (storage). -/
def loadCasBits : Fn 32 64 (Unit) (Integral.Ret 64) where
  block := {
    prog := [
      mov 32 43 0,                            -- movl %%ebx, %%eax
      mov 32 41 1,                            -- movl %%ecx, %%edx
      cmpxchg2 0 1 43 41 2]                   -- lock; cmpxchg8b %[storage]
    opnds := [(0, .outEarly), (1, .outEarly), (2, .input)]
    fixed := [(0, 0), (1, 2), (43, 3), (41, 1)]
    addr := [2]
    results := [0, 1] }
  args _ _ := True
  ret _ r := .val (joined 64 (r 1) (r 0))

/-- `compare_exchange_strong`, core_arch_ops_gcc_x86.hpp 623–692 (assembly block 669–675, with
`BOOST_ATOMIC_DETAIL_ASM_HAS_FLAG_OUTPUTS`).  Operands, in this order: %0 "+A" (expected); [dest]
"+m" (storage); [success] "=@ccz" (success); %3 "b" ((std::uint32_t)desired); %4 "c"
((std::uint32_t)(desired >> 32u)). -/
def cas : Fn 32 64 (BitVec 64 × BitVec 64) (Integral.Ret 64) where
  block := {
    prog := [
      cmpxchg2 0 20 3 4 1,                    -- lock; cmpxchg8b %[dest]
      sete 2]                                 -- sete %2
    opnds := [(0, .inout), (20, .inout), (1, .input), (2, .out), (3, .input), (4, .input)]
    fixed := [(0, 0), (20, 2), (3, 3), (4, 1)]
    addr := [1]
    results := [0, 20, 2] }
  args a x := x 0 = lower 32 a.1 ∧ x 20 = upper 32 a.1 ∧ x 3 = lower 32 a.2 ∧ x 4 = upper 32 a.2
  ret _ r := bool8 (r 2) (.cas · (joined 64 (r 20) (r 0)))

/-- `compare_exchange_strong`, core_arch_ops_gcc_x86.hpp 623–692 (assembly block 677–684). 
Operands, in this order: %0 "+A" (expected); [dest] "+m" (storage); [success] "=qm" (success); %3
"b" ((std::uint32_t)desired); %4 "c" ((std::uint32_t)(desired >> 32u)). -/
def casSet : Fn 32 64 (BitVec 64 × BitVec 64) (Integral.Ret 64) where
  block := {
    prog := [
      cmpxchg2 0 20 3 4 1,                    -- lock; cmpxchg8b %[dest]
      sete 2]                                 -- sete %[success]
    opnds := [(0, .inout), (20, .inout), (1, .input), (2, .out), (3, .input), (4, .input)]
    fixed := [(0, 0), (20, 2), (3, 3), (4, 1)]
    addr := [1]
    results := [0, 20, 2] }
  args a x := x 0 = lower 32 a.1 ∧ x 20 = upper 32 a.1 ∧ x 3 = lower 32 a.2 ∧ x 4 = upper 32 a.2
  ret _ r := bool8 (r 2) (.cas · (joined 64 (r 20) (r 0)))

/-- `compare_exchange_strong`, core_arch_ops_gcc_x86.hpp 623–692 (assembly block 640–648, with
`BOOST_ATOMIC_DETAIL_X86_ASM_PRESERVE_EBX`, `BOOST_ATOMIC_DETAIL_ASM_HAS_FLAG_OUTPUTS`).  Operands,
in this order: %0 "+A" (expected); [success] "=@ccz" (success); %2 "S" ((std::uint32_t)desired); %3
"c" ((std::uint32_t)(desired >> 32u)); [dest] "D" (&storage). -/
def casPic : Fn 32 64 (BitVec 64 × BitVec 64) (Integral.Ret 64) where
  block := {
    prog := [
      xchgr 43 2,                             -- xchgl %%ebx, %%esi
      cmpxchg2 0 20 43 3 4,                   -- lock; cmpxchg8b (%[dest])
      xchgr 43 2,                             -- xchgl %%ebx, %%esi
      sete 1]                                 -- sete %1
    opnds := [(0, .inout), (20, .inout), (1, .out), (2, .input), (3, .input), (4, .input), (43, .reserved)]
    fixed := [(0, 0), (20, 2), (2, 6), (3, 1), (4, 7), (43, 3)]
    differ := [(1, 2)]
    addr := [4]
    results := [0, 20, 1, 43, 2] }
  args a x := x 0 = lower 32 a.1 ∧ x 20 = upper 32 a.1 ∧ x 2 = lower 32 a.2 ∧ x 3 = upper 32 a.2
  ret _ r := bool8 (r 1) (.cas · (joined 64 (r 20) (r 0)))

/-- `compare_exchange_strong`, core_arch_ops_gcc_x86.hpp 623–692 (assembly block 650–659, with
`BOOST_ATOMIC_DETAIL_X86_ASM_PRESERVE_EBX`).  Operands, in this order: %0 "+A" (expected); [success]
"=qm" (success); %2 "S" ((std::uint32_t)desired); %3 "c" ((std::uint32_t)(desired >> 32u)); [dest]
"D" (&storage). -/
def casPicSet : Fn 32 64 (BitVec 64 × BitVec 64) (Integral.Ret 64) where
  block := {
    prog := [
      xchgr 43 2,                             -- xchgl %%ebx, %%esi
      cmpxchg2 0 20 43 3 4,                   -- lock; cmpxchg8b (%[dest])
      xchgr 43 2,                             -- xchgl %%ebx, %%esi
      sete 1]                                 -- sete %[success]
    opnds := [(0, .inout), (20, .inout), (1, .out), (2, .input), (3, .input), (4, .input), (43, .reserved)]
    fixed := [(0, 0), (20, 2), (2, 6), (3, 1), (4, 7), (43, 3)]
    differ := [(1, 2)]
    addr := [4]
    results := [0, 20, 1, 43, 2] }
  args a x := x 0 = lower 32 a.1 ∧ x 20 = upper 32 a.1 ∧ x 2 = lower 32 a.2 ∧ x 3 = upper 32 a.2
  ret _ r := bool8 (r 1) (.cas · (joined 64 (r 20) (r 0)))

/-- `exchange`, core_arch_ops_gcc_x86.hpp 700–799 (assembly block 781–791).  Operands, in this
order: %0 "=&A" (old_value); [dest_lo] "+m" (storage); [dest_hi] "+m" (reinterpret_cast< volatile
aliasing_uint32_t* >(&storage)[1]); %3 "b" ((std::uint32_t)v); %4 "c" ((std::uint32_t)(v >> 32u)).
-/
def exchange : Fn 32 64 (BitVec 64) (Integral.Ret 64) where
  block := {
    prog := [
      ldlo 1 0,                               -- movl %[dest_lo], %%eax
      ldhi 2 20,                              -- movl %[dest_hi], %%edx
      .label 1,                               -- 1:
      cmpxchg2 0 20 3 4 1,                    -- lock; cmpxchg8b %[dest_lo]
      jne 2 1 false]                          -- jne 1b
    opnds := [(0, .outEarly), (20, .outEarly), (1, .input), (2, .input), (3, .input), (4, .input)]
    fixed := [(0, 0), (20, 2), (3, 3), (4, 1)]
    addr := [1, 2]
    results := [0, 20] }
  args a x := x 3 = lower 32 a ∧ x 4 = upper 32 a
  ret _ r := .val (joined 64 (r 20) (r 0))

/-- `exchange`, core_arch_ops_gcc_x86.hpp 700–799 (assembly block 765–775, with
`BOOST_ATOMIC_DETAIL_X86_NO_ASM_AX_DX_PAIRS`).  Operands, in this order: %0 "=&a" (old_bits[0]); %1
"=&d" (old_bits[1]); [dest_lo] "+m" (storage); [dest_hi] "+m" (reinterpret_cast< volatile
aliasing_uint32_t* >(&storage)[1]); %4 "b" ((std::uint32_t)v); %5 "c" ((std::uint32_t)(v >> 32u)).
-/
def exchangeBits : Fn 32 64 (BitVec 64) (Integral.Ret 64) where
  block := {
    prog := [
      ldlo 2 0,                               -- movl %[dest_lo], %%eax
      ldhi 3 1,                               -- movl %[dest_hi], %%edx
      .label 1,                               -- 1:
      cmpxchg2 0 1 4 5 2,                     -- lock; cmpxchg8b %[dest_lo]
      jne 2 1 false]                          -- jne 1b
    opnds := [(0, .outEarly), (1, .outEarly), (2, .input), (3, .input), (4, .input), (5, .input)]
    fixed := [(0, 0), (1, 2), (4, 3), (5, 1)]
    addr := [2, 3]
    results := [0, 1] }
  args a x := x 4 = lower 32 a ∧ x 5 = upper 32 a
  ret _ r := .val (joined 64 (r 1) (r 0))

/-- `exchange`, core_arch_ops_gcc_x86.hpp 700–799 (assembly block 748–758, with `__MINGW32__`). 
Operands, in this order: %0 "=&a" (old_bits[0]); %1 "=&d" (old_bits[1]); %2 "b" ((std::uint32_t)v);
%3 "c" ((std::uint32_t)(v >> 32u)); [dest] "DS" (&storage). -/
def exchangeMinGw : Fn 32 64 (BitVec 64) (Integral.Ret 64) where
  block := {
    prog := [
      ldlo 4 0,                               -- movl (%[dest]), %%eax
      ldhi 4 1,                               -- movl 4(%[dest]), %%edx
      .label 1,                               -- 1:
      cmpxchg2 0 1 2 3 4,                     -- lock; cmpxchg8b (%[dest])
      jne 2 1 false]                          -- jne 1b
    opnds := [(0, .outEarly), (1, .outEarly), (2, .input), (3, .input), (4, .input)]
    fixed := [(0, 0), (1, 2), (2, 3), (3, 1)]
    addr := [4]
    results := [0, 1] }
  args a x := x 2 = lower 32 a ∧ x 3 = upper 32 a
  ret _ r := .val (joined 64 (r 1) (r 0))

/-- `exchange`, core_arch_ops_gcc_x86.hpp 700–799 (assembly block 728–740, with
`BOOST_ATOMIC_DETAIL_X86_ASM_PRESERVE_EBX`).  Operands, in this order: %0 "=A" (old_value); %1 "S"
((std::uint32_t)v); %2 "c" ((std::uint32_t)(v >> 32u)); [dest] "D" (&storage). -/
def exchangePic : Fn 32 64 (BitVec 64) (Integral.Ret 64) where
  block := {
    prog := [
      xchgr 43 1,                             -- xchgl %%ebx, %%esi
      ldlo 3 0,                               -- movl (%[dest]), %%eax
      ldhi 3 20,                              -- movl 4(%[dest]), %%edx
      .label 1,                               -- 1:
      cmpxchg2 0 20 43 2 3,                   -- lock; cmpxchg8b (%[dest])
      jne 3 1 false,                          -- jne 1b
      xchgr 43 1]                             -- xchgl %%ebx, %%esi
    opnds := [(0, .out), (20, .out), (1, .input), (2, .input), (3, .input), (43, .reserved)]
    fixed := [(0, 0), (20, 2), (1, 6), (2, 1), (3, 7), (43, 3)]
    addr := [3]
    results := [0, 20, 43, 1] }
  args a x := x 1 = lower 32 a ∧ x 2 = upper 32 a
  ret _ r := .val (joined 64 (r 20) (r 0))

/-- `exchange`, core_arch_ops_gcc_x86.hpp 700–799 (assembly block 710–722, with
`BOOST_ATOMIC_DETAIL_X86_ASM_PRESERVE_EBX`, `BOOST_ATOMIC_DETAIL_X86_NO_ASM_AX_DX_PAIRS`). 
Operands, in this order: %0 "=a" (old_bits[0]); %1 "=d" (old_bits[1]); %2 "S" ((std::uint32_t)v); %3
"c" ((std::uint32_t)(v >> 32u)); [dest] "D" (&storage). -/
def exchangePicBits : Fn 32 64 (BitVec 64) (Integral.Ret 64) where
  block := {
    prog := [
      xchgr 43 2,                             -- xchgl %%ebx, %%esi
      ldlo 4 0,                               -- movl (%[dest]), %%eax
      ldhi 4 1,                               -- movl 4(%[dest]), %%edx
      .label 1,                               -- 1:
      cmpxchg2 0 1 43 3 4,                    -- lock; cmpxchg8b (%[dest])
      jne 3 1 false,                          -- jne 1b
      xchgr 43 2]                             -- xchgl %%ebx, %%esi
    opnds := [(0, .out), (1, .out), (2, .input), (3, .input), (4, .input), (43, .reserved)]
    fixed := [(0, 0), (1, 2), (2, 6), (3, 1), (4, 7), (43, 3)]
    addr := [4]
    results := [0, 1, 43, 2] }
  args a x := x 2 = lower 32 a ∧ x 3 = upper 32 a
  ret _ r := .val (joined 64 (r 1) (r 0))

end X86d8

namespace X86d16
open X86

/-- `store`, core_arch_ops_gcc_x86.hpp 938–976 (assembly block 953–959, with `__AVX__`).  Operands,
in this order: [storage] "=m" (storage); [value] "x" (value). -/
def storeAvx : Fn 64 128 (BitVec 128) (Integral.Ret 128) where
  block := {
    prog := [
      stx 1 21 0]                             -- vmovdqa %[value], %[storage]
    opnds := [(0, .input), (1, .input), (21, .input)]
    addr := [0]
    results := [] }
  args a x := x 1 = lower 64 a ∧ x 21 = upper 64 a
  ret _ _ := .unit

/-- `store`, core_arch_ops_gcc_x86.hpp 938–976 (assembly block 965–975, with `__AVX__`).  Operands,
in this order: [dest_lo] "=m" (storage); [dest_hi] "=m" (reinterpret_cast< volatile
aliasing_uint64_t* >(&storage)[1]); %2 "b" (reinterpret_cast< const aliasing_uint64_t* >(&v)[0]); %3
"c" (reinterpret_cast< const aliasing_uint64_t* >(&v)[1]). -/
def storeLoop : Fn 64 128 (BitVec 128) (Integral.Ret 128) where
  block := {
    prog := [
      ldlo 0 40,                              -- movq %[dest_lo], %%rax
      ldhi 1 42,                              -- movq %[dest_hi], %%rdx
      .label 1,                               -- 1:
      cmpxchg2 40 42 2 3 0,                   -- lock; cmpxchg16b %[dest_lo]
      jne 2 1 false]                          -- jne 1b
    opnds := [(0, .input), (1, .input), (2, .input), (3, .input), (40, .outEarly), (42, .outEarly)]
    fixed := [(2, 3), (3, 1), (40, 0), (42, 2)]
    addr := [0, 1]
    results := [] }
  args a x := x 2 = lower 64 a ∧ x 3 = upper 64 a
  ret _ _ := .unit

/-- `load`, core_arch_ops_gcc_x86.hpp 978–1052 (assembly block 986–992, with `__AVX__`).  Operands,
in this order: [value] "=x" (v); [storage] "m" (storage). -/
def loadAvx : Fn 64 128 (Unit) (Integral.Ret 128) where
  block := {
    prog := [
      ldx 1 0 20]                             -- vmovdqa %[storage], %[value]
    opnds := [(0, .out), (20, .out), (1, .input)]
    addr := [1]
    results := [0, 20] }
  args _ _ := True
  ret _ r := .val (joined 128 (r 20) (r 0))

/-- `load`, core_arch_ops_gcc_x86.hpp 978–1052 (assembly block 1037–1045, with `__AVX__`). 
Operands, in this order: %0 "=&A" (value); [storage] "m" (storage). -/
def loadCas : Fn 64 128 (Unit) (Integral.Ret 128) where
  block := {
    prog := [
      mov 64 43 0,                            -- movq %%rbx, %%rax
      mov 64 41 20,                           -- movq %%rcx, %%rdx
      cmpxchg2 0 20 43 41 1]                  -- lock; cmpxchg16b %[storage]
    opnds := [(0, .outEarly), (20, .outEarly), (1, .input)]
    fixed := [(0, 0), (20, 2), (43, 3), (41, 1)]
    addr := [1]
    results := [0, 20] }
  args _ _ := True
  ret _ r := .val (joined 128 (r 20) (r 0))

/-- `load`, core_arch_ops_gcc_x86.hpp 978–1052 (assembly block 1017–1025, with `__AVX__`,
`BOOST_ATOMIC_DETAIL_X86_NO_ASM_AX_DX_PAIRS`).  Operands, in this order: %0 "=&a" (value_bits[0]);
%1 "=&d" (value_bits[1]); [storage] "m" (storage). -/
def loadCasBits : Fn 64 128 (Unit) (Integral.Ret 128) where
  block := {
    prog := [
      mov 64 43 0,                            -- movq %%rbx, %%rax
      mov 64 41 1,                            -- movq %%rcx, %%rdx
      cmpxchg2 0 1 43 41 2]                   -- lock; cmpxchg16b %[storage]
    opnds := [(0, .outEarly), (1, .outEarly), (2, .input)]
    fixed := [(0, 0), (1, 2), (43, 3), (41, 1)]
    addr := [2]
    results := [0, 1] }
  args _ _ := True
  ret _ r := .val (joined 128 (r 1) (r 0))

/-- `compare_exchange_strong`, core_arch_ops_gcc_x86.hpp 1054–1107 (assembly block 1084–1090, with
`BOOST_ATOMIC_DETAIL_ASM_HAS_FLAG_OUTPUTS`).  Operands, in this order: %0 "+A" (expected); [dest]
"+m" (storage); %2 "=@ccz" (success); %3 "b" (reinterpret_cast< const aliasing_uint64_t*
>(&desired)[0]); %4 "c" (reinterpret_cast< const aliasing_uint64_t* >(&desired)[1]). -/
def cas : Fn 64 128 (BitVec 128 × BitVec 128) (Integral.Ret 128) where
  block := {
    prog := [
      cmpxchg2 0 20 3 4 1,                    -- lock; cmpxchg16b %[dest]
      sete 2]                                 -- sete %2
    opnds := [(0, .inout), (20, .inout), (1, .input), (2, .out), (3, .input), (4, .input)]
    fixed := [(0, 0), (20, 2), (3, 3), (4, 1)]
    addr := [1]
    results := [0, 20, 2] }
  args a x := x 0 = lower 64 a.1 ∧ x 20 = upper 64 a.1 ∧ x 3 = lower 64 a.2 ∧ x 4 = upper 64 a.2
  ret _ r := bool8 (r 2) (.cas · (joined 128 (r 20) (r 0)))

/-- `compare_exchange_strong`, core_arch_ops_gcc_x86.hpp 1054–1107 (assembly block 1092–1099). 
Operands, in this order: %0 "+A" (expected); [dest] "+m" (storage); [success] "=qm" (success); %3
"b" (reinterpret_cast< const aliasing_uint64_t* >(&desired)[0]); %4 "c" (reinterpret_cast< const
aliasing_uint64_t* >(&desired)[1]). -/
def casSet : Fn 64 128 (BitVec 128 × BitVec 128) (Integral.Ret 128) where
  block := {
    prog := [
      cmpxchg2 0 20 3 4 1,                    -- lock; cmpxchg16b %[dest]
      sete 2]                                 -- sete %[success]
    opnds := [(0, .inout), (20, .inout), (1, .input), (2, .out), (3, .input), (4, .input)]
    fixed := [(0, 0), (20, 2), (3, 3), (4, 1)]
    addr := [1]
    results := [0, 20, 2] }
  args a x := x 0 = lower 64 a.1 ∧ x 20 = upper 64 a.1 ∧ x 3 = lower 64 a.2 ∧ x 4 = upper 64 a.2
  ret _ r := bool8 (r 2) (.cas · (joined 128 (r 20) (r 0)))

/-- `compare_exchange_strong`, core_arch_ops_gcc_x86.hpp 1054–1107 (assembly block 1070–1077, with
`BOOST_ATOMIC_DETAIL_X86_NO_ASM_AX_DX_PAIRS`).  Operands, in this order: [dest] "+m" (storage); %1
"+a" (reinterpret_cast< aliasing_uint64_t* >(&expected)[0]); %2 "+d" (reinterpret_cast<
aliasing_uint64_t* >(&expected)[1]); [success] "=q" (success); %4 "b" (reinterpret_cast< const
aliasing_uint64_t* >(&desired)[0]); %5 "c" (reinterpret_cast< const aliasing_uint64_t*
>(&desired)[1]). -/
def casBits : Fn 64 128 (BitVec 128 × BitVec 128) (Integral.Ret 128) where
  block := {
    prog := [
      cmpxchg2 1 2 4 5 0,                     -- lock; cmpxchg16b %[dest]
      sete 3]                                 -- sete %[success]
    opnds := [(0, .input), (1, .inout), (2, .inout), (3, .out), (4, .input), (5, .input)]
    fixed := [(1, 0), (2, 2), (4, 3), (5, 1)]
    addr := [0]
    results := [1, 2, 3] }
  args a x := x 1 = lower 64 a.1 ∧ x 2 = upper 64 a.1 ∧ x 4 = lower 64 a.2 ∧ x 5 = upper 64 a.2
  ret _ r := bool8 (r 3) (.cas · (joined 128 (r 2) (r 1)))

/-- `exchange`, core_arch_ops_gcc_x86.hpp 1115–1160 (assembly block 1143–1153).  Operands, in this
order: %0 "=&A" (old_value); [dest_lo] "+m" (storage); [dest_hi] "+m" (reinterpret_cast< volatile
aliasing_uint64_t* >(&storage)[1]); %3 "b" (reinterpret_cast< const aliasing_uint64_t* >(&v)[0]); %4
"c" (reinterpret_cast< const aliasing_uint64_t* >(&v)[1]). -/
def exchange : Fn 64 128 (BitVec 128) (Integral.Ret 128) where
  block := {
    prog := [
      ldlo 1 0,                               -- movq %[dest_lo], %%rax
      ldhi 2 20,                              -- movq %[dest_hi], %%rdx
      .label 1,                               -- 1:
      cmpxchg2 0 20 3 4 1,                    -- lock; cmpxchg16b %[dest_lo]
      jne 2 1 false]                          -- jne 1b
    opnds := [(0, .outEarly), (20, .outEarly), (1, .input), (2, .input), (3, .input), (4, .input)]
    fixed := [(0, 0), (20, 2), (3, 3), (4, 1)]
    addr := [1, 2]
    results := [0, 20] }
  args a x := x 3 = lower 64 a ∧ x 4 = upper 64 a
  ret _ r := .val (joined 128 (r 20) (r 0))

/-- `exchange`, core_arch_ops_gcc_x86.hpp 1115–1160 (assembly block 1123–1133, with
`BOOST_ATOMIC_DETAIL_X86_NO_ASM_AX_DX_PAIRS`).  Operands, in this order: [dest_lo] "+m" (storage);
[dest_hi] "+m" (reinterpret_cast< volatile aliasing_uint64_t* >(&storage)[1]); %2 "=&a"
(old_bits[0]); %3 "=&d" (old_bits[1]); %4 "b" (reinterpret_cast< const aliasing_uint64_t* >(&v)[0]);
%5 "c" (reinterpret_cast< const aliasing_uint64_t* >(&v)[1]). -/
def exchangeBits : Fn 64 128 (BitVec 128) (Integral.Ret 128) where
  block := {
    prog := [
      ldlo 0 2,                               -- movq %[dest_lo], %%rax
      ldhi 1 3,                               -- movq %[dest_hi], %%rdx
      .label 1,                               -- 1:
      cmpxchg2 2 3 4 5 0,                     -- lock; cmpxchg16b %[dest_lo]
      jne 2 1 false]                          -- jne 1b
    opnds := [(0, .input), (1, .input), (2, .outEarly), (3, .outEarly), (4, .input), (5, .input)]
    fixed := [(2, 0), (3, 2), (4, 3), (5, 1)]
    addr := [0, 1]
    results := [2, 3] }
  args a x := x 4 = lower 64 a ∧ x 5 = upper 64 a
  ret _ r := .val (joined 128 (r 3) (r 2))

end X86d16

end Verif.Asm
