import Verif.Asm.Tactic
import Verif.Asm.IsaMsvc

/-
The `__asm` blocks of core_arch_ops_msvc_x86.hpp and extra_ops_msvc_x86.hpp (32-bit x86).
Written by tools/msvcgen.py from the source text.
-/

set_option linter.unusedVariables false

namespace Verif.Asm
open X86

namespace Msvc1

/-- `fetch_add`, core_arch_ops_msvc_x86.hpp 272–284 (block 275–281).  Variables: 0 `storage`, 1 `v`.
-/
def fetchAdd : Fn 32 8 (BitVec 8) (Integral.Ret 8) where
  block := {
    prog := [
      movw 32 0 42,                           -- mov edx, storage
      movz 8 1 40,                            -- movzx eax, v
      xadd 8 40 42,                           -- lock xadd byte ptr [edx], al
      movw 8 40 1]                            -- mov v, al
    opnds := [(0, .input), (1, .inoutEarly), (40, .outEarly), (42, .outEarly)]
    fixed := [(40, 0), (42, 2)]
    addr := [0]
    results := [1] }
  args a x := (x 1).setWidth 8 = a
  ret _ r := .val ((r 1).setWidth 8)

/-- `exchange`, core_arch_ops_msvc_x86.hpp 286–298 (block 289–295).  Variables: 0 `storage`, 1 `v`.
-/
def exchange : Fn 32 8 (BitVec 8) (Integral.Ret 8) where
  block := {
    prog := [
      movw 32 0 42,                           -- mov edx, storage
      movz 8 1 40,                            -- movzx eax, v
      xchg 8 40 42,                           -- xchg byte ptr [edx], al
      movw 8 40 1]                            -- mov v, al
    opnds := [(0, .input), (1, .inoutEarly), (40, .outEarly), (42, .outEarly)]
    fixed := [(40, 0), (42, 2)]
    addr := [0]
    results := [1] }
  args a x := (x 1).setWidth 8 = a
  ret _ r := .val ((r 1).setWidth 8)

/-- `compare_exchange_strong`, core_arch_ops_msvc_x86.hpp 300–318 (block 305–314).  Variables: 0
`storage`, 1 `expected`, 2 `desired`, 3 `success`. -/
def compareExchangeStrong : Fn 32 8 (BitVec 8 × BitVec 8) (Integral.Ret 8) where
  block := {
    prog := [
      .havoc [46],                            -- mov esi, expected
      movw 32 0 47,                           -- mov edi, storage
      movz 8 1 40,                            -- movzx eax, byte ptr [esi]
      movz 8 2 42,                            -- movzx edx, desired
      cmpxchg 8 40 42 47,                     -- lock cmpxchg byte ptr [edi], dl
      movw 8 40 1,                            -- mov byte ptr [esi], al
      sete 3]                                 -- sete success
    opnds := [(0, .input), (1, .inoutEarly), (2, .input), (3, .outEarly), (40, .outEarly), (42, .outEarly), (46, .outEarly), (47, .outEarly)]
    fixed := [(40, 0), (42, 2), (46, 6), (47, 7)]
    addr := [0]
    results := [1, 3] }
  args a x := (x 1).setWidth 8 = a.1 ∧ (x 2).setWidth 8 = a.2
  ret _ r := bool8 (r 3) (.cas · ((r 1).setWidth 8))

/-- `fetch_and`, core_arch_ops_msvc_x86.hpp 320–339 (block 323–336).  Variables: 0 `storage`, 1 `v`.
-/
def fetchAnd : Fn 32 8 (BitVec 8) (Integral.Ret 8) where
  block := {
    prog := [
      movw 32 0 47,                           -- mov edi, storage
      movz 8 1 41,                            -- movzx ecx, v
      xor 32 42 42,                           -- xor edx, edx
      ldz 47 40,                              -- movzx eax, byte ptr [edi]
      .label 1,                               -- again:
      movw 8 40 42,                           -- mov dl, al
      and 8 41 42,                            -- and dl, cl
      cmpxchg 8 40 42 47,                     -- lock cmpxchg byte ptr [edi], dl
      jne 4 1 false,                          -- jne again
      movw 8 40 1]                            -- mov v, al
    opnds := [(0, .input), (1, .inoutEarly), (40, .outEarly), (41, .outEarly), (42, .outEarly), (47, .outEarly)]
    fixed := [(40, 0), (41, 1), (42, 2), (47, 7)]
    addr := [0]
    results := [1] }
  args a x := (x 1).setWidth 8 = a
  ret _ r := .val ((r 1).setWidth 8)

/-- `fetch_or`, core_arch_ops_msvc_x86.hpp 341–360 (block 344–357).  Variables: 0 `storage`, 1 `v`.
-/
def fetchOr : Fn 32 8 (BitVec 8) (Integral.Ret 8) where
  block := {
    prog := [
      movw 32 0 47,                           -- mov edi, storage
      movz 8 1 41,                            -- movzx ecx, v
      xor 32 42 42,                           -- xor edx, edx
      ldz 47 40,                              -- movzx eax, byte ptr [edi]
      .label 1,                               -- again:
      movw 8 40 42,                           -- mov dl, al
      or 8 41 42,                             -- or dl, cl
      cmpxchg 8 40 42 47,                     -- lock cmpxchg byte ptr [edi], dl
      jne 4 1 false,                          -- jne again
      movw 8 40 1]                            -- mov v, al
    opnds := [(0, .input), (1, .inoutEarly), (40, .outEarly), (41, .outEarly), (42, .outEarly), (47, .outEarly)]
    fixed := [(40, 0), (41, 1), (42, 2), (47, 7)]
    addr := [0]
    results := [1] }
  args a x := (x 1).setWidth 8 = a
  ret _ r := .val ((r 1).setWidth 8)

/-- `fetch_xor`, core_arch_ops_msvc_x86.hpp 362–381 (block 365–378).  Variables: 0 `storage`, 1 `v`.
-/
def fetchXor : Fn 32 8 (BitVec 8) (Integral.Ret 8) where
  block := {
    prog := [
      movw 32 0 47,                           -- mov edi, storage
      movz 8 1 41,                            -- movzx ecx, v
      xor 32 42 42,                           -- xor edx, edx
      ldz 47 40,                              -- movzx eax, byte ptr [edi]
      .label 1,                               -- again:
      movw 8 40 42,                           -- mov dl, al
      xor 8 41 42,                            -- xor dl, cl
      cmpxchg 8 40 42 47,                     -- lock cmpxchg byte ptr [edi], dl
      jne 4 1 false,                          -- jne again
      movw 8 40 1]                            -- mov v, al
    opnds := [(0, .input), (1, .inoutEarly), (40, .outEarly), (41, .outEarly), (42, .outEarly), (47, .outEarly)]
    fixed := [(40, 0), (41, 1), (42, 2), (47, 7)]
    addr := [0]
    results := [1] }
  args a x := (x 1).setWidth 8 = a
  ret _ r := .val ((r 1).setWidth 8)

/-- `fetch_negate`, extra_ops_msvc_x86.hpp 43–61 (block 47–58).  Variables: 0 `storage`, 3
`old_val`. -/
def fetchNegate : Fn 32 8 (Unit) (Integral.Ret 8) where
  block := {
    prog := [
      movw 32 0 41,                           -- mov ecx, storage
      ldz 41 40,                              -- movzx eax, byte ptr [ecx]
      .label 1,                               -- again:
      movw 32 40 42,                          -- mov edx, eax
      neg 8 42,                               -- neg dl
      cmpxchg 8 40 42 41,                     -- lock cmpxchg byte ptr [ecx], dl
      jne 2 1 false,                          -- jne again
      movw 8 40 3]                            -- mov old_val, al
    opnds := [(0, .input), (3, .outEarly), (40, .outEarly), (41, .outEarly), (42, .outEarly)]
    fixed := [(40, 0), (41, 1), (42, 2)]
    addr := [0]
    results := [3] }
  args _ _ := True
  ret _ r := .val ((r 3).setWidth 8)

/-- `negate`, extra_ops_msvc_x86.hpp 63–81 (block 67–78).  Variables: 0 `storage`, 3 `new_val`. -/
def negate : Fn 32 8 (Unit) (Integral.Ret 8) where
  block := {
    prog := [
      movw 32 0 41,                           -- mov ecx, storage
      ldz 41 40,                              -- movzx eax, byte ptr [ecx]
      .label 1,                               -- again:
      movw 32 40 42,                          -- mov edx, eax
      neg 8 42,                               -- neg dl
      cmpxchg 8 40 42 41,                     -- lock cmpxchg byte ptr [ecx], dl
      jne 2 1 false,                          -- jne again
      movw 8 42 3]                            -- mov new_val, dl
    opnds := [(0, .input), (3, .outEarly), (40, .outEarly), (41, .outEarly), (42, .outEarly)]
    fixed := [(40, 0), (41, 1), (42, 2)]
    addr := [0]
    results := [3] }
  args _ _ := True
  ret _ r := .val ((r 3).setWidth 8)

/-- `negate_and_test`, extra_ops_msvc_x86.hpp 83–102 (block 87–99).  Variables: 0 `storage`, 3
`result`. -/
def negateAndTest : Fn 32 8 (Unit) (Integral.Ret 8) where
  block := {
    prog := [
      movw 32 0 41,                           -- mov ecx, storage
      ldz 41 40,                              -- movzx eax, byte ptr [ecx]
      .label 1,                               -- again:
      movw 32 40 42,                          -- mov edx, eax
      neg 8 42,                               -- neg dl
      cmpxchg 8 40 42 41,                     -- lock cmpxchg byte ptr [ecx], dl
      jne 2 1 false,                          -- jne again
      testr 8 42 42,                          -- test dl, dl
      setnz 3]                                -- setnz result
    opnds := [(0, .input), (3, .outEarly), (40, .outEarly), (41, .outEarly), (42, .outEarly)]
    fixed := [(40, 0), (41, 1), (42, 2)]
    addr := [0]
    results := [3] }
  args _ _ := True
  ret _ r := bool8 (r 3) .flag

/-- `opaque_negate`, extra_ops_msvc_x86.hpp 104–119 (block 107–117).  Variables: 0 `storage`. -/
def opaqueNegate : Fn 32 8 (Unit) (Integral.Ret 8) where
  block := {
    prog := [
      movw 32 0 41,                           -- mov ecx, storage
      ldz 41 40,                              -- movzx eax, byte ptr [ecx]
      .label 1,                               -- again:
      movw 32 40 42,                          -- mov edx, eax
      neg 8 42,                               -- neg dl
      cmpxchg 8 40 42 41,                     -- lock cmpxchg byte ptr [ecx], dl
      jne 2 1 false]                          -- jne again
    opnds := [(0, .input), (40, .outEarly), (41, .outEarly), (42, .outEarly)]
    fixed := [(40, 0), (41, 1), (42, 2)]
    addr := [0]
    results := [] }
  args _ _ := True
  ret _ _ := .unit

/-- `bitwise_and`, extra_ops_msvc_x86.hpp 121–140 (block 124–137).  Variables: 0 `storage`, 1 `v`.
-/
def bitwiseAnd : Fn 32 8 (BitVec 8) (Integral.Ret 8) where
  block := {
    prog := [
      movw 32 0 47,                           -- mov edi, storage
      movz 8 1 41,                            -- movzx ecx, v
      xor 32 42 42,                           -- xor edx, edx
      ldz 47 40,                              -- movzx eax, byte ptr [edi]
      .label 1,                               -- again:
      movw 8 40 42,                           -- mov dl, al
      and 8 41 42,                            -- and dl, cl
      cmpxchg 8 40 42 47,                     -- lock cmpxchg byte ptr [edi], dl
      jne 4 1 false,                          -- jne again
      movw 8 42 1]                            -- mov v, dl
    opnds := [(0, .input), (1, .inoutEarly), (40, .outEarly), (41, .outEarly), (42, .outEarly), (47, .outEarly)]
    fixed := [(40, 0), (41, 1), (42, 2), (47, 7)]
    addr := [0]
    results := [1] }
  args a x := (x 1).setWidth 8 = a
  ret _ r := .val ((r 1).setWidth 8)

/-- `bitwise_or`, extra_ops_msvc_x86.hpp 142–161 (block 145–158).  Variables: 0 `storage`, 1 `v`. -/
def bitwiseOr : Fn 32 8 (BitVec 8) (Integral.Ret 8) where
  block := {
    prog := [
      movw 32 0 47,                           -- mov edi, storage
      movz 8 1 41,                            -- movzx ecx, v
      xor 32 42 42,                           -- xor edx, edx
      ldz 47 40,                              -- movzx eax, byte ptr [edi]
      .label 1,                               -- again:
      movw 8 40 42,                           -- mov dl, al
      or 8 41 42,                             -- or dl, cl
      cmpxchg 8 40 42 47,                     -- lock cmpxchg byte ptr [edi], dl
      jne 4 1 false,                          -- jne again
      movw 8 42 1]                            -- mov v, dl
    opnds := [(0, .input), (1, .inoutEarly), (40, .outEarly), (41, .outEarly), (42, .outEarly), (47, .outEarly)]
    fixed := [(40, 0), (41, 1), (42, 2), (47, 7)]
    addr := [0]
    results := [1] }
  args a x := (x 1).setWidth 8 = a
  ret _ r := .val ((r 1).setWidth 8)

/-- `bitwise_xor`, extra_ops_msvc_x86.hpp 163–182 (block 166–179).  Variables: 0 `storage`, 1 `v`.
-/
def bitwiseXor : Fn 32 8 (BitVec 8) (Integral.Ret 8) where
  block := {
    prog := [
      movw 32 0 47,                           -- mov edi, storage
      movz 8 1 41,                            -- movzx ecx, v
      xor 32 42 42,                           -- xor edx, edx
      ldz 47 40,                              -- movzx eax, byte ptr [edi]
      .label 1,                               -- again:
      movw 8 40 42,                           -- mov dl, al
      xor 8 41 42,                            -- xor dl, cl
      cmpxchg 8 40 42 47,                     -- lock cmpxchg byte ptr [edi], dl
      jne 4 1 false,                          -- jne again
      movw 8 42 1]                            -- mov v, dl
    opnds := [(0, .input), (1, .inoutEarly), (40, .outEarly), (41, .outEarly), (42, .outEarly), (47, .outEarly)]
    fixed := [(40, 0), (41, 1), (42, 2), (47, 7)]
    addr := [0]
    results := [1] }
  args a x := (x 1).setWidth 8 = a
  ret _ r := .val ((r 1).setWidth 8)

/-- `fetch_complement`, extra_ops_msvc_x86.hpp 184–202 (block 188–199).  Variables: 0 `storage`, 3
`old_val`. -/
def fetchComplement : Fn 32 8 (Unit) (Integral.Ret 8) where
  block := {
    prog := [
      movw 32 0 41,                           -- mov ecx, storage
      ldz 41 40,                              -- movzx eax, byte ptr [ecx]
      .label 1,                               -- again:
      movw 32 40 42,                          -- mov edx, eax
      not 8 42,                               -- not dl
      cmpxchg 8 40 42 41,                     -- lock cmpxchg byte ptr [ecx], dl
      jne 2 1 false,                          -- jne again
      movw 8 40 3]                            -- mov old_val, al
    opnds := [(0, .input), (3, .outEarly), (40, .outEarly), (41, .outEarly), (42, .outEarly)]
    fixed := [(40, 0), (41, 1), (42, 2)]
    addr := [0]
    results := [3] }
  args _ _ := True
  ret _ r := .val ((r 3).setWidth 8)

/-- `bitwise_complement`, extra_ops_msvc_x86.hpp 204–222 (block 208–219).  Variables: 0 `storage`, 3
`new_val`. -/
def bitwiseComplement : Fn 32 8 (Unit) (Integral.Ret 8) where
  block := {
    prog := [
      movw 32 0 41,                           -- mov ecx, storage
      ldz 41 40,                              -- movzx eax, byte ptr [ecx]
      .label 1,                               -- again:
      movw 32 40 42,                          -- mov edx, eax
      not 8 42,                               -- not dl
      cmpxchg 8 40 42 41,                     -- lock cmpxchg byte ptr [ecx], dl
      jne 2 1 false,                          -- jne again
      movw 8 42 3]                            -- mov new_val, dl
    opnds := [(0, .input), (3, .outEarly), (40, .outEarly), (41, .outEarly), (42, .outEarly)]
    fixed := [(40, 0), (41, 1), (42, 2)]
    addr := [0]
    results := [3] }
  args _ _ := True
  ret _ r := .val ((r 3).setWidth 8)

/-- `complement_and_test`, extra_ops_msvc_x86.hpp 224–243 (block 228–240).  Variables: 0 `storage`,
3 `result`. -/
def complementAndTest : Fn 32 8 (Unit) (Integral.Ret 8) where
  block := {
    prog := [
      movw 32 0 41,                           -- mov ecx, storage
      ldz 41 40,                              -- movzx eax, byte ptr [ecx]
      .label 1,                               -- again:
      movw 32 40 42,                          -- mov edx, eax
      not 8 42,                               -- not dl
      cmpxchg 8 40 42 41,                     -- lock cmpxchg byte ptr [ecx], dl
      jne 2 1 false,                          -- jne again
      testr 8 42 42,                          -- test dl, dl
      setnz 3]                                -- setnz result
    opnds := [(0, .input), (3, .outEarly), (40, .outEarly), (41, .outEarly), (42, .outEarly)]
    fixed := [(40, 0), (41, 1), (42, 2)]
    addr := [0]
    results := [3] }
  args _ _ := True
  ret _ r := bool8 (r 3) .flag

/-- `opaque_complement`, extra_ops_msvc_x86.hpp 245–260 (block 248–258).  Variables: 0 `storage`. -/
def opaqueComplement : Fn 32 8 (Unit) (Integral.Ret 8) where
  block := {
    prog := [
      movw 32 0 41,                           -- mov ecx, storage
      ldz 41 40,                              -- movzx eax, byte ptr [ecx]
      .label 1,                               -- again:
      movw 32 40 42,                          -- mov edx, eax
      not 8 42,                               -- not dl
      cmpxchg 8 40 42 41,                     -- lock cmpxchg byte ptr [ecx], dl
      jne 2 1 false]                          -- jne again
    opnds := [(0, .input), (40, .outEarly), (41, .outEarly), (42, .outEarly)]
    fixed := [(40, 0), (41, 1), (42, 2)]
    addr := [0]
    results := [] }
  args _ _ := True
  ret _ _ := .unit

/-- `opaque_add`, extra_ops_msvc_x86.hpp 262–272 (block 265–270).  Variables: 0 `storage`, 1 `v`. -/
def opaqueAdd : Fn 32 8 (BitVec 8) (Integral.Ret 8) where
  block := {
    prog := [
      movw 32 0 42,                           -- mov edx, storage
      movz 8 1 40,                            -- movzx eax, v
      addm 8 40 42]                           -- lock add byte ptr [edx], al
    opnds := [(0, .input), (1, .input), (40, .outEarly), (42, .outEarly)]
    fixed := [(40, 0), (42, 2)]
    addr := [0]
    results := [] }
  args a x := (x 1).setWidth 8 = a
  ret _ _ := .unit

/-- `opaque_sub`, extra_ops_msvc_x86.hpp 274–284 (block 277–282).  Variables: 0 `storage`, 1 `v`. -/
def opaqueSub : Fn 32 8 (BitVec 8) (Integral.Ret 8) where
  block := {
    prog := [
      movw 32 0 42,                           -- mov edx, storage
      movz 8 1 40,                            -- movzx eax, v
      subm 8 40 42]                           -- lock sub byte ptr [edx], al
    opnds := [(0, .input), (1, .input), (40, .outEarly), (42, .outEarly)]
    fixed := [(40, 0), (42, 2)]
    addr := [0]
    results := [] }
  args a x := (x 1).setWidth 8 = a
  ret _ _ := .unit

/-- `opaque_negate`, extra_ops_msvc_x86.hpp 286–295 (block 289–293).  Variables: 0 `storage`. -/
def opaqueNegateLock : Fn 32 8 (Unit) (Integral.Ret 8) where
  block := {
    prog := [
      movw 32 0 42,                           -- mov edx, storage
      negm 8 42]                              -- lock neg byte ptr [edx]
    opnds := [(0, .input), (42, .outEarly)]
    fixed := [(42, 2)]
    addr := [0]
    results := [] }
  args _ _ := True
  ret _ _ := .unit

/-- `opaque_and`, extra_ops_msvc_x86.hpp 297–307 (block 300–305).  Variables: 0 `storage`, 1 `v`. -/
def opaqueAnd : Fn 32 8 (BitVec 8) (Integral.Ret 8) where
  block := {
    prog := [
      movw 32 0 42,                           -- mov edx, storage
      movz 8 1 40,                            -- movzx eax, v
      andm 8 40 42]                           -- lock and byte ptr [edx], al
    opnds := [(0, .input), (1, .input), (40, .outEarly), (42, .outEarly)]
    fixed := [(40, 0), (42, 2)]
    addr := [0]
    results := [] }
  args a x := (x 1).setWidth 8 = a
  ret _ _ := .unit

/-- `opaque_or`, extra_ops_msvc_x86.hpp 309–319 (block 312–317).  Variables: 0 `storage`, 1 `v`. -/
def opaqueOr : Fn 32 8 (BitVec 8) (Integral.Ret 8) where
  block := {
    prog := [
      movw 32 0 42,                           -- mov edx, storage
      movz 8 1 40,                            -- movzx eax, v
      orm 8 40 42]                            -- lock or byte ptr [edx], al
    opnds := [(0, .input), (1, .input), (40, .outEarly), (42, .outEarly)]
    fixed := [(40, 0), (42, 2)]
    addr := [0]
    results := [] }
  args a x := (x 1).setWidth 8 = a
  ret _ _ := .unit

/-- `opaque_xor`, extra_ops_msvc_x86.hpp 321–331 (block 324–329).  Variables: 0 `storage`, 1 `v`. -/
def opaqueXor : Fn 32 8 (BitVec 8) (Integral.Ret 8) where
  block := {
    prog := [
      movw 32 0 42,                           -- mov edx, storage
      movz 8 1 40,                            -- movzx eax, v
      xorm 8 40 42]                           -- lock xor byte ptr [edx], al
    opnds := [(0, .input), (1, .input), (40, .outEarly), (42, .outEarly)]
    fixed := [(40, 0), (42, 2)]
    addr := [0]
    results := [] }
  args a x := (x 1).setWidth 8 = a
  ret _ _ := .unit

/-- `opaque_complement`, extra_ops_msvc_x86.hpp 333–342 (block 336–340).  Variables: 0 `storage`. -/
def opaqueComplementLock : Fn 32 8 (Unit) (Integral.Ret 8) where
  block := {
    prog := [
      movw 32 0 42,                           -- mov edx, storage
      notm 8 42]                              -- lock not byte ptr [edx]
    opnds := [(0, .input), (42, .outEarly)]
    fixed := [(42, 2)]
    addr := [0]
    results := [] }
  args _ _ := True
  ret _ _ := .unit

/-- `add_and_test`, extra_ops_msvc_x86.hpp 344–357 (block 348–354).  Variables: 0 `storage`, 1 `v`,
3 `result`. -/
def addAndTest : Fn 32 8 (BitVec 8) (Integral.Ret 8) where
  block := {
    prog := [
      movw 32 0 42,                           -- mov edx, storage
      movz 8 1 40,                            -- movzx eax, v
      addm 8 40 42,                           -- lock add byte ptr [edx], al
      setnz 3]                                -- setnz result
    opnds := [(0, .input), (1, .input), (3, .outEarly), (40, .outEarly), (42, .outEarly)]
    fixed := [(40, 0), (42, 2)]
    addr := [0]
    results := [3] }
  args a x := (x 1).setWidth 8 = a
  ret _ r := bool8 (r 3) .flag

/-- `sub_and_test`, extra_ops_msvc_x86.hpp 359–372 (block 363–369).  Variables: 0 `storage`, 1 `v`,
3 `result`. -/
def subAndTest : Fn 32 8 (BitVec 8) (Integral.Ret 8) where
  block := {
    prog := [
      movw 32 0 42,                           -- mov edx, storage
      movz 8 1 40,                            -- movzx eax, v
      subm 8 40 42,                           -- lock sub byte ptr [edx], al
      setnz 3]                                -- setnz result
    opnds := [(0, .input), (1, .input), (3, .outEarly), (40, .outEarly), (42, .outEarly)]
    fixed := [(40, 0), (42, 2)]
    addr := [0]
    results := [3] }
  args a x := (x 1).setWidth 8 = a
  ret _ r := bool8 (r 3) .flag

/-- `and_and_test`, extra_ops_msvc_x86.hpp 374–387 (block 378–384).  Variables: 0 `storage`, 1 `v`,
3 `result`. -/
def andAndTest : Fn 32 8 (BitVec 8) (Integral.Ret 8) where
  block := {
    prog := [
      movw 32 0 42,                           -- mov edx, storage
      movz 8 1 40,                            -- movzx eax, v
      andm 8 40 42,                           -- lock and byte ptr [edx], al
      setnz 3]                                -- setnz result
    opnds := [(0, .input), (1, .input), (3, .outEarly), (40, .outEarly), (42, .outEarly)]
    fixed := [(40, 0), (42, 2)]
    addr := [0]
    results := [3] }
  args a x := (x 1).setWidth 8 = a
  ret _ r := bool8 (r 3) .flag

/-- `or_and_test`, extra_ops_msvc_x86.hpp 389–402 (block 393–399).  Variables: 0 `storage`, 1 `v`, 3
`result`. -/
def orAndTest : Fn 32 8 (BitVec 8) (Integral.Ret 8) where
  block := {
    prog := [
      movw 32 0 42,                           -- mov edx, storage
      movz 8 1 40,                            -- movzx eax, v
      orm 8 40 42,                            -- lock or byte ptr [edx], al
      setnz 3]                                -- setnz result
    opnds := [(0, .input), (1, .input), (3, .outEarly), (40, .outEarly), (42, .outEarly)]
    fixed := [(40, 0), (42, 2)]
    addr := [0]
    results := [3] }
  args a x := (x 1).setWidth 8 = a
  ret _ r := bool8 (r 3) .flag

/-- `xor_and_test`, extra_ops_msvc_x86.hpp 404–417 (block 408–414).  Variables: 0 `storage`, 1 `v`,
3 `result`. -/
def xorAndTest : Fn 32 8 (BitVec 8) (Integral.Ret 8) where
  block := {
    prog := [
      movw 32 0 42,                           -- mov edx, storage
      movz 8 1 40,                            -- movzx eax, v
      xorm 8 40 42,                           -- lock xor byte ptr [edx], al
      setnz 3]                                -- setnz result
    opnds := [(0, .input), (1, .input), (3, .outEarly), (40, .outEarly), (42, .outEarly)]
    fixed := [(40, 0), (42, 2)]
    addr := [0]
    results := [3] }
  args a x := (x 1).setWidth 8 = a
  ret _ r := bool8 (r 3) .flag

end Msvc1

namespace Msvc2

/-- `fetch_add`, core_arch_ops_msvc_x86.hpp 447–459 (block 450–456).  Variables: 0 `storage`, 1 `v`.
-/
def fetchAdd : Fn 32 16 (BitVec 16) (Integral.Ret 16) where
  block := {
    prog := [
      movw 32 0 42,                           -- mov edx, storage
      movz 16 1 40,                           -- movzx eax, v
      xadd 16 40 42,                          -- lock xadd word ptr [edx], ax
      movw 16 40 1]                           -- mov v, ax
    opnds := [(0, .input), (1, .inoutEarly), (40, .outEarly), (42, .outEarly)]
    fixed := [(40, 0), (42, 2)]
    addr := [0]
    results := [1] }
  args a x := (x 1).setWidth 16 = a
  ret _ r := .val ((r 1).setWidth 16)

/-- `exchange`, core_arch_ops_msvc_x86.hpp 461–473 (block 464–470).  Variables: 0 `storage`, 1 `v`.
-/
def exchange : Fn 32 16 (BitVec 16) (Integral.Ret 16) where
  block := {
    prog := [
      movw 32 0 42,                           -- mov edx, storage
      movz 16 1 40,                           -- movzx eax, v
      xchg 16 40 42,                          -- xchg word ptr [edx], ax
      movw 16 40 1]                           -- mov v, ax
    opnds := [(0, .input), (1, .inoutEarly), (40, .outEarly), (42, .outEarly)]
    fixed := [(40, 0), (42, 2)]
    addr := [0]
    results := [1] }
  args a x := (x 1).setWidth 16 = a
  ret _ r := .val ((r 1).setWidth 16)

/-- `compare_exchange_strong`, core_arch_ops_msvc_x86.hpp 475–493 (block 480–489).  Variables: 0
`storage`, 1 `expected`, 2 `desired`, 3 `success`. -/
def compareExchangeStrong : Fn 32 16 (BitVec 16 × BitVec 16) (Integral.Ret 16) where
  block := {
    prog := [
      .havoc [46],                            -- mov esi, expected
      movw 32 0 47,                           -- mov edi, storage
      movz 16 1 40,                           -- movzx eax, word ptr [esi]
      movz 16 2 42,                           -- movzx edx, desired
      cmpxchg 16 40 42 47,                    -- lock cmpxchg word ptr [edi], dx
      movw 16 40 1,                           -- mov word ptr [esi], ax
      sete 3]                                 -- sete success
    opnds := [(0, .input), (1, .inoutEarly), (2, .input), (3, .outEarly), (40, .outEarly), (42, .outEarly), (46, .outEarly), (47, .outEarly)]
    fixed := [(40, 0), (42, 2), (46, 6), (47, 7)]
    addr := [0]
    results := [1, 3] }
  args a x := (x 1).setWidth 16 = a.1 ∧ (x 2).setWidth 16 = a.2
  ret _ r := bool8 (r 3) (.cas · ((r 1).setWidth 16))

/-- `fetch_and`, core_arch_ops_msvc_x86.hpp 495–514 (block 498–511).  Variables: 0 `storage`, 1 `v`.
-/
def fetchAnd : Fn 32 16 (BitVec 16) (Integral.Ret 16) where
  block := {
    prog := [
      movw 32 0 47,                           -- mov edi, storage
      movz 16 1 41,                           -- movzx ecx, v
      xor 32 42 42,                           -- xor edx, edx
      ldz 47 40,                              -- movzx eax, word ptr [edi]
      .label 1,                               -- again:
      movw 16 40 42,                          -- mov dx, ax
      and 16 41 42,                           -- and dx, cx
      cmpxchg 16 40 42 47,                    -- lock cmpxchg word ptr [edi], dx
      jne 4 1 false,                          -- jne again
      movw 16 40 1]                           -- mov v, ax
    opnds := [(0, .input), (1, .inoutEarly), (40, .outEarly), (41, .outEarly), (42, .outEarly), (47, .outEarly)]
    fixed := [(40, 0), (41, 1), (42, 2), (47, 7)]
    addr := [0]
    results := [1] }
  args a x := (x 1).setWidth 16 = a
  ret _ r := .val ((r 1).setWidth 16)

/-- `fetch_or`, core_arch_ops_msvc_x86.hpp 516–535 (block 519–532).  Variables: 0 `storage`, 1 `v`.
-/
def fetchOr : Fn 32 16 (BitVec 16) (Integral.Ret 16) where
  block := {
    prog := [
      movw 32 0 47,                           -- mov edi, storage
      movz 16 1 41,                           -- movzx ecx, v
      xor 32 42 42,                           -- xor edx, edx
      ldz 47 40,                              -- movzx eax, word ptr [edi]
      .label 1,                               -- again:
      movw 16 40 42,                          -- mov dx, ax
      or 16 41 42,                            -- or dx, cx
      cmpxchg 16 40 42 47,                    -- lock cmpxchg word ptr [edi], dx
      jne 4 1 false,                          -- jne again
      movw 16 40 1]                           -- mov v, ax
    opnds := [(0, .input), (1, .inoutEarly), (40, .outEarly), (41, .outEarly), (42, .outEarly), (47, .outEarly)]
    fixed := [(40, 0), (41, 1), (42, 2), (47, 7)]
    addr := [0]
    results := [1] }
  args a x := (x 1).setWidth 16 = a
  ret _ r := .val ((r 1).setWidth 16)

/-- `fetch_xor`, core_arch_ops_msvc_x86.hpp 537–556 (block 540–553).  Variables: 0 `storage`, 1 `v`.
-/
def fetchXor : Fn 32 16 (BitVec 16) (Integral.Ret 16) where
  block := {
    prog := [
      movw 32 0 47,                           -- mov edi, storage
      movz 16 1 41,                           -- movzx ecx, v
      xor 32 42 42,                           -- xor edx, edx
      ldz 47 40,                              -- movzx eax, word ptr [edi]
      .label 1,                               -- again:
      movw 16 40 42,                          -- mov dx, ax
      xor 16 41 42,                           -- xor dx, cx
      cmpxchg 16 40 42 47,                    -- lock cmpxchg word ptr [edi], dx
      jne 4 1 false,                          -- jne again
      movw 16 40 1]                           -- mov v, ax
    opnds := [(0, .input), (1, .inoutEarly), (40, .outEarly), (41, .outEarly), (42, .outEarly), (47, .outEarly)]
    fixed := [(40, 0), (41, 1), (42, 2), (47, 7)]
    addr := [0]
    results := [1] }
  args a x := (x 1).setWidth 16 = a
  ret _ r := .val ((r 1).setWidth 16)

/-- `fetch_negate`, extra_ops_msvc_x86.hpp 427–445 (block 431–442).  Variables: 0 `storage`, 3
`old_val`. -/
def fetchNegate : Fn 32 16 (Unit) (Integral.Ret 16) where
  block := {
    prog := [
      movw 32 0 41,                           -- mov ecx, storage
      ldz 41 40,                              -- movzx eax, word ptr [ecx]
      .label 1,                               -- again:
      movw 32 40 42,                          -- mov edx, eax
      neg 16 42,                              -- neg dx
      cmpxchg 16 40 42 41,                    -- lock cmpxchg word ptr [ecx], dx
      jne 2 1 false,                          -- jne again
      movw 16 40 3]                           -- mov old_val, ax
    opnds := [(0, .input), (3, .outEarly), (40, .outEarly), (41, .outEarly), (42, .outEarly)]
    fixed := [(40, 0), (41, 1), (42, 2)]
    addr := [0]
    results := [3] }
  args _ _ := True
  ret _ r := .val ((r 3).setWidth 16)

/-- `negate`, extra_ops_msvc_x86.hpp 447–465 (block 451–462).  Variables: 0 `storage`, 3 `new_val`.
-/
def negate : Fn 32 16 (Unit) (Integral.Ret 16) where
  block := {
    prog := [
      movw 32 0 41,                           -- mov ecx, storage
      ldz 41 40,                              -- movzx eax, word ptr [ecx]
      .label 1,                               -- again:
      movw 32 40 42,                          -- mov edx, eax
      neg 16 42,                              -- neg dx
      cmpxchg 16 40 42 41,                    -- lock cmpxchg word ptr [ecx], dx
      jne 2 1 false,                          -- jne again
      movw 16 42 3]                           -- mov new_val, dx
    opnds := [(0, .input), (3, .outEarly), (40, .outEarly), (41, .outEarly), (42, .outEarly)]
    fixed := [(40, 0), (41, 1), (42, 2)]
    addr := [0]
    results := [3] }
  args _ _ := True
  ret _ r := .val ((r 3).setWidth 16)

/-- `negate_and_test`, extra_ops_msvc_x86.hpp 467–486 (block 471–483).  Variables: 0 `storage`, 3
`result`. -/
def negateAndTest : Fn 32 16 (Unit) (Integral.Ret 16) where
  block := {
    prog := [
      movw 32 0 41,                           -- mov ecx, storage
      ldz 41 40,                              -- movzx eax, word ptr [ecx]
      .label 1,                               -- again:
      movw 32 40 42,                          -- mov edx, eax
      neg 16 42,                              -- neg dx
      cmpxchg 16 40 42 41,                    -- lock cmpxchg word ptr [ecx], dx
      jne 2 1 false,                          -- jne again
      testr 16 42 42,                         -- test dx, dx
      setnz 3]                                -- setnz result
    opnds := [(0, .input), (3, .outEarly), (40, .outEarly), (41, .outEarly), (42, .outEarly)]
    fixed := [(40, 0), (41, 1), (42, 2)]
    addr := [0]
    results := [3] }
  args _ _ := True
  ret _ r := bool8 (r 3) .flag

/-- `opaque_negate`, extra_ops_msvc_x86.hpp 488–503 (block 491–501).  Variables: 0 `storage`. -/
def opaqueNegate : Fn 32 16 (Unit) (Integral.Ret 16) where
  block := {
    prog := [
      movw 32 0 41,                           -- mov ecx, storage
      ldz 41 40,                              -- movzx eax, word ptr [ecx]
      .label 1,                               -- again:
      movw 32 40 42,                          -- mov edx, eax
      neg 16 42,                              -- neg dx
      cmpxchg 16 40 42 41,                    -- lock cmpxchg word ptr [ecx], dx
      jne 2 1 false]                          -- jne again
    opnds := [(0, .input), (40, .outEarly), (41, .outEarly), (42, .outEarly)]
    fixed := [(40, 0), (41, 1), (42, 2)]
    addr := [0]
    results := [] }
  args _ _ := True
  ret _ _ := .unit

/-- `bitwise_and`, extra_ops_msvc_x86.hpp 505–524 (block 508–521).  Variables: 0 `storage`, 1 `v`.
-/
def bitwiseAnd : Fn 32 16 (BitVec 16) (Integral.Ret 16) where
  block := {
    prog := [
      movw 32 0 47,                           -- mov edi, storage
      movz 16 1 41,                           -- movzx ecx, v
      xor 32 42 42,                           -- xor edx, edx
      ldz 47 40,                              -- movzx eax, word ptr [edi]
      .label 1,                               -- again:
      movw 16 40 42,                          -- mov dx, ax
      and 16 41 42,                           -- and dx, cx
      cmpxchg 16 40 42 47,                    -- lock cmpxchg word ptr [edi], dx
      jne 4 1 false,                          -- jne again
      movw 16 42 1]                           -- mov v, dx
    opnds := [(0, .input), (1, .inoutEarly), (40, .outEarly), (41, .outEarly), (42, .outEarly), (47, .outEarly)]
    fixed := [(40, 0), (41, 1), (42, 2), (47, 7)]
    addr := [0]
    results := [1] }
  args a x := (x 1).setWidth 16 = a
  ret _ r := .val ((r 1).setWidth 16)

/-- `bitwise_or`, extra_ops_msvc_x86.hpp 526–545 (block 529–542).  Variables: 0 `storage`, 1 `v`. -/
def bitwiseOr : Fn 32 16 (BitVec 16) (Integral.Ret 16) where
  block := {
    prog := [
      movw 32 0 47,                           -- mov edi, storage
      movz 16 1 41,                           -- movzx ecx, v
      xor 32 42 42,                           -- xor edx, edx
      ldz 47 40,                              -- movzx eax, word ptr [edi]
      .label 1,                               -- again:
      movw 16 40 42,                          -- mov dx, ax
      or 16 41 42,                            -- or dx, cx
      cmpxchg 16 40 42 47,                    -- lock cmpxchg word ptr [edi], dx
      jne 4 1 false,                          -- jne again
      movw 16 42 1]                           -- mov v, dx
    opnds := [(0, .input), (1, .inoutEarly), (40, .outEarly), (41, .outEarly), (42, .outEarly), (47, .outEarly)]
    fixed := [(40, 0), (41, 1), (42, 2), (47, 7)]
    addr := [0]
    results := [1] }
  args a x := (x 1).setWidth 16 = a
  ret _ r := .val ((r 1).setWidth 16)

/-- `bitwise_xor`, extra_ops_msvc_x86.hpp 547–566 (block 550–563).  Variables: 0 `storage`, 1 `v`.
-/
def bitwiseXor : Fn 32 16 (BitVec 16) (Integral.Ret 16) where
  block := {
    prog := [
      movw 32 0 47,                           -- mov edi, storage
      movz 16 1 41,                           -- movzx ecx, v
      xor 32 42 42,                           -- xor edx, edx
      ldz 47 40,                              -- movzx eax, word ptr [edi]
      .label 1,                               -- again:
      movw 16 40 42,                          -- mov dx, ax
      xor 16 41 42,                           -- xor dx, cx
      cmpxchg 16 40 42 47,                    -- lock cmpxchg word ptr [edi], dx
      jne 4 1 false,                          -- jne again
      movw 16 42 1]                           -- mov v, dx
    opnds := [(0, .input), (1, .inoutEarly), (40, .outEarly), (41, .outEarly), (42, .outEarly), (47, .outEarly)]
    fixed := [(40, 0), (41, 1), (42, 2), (47, 7)]
    addr := [0]
    results := [1] }
  args a x := (x 1).setWidth 16 = a
  ret _ r := .val ((r 1).setWidth 16)

/-- `fetch_complement`, extra_ops_msvc_x86.hpp 568–586 (block 572–583).  Variables: 0 `storage`, 3
`old_val`. -/
def fetchComplement : Fn 32 16 (Unit) (Integral.Ret 16) where
  block := {
    prog := [
      movw 32 0 41,                           -- mov ecx, storage
      ldz 41 40,                              -- movzx eax, word ptr [ecx]
      .label 1,                               -- again:
      movw 32 40 42,                          -- mov edx, eax
      not 16 42,                              -- not dx
      cmpxchg 16 40 42 41,                    -- lock cmpxchg word ptr [ecx], dx
      jne 2 1 false,                          -- jne again
      movw 16 40 3]                           -- mov old_val, ax
    opnds := [(0, .input), (3, .outEarly), (40, .outEarly), (41, .outEarly), (42, .outEarly)]
    fixed := [(40, 0), (41, 1), (42, 2)]
    addr := [0]
    results := [3] }
  args _ _ := True
  ret _ r := .val ((r 3).setWidth 16)

/-- `bitwise_complement`, extra_ops_msvc_x86.hpp 588–606 (block 592–603).  Variables: 0 `storage`, 3
`new_val`. -/
def bitwiseComplement : Fn 32 16 (Unit) (Integral.Ret 16) where
  block := {
    prog := [
      movw 32 0 41,                           -- mov ecx, storage
      ldz 41 40,                              -- movzx eax, word ptr [ecx]
      .label 1,                               -- again:
      movw 32 40 42,                          -- mov edx, eax
      not 16 42,                              -- not dx
      cmpxchg 16 40 42 41,                    -- lock cmpxchg word ptr [ecx], dx
      jne 2 1 false,                          -- jne again
      movw 16 42 3]                           -- mov new_val, dx
    opnds := [(0, .input), (3, .outEarly), (40, .outEarly), (41, .outEarly), (42, .outEarly)]
    fixed := [(40, 0), (41, 1), (42, 2)]
    addr := [0]
    results := [3] }
  args _ _ := True
  ret _ r := .val ((r 3).setWidth 16)

/-- `complement_and_test`, extra_ops_msvc_x86.hpp 608–627 (block 612–624).  Variables: 0 `storage`,
3 `result`. -/
def complementAndTest : Fn 32 16 (Unit) (Integral.Ret 16) where
  block := {
    prog := [
      movw 32 0 41,                           -- mov ecx, storage
      ldz 41 40,                              -- movzx eax, word ptr [ecx]
      .label 1,                               -- again:
      movw 32 40 42,                          -- mov edx, eax
      not 16 42,                              -- not dx
      cmpxchg 16 40 42 41,                    -- lock cmpxchg word ptr [ecx], dx
      jne 2 1 false,                          -- jne again
      testr 16 42 42,                         -- test dx, dx
      setnz 3]                                -- setnz result
    opnds := [(0, .input), (3, .outEarly), (40, .outEarly), (41, .outEarly), (42, .outEarly)]
    fixed := [(40, 0), (41, 1), (42, 2)]
    addr := [0]
    results := [3] }
  args _ _ := True
  ret _ r := bool8 (r 3) .flag

/-- `opaque_complement`, extra_ops_msvc_x86.hpp 629–644 (block 632–642).  Variables: 0 `storage`. -/
def opaqueComplement : Fn 32 16 (Unit) (Integral.Ret 16) where
  block := {
    prog := [
      movw 32 0 41,                           -- mov ecx, storage
      ldz 41 40,                              -- movzx eax, word ptr [ecx]
      .label 1,                               -- again:
      movw 32 40 42,                          -- mov edx, eax
      not 16 42,                              -- not dx
      cmpxchg 16 40 42 41,                    -- lock cmpxchg word ptr [ecx], dx
      jne 2 1 false]                          -- jne again
    opnds := [(0, .input), (40, .outEarly), (41, .outEarly), (42, .outEarly)]
    fixed := [(40, 0), (41, 1), (42, 2)]
    addr := [0]
    results := [] }
  args _ _ := True
  ret _ _ := .unit

/-- `opaque_add`, extra_ops_msvc_x86.hpp 646–656 (block 649–654).  Variables: 0 `storage`, 1 `v`. -/
def opaqueAdd : Fn 32 16 (BitVec 16) (Integral.Ret 16) where
  block := {
    prog := [
      movw 32 0 42,                           -- mov edx, storage
      movz 16 1 40,                           -- movzx eax, v
      addm 16 40 42]                          -- lock add word ptr [edx], ax
    opnds := [(0, .input), (1, .input), (40, .outEarly), (42, .outEarly)]
    fixed := [(40, 0), (42, 2)]
    addr := [0]
    results := [] }
  args a x := (x 1).setWidth 16 = a
  ret _ _ := .unit

/-- `opaque_sub`, extra_ops_msvc_x86.hpp 658–668 (block 661–666).  Variables: 0 `storage`, 1 `v`. -/
def opaqueSub : Fn 32 16 (BitVec 16) (Integral.Ret 16) where
  block := {
    prog := [
      movw 32 0 42,                           -- mov edx, storage
      movz 16 1 40,                           -- movzx eax, v
      subm 16 40 42]                          -- lock sub word ptr [edx], ax
    opnds := [(0, .input), (1, .input), (40, .outEarly), (42, .outEarly)]
    fixed := [(40, 0), (42, 2)]
    addr := [0]
    results := [] }
  args a x := (x 1).setWidth 16 = a
  ret _ _ := .unit

/-- `opaque_negate`, extra_ops_msvc_x86.hpp 670–679 (block 673–677).  Variables: 0 `storage`. -/
def opaqueNegateLock : Fn 32 16 (Unit) (Integral.Ret 16) where
  block := {
    prog := [
      movw 32 0 42,                           -- mov edx, storage
      negm 16 42]                             -- lock neg word ptr [edx]
    opnds := [(0, .input), (42, .outEarly)]
    fixed := [(42, 2)]
    addr := [0]
    results := [] }
  args _ _ := True
  ret _ _ := .unit

/-- `opaque_and`, extra_ops_msvc_x86.hpp 681–691 (block 684–689).  Variables: 0 `storage`, 1 `v`. -/
def opaqueAnd : Fn 32 16 (BitVec 16) (Integral.Ret 16) where
  block := {
    prog := [
      movw 32 0 42,                           -- mov edx, storage
      movz 16 1 40,                           -- movzx eax, v
      andm 16 40 42]                          -- lock and word ptr [edx], ax
    opnds := [(0, .input), (1, .input), (40, .outEarly), (42, .outEarly)]
    fixed := [(40, 0), (42, 2)]
    addr := [0]
    results := [] }
  args a x := (x 1).setWidth 16 = a
  ret _ _ := .unit

/-- `opaque_or`, extra_ops_msvc_x86.hpp 693–703 (block 696–701).  Variables: 0 `storage`, 1 `v`. -/
def opaqueOr : Fn 32 16 (BitVec 16) (Integral.Ret 16) where
  block := {
    prog := [
      movw 32 0 42,                           -- mov edx, storage
      movz 16 1 40,                           -- movzx eax, v
      orm 16 40 42]                           -- lock or word ptr [edx], ax
    opnds := [(0, .input), (1, .input), (40, .outEarly), (42, .outEarly)]
    fixed := [(40, 0), (42, 2)]
    addr := [0]
    results := [] }
  args a x := (x 1).setWidth 16 = a
  ret _ _ := .unit

/-- `opaque_xor`, extra_ops_msvc_x86.hpp 705–715 (block 708–713).  Variables: 0 `storage`, 1 `v`. -/
def opaqueXor : Fn 32 16 (BitVec 16) (Integral.Ret 16) where
  block := {
    prog := [
      movw 32 0 42,                           -- mov edx, storage
      movz 16 1 40,                           -- movzx eax, v
      xorm 16 40 42]                          -- lock xor word ptr [edx], ax
    opnds := [(0, .input), (1, .input), (40, .outEarly), (42, .outEarly)]
    fixed := [(40, 0), (42, 2)]
    addr := [0]
    results := [] }
  args a x := (x 1).setWidth 16 = a
  ret _ _ := .unit

/-- `opaque_complement`, extra_ops_msvc_x86.hpp 717–726 (block 720–724).  Variables: 0 `storage`. -/
def opaqueComplementLock : Fn 32 16 (Unit) (Integral.Ret 16) where
  block := {
    prog := [
      movw 32 0 42,                           -- mov edx, storage
      notm 16 42]                             -- lock not word ptr [edx]
    opnds := [(0, .input), (42, .outEarly)]
    fixed := [(42, 2)]
    addr := [0]
    results := [] }
  args _ _ := True
  ret _ _ := .unit

/-- `add_and_test`, extra_ops_msvc_x86.hpp 728–741 (block 732–738).  Variables: 0 `storage`, 1 `v`,
3 `result`. -/
def addAndTest : Fn 32 16 (BitVec 16) (Integral.Ret 16) where
  block := {
    prog := [
      movw 32 0 42,                           -- mov edx, storage
      movz 16 1 40,                           -- movzx eax, v
      addm 16 40 42,                          -- lock add word ptr [edx], ax
      setnz 3]                                -- setnz result
    opnds := [(0, .input), (1, .input), (3, .outEarly), (40, .outEarly), (42, .outEarly)]
    fixed := [(40, 0), (42, 2)]
    addr := [0]
    results := [3] }
  args a x := (x 1).setWidth 16 = a
  ret _ r := bool8 (r 3) .flag

/-- `sub_and_test`, extra_ops_msvc_x86.hpp 743–756 (block 747–753).  Variables: 0 `storage`, 1 `v`,
3 `result`. -/
def subAndTest : Fn 32 16 (BitVec 16) (Integral.Ret 16) where
  block := {
    prog := [
      movw 32 0 42,                           -- mov edx, storage
      movz 16 1 40,                           -- movzx eax, v
      subm 16 40 42,                          -- lock sub word ptr [edx], ax
      setnz 3]                                -- setnz result
    opnds := [(0, .input), (1, .input), (3, .outEarly), (40, .outEarly), (42, .outEarly)]
    fixed := [(40, 0), (42, 2)]
    addr := [0]
    results := [3] }
  args a x := (x 1).setWidth 16 = a
  ret _ r := bool8 (r 3) .flag

/-- `and_and_test`, extra_ops_msvc_x86.hpp 758–771 (block 762–768).  Variables: 0 `storage`, 1 `v`,
3 `result`. -/
def andAndTest : Fn 32 16 (BitVec 16) (Integral.Ret 16) where
  block := {
    prog := [
      movw 32 0 42,                           -- mov edx, storage
      movz 16 1 40,                           -- movzx eax, v
      andm 16 40 42,                          -- lock and word ptr [edx], ax
      setnz 3]                                -- setnz result
    opnds := [(0, .input), (1, .input), (3, .outEarly), (40, .outEarly), (42, .outEarly)]
    fixed := [(40, 0), (42, 2)]
    addr := [0]
    results := [3] }
  args a x := (x 1).setWidth 16 = a
  ret _ r := bool8 (r 3) .flag

/-- `or_and_test`, extra_ops_msvc_x86.hpp 773–786 (block 777–783).  Variables: 0 `storage`, 1 `v`, 3
`result`. -/
def orAndTest : Fn 32 16 (BitVec 16) (Integral.Ret 16) where
  block := {
    prog := [
      movw 32 0 42,                           -- mov edx, storage
      movz 16 1 40,                           -- movzx eax, v
      orm 16 40 42,                           -- lock or word ptr [edx], ax
      setnz 3]                                -- setnz result
    opnds := [(0, .input), (1, .input), (3, .outEarly), (40, .outEarly), (42, .outEarly)]
    fixed := [(40, 0), (42, 2)]
    addr := [0]
    results := [3] }
  args a x := (x 1).setWidth 16 = a
  ret _ r := bool8 (r 3) .flag

/-- `xor_and_test`, extra_ops_msvc_x86.hpp 788–801 (block 792–798).  Variables: 0 `storage`, 1 `v`,
3 `result`. -/
def xorAndTest : Fn 32 16 (BitVec 16) (Integral.Ret 16) where
  block := {
    prog := [
      movw 32 0 42,                           -- mov edx, storage
      movz 16 1 40,                           -- movzx eax, v
      xorm 16 40 42,                          -- lock xor word ptr [edx], ax
      setnz 3]                                -- setnz result
    opnds := [(0, .input), (1, .input), (3, .outEarly), (40, .outEarly), (42, .outEarly)]
    fixed := [(40, 0), (42, 2)]
    addr := [0]
    results := [3] }
  args a x := (x 1).setWidth 16 = a
  ret _ r := bool8 (r 3) .flag

/-- `bit_test_and_set`, extra_ops_msvc_x86.hpp 803–816 (block 807–813).  Variables: 0 `storage`, 1
`bit_number`, 3 `result`. -/
def bitTestAndSet : Fn 32 16 (Fin 16) (Integral.Ret 16) where
  block := {
    prog := [
      movw 32 0 42,                           -- mov edx, storage
      movw 32 1 40,                           -- mov eax, bit_number
      bts 16 40 42,                           -- lock bts word ptr [edx], ax
      setc 3]                                 -- setc result
    opnds := [(0, .input), (1, .input), (3, .outEarly), (40, .outEarly), (42, .outEarly)]
    fixed := [(40, 0), (42, 2)]
    addr := [0]
    results := [3] }
  args a x := x 1 = BitVec.ofNat 32 a
  ret _ r := bool8 (r 3) .flag

/-- `bit_test_and_reset`, extra_ops_msvc_x86.hpp 818–831 (block 822–828).  Variables: 0 `storage`, 1
`bit_number`, 3 `result`. -/
def bitTestAndReset : Fn 32 16 (Fin 16) (Integral.Ret 16) where
  block := {
    prog := [
      movw 32 0 42,                           -- mov edx, storage
      movw 32 1 40,                           -- mov eax, bit_number
      btr 16 40 42,                           -- lock btr word ptr [edx], ax
      setc 3]                                 -- setc result
    opnds := [(0, .input), (1, .input), (3, .outEarly), (40, .outEarly), (42, .outEarly)]
    fixed := [(40, 0), (42, 2)]
    addr := [0]
    results := [3] }
  args a x := x 1 = BitVec.ofNat 32 a
  ret _ r := bool8 (r 3) .flag

/-- `bit_test_and_complement`, extra_ops_msvc_x86.hpp 833–846 (block 837–843).  Variables: 0
`storage`, 1 `bit_number`, 3 `result`. -/
def bitTestAndComplement : Fn 32 16 (Fin 16) (Integral.Ret 16) where
  block := {
    prog := [
      movw 32 0 42,                           -- mov edx, storage
      movw 32 1 40,                           -- mov eax, bit_number
      btc 16 40 42,                           -- lock btc word ptr [edx], ax
      setc 3]                                 -- setc result
    opnds := [(0, .input), (1, .input), (3, .outEarly), (40, .outEarly), (42, .outEarly)]
    fixed := [(40, 0), (42, 2)]
    addr := [0]
    results := [3] }
  args a x := x 1 = BitVec.ofNat 32 a
  ret _ r := bool8 (r 3) .flag

end Msvc2

namespace Msvc4

/-- `fetch_negate`, extra_ops_msvc_x86.hpp 861–879 (block 865–876).  Variables: 0 `storage`, 3
`old_val`. -/
def fetchNegate : Fn 32 32 (Unit) (Integral.Ret 32) where
  block := {
    prog := [
      movw 32 0 41,                           -- mov ecx, storage
      ldz 41 40,                              -- mov eax, dword ptr [ecx]
      .label 1,                               -- again:
      movw 32 40 42,                          -- mov edx, eax
      neg 32 42,                              -- neg edx
      cmpxchg 32 40 42 41,                    -- lock cmpxchg dword ptr [ecx], edx
      jne 2 1 false,                          -- jne again
      movw 32 40 3]                           -- mov old_val, eax
    opnds := [(0, .input), (3, .outEarly), (40, .outEarly), (41, .outEarly), (42, .outEarly)]
    fixed := [(40, 0), (41, 1), (42, 2)]
    addr := [0]
    results := [3] }
  args _ _ := True
  ret _ r := .val ((r 3).setWidth 32)

/-- `negate`, extra_ops_msvc_x86.hpp 881–899 (block 885–896).  Variables: 0 `storage`, 3 `new_val`.
-/
def negate : Fn 32 32 (Unit) (Integral.Ret 32) where
  block := {
    prog := [
      movw 32 0 41,                           -- mov ecx, storage
      ldz 41 40,                              -- mov eax, dword ptr [ecx]
      .label 1,                               -- again:
      movw 32 40 42,                          -- mov edx, eax
      neg 32 42,                              -- neg edx
      cmpxchg 32 40 42 41,                    -- lock cmpxchg dword ptr [ecx], edx
      jne 2 1 false,                          -- jne again
      movw 32 42 3]                           -- mov new_val, edx
    opnds := [(0, .input), (3, .outEarly), (40, .outEarly), (41, .outEarly), (42, .outEarly)]
    fixed := [(40, 0), (41, 1), (42, 2)]
    addr := [0]
    results := [3] }
  args _ _ := True
  ret _ r := .val ((r 3).setWidth 32)

/-- `negate_and_test`, extra_ops_msvc_x86.hpp 901–920 (block 905–917).  Variables: 0 `storage`, 3
`result`. -/
def negateAndTest : Fn 32 32 (Unit) (Integral.Ret 32) where
  block := {
    prog := [
      movw 32 0 41,                           -- mov ecx, storage
      ldz 41 40,                              -- mov eax, dword ptr [ecx]
      .label 1,                               -- again:
      movw 32 40 42,                          -- mov edx, eax
      neg 32 42,                              -- neg edx
      cmpxchg 32 40 42 41,                    -- lock cmpxchg dword ptr [ecx], edx
      jne 2 1 false,                          -- jne again
      testr 32 42 42,                         -- test edx, edx
      setnz 3]                                -- setnz result
    opnds := [(0, .input), (3, .outEarly), (40, .outEarly), (41, .outEarly), (42, .outEarly)]
    fixed := [(40, 0), (41, 1), (42, 2)]
    addr := [0]
    results := [3] }
  args _ _ := True
  ret _ r := bool8 (r 3) .flag

/-- `opaque_negate`, extra_ops_msvc_x86.hpp 922–937 (block 925–935).  Variables: 0 `storage`. -/
def opaqueNegate : Fn 32 32 (Unit) (Integral.Ret 32) where
  block := {
    prog := [
      movw 32 0 41,                           -- mov ecx, storage
      ldz 41 40,                              -- mov eax, dword ptr [ecx]
      .label 1,                               -- again:
      movw 32 40 42,                          -- mov edx, eax
      neg 32 42,                              -- neg edx
      cmpxchg 32 40 42 41,                    -- lock cmpxchg dword ptr [ecx], edx
      jne 2 1 false]                          -- jne again
    opnds := [(0, .input), (40, .outEarly), (41, .outEarly), (42, .outEarly)]
    fixed := [(40, 0), (41, 1), (42, 2)]
    addr := [0]
    results := [] }
  args _ _ := True
  ret _ _ := .unit

/-- `bitwise_and`, extra_ops_msvc_x86.hpp 939–958 (block 942–955).  Variables: 0 `storage`, 1 `v`.
-/
def bitwiseAnd : Fn 32 32 (BitVec 32) (Integral.Ret 32) where
  block := {
    prog := [
      movw 32 0 47,                           -- mov edi, storage
      movz 32 1 41,                           -- mov ecx, v
      xor 32 42 42,                           -- xor edx, edx
      ldz 47 40,                              -- mov eax, dword ptr [edi]
      .label 1,                               -- again:
      movw 32 40 42,                          -- mov edx, eax
      and 32 41 42,                           -- and edx, ecx
      cmpxchg 32 40 42 47,                    -- lock cmpxchg dword ptr [edi], edx
      jne 4 1 false,                          -- jne again
      movw 32 42 1]                           -- mov v, edx
    opnds := [(0, .input), (1, .inoutEarly), (40, .outEarly), (41, .outEarly), (42, .outEarly), (47, .outEarly)]
    fixed := [(40, 0), (41, 1), (42, 2), (47, 7)]
    addr := [0]
    results := [1] }
  args a x := (x 1).setWidth 32 = a
  ret _ r := .val ((r 1).setWidth 32)

/-- `bitwise_or`, extra_ops_msvc_x86.hpp 960–979 (block 963–976).  Variables: 0 `storage`, 1 `v`. -/
def bitwiseOr : Fn 32 32 (BitVec 32) (Integral.Ret 32) where
  block := {
    prog := [
      movw 32 0 47,                           -- mov edi, storage
      movz 32 1 41,                           -- mov ecx, v
      xor 32 42 42,                           -- xor edx, edx
      ldz 47 40,                              -- mov eax, dword ptr [edi]
      .label 1,                               -- again:
      movw 32 40 42,                          -- mov edx, eax
      or 32 41 42,                            -- or edx, ecx
      cmpxchg 32 40 42 47,                    -- lock cmpxchg dword ptr [edi], edx
      jne 4 1 false,                          -- jne again
      movw 32 42 1]                           -- mov v, edx
    opnds := [(0, .input), (1, .inoutEarly), (40, .outEarly), (41, .outEarly), (42, .outEarly), (47, .outEarly)]
    fixed := [(40, 0), (41, 1), (42, 2), (47, 7)]
    addr := [0]
    results := [1] }
  args a x := (x 1).setWidth 32 = a
  ret _ r := .val ((r 1).setWidth 32)

/-- `bitwise_xor`, extra_ops_msvc_x86.hpp 981–1000 (block 984–997).  Variables: 0 `storage`, 1 `v`.
-/
def bitwiseXor : Fn 32 32 (BitVec 32) (Integral.Ret 32) where
  block := {
    prog := [
      movw 32 0 47,                           -- mov edi, storage
      movz 32 1 41,                           -- mov ecx, v
      xor 32 42 42,                           -- xor edx, edx
      ldz 47 40,                              -- mov eax, dword ptr [edi]
      .label 1,                               -- again:
      movw 32 40 42,                          -- mov edx, eax
      xor 32 41 42,                           -- xor edx, ecx
      cmpxchg 32 40 42 47,                    -- lock cmpxchg dword ptr [edi], edx
      jne 4 1 false,                          -- jne again
      movw 32 42 1]                           -- mov v, edx
    opnds := [(0, .input), (1, .inoutEarly), (40, .outEarly), (41, .outEarly), (42, .outEarly), (47, .outEarly)]
    fixed := [(40, 0), (41, 1), (42, 2), (47, 7)]
    addr := [0]
    results := [1] }
  args a x := (x 1).setWidth 32 = a
  ret _ r := .val ((r 1).setWidth 32)

/-- `fetch_complement`, extra_ops_msvc_x86.hpp 1002–1020 (block 1006–1017).  Variables: 0 `storage`,
3 `old_val`. -/
def fetchComplement : Fn 32 32 (Unit) (Integral.Ret 32) where
  block := {
    prog := [
      movw 32 0 41,                           -- mov ecx, storage
      ldz 41 40,                              -- mov eax, dword ptr [ecx]
      .label 1,                               -- again:
      movw 32 40 42,                          -- mov edx, eax
      not 32 42,                              -- not edx
      cmpxchg 32 40 42 41,                    -- lock cmpxchg dword ptr [ecx], edx
      jne 2 1 false,                          -- jne again
      movw 32 40 3]                           -- mov old_val, eax
    opnds := [(0, .input), (3, .outEarly), (40, .outEarly), (41, .outEarly), (42, .outEarly)]
    fixed := [(40, 0), (41, 1), (42, 2)]
    addr := [0]
    results := [3] }
  args _ _ := True
  ret _ r := .val ((r 3).setWidth 32)

/-- `bitwise_complement`, extra_ops_msvc_x86.hpp 1022–1040 (block 1026–1037).  Variables: 0
`storage`, 3 `new_val`. -/
def bitwiseComplement : Fn 32 32 (Unit) (Integral.Ret 32) where
  block := {
    prog := [
      movw 32 0 41,                           -- mov ecx, storage
      ldz 41 40,                              -- mov eax, dword ptr [ecx]
      .label 1,                               -- again:
      movw 32 40 42,                          -- mov edx, eax
      not 32 42,                              -- not edx
      cmpxchg 32 40 42 41,                    -- lock cmpxchg dword ptr [ecx], edx
      jne 2 1 false,                          -- jne again
      movw 32 42 3]                           -- mov new_val, edx
    opnds := [(0, .input), (3, .outEarly), (40, .outEarly), (41, .outEarly), (42, .outEarly)]
    fixed := [(40, 0), (41, 1), (42, 2)]
    addr := [0]
    results := [3] }
  args _ _ := True
  ret _ r := .val ((r 3).setWidth 32)

/-- `complement_and_test`, extra_ops_msvc_x86.hpp 1042–1061 (block 1046–1058).  Variables: 0
`storage`, 3 `result`. -/
def complementAndTest : Fn 32 32 (Unit) (Integral.Ret 32) where
  block := {
    prog := [
      movw 32 0 41,                           -- mov ecx, storage
      ldz 41 40,                              -- mov eax, dword ptr [ecx]
      .label 1,                               -- again:
      movw 32 40 42,                          -- mov edx, eax
      not 32 42,                              -- not edx
      cmpxchg 32 40 42 41,                    -- lock cmpxchg dword ptr [ecx], edx
      jne 2 1 false,                          -- jne again
      testr 32 42 42,                         -- test edx, edx
      setnz 3]                                -- setnz result
    opnds := [(0, .input), (3, .outEarly), (40, .outEarly), (41, .outEarly), (42, .outEarly)]
    fixed := [(40, 0), (41, 1), (42, 2)]
    addr := [0]
    results := [3] }
  args _ _ := True
  ret _ r := bool8 (r 3) .flag

/-- `opaque_complement`, extra_ops_msvc_x86.hpp 1063–1078 (block 1066–1076).  Variables: 0
`storage`. -/
def opaqueComplement : Fn 32 32 (Unit) (Integral.Ret 32) where
  block := {
    prog := [
      movw 32 0 41,                           -- mov ecx, storage
      ldz 41 40,                              -- mov eax, dword ptr [ecx]
      .label 1,                               -- again:
      movw 32 40 42,                          -- mov edx, eax
      not 32 42,                              -- not edx
      cmpxchg 32 40 42 41,                    -- lock cmpxchg dword ptr [ecx], edx
      jne 2 1 false]                          -- jne again
    opnds := [(0, .input), (40, .outEarly), (41, .outEarly), (42, .outEarly)]
    fixed := [(40, 0), (41, 1), (42, 2)]
    addr := [0]
    results := [] }
  args _ _ := True
  ret _ _ := .unit

/-- `opaque_add`, extra_ops_msvc_x86.hpp 1080–1090 (block 1083–1088).  Variables: 0 `storage`, 1
`v`. -/
def opaqueAdd : Fn 32 32 (BitVec 32) (Integral.Ret 32) where
  block := {
    prog := [
      movw 32 0 42,                           -- mov edx, storage
      movz 32 1 40,                           -- mov eax, v
      addm 32 40 42]                          -- lock add dword ptr [edx], eax
    opnds := [(0, .input), (1, .input), (40, .outEarly), (42, .outEarly)]
    fixed := [(40, 0), (42, 2)]
    addr := [0]
    results := [] }
  args a x := (x 1).setWidth 32 = a
  ret _ _ := .unit

/-- `opaque_sub`, extra_ops_msvc_x86.hpp 1092–1102 (block 1095–1100).  Variables: 0 `storage`, 1
`v`. -/
def opaqueSub : Fn 32 32 (BitVec 32) (Integral.Ret 32) where
  block := {
    prog := [
      movw 32 0 42,                           -- mov edx, storage
      movz 32 1 40,                           -- mov eax, v
      subm 32 40 42]                          -- lock sub dword ptr [edx], eax
    opnds := [(0, .input), (1, .input), (40, .outEarly), (42, .outEarly)]
    fixed := [(40, 0), (42, 2)]
    addr := [0]
    results := [] }
  args a x := (x 1).setWidth 32 = a
  ret _ _ := .unit

/-- `opaque_negate`, extra_ops_msvc_x86.hpp 1104–1113 (block 1107–1111).  Variables: 0 `storage`. -/
def opaqueNegateLock : Fn 32 32 (Unit) (Integral.Ret 32) where
  block := {
    prog := [
      movw 32 0 42,                           -- mov edx, storage
      negm 32 42]                             -- lock neg dword ptr [edx]
    opnds := [(0, .input), (42, .outEarly)]
    fixed := [(42, 2)]
    addr := [0]
    results := [] }
  args _ _ := True
  ret _ _ := .unit

/-- `opaque_and`, extra_ops_msvc_x86.hpp 1115–1125 (block 1118–1123).  Variables: 0 `storage`, 1
`v`. -/
def opaqueAnd : Fn 32 32 (BitVec 32) (Integral.Ret 32) where
  block := {
    prog := [
      movw 32 0 42,                           -- mov edx, storage
      movz 32 1 40,                           -- mov eax, v
      andm 32 40 42]                          -- lock and dword ptr [edx], eax
    opnds := [(0, .input), (1, .input), (40, .outEarly), (42, .outEarly)]
    fixed := [(40, 0), (42, 2)]
    addr := [0]
    results := [] }
  args a x := (x 1).setWidth 32 = a
  ret _ _ := .unit

/-- `opaque_or`, extra_ops_msvc_x86.hpp 1127–1137 (block 1130–1135).  Variables: 0 `storage`, 1 `v`.
-/
def opaqueOr : Fn 32 32 (BitVec 32) (Integral.Ret 32) where
  block := {
    prog := [
      movw 32 0 42,                           -- mov edx, storage
      movz 32 1 40,                           -- mov eax, v
      orm 32 40 42]                           -- lock or dword ptr [edx], eax
    opnds := [(0, .input), (1, .input), (40, .outEarly), (42, .outEarly)]
    fixed := [(40, 0), (42, 2)]
    addr := [0]
    results := [] }
  args a x := (x 1).setWidth 32 = a
  ret _ _ := .unit

/-- `opaque_xor`, extra_ops_msvc_x86.hpp 1139–1149 (block 1142–1147).  Variables: 0 `storage`, 1
`v`. -/
def opaqueXor : Fn 32 32 (BitVec 32) (Integral.Ret 32) where
  block := {
    prog := [
      movw 32 0 42,                           -- mov edx, storage
      movz 32 1 40,                           -- mov eax, v
      xorm 32 40 42]                          -- lock xor dword ptr [edx], eax
    opnds := [(0, .input), (1, .input), (40, .outEarly), (42, .outEarly)]
    fixed := [(40, 0), (42, 2)]
    addr := [0]
    results := [] }
  args a x := (x 1).setWidth 32 = a
  ret _ _ := .unit

/-- `opaque_complement`, extra_ops_msvc_x86.hpp 1151–1160 (block 1154–1158).  Variables: 0
`storage`. -/
def opaqueComplementLock : Fn 32 32 (Unit) (Integral.Ret 32) where
  block := {
    prog := [
      movw 32 0 42,                           -- mov edx, storage
      notm 32 42]                             -- lock not dword ptr [edx]
    opnds := [(0, .input), (42, .outEarly)]
    fixed := [(42, 2)]
    addr := [0]
    results := [] }
  args _ _ := True
  ret _ _ := .unit

/-- `add_and_test`, extra_ops_msvc_x86.hpp 1162–1175 (block 1166–1172).  Variables: 0 `storage`, 1
`v`, 3 `result`. -/
def addAndTest : Fn 32 32 (BitVec 32) (Integral.Ret 32) where
  block := {
    prog := [
      movw 32 0 42,                           -- mov edx, storage
      movz 32 1 40,                           -- mov eax, v
      addm 32 40 42,                          -- lock add dword ptr [edx], eax
      setnz 3]                                -- setnz result
    opnds := [(0, .input), (1, .input), (3, .outEarly), (40, .outEarly), (42, .outEarly)]
    fixed := [(40, 0), (42, 2)]
    addr := [0]
    results := [3] }
  args a x := (x 1).setWidth 32 = a
  ret _ r := bool8 (r 3) .flag

/-- `sub_and_test`, extra_ops_msvc_x86.hpp 1177–1190 (block 1181–1187).  Variables: 0 `storage`, 1
`v`, 3 `result`. -/
def subAndTest : Fn 32 32 (BitVec 32) (Integral.Ret 32) where
  block := {
    prog := [
      movw 32 0 42,                           -- mov edx, storage
      movz 32 1 40,                           -- mov eax, v
      subm 32 40 42,                          -- lock sub dword ptr [edx], eax
      setnz 3]                                -- setnz result
    opnds := [(0, .input), (1, .input), (3, .outEarly), (40, .outEarly), (42, .outEarly)]
    fixed := [(40, 0), (42, 2)]
    addr := [0]
    results := [3] }
  args a x := (x 1).setWidth 32 = a
  ret _ r := bool8 (r 3) .flag

/-- `and_and_test`, extra_ops_msvc_x86.hpp 1192–1205 (block 1196–1202).  Variables: 0 `storage`, 1
`v`, 3 `result`. -/
def andAndTest : Fn 32 32 (BitVec 32) (Integral.Ret 32) where
  block := {
    prog := [
      movw 32 0 42,                           -- mov edx, storage
      movz 32 1 40,                           -- mov eax, v
      andm 32 40 42,                          -- lock and dword ptr [edx], eax
      setnz 3]                                -- setnz result
    opnds := [(0, .input), (1, .input), (3, .outEarly), (40, .outEarly), (42, .outEarly)]
    fixed := [(40, 0), (42, 2)]
    addr := [0]
    results := [3] }
  args a x := (x 1).setWidth 32 = a
  ret _ r := bool8 (r 3) .flag

/-- `or_and_test`, extra_ops_msvc_x86.hpp 1207–1220 (block 1211–1217).  Variables: 0 `storage`, 1
`v`, 3 `result`. -/
def orAndTest : Fn 32 32 (BitVec 32) (Integral.Ret 32) where
  block := {
    prog := [
      movw 32 0 42,                           -- mov edx, storage
      movz 32 1 40,                           -- mov eax, v
      orm 32 40 42,                           -- lock or dword ptr [edx], eax
      setnz 3]                                -- setnz result
    opnds := [(0, .input), (1, .input), (3, .outEarly), (40, .outEarly), (42, .outEarly)]
    fixed := [(40, 0), (42, 2)]
    addr := [0]
    results := [3] }
  args a x := (x 1).setWidth 32 = a
  ret _ r := bool8 (r 3) .flag

/-- `xor_and_test`, extra_ops_msvc_x86.hpp 1222–1235 (block 1226–1232).  Variables: 0 `storage`, 1
`v`, 3 `result`. -/
def xorAndTest : Fn 32 32 (BitVec 32) (Integral.Ret 32) where
  block := {
    prog := [
      movw 32 0 42,                           -- mov edx, storage
      movz 32 1 40,                           -- mov eax, v
      xorm 32 40 42,                          -- lock xor dword ptr [edx], eax
      setnz 3]                                -- setnz result
    opnds := [(0, .input), (1, .input), (3, .outEarly), (40, .outEarly), (42, .outEarly)]
    fixed := [(40, 0), (42, 2)]
    addr := [0]
    results := [3] }
  args a x := (x 1).setWidth 32 = a
  ret _ r := bool8 (r 3) .flag

/-- `bit_test_and_complement`, extra_ops_msvc_x86.hpp 1237–1250 (block 1241–1247).  Variables: 0
`storage`, 1 `bit_number`, 3 `result`. -/
def bitTestAndComplement : Fn 32 32 (Fin 32) (Integral.Ret 32) where
  block := {
    prog := [
      movw 32 0 42,                           -- mov edx, storage
      movw 32 1 40,                           -- mov eax, bit_number
      btc 32 40 42,                           -- lock btc dword ptr [edx], eax
      setc 3]                                 -- setc result
    opnds := [(0, .input), (1, .input), (3, .outEarly), (40, .outEarly), (42, .outEarly)]
    fixed := [(40, 0), (42, 2)]
    addr := [0]
    results := [3] }
  args a x := x 1 = BitVec.ofNat 32 a
  ret _ r := bool8 (r 3) .flag

/-- `bit_test_and_set`, extra_ops_msvc_x86.hpp 1259–1272 (block 1263–1269).  Variables: 0 `storage`,
1 `bit_number`, 3 `result`. -/
def bitTestAndSet : Fn 32 32 (Fin 32) (Integral.Ret 32) where
  block := {
    prog := [
      movw 32 0 42,                           -- mov edx, storage
      movw 32 1 40,                           -- mov eax, bit_number
      bts 32 40 42,                           -- lock bts dword ptr [edx], eax
      setc 3]                                 -- setc result
    opnds := [(0, .input), (1, .input), (3, .outEarly), (40, .outEarly), (42, .outEarly)]
    fixed := [(40, 0), (42, 2)]
    addr := [0]
    results := [3] }
  args a x := x 1 = BitVec.ofNat 32 a
  ret _ r := bool8 (r 3) .flag

/-- `bit_test_and_reset`, extra_ops_msvc_x86.hpp 1281–1294 (block 1285–1291).  Variables: 0
`storage`, 1 `bit_number`, 3 `result`. -/
def bitTestAndReset : Fn 32 32 (Fin 32) (Integral.Ret 32) where
  block := {
    prog := [
      movw 32 0 42,                           -- mov edx, storage
      movw 32 1 40,                           -- mov eax, bit_number
      btr 32 40 42,                           -- lock btr dword ptr [edx], eax
      setc 3]                                 -- setc result
    opnds := [(0, .input), (1, .input), (3, .outEarly), (40, .outEarly), (42, .outEarly)]
    fixed := [(40, 0), (42, 2)]
    addr := [0]
    results := [3] }
  args a x := x 1 = BitVec.ofNat 32 a
  ret _ r := bool8 (r 3) .flag

end Msvc4

namespace Msvc8

/-- `store`, core_arch_ops_msvc_x86.hpp 593–645 (block 602–607, with `_M_IX86_FP`, `__AVX__`). 
Variables: 0 `p`, 1 `v`. -/
def storeAvx : Fn 32 64 (BitVec 64) (Integral.Ret 64) where
  block := {
    prog := [
      movw 32 0 42,                           -- mov edx, p
      mov2 1 21 50 51,                        -- vmovq xmm4, v
      stx 50 51 42]                           -- vmovq qword ptr [edx], xmm4
    opnds := [(0, .input), (1, .input), (21, .input), (42, .outEarly), (50, .outEarly), (51, .outEarly)]
    fixed := [(42, 2)]
    addr := [0]
    results := [] }
  args a x := x 1 = lower 32 a ∧ x 21 = upper 32 a
  ret _ _ := .unit

/-- `store`, core_arch_ops_msvc_x86.hpp 593–645 (block 609–614, with `_M_IX86_FP`).  Variables: 0
`p`, 1 `v`. -/
def storeSse2 : Fn 32 64 (BitVec 64) (Integral.Ret 64) where
  block := {
    prog := [
      movw 32 0 42,                           -- mov edx, p
      mov2 1 21 50 51,                        -- movq xmm4, v
      stx 50 51 42]                           -- movq qword ptr [edx], xmm4
    opnds := [(0, .input), (1, .input), (21, .input), (42, .outEarly), (50, .outEarly), (51, .outEarly)]
    fixed := [(42, 2)]
    addr := [0]
    results := [] }
  args a x := x 1 = lower 32 a ∧ x 21 = upper 32 a
  ret _ _ := .unit

/-- `store`, core_arch_ops_msvc_x86.hpp 593–645 (block 617–622).  Variables: 0 `p`, 1 `v`. -/
def storeX87 : Fn 32 64 (BitVec 64) (Integral.Ret 64) where
  block := {
    prog := [
      movw 32 0 42,                           -- mov edx, p
      mov2 1 21 50 51,                        -- fild v
      stx 50 51 42]                           -- fistp qword ptr [edx]
    opnds := [(0, .input), (1, .input), (21, .input), (42, .outEarly), (50, .outEarly), (51, .outEarly)]
    fixed := [(42, 2)]
    addr := [0]
    results := [] }
  args a x := x 1 = lower 32 a ∧ x 21 = upper 32 a
  ret _ _ := .unit

/-- `store`, core_arch_ops_msvc_x86.hpp 593–645 (block 628–641).  Variables: 0 `p`, 1 `v`, 4
`backup`. -/
def storeLoop : Fn 32 64 (BitVec 64) (Integral.Ret 64) where
  block := {
    prog := [
      movw 32 43 4,                           -- mov backup, ebx
      movw 32 0 47,                           -- mov edi, p
      movw 32 1 43,                           -- mov ebx, dword ptr [v]
      movw 32 21 41,                          -- mov ecx, dword ptr [v + 4]
      ldlo 47 40,                             -- mov eax, dword ptr [edi]
      ldhi 47 42,                             -- mov edx, dword ptr [edi + 4]
      .label 1,                               -- again:
      cmpxchg2 40 42 43 41 47,                -- lock cmpxchg8b qword ptr [edi]
      jne 6 1 false,                          -- jne again
      movw 32 4 43]                           -- mov ebx, backup
    opnds := [(0, .input), (1, .input), (4, .outEarly), (21, .input), (40, .outEarly), (41, .outEarly), (42, .outEarly), (43, .reserved), (47, .outEarly)]
    fixed := [(40, 0), (41, 1), (42, 2), (43, 3), (47, 7)]
    addr := [0]
    results := [43] }
  args a x := x 1 = lower 32 a ∧ x 21 = upper 32 a
  ret _ _ := .unit

/-- `load`, core_arch_ops_msvc_x86.hpp 647–699 (block 658–663, with `_M_IX86_FP`, `__AVX__`). 
Variables: 0 `p`, 3 `value`. -/
def loadAvx : Fn 32 64 (Unit) (Integral.Ret 64) where
  block := {
    prog := [
      movw 32 0 42,                           -- mov edx, p
      ldx 42 50 51,                           -- vmovq xmm4, qword ptr [edx]
      mov2 50 51 3 23]                        -- vmovq value, xmm4
    opnds := [(0, .input), (3, .outEarly), (23, .outEarly), (42, .outEarly), (50, .outEarly), (51, .outEarly)]
    fixed := [(42, 2)]
    addr := [0]
    results := [3, 23] }
  args _ _ := True
  ret _ r := .val (joined 64 (r 23) (r 3))

/-- `load`, core_arch_ops_msvc_x86.hpp 647–699 (block 665–670, with `_M_IX86_FP`).  Variables: 0
`p`, 3 `value`. -/
def loadSse2 : Fn 32 64 (Unit) (Integral.Ret 64) where
  block := {
    prog := [
      movw 32 0 42,                           -- mov edx, p
      ldx 42 50 51,                           -- movq xmm4, qword ptr [edx]
      mov2 50 51 3 23]                        -- movq value, xmm4
    opnds := [(0, .input), (3, .outEarly), (23, .outEarly), (42, .outEarly), (50, .outEarly), (51, .outEarly)]
    fixed := [(42, 2)]
    addr := [0]
    results := [3, 23] }
  args _ _ := True
  ret _ r := .val (joined 64 (r 23) (r 3))

/-- `load`, core_arch_ops_msvc_x86.hpp 647–699 (block 673–678).  Variables: 0 `p`, 3 `value`. -/
def loadX87 : Fn 32 64 (Unit) (Integral.Ret 64) where
  block := {
    prog := [
      movw 32 0 42,                           -- mov edx, p
      ldx 42 50 51,                           -- fild qword ptr [edx]
      mov2 50 51 3 23]                        -- fistp value
    opnds := [(0, .input), (3, .outEarly), (23, .outEarly), (42, .outEarly), (50, .outEarly), (51, .outEarly)]
    fixed := [(42, 2)]
    addr := [0]
    results := [3, 23] }
  args _ _ := True
  ret _ r := .val (joined 64 (r 23) (r 3))

/-- `load`, core_arch_ops_msvc_x86.hpp 647–699 (block 685–693).  Variables: 0 `p`, 3 `value`. -/
def loadCas : Fn 32 64 (Unit) (Integral.Ret 64) where
  block := {
    prog := [
      movw 32 0 47,                           -- mov edi, p
      movw 32 43 40,                          -- mov eax, ebx
      movw 32 41 42,                          -- mov edx, ecx
      cmpxchg2 40 42 43 41 47,                -- lock cmpxchg8b qword ptr [edi]
      movw 32 40 3,                           -- mov dword ptr [value], eax
      movw 32 42 23]                          -- mov dword ptr [value + 4], edx
    opnds := [(0, .input), (3, .outEarly), (23, .outEarly), (40, .outEarly), (41, .outEarly), (42, .outEarly), (43, .reserved), (47, .outEarly)]
    fixed := [(40, 0), (41, 1), (42, 2), (43, 3), (47, 7)]
    addr := [0]
    results := [3, 23] }
  args _ _ := True
  ret _ r := .val (joined 64 (r 23) (r 3))

/-- `compare_exchange_strong`, core_arch_ops_msvc_x86.hpp 701–735 (block 716–730).  Variables: 0
`p`, 1 `expected`, 2 `desired`, 3 `result`, 4 `backup`. -/
def cas : Fn 32 64 (BitVec 64 × BitVec 64) (Integral.Ret 64) where
  block := {
    prog := [
      movw 32 43 4,                           -- mov backup, ebx
      movw 32 0 47,                           -- mov edi, p
      .havoc [46],                            -- mov esi, expected
      movw 32 2 43,                           -- mov ebx, dword ptr [desired]
      movw 32 22 41,                          -- mov ecx, dword ptr [desired + 4]
      movw 32 1 40,                           -- mov eax, dword ptr [esi]
      movw 32 21 42,                          -- mov edx, dword ptr [esi + 4]
      cmpxchg2 40 42 43 41 47,                -- lock cmpxchg8b qword ptr [edi]
      movw 32 40 1,                           -- mov dword ptr [esi], eax
      movw 32 42 21,                          -- mov dword ptr [esi + 4], edx
      movw 32 4 43,                           -- mov ebx, backup
      sete 3]                                 -- sete result
    opnds := [(0, .input), (1, .inoutEarly), (2, .input), (3, .outEarly), (4, .outEarly), (21, .inoutEarly), (22, .input), (40, .outEarly), (41, .outEarly), (42, .outEarly), (43, .reserved), (46, .outEarly), (47, .outEarly)]
    fixed := [(40, 0), (41, 1), (42, 2), (43, 3), (46, 6), (47, 7)]
    addr := [0]
    results := [1, 21, 3, 43] }
  args a x := x 1 = lower 32 a.1 ∧ x 21 = upper 32 a.1 ∧ x 2 = lower 32 a.2 ∧ x 22 = upper 32 a.2
  ret _ r := bool8 (r 3) (.cas · (joined 64 (r 21) (r 1)))

/-- `exchange`, core_arch_ops_msvc_x86.hpp 743–769 (block 749–764).  Variables: 0 `p`, 1 `v`, 4
`backup`. -/
def exchange : Fn 32 64 (BitVec 64) (Integral.Ret 64) where
  block := {
    prog := [
      movw 32 43 4,                           -- mov backup, ebx
      movw 32 0 47,                           -- mov edi, p
      movw 32 1 43,                           -- mov ebx, dword ptr [v]
      movw 32 21 41,                          -- mov ecx, dword ptr [v + 4]
      ldlo 47 40,                             -- mov eax, dword ptr [edi]
      ldhi 47 42,                             -- mov edx, dword ptr [edi + 4]
      .label 1,                               -- again:
      cmpxchg2 40 42 43 41 47,                -- lock cmpxchg8b qword ptr [edi]
      jne 6 1 false,                          -- jne again
      movw 32 4 43,                           -- mov ebx, backup
      movw 32 40 1,                           -- mov dword ptr [v], eax
      movw 32 42 21]                          -- mov dword ptr [v + 4], edx
    opnds := [(0, .input), (1, .inoutEarly), (4, .outEarly), (21, .inoutEarly), (40, .outEarly), (41, .outEarly), (42, .outEarly), (43, .reserved), (47, .outEarly)]
    fixed := [(40, 0), (41, 1), (42, 2), (43, 3), (47, 7)]
    addr := [0]
    results := [1, 21, 43] }
  args a x := x 1 = lower 32 a ∧ x 21 = upper 32 a
  ret _ r := .val (joined 64 (r 21) (r 1))

end Msvc8

end Verif.Asm
