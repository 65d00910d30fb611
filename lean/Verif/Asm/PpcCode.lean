import Verif.Asm.Tactic
import Verif.Asm.IsaPpc
import Verif.Asm.Assume

/-
The assembly blocks of core_arch_ops_gcc_ppc.hpp and extra_ops_gcc_ppc.hpp.
Written by tools/asmgen.py from the source text.
-/

set_option linter.unusedVariables false

namespace Verif.Asm

namespace Ppc1
open Ppc

/-- `store`, core_arch_ops_gcc_ppc.hpp 355–365 (assembly block 359–364).  Operands, in this order:
%0 "+m" (storage); %1 "r" (v). -/
def store_ (R : Nat) : Fn R 8 (BitVec 8) (Integral.Ret 8) where
  block := {
    prog := [
      stb 1 0]                                -- stb %1, %0
    opnds := [(0, .input), (1, .input)]
    addr := [0]
    results := [] }
  args a x := (x 1).setWidth 8 = a
  ret _ _ := .unit

/-- `load`, core_arch_ops_gcc_ppc.hpp 367–397 (assembly block 374–384).  Operands, in this order: %0
"=&r" (v); %1 "m" (storage). -/
def load_1 (R : Nat) : Fn R 8 (Unit) (Integral.Ret 8) where
  block := {
    prog := [
      lbz 0 1,                                -- lbz %0, %1
      cmpw 0 0,                               -- cmpw %0, %0
      bne 3 1 true 4,                         -- bne- 1f +4
      .label 1,                               -- 1:
      isync]                                  -- isync
    opnds := [(0, .outEarly), (1, .input)]
    addr := [1]
    results := [0] }
  args _ _ := True
  ret _ r := .val ((r 0).setWidth 8)

/-- `load`, core_arch_ops_gcc_ppc.hpp 367–397 (assembly block 388–393).  Operands, in this order: %0
"=&r" (v); %1 "m" (storage). -/
def load_2 (R : Nat) : Fn R 8 (Unit) (Integral.Ret 8) where
  block := {
    prog := [
      lbz 0 1]                                -- lbz %0, %1
    opnds := [(0, .outEarly), (1, .input)]
    addr := [1]
    results := [0] }
  args _ _ := True
  ret _ r := .val ((r 0).setWidth 8)

/-- `exchange`, core_arch_ops_gcc_ppc.hpp 399–417 (assembly block 404–413).  Operands, in this
order: %0 "=&b" (original); %1 "+Z" (storage); %2 "b" (v). -/
def exchange (R : Nat) : Fn R 8 (BitVec 8) (Integral.Ret 8) where
  block := {
    prog := [
      .label 1,                               -- 1:
      lbarx 0 1,                              -- lbarx %0,%y1
      stbcx 2 1,                              -- stbcx. %2,%y1
      bne 0 1 false (-8)]                     -- bne- 1b -8
    opnds := [(0, .outEarly), (1, .input), (2, .input)]
    addr := [1]
    results := [0] }
  args a x := (x 2).setWidth 8 = a
  ret _ r := .val ((r 0).setWidth 8)

/-- `compare_exchange_weak`, core_arch_ops_gcc_ppc.hpp 419–450 (assembly block 425–438).  Operands,
in this order: %0 "=&b" (expected); %1 "=&b" (success); %2 "+Z" (storage); %3 "b" (expected); %4 "b"
(desired). -/
def compareExchangeWeak (R : Nat) : Fn R 8 (BitVec 8 × BitVec 8) (Integral.Ret 8) where
  block := {
    prog := [
      li 1 0,                                 -- li %1, 0
      lbarx 0 2,                              -- lbarx %0,%y2
      cmpw 0 3,                               -- cmpw %0, %3
      bne 7 1 true 16,                        -- bne- 1f +16
      stbcx 4 2,                              -- stbcx. %4,%y2
      bne 7 1 true 8,                         -- bne- 1f +8
      li 1 1,                                 -- li %1, 1
      .label 1]                               -- 1:
    opnds := [(0, .outEarly), (1, .outEarly), (2, .input), (3, .input), (4, .input)]
    addr := [2]
    results := [0, 1] }
  args a x := (x 3).setWidth 8 = a.1 ∧ (x 4).setWidth 8 = a.2
  ret _ r := bool8 (r 1) (.cas · ((r 0).setWidth 8))

/-- `compare_exchange_strong`, core_arch_ops_gcc_ppc.hpp 452–484 (assembly block 458–472). 
Operands, in this order: %0 "=&b" (expected); %1 "=&b" (success); %2 "+Z" (storage); %3 "b"
(expected); %4 "b" (desired). -/
def compareExchangeStrong (R : Nat) : Fn R 8 (BitVec 8 × BitVec 8) (Integral.Ret 8) where
  block := {
    prog := [
      li 1 0,                                 -- li %1, 0
      .label 0,                               -- 0:
      lbarx 0 2,                              -- lbarx %0,%y2
      cmpw 0 3,                               -- cmpw %0, %3
      bne 8 1 true 16,                        -- bne- 1f +16
      stbcx 4 2,                              -- stbcx. %4,%y2
      bne 1 0 false (-16),                    -- bne- 0b -16
      li 1 1,                                 -- li %1, 1
      .label 1]                               -- 1:
    opnds := [(0, .outEarly), (1, .outEarly), (2, .input), (3, .input), (4, .input)]
    addr := [2]
    results := [0, 1] }
  args a x := (x 3).setWidth 8 = a.1 ∧ (x 4).setWidth 8 = a.2
  ret _ r := bool8 (r 1) (.cas · ((r 0).setWidth 8))

/-- `fetch_add`, core_arch_ops_gcc_ppc.hpp 486–505 (assembly block 491–501).  Operands, in this
order: %0 "=&b" (original); %1 "=&b" (result); %2 "+Z" (storage); %3 "b" (v). -/
def fetchAdd (R : Nat) : Fn R 8 (BitVec 8) (Integral.Ret 8) where
  block := {
    prog := [
      .label 1,                               -- 1:
      lbarx 0 2,                              -- lbarx %0,%y2
      add 1 0 3,                              -- add %1,%0,%3
      stbcx 1 2,                              -- stbcx. %1,%y2
      bne 0 1 false (-12)]                    -- bne- 1b -12
    opnds := [(0, .outEarly), (1, .outEarly), (2, .input), (3, .input)]
    addr := [2]
    results := [0] }
  args a x := (x 3).setWidth 8 = a
  ret _ r := .val ((r 0).setWidth 8)

/-- `fetch_sub`, core_arch_ops_gcc_ppc.hpp 507–526 (assembly block 512–522).  Operands, in this
order: %0 "=&b" (original); %1 "=&b" (result); %2 "+Z" (storage); %3 "b" (v). -/
def fetchSub (R : Nat) : Fn R 8 (BitVec 8) (Integral.Ret 8) where
  block := {
    prog := [
      .label 1,                               -- 1:
      lbarx 0 2,                              -- lbarx %0,%y2
      sub 1 0 3,                              -- sub %1,%0,%3
      stbcx 1 2,                              -- stbcx. %1,%y2
      bne 0 1 false (-12)]                    -- bne- 1b -12
    opnds := [(0, .outEarly), (1, .outEarly), (2, .input), (3, .input)]
    addr := [2]
    results := [0] }
  args a x := (x 3).setWidth 8 = a
  ret _ r := .val ((r 0).setWidth 8)

/-- `fetch_and`, core_arch_ops_gcc_ppc.hpp 528–547 (assembly block 533–543).  Operands, in this
order: %0 "=&b" (original); %1 "=&b" (result); %2 "+Z" (storage); %3 "b" (v). -/
def fetchAnd (R : Nat) : Fn R 8 (BitVec 8) (Integral.Ret 8) where
  block := {
    prog := [
      .label 1,                               -- 1:
      lbarx 0 2,                              -- lbarx %0,%y2
      and 1 0 3,                              -- and %1,%0,%3
      stbcx 1 2,                              -- stbcx. %1,%y2
      bne 0 1 false (-12)]                    -- bne- 1b -12
    opnds := [(0, .outEarly), (1, .outEarly), (2, .input), (3, .input)]
    addr := [2]
    results := [0] }
  args a x := (x 3).setWidth 8 = a
  ret _ r := .val ((r 0).setWidth 8)

/-- `fetch_or`, core_arch_ops_gcc_ppc.hpp 549–568 (assembly block 554–564).  Operands, in this
order: %0 "=&b" (original); %1 "=&b" (result); %2 "+Z" (storage); %3 "b" (v). -/
def fetchOr (R : Nat) : Fn R 8 (BitVec 8) (Integral.Ret 8) where
  block := {
    prog := [
      .label 1,                               -- 1:
      lbarx 0 2,                              -- lbarx %0,%y2
      or 1 0 3,                               -- or %1,%0,%3
      stbcx 1 2,                              -- stbcx. %1,%y2
      bne 0 1 false (-12)]                    -- bne- 1b -12
    opnds := [(0, .outEarly), (1, .outEarly), (2, .input), (3, .input)]
    addr := [2]
    results := [0] }
  args a x := (x 3).setWidth 8 = a
  ret _ r := .val ((r 0).setWidth 8)

/-- `fetch_xor`, core_arch_ops_gcc_ppc.hpp 570–589 (assembly block 575–585).  Operands, in this
order: %0 "=&b" (original); %1 "=&b" (result); %2 "+Z" (storage); %3 "b" (v). -/
def fetchXor (R : Nat) : Fn R 8 (BitVec 8) (Integral.Ret 8) where
  block := {
    prog := [
      .label 1,                               -- 1:
      lbarx 0 2,                              -- lbarx %0,%y2
      xor 1 0 3,                              -- xor %1,%0,%3
      stbcx 1 2,                              -- stbcx. %1,%y2
      bne 0 1 false (-12)]                    -- bne- 1b -12
    opnds := [(0, .outEarly), (1, .outEarly), (2, .input), (3, .input)]
    addr := [2]
    results := [0] }
  args a x := (x 3).setWidth 8 = a
  ret _ r := .val ((r 0).setWidth 8)

/-- `fetch_negate`, extra_ops_gcc_ppc.hpp 101–120 (assembly block 106–116).  Operands, in this
order: %0 "=&b" (original); %1 "=&b" (result); %2 "+Z" (storage). -/
def fetchNegate (R : Nat) : Fn R 8 (Unit) (Integral.Ret 8) where
  block := {
    prog := [
      .label 1,                               -- 1:
      lbarx 0 2,                              -- lbarx %0,%y2
      neg 1 0,                                -- neg %1,%0
      stbcx 1 2,                              -- stbcx. %1,%y2
      bne 0 1 false (-12)]                    -- bne- 1b -12
    opnds := [(0, .outEarly), (1, .outEarly), (2, .input)]
    addr := [2]
    results := [0] }
  args _ _ := True
  ret _ r := .val ((r 0).setWidth 8)

/-- `negate`, extra_ops_gcc_ppc.hpp 122–141 (assembly block 127–137).  Operands, in this order: %0
"=&b" (original); %1 "=&b" (result); %2 "+Z" (storage). -/
def negate (R : Nat) : Fn R 8 (Unit) (Integral.Ret 8) where
  block := {
    prog := [
      .label 1,                               -- 1:
      lbarx 0 2,                              -- lbarx %0,%y2
      neg 1 0,                                -- neg %1,%0
      stbcx 1 2,                              -- stbcx. %1,%y2
      bne 0 1 false (-12)]                    -- bne- 1b -12
    opnds := [(0, .outEarly), (1, .outEarly), (2, .input)]
    addr := [2]
    results := [1] }
  args _ _ := True
  ret _ r := .val ((r 1).setWidth 8)

/-- `add`, extra_ops_gcc_ppc.hpp 143–162 (assembly block 148–158).  Operands, in this order: %0
"=&b" (original); %1 "=&b" (result); %2 "+Z" (storage); %3 "b" (v). -/
def add_ (R : Nat) : Fn R 8 (BitVec 8) (Integral.Ret 8) where
  block := {
    prog := [
      .label 1,                               -- 1:
      lbarx 0 2,                              -- lbarx %0,%y2
      add 1 0 3,                              -- add %1,%0,%3
      stbcx 1 2,                              -- stbcx. %1,%y2
      bne 0 1 false (-12)]                    -- bne- 1b -12
    opnds := [(0, .outEarly), (1, .outEarly), (2, .input), (3, .input)]
    addr := [2]
    results := [1] }
  args a x := (x 3).setWidth 8 = a
  ret _ r := .val ((r 1).setWidth 8)

/-- `sub`, extra_ops_gcc_ppc.hpp 164–183 (assembly block 169–179).  Operands, in this order: %0
"=&b" (original); %1 "=&b" (result); %2 "+Z" (storage); %3 "b" (v). -/
def sub_ (R : Nat) : Fn R 8 (BitVec 8) (Integral.Ret 8) where
  block := {
    prog := [
      .label 1,                               -- 1:
      lbarx 0 2,                              -- lbarx %0,%y2
      sub 1 0 3,                              -- sub %1,%0,%3
      stbcx 1 2,                              -- stbcx. %1,%y2
      bne 0 1 false (-12)]                    -- bne- 1b -12
    opnds := [(0, .outEarly), (1, .outEarly), (2, .input), (3, .input)]
    addr := [2]
    results := [1] }
  args a x := (x 3).setWidth 8 = a
  ret _ r := .val ((r 1).setWidth 8)

/-- `bitwise_and`, extra_ops_gcc_ppc.hpp 185–204 (assembly block 190–200).  Operands, in this order:
%0 "=&b" (original); %1 "=&b" (result); %2 "+Z" (storage); %3 "b" (v). -/
def bitwiseAnd (R : Nat) : Fn R 8 (BitVec 8) (Integral.Ret 8) where
  block := {
    prog := [
      .label 1,                               -- 1:
      lbarx 0 2,                              -- lbarx %0,%y2
      and 1 0 3,                              -- and %1,%0,%3
      stbcx 1 2,                              -- stbcx. %1,%y2
      bne 0 1 false (-12)]                    -- bne- 1b -12
    opnds := [(0, .outEarly), (1, .outEarly), (2, .input), (3, .input)]
    addr := [2]
    results := [1] }
  args a x := (x 3).setWidth 8 = a
  ret _ r := .val ((r 1).setWidth 8)

/-- `bitwise_or`, extra_ops_gcc_ppc.hpp 206–225 (assembly block 211–221).  Operands, in this order:
%0 "=&b" (original); %1 "=&b" (result); %2 "+Z" (storage); %3 "b" (v). -/
def bitwiseOr (R : Nat) : Fn R 8 (BitVec 8) (Integral.Ret 8) where
  block := {
    prog := [
      .label 1,                               -- 1:
      lbarx 0 2,                              -- lbarx %0,%y2
      or 1 0 3,                               -- or %1,%0,%3
      stbcx 1 2,                              -- stbcx. %1,%y2
      bne 0 1 false (-12)]                    -- bne- 1b -12
    opnds := [(0, .outEarly), (1, .outEarly), (2, .input), (3, .input)]
    addr := [2]
    results := [1] }
  args a x := (x 3).setWidth 8 = a
  ret _ r := .val ((r 1).setWidth 8)

/-- `bitwise_xor`, extra_ops_gcc_ppc.hpp 227–246 (assembly block 232–242).  Operands, in this order:
%0 "=&b" (original); %1 "=&b" (result); %2 "+Z" (storage); %3 "b" (v). -/
def bitwiseXor (R : Nat) : Fn R 8 (BitVec 8) (Integral.Ret 8) where
  block := {
    prog := [
      .label 1,                               -- 1:
      lbarx 0 2,                              -- lbarx %0,%y2
      xor 1 0 3,                              -- xor %1,%0,%3
      stbcx 1 2,                              -- stbcx. %1,%y2
      bne 0 1 false (-12)]                    -- bne- 1b -12
    opnds := [(0, .outEarly), (1, .outEarly), (2, .input), (3, .input)]
    addr := [2]
    results := [1] }
  args a x := (x 3).setWidth 8 = a
  ret _ r := .val ((r 1).setWidth 8)

/-- `fetch_complement`, extra_ops_gcc_ppc.hpp 248–267 (assembly block 253–263).  Operands, in this
order: %0 "=&b" (original); %1 "=&b" (result); %2 "+Z" (storage). -/
def fetchComplement (R : Nat) : Fn R 8 (Unit) (Integral.Ret 8) where
  block := {
    prog := [
      .label 1,                               -- 1:
      lbarx 0 2,                              -- lbarx %0,%y2
      nor 1 0 0,                              -- nor %1,%0,%0
      stbcx 1 2,                              -- stbcx. %1,%y2
      bne 0 1 false (-12)]                    -- bne- 1b -12
    opnds := [(0, .outEarly), (1, .outEarly), (2, .input)]
    addr := [2]
    results := [0] }
  args _ _ := True
  ret _ r := .val ((r 0).setWidth 8)

/-- `bitwise_complement`, extra_ops_gcc_ppc.hpp 269–288 (assembly block 274–284).  Operands, in this
order: %0 "=&b" (original); %1 "=&b" (result); %2 "+Z" (storage). -/
def bitwiseComplement (R : Nat) : Fn R 8 (Unit) (Integral.Ret 8) where
  block := {
    prog := [
      .label 1,                               -- 1:
      lbarx 0 2,                              -- lbarx %0,%y2
      nor 1 0 0,                              -- nor %1,%0,%0
      stbcx 1 2,                              -- stbcx. %1,%y2
      bne 0 1 false (-12)]                    -- bne- 1b -12
    opnds := [(0, .outEarly), (1, .outEarly), (2, .input)]
    addr := [2]
    results := [1] }
  args _ _ := True
  ret _ r := .val ((r 1).setWidth 8)

end Ppc1

namespace Ppc2
open Ppc

/-- `store`, core_arch_ops_gcc_ppc.hpp 723–733 (assembly block 727–732).  Operands, in this order:
%0 "+m" (storage); %1 "r" (v). -/
def store_ (R : Nat) : Fn R 16 (BitVec 16) (Integral.Ret 16) where
  block := {
    prog := [
      sth 1 0]                                -- sth %1, %0
    opnds := [(0, .input), (1, .input)]
    addr := [0]
    results := [] }
  args a x := (x 1).setWidth 16 = a
  ret _ _ := .unit

/-- `load`, core_arch_ops_gcc_ppc.hpp 735–765 (assembly block 742–752).  Operands, in this order: %0
"=&r" (v); %1 "m" (storage). -/
def load_1 (R : Nat) : Fn R 16 (Unit) (Integral.Ret 16) where
  block := {
    prog := [
      lhz 0 1,                                -- lhz %0, %1
      cmpw 0 0,                               -- cmpw %0, %0
      bne 3 1 true 4,                         -- bne- 1f +4
      .label 1,                               -- 1:
      isync]                                  -- isync
    opnds := [(0, .outEarly), (1, .input)]
    addr := [1]
    results := [0] }
  args _ _ := True
  ret _ r := .val ((r 0).setWidth 16)

/-- `load`, core_arch_ops_gcc_ppc.hpp 735–765 (assembly block 756–761).  Operands, in this order: %0
"=&r" (v); %1 "m" (storage). -/
def load_2 (R : Nat) : Fn R 16 (Unit) (Integral.Ret 16) where
  block := {
    prog := [
      lhz 0 1]                                -- lhz %0, %1
    opnds := [(0, .outEarly), (1, .input)]
    addr := [1]
    results := [0] }
  args _ _ := True
  ret _ r := .val ((r 0).setWidth 16)

/-- `exchange`, core_arch_ops_gcc_ppc.hpp 767–785 (assembly block 772–781).  Operands, in this
order: %0 "=&b" (original); %1 "+Z" (storage); %2 "b" (v). -/
def exchange (R : Nat) : Fn R 16 (BitVec 16) (Integral.Ret 16) where
  block := {
    prog := [
      .label 1,                               -- 1:
      lharx 0 1,                              -- lharx %0,%y1
      sthcx 2 1,                              -- sthcx. %2,%y1
      bne 0 1 false (-8)]                     -- bne- 1b -8
    opnds := [(0, .outEarly), (1, .input), (2, .input)]
    addr := [1]
    results := [0] }
  args a x := (x 2).setWidth 16 = a
  ret _ r := .val ((r 0).setWidth 16)

/-- `compare_exchange_weak`, core_arch_ops_gcc_ppc.hpp 787–818 (assembly block 793–806).  Operands,
in this order: %0 "=&b" (expected); %1 "=&b" (success); %2 "+Z" (storage); %3 "b" (expected); %4 "b"
(desired). -/
def compareExchangeWeak (R : Nat) : Fn R 16 (BitVec 16 × BitVec 16) (Integral.Ret 16) where
  block := {
    prog := [
      li 1 0,                                 -- li %1, 0
      lharx 0 2,                              -- lharx %0,%y2
      cmpw 0 3,                               -- cmpw %0, %3
      bne 7 1 true 16,                        -- bne- 1f +16
      sthcx 4 2,                              -- sthcx. %4,%y2
      bne 7 1 true 8,                         -- bne- 1f +8
      li 1 1,                                 -- li %1, 1
      .label 1]                               -- 1:
    opnds := [(0, .outEarly), (1, .outEarly), (2, .input), (3, .input), (4, .input)]
    addr := [2]
    results := [0, 1] }
  args a x := (x 3).setWidth 16 = a.1 ∧ (x 4).setWidth 16 = a.2
  ret _ r := bool8 (r 1) (.cas · ((r 0).setWidth 16))

/-- `compare_exchange_strong`, core_arch_ops_gcc_ppc.hpp 820–852 (assembly block 826–840). 
Operands, in this order: %0 "=&b" (expected); %1 "=&b" (success); %2 "+Z" (storage); %3 "b"
(expected); %4 "b" (desired). -/
def compareExchangeStrong (R : Nat) : Fn R 16 (BitVec 16 × BitVec 16) (Integral.Ret 16) where
  block := {
    prog := [
      li 1 0,                                 -- li %1, 0
      .label 0,                               -- 0:
      lharx 0 2,                              -- lharx %0,%y2
      cmpw 0 3,                               -- cmpw %0, %3
      bne 8 1 true 16,                        -- bne- 1f +16
      sthcx 4 2,                              -- sthcx. %4,%y2
      bne 1 0 false (-16),                    -- bne- 0b -16
      li 1 1,                                 -- li %1, 1
      .label 1]                               -- 1:
    opnds := [(0, .outEarly), (1, .outEarly), (2, .input), (3, .input), (4, .input)]
    addr := [2]
    results := [0, 1] }
  args a x := (x 3).setWidth 16 = a.1 ∧ (x 4).setWidth 16 = a.2
  ret _ r := bool8 (r 1) (.cas · ((r 0).setWidth 16))

/-- `fetch_add`, core_arch_ops_gcc_ppc.hpp 854–873 (assembly block 859–869).  Operands, in this
order: %0 "=&b" (original); %1 "=&b" (result); %2 "+Z" (storage); %3 "b" (v). -/
def fetchAdd (R : Nat) : Fn R 16 (BitVec 16) (Integral.Ret 16) where
  block := {
    prog := [
      .label 1,                               -- 1:
      lharx 0 2,                              -- lharx %0,%y2
      add 1 0 3,                              -- add %1,%0,%3
      sthcx 1 2,                              -- sthcx. %1,%y2
      bne 0 1 false (-12)]                    -- bne- 1b -12
    opnds := [(0, .outEarly), (1, .outEarly), (2, .input), (3, .input)]
    addr := [2]
    results := [0] }
  args a x := (x 3).setWidth 16 = a
  ret _ r := .val ((r 0).setWidth 16)

/-- `fetch_sub`, core_arch_ops_gcc_ppc.hpp 875–894 (assembly block 880–890).  Operands, in this
order: %0 "=&b" (original); %1 "=&b" (result); %2 "+Z" (storage); %3 "b" (v). -/
def fetchSub (R : Nat) : Fn R 16 (BitVec 16) (Integral.Ret 16) where
  block := {
    prog := [
      .label 1,                               -- 1:
      lharx 0 2,                              -- lharx %0,%y2
      sub 1 0 3,                              -- sub %1,%0,%3
      sthcx 1 2,                              -- sthcx. %1,%y2
      bne 0 1 false (-12)]                    -- bne- 1b -12
    opnds := [(0, .outEarly), (1, .outEarly), (2, .input), (3, .input)]
    addr := [2]
    results := [0] }
  args a x := (x 3).setWidth 16 = a
  ret _ r := .val ((r 0).setWidth 16)

/-- `fetch_and`, core_arch_ops_gcc_ppc.hpp 896–915 (assembly block 901–911).  Operands, in this
order: %0 "=&b" (original); %1 "=&b" (result); %2 "+Z" (storage); %3 "b" (v). -/
def fetchAnd (R : Nat) : Fn R 16 (BitVec 16) (Integral.Ret 16) where
  block := {
    prog := [
      .label 1,                               -- 1:
      lharx 0 2,                              -- lharx %0,%y2
      and 1 0 3,                              -- and %1,%0,%3
      sthcx 1 2,                              -- sthcx. %1,%y2
      bne 0 1 false (-12)]                    -- bne- 1b -12
    opnds := [(0, .outEarly), (1, .outEarly), (2, .input), (3, .input)]
    addr := [2]
    results := [0] }
  args a x := (x 3).setWidth 16 = a
  ret _ r := .val ((r 0).setWidth 16)

/-- `fetch_or`, core_arch_ops_gcc_ppc.hpp 917–936 (assembly block 922–932).  Operands, in this
order: %0 "=&b" (original); %1 "=&b" (result); %2 "+Z" (storage); %3 "b" (v). -/
def fetchOr (R : Nat) : Fn R 16 (BitVec 16) (Integral.Ret 16) where
  block := {
    prog := [
      .label 1,                               -- 1:
      lharx 0 2,                              -- lharx %0,%y2
      or 1 0 3,                               -- or %1,%0,%3
      sthcx 1 2,                              -- sthcx. %1,%y2
      bne 0 1 false (-12)]                    -- bne- 1b -12
    opnds := [(0, .outEarly), (1, .outEarly), (2, .input), (3, .input)]
    addr := [2]
    results := [0] }
  args a x := (x 3).setWidth 16 = a
  ret _ r := .val ((r 0).setWidth 16)

/-- `fetch_xor`, core_arch_ops_gcc_ppc.hpp 938–957 (assembly block 943–953).  Operands, in this
order: %0 "=&b" (original); %1 "=&b" (result); %2 "+Z" (storage); %3 "b" (v). -/
def fetchXor (R : Nat) : Fn R 16 (BitVec 16) (Integral.Ret 16) where
  block := {
    prog := [
      .label 1,                               -- 1:
      lharx 0 2,                              -- lharx %0,%y2
      xor 1 0 3,                              -- xor %1,%0,%3
      sthcx 1 2,                              -- sthcx. %1,%y2
      bne 0 1 false (-12)]                    -- bne- 1b -12
    opnds := [(0, .outEarly), (1, .outEarly), (2, .input), (3, .input)]
    addr := [2]
    results := [0] }
  args a x := (x 3).setWidth 16 = a
  ret _ r := .val ((r 0).setWidth 16)

/-- `fetch_negate`, extra_ops_gcc_ppc.hpp 308–327 (assembly block 313–323).  Operands, in this
order: %0 "=&b" (original); %1 "=&b" (result); %2 "+Z" (storage). -/
def fetchNegate (R : Nat) : Fn R 16 (Unit) (Integral.Ret 16) where
  block := {
    prog := [
      .label 1,                               -- 1:
      lharx 0 2,                              -- lharx %0,%y2
      neg 1 0,                                -- neg %1,%0
      sthcx 1 2,                              -- sthcx. %1,%y2
      bne 0 1 false (-12)]                    -- bne- 1b -12
    opnds := [(0, .outEarly), (1, .outEarly), (2, .input)]
    addr := [2]
    results := [0] }
  args _ _ := True
  ret _ r := .val ((r 0).setWidth 16)

/-- `negate`, extra_ops_gcc_ppc.hpp 329–348 (assembly block 334–344).  Operands, in this order: %0
"=&b" (original); %1 "=&b" (result); %2 "+Z" (storage). -/
def negate (R : Nat) : Fn R 16 (Unit) (Integral.Ret 16) where
  block := {
    prog := [
      .label 1,                               -- 1:
      lharx 0 2,                              -- lharx %0,%y2
      neg 1 0,                                -- neg %1,%0
      sthcx 1 2,                              -- sthcx. %1,%y2
      bne 0 1 false (-12)]                    -- bne- 1b -12
    opnds := [(0, .outEarly), (1, .outEarly), (2, .input)]
    addr := [2]
    results := [1] }
  args _ _ := True
  ret _ r := .val ((r 1).setWidth 16)

/-- `add`, extra_ops_gcc_ppc.hpp 350–369 (assembly block 355–365).  Operands, in this order: %0
"=&b" (original); %1 "=&b" (result); %2 "+Z" (storage); %3 "b" (v). -/
def add_ (R : Nat) : Fn R 16 (BitVec 16) (Integral.Ret 16) where
  block := {
    prog := [
      .label 1,                               -- 1:
      lharx 0 2,                              -- lharx %0,%y2
      add 1 0 3,                              -- add %1,%0,%3
      sthcx 1 2,                              -- sthcx. %1,%y2
      bne 0 1 false (-12)]                    -- bne- 1b -12
    opnds := [(0, .outEarly), (1, .outEarly), (2, .input), (3, .input)]
    addr := [2]
    results := [1] }
  args a x := (x 3).setWidth 16 = a
  ret _ r := .val ((r 1).setWidth 16)

/-- `sub`, extra_ops_gcc_ppc.hpp 371–390 (assembly block 376–386).  Operands, in this order: %0
"=&b" (original); %1 "=&b" (result); %2 "+Z" (storage); %3 "b" (v). -/
def sub_ (R : Nat) : Fn R 16 (BitVec 16) (Integral.Ret 16) where
  block := {
    prog := [
      .label 1,                               -- 1:
      lharx 0 2,                              -- lharx %0,%y2
      sub 1 0 3,                              -- sub %1,%0,%3
      sthcx 1 2,                              -- sthcx. %1,%y2
      bne 0 1 false (-12)]                    -- bne- 1b -12
    opnds := [(0, .outEarly), (1, .outEarly), (2, .input), (3, .input)]
    addr := [2]
    results := [1] }
  args a x := (x 3).setWidth 16 = a
  ret _ r := .val ((r 1).setWidth 16)

/-- `bitwise_and`, extra_ops_gcc_ppc.hpp 392–411 (assembly block 397–407).  Operands, in this order:
%0 "=&b" (original); %1 "=&b" (result); %2 "+Z" (storage); %3 "b" (v). -/
def bitwiseAnd (R : Nat) : Fn R 16 (BitVec 16) (Integral.Ret 16) where
  block := {
    prog := [
      .label 1,                               -- 1:
      lharx 0 2,                              -- lharx %0,%y2
      and 1 0 3,                              -- and %1,%0,%3
      sthcx 1 2,                              -- sthcx. %1,%y2
      bne 0 1 false (-12)]                    -- bne- 1b -12
    opnds := [(0, .outEarly), (1, .outEarly), (2, .input), (3, .input)]
    addr := [2]
    results := [1] }
  args a x := (x 3).setWidth 16 = a
  ret _ r := .val ((r 1).setWidth 16)

/-- `bitwise_or`, extra_ops_gcc_ppc.hpp 413–432 (assembly block 418–428).  Operands, in this order:
%0 "=&b" (original); %1 "=&b" (result); %2 "+Z" (storage); %3 "b" (v). -/
def bitwiseOr (R : Nat) : Fn R 16 (BitVec 16) (Integral.Ret 16) where
  block := {
    prog := [
      .label 1,                               -- 1:
      lharx 0 2,                              -- lharx %0,%y2
      or 1 0 3,                               -- or %1,%0,%3
      sthcx 1 2,                              -- sthcx. %1,%y2
      bne 0 1 false (-12)]                    -- bne- 1b -12
    opnds := [(0, .outEarly), (1, .outEarly), (2, .input), (3, .input)]
    addr := [2]
    results := [1] }
  args a x := (x 3).setWidth 16 = a
  ret _ r := .val ((r 1).setWidth 16)

/-- `bitwise_xor`, extra_ops_gcc_ppc.hpp 434–453 (assembly block 439–449).  Operands, in this order:
%0 "=&b" (original); %1 "=&b" (result); %2 "+Z" (storage); %3 "b" (v). -/
def bitwiseXor (R : Nat) : Fn R 16 (BitVec 16) (Integral.Ret 16) where
  block := {
    prog := [
      .label 1,                               -- 1:
      lharx 0 2,                              -- lharx %0,%y2
      xor 1 0 3,                              -- xor %1,%0,%3
      sthcx 1 2,                              -- sthcx. %1,%y2
      bne 0 1 false (-12)]                    -- bne- 1b -12
    opnds := [(0, .outEarly), (1, .outEarly), (2, .input), (3, .input)]
    addr := [2]
    results := [1] }
  args a x := (x 3).setWidth 16 = a
  ret _ r := .val ((r 1).setWidth 16)

/-- `fetch_complement`, extra_ops_gcc_ppc.hpp 455–474 (assembly block 460–470).  Operands, in this
order: %0 "=&b" (original); %1 "=&b" (result); %2 "+Z" (storage). -/
def fetchComplement (R : Nat) : Fn R 16 (Unit) (Integral.Ret 16) where
  block := {
    prog := [
      .label 1,                               -- 1:
      lharx 0 2,                              -- lharx %0,%y2
      nor 1 0 0,                              -- nor %1,%0,%0
      sthcx 1 2,                              -- sthcx. %1,%y2
      bne 0 1 false (-12)]                    -- bne- 1b -12
    opnds := [(0, .outEarly), (1, .outEarly), (2, .input)]
    addr := [2]
    results := [0] }
  args _ _ := True
  ret _ r := .val ((r 0).setWidth 16)

/-- `bitwise_complement`, extra_ops_gcc_ppc.hpp 476–495 (assembly block 481–491).  Operands, in this
order: %0 "=&b" (original); %1 "=&b" (result); %2 "+Z" (storage). -/
def bitwiseComplement (R : Nat) : Fn R 16 (Unit) (Integral.Ret 16) where
  block := {
    prog := [
      .label 1,                               -- 1:
      lharx 0 2,                              -- lharx %0,%y2
      nor 1 0 0,                              -- nor %1,%0,%0
      sthcx 1 2,                              -- sthcx. %1,%y2
      bne 0 1 false (-12)]                    -- bne- 1b -12
    opnds := [(0, .outEarly), (1, .outEarly), (2, .input)]
    addr := [2]
    results := [1] }
  args _ _ := True
  ret _ r := .val ((r 1).setWidth 16)

end Ppc2

namespace Ppc4
open Ppc

/-- `store`, core_arch_ops_gcc_ppc.hpp 95–105 (assembly block 99–104).  Operands, in this order: %0
"+m" (storage); %1 "r" (v). -/
def store_ (R : Nat) : Fn R 32 (BitVec 32) (Integral.Ret 32) where
  block := {
    prog := [
      stw 1 0]                                -- stw %1, %0
    opnds := [(0, .input), (1, .input)]
    addr := [0]
    results := [] }
  args a x := (x 1).setWidth 32 = a
  ret _ _ := .unit

/-- `load`, core_arch_ops_gcc_ppc.hpp 107–137 (assembly block 114–124).  Operands, in this order: %0
"=&r" (v); %1 "m" (storage). -/
def load_1 (R : Nat) : Fn R 32 (Unit) (Integral.Ret 32) where
  block := {
    prog := [
      lwz 0 1,                                -- lwz %0, %1
      cmpw 0 0,                               -- cmpw %0, %0
      bne 3 1 true 4,                         -- bne- 1f +4
      .label 1,                               -- 1:
      isync]                                  -- isync
    opnds := [(0, .outEarly), (1, .input)]
    addr := [1]
    results := [0] }
  args _ _ := True
  ret _ r := .val ((r 0).setWidth 32)

/-- `load`, core_arch_ops_gcc_ppc.hpp 107–137 (assembly block 128–133).  Operands, in this order: %0
"=&r" (v); %1 "m" (storage). -/
def load_2 (R : Nat) : Fn R 32 (Unit) (Integral.Ret 32) where
  block := {
    prog := [
      lwz 0 1]                                -- lwz %0, %1
    opnds := [(0, .outEarly), (1, .input)]
    addr := [1]
    results := [0] }
  args _ _ := True
  ret _ r := .val ((r 0).setWidth 32)

/-- `exchange`, core_arch_ops_gcc_ppc.hpp 139–157 (assembly block 144–153).  Operands, in this
order: %0 "=&b" (original); %1 "+Z" (storage); %2 "b" (v). -/
def exchange (R : Nat) : Fn R 32 (BitVec 32) (Integral.Ret 32) where
  block := {
    prog := [
      .label 1,                               -- 1:
      lwarx 0 1,                              -- lwarx %0,%y1
      stwcx 2 1,                              -- stwcx. %2,%y1
      bne 0 1 false (-8)]                     -- bne- 1b -8
    opnds := [(0, .outEarly), (1, .input), (2, .input)]
    addr := [1]
    results := [0] }
  args a x := (x 2).setWidth 32 = a
  ret _ r := .val ((r 0).setWidth 32)

/-- `compare_exchange_weak`, core_arch_ops_gcc_ppc.hpp 159–190 (assembly block 165–178).  Operands,
in this order: %0 "=&b" (expected); %1 "=&b" (success); %2 "+Z" (storage); %3 "b" (expected); %4 "b"
(desired). -/
def compareExchangeWeak (R : Nat) : Fn R 32 (BitVec 32 × BitVec 32) (Integral.Ret 32) where
  block := {
    prog := [
      li 1 0,                                 -- li %1, 0
      lwarx 0 2,                              -- lwarx %0,%y2
      cmpw 0 3,                               -- cmpw %0, %3
      bne 7 1 true 16,                        -- bne- 1f +16
      stwcx 4 2,                              -- stwcx. %4,%y2
      bne 7 1 true 8,                         -- bne- 1f +8
      li 1 1,                                 -- li %1, 1
      .label 1]                               -- 1:
    opnds := [(0, .outEarly), (1, .outEarly), (2, .input), (3, .input), (4, .input)]
    addr := [2]
    results := [0, 1] }
  args a x := (x 3).setWidth 32 = a.1 ∧ (x 4).setWidth 32 = a.2
  ret _ r := bool8 (r 1) (.cas · ((r 0).setWidth 32))

/-- `compare_exchange_strong`, core_arch_ops_gcc_ppc.hpp 192–224 (assembly block 198–212). 
Operands, in this order: %0 "=&b" (expected); %1 "=&b" (success); %2 "+Z" (storage); %3 "b"
(expected); %4 "b" (desired). -/
def compareExchangeStrong (R : Nat) : Fn R 32 (BitVec 32 × BitVec 32) (Integral.Ret 32) where
  block := {
    prog := [
      li 1 0,                                 -- li %1, 0
      .label 0,                               -- 0:
      lwarx 0 2,                              -- lwarx %0,%y2
      cmpw 0 3,                               -- cmpw %0, %3
      bne 8 1 true 16,                        -- bne- 1f +16
      stwcx 4 2,                              -- stwcx. %4,%y2
      bne 1 0 false (-16),                    -- bne- 0b -16
      li 1 1,                                 -- li %1, 1
      .label 1]                               -- 1:
    opnds := [(0, .outEarly), (1, .outEarly), (2, .input), (3, .input), (4, .input)]
    addr := [2]
    results := [0, 1] }
  args a x := (x 3).setWidth 32 = a.1 ∧ (x 4).setWidth 32 = a.2
  ret _ r := bool8 (r 1) (.cas · ((r 0).setWidth 32))

/-- `fetch_add`, core_arch_ops_gcc_ppc.hpp 226–245 (assembly block 231–241).  Operands, in this
order: %0 "=&b" (original); %1 "=&b" (result); %2 "+Z" (storage); %3 "b" (v). -/
def fetchAdd (R : Nat) : Fn R 32 (BitVec 32) (Integral.Ret 32) where
  block := {
    prog := [
      .label 1,                               -- 1:
      lwarx 0 2,                              -- lwarx %0,%y2
      add 1 0 3,                              -- add %1,%0,%3
      stwcx 1 2,                              -- stwcx. %1,%y2
      bne 0 1 false (-12)]                    -- bne- 1b -12
    opnds := [(0, .outEarly), (1, .outEarly), (2, .input), (3, .input)]
    addr := [2]
    results := [0] }
  args a x := (x 3).setWidth 32 = a
  ret _ r := .val ((r 0).setWidth 32)

/-- `fetch_sub`, core_arch_ops_gcc_ppc.hpp 247–266 (assembly block 252–262).  Operands, in this
order: %0 "=&b" (original); %1 "=&b" (result); %2 "+Z" (storage); %3 "b" (v). -/
def fetchSub (R : Nat) : Fn R 32 (BitVec 32) (Integral.Ret 32) where
  block := {
    prog := [
      .label 1,                               -- 1:
      lwarx 0 2,                              -- lwarx %0,%y2
      sub 1 0 3,                              -- sub %1,%0,%3
      stwcx 1 2,                              -- stwcx. %1,%y2
      bne 0 1 false (-12)]                    -- bne- 1b -12
    opnds := [(0, .outEarly), (1, .outEarly), (2, .input), (3, .input)]
    addr := [2]
    results := [0] }
  args a x := (x 3).setWidth 32 = a
  ret _ r := .val ((r 0).setWidth 32)

/-- `fetch_and`, core_arch_ops_gcc_ppc.hpp 268–287 (assembly block 273–283).  Operands, in this
order: %0 "=&b" (original); %1 "=&b" (result); %2 "+Z" (storage); %3 "b" (v). -/
def fetchAnd (R : Nat) : Fn R 32 (BitVec 32) (Integral.Ret 32) where
  block := {
    prog := [
      .label 1,                               -- 1:
      lwarx 0 2,                              -- lwarx %0,%y2
      and 1 0 3,                              -- and %1,%0,%3
      stwcx 1 2,                              -- stwcx. %1,%y2
      bne 0 1 false (-12)]                    -- bne- 1b -12
    opnds := [(0, .outEarly), (1, .outEarly), (2, .input), (3, .input)]
    addr := [2]
    results := [0] }
  args a x := (x 3).setWidth 32 = a
  ret _ r := .val ((r 0).setWidth 32)

/-- `fetch_or`, core_arch_ops_gcc_ppc.hpp 289–308 (assembly block 294–304).  Operands, in this
order: %0 "=&b" (original); %1 "=&b" (result); %2 "+Z" (storage); %3 "b" (v). -/
def fetchOr (R : Nat) : Fn R 32 (BitVec 32) (Integral.Ret 32) where
  block := {
    prog := [
      .label 1,                               -- 1:
      lwarx 0 2,                              -- lwarx %0,%y2
      or 1 0 3,                               -- or %1,%0,%3
      stwcx 1 2,                              -- stwcx. %1,%y2
      bne 0 1 false (-12)]                    -- bne- 1b -12
    opnds := [(0, .outEarly), (1, .outEarly), (2, .input), (3, .input)]
    addr := [2]
    results := [0] }
  args a x := (x 3).setWidth 32 = a
  ret _ r := .val ((r 0).setWidth 32)

/-- `fetch_xor`, core_arch_ops_gcc_ppc.hpp 310–329 (assembly block 315–325).  Operands, in this
order: %0 "=&b" (original); %1 "=&b" (result); %2 "+Z" (storage); %3 "b" (v). -/
def fetchXor (R : Nat) : Fn R 32 (BitVec 32) (Integral.Ret 32) where
  block := {
    prog := [
      .label 1,                               -- 1:
      lwarx 0 2,                              -- lwarx %0,%y2
      xor 1 0 3,                              -- xor %1,%0,%3
      stwcx 1 2,                              -- stwcx. %1,%y2
      bne 0 1 false (-12)]                    -- bne- 1b -12
    opnds := [(0, .outEarly), (1, .outEarly), (2, .input), (3, .input)]
    addr := [2]
    results := [0] }
  args a x := (x 3).setWidth 32 = a
  ret _ r := .val ((r 0).setWidth 32)

/-- `fetch_negate`, extra_ops_gcc_ppc.hpp 507–526 (assembly block 512–522).  Operands, in this
order: %0 "=&b" (original); %1 "=&b" (result); %2 "+Z" (storage). -/
def fetchNegate (R : Nat) : Fn R 32 (Unit) (Integral.Ret 32) where
  block := {
    prog := [
      .label 1,                               -- 1:
      lwarx 0 2,                              -- lwarx %0,%y2
      neg 1 0,                                -- neg %1,%0
      stwcx 1 2,                              -- stwcx. %1,%y2
      bne 0 1 false (-12)]                    -- bne- 1b -12
    opnds := [(0, .outEarly), (1, .outEarly), (2, .input)]
    addr := [2]
    results := [0] }
  args _ _ := True
  ret _ r := .val ((r 0).setWidth 32)

/-- `negate`, extra_ops_gcc_ppc.hpp 528–547 (assembly block 533–543).  Operands, in this order: %0
"=&b" (original); %1 "=&b" (result); %2 "+Z" (storage). -/
def negate (R : Nat) : Fn R 32 (Unit) (Integral.Ret 32) where
  block := {
    prog := [
      .label 1,                               -- 1:
      lwarx 0 2,                              -- lwarx %0,%y2
      neg 1 0,                                -- neg %1,%0
      stwcx 1 2,                              -- stwcx. %1,%y2
      bne 0 1 false (-12)]                    -- bne- 1b -12
    opnds := [(0, .outEarly), (1, .outEarly), (2, .input)]
    addr := [2]
    results := [1] }
  args _ _ := True
  ret _ r := .val ((r 1).setWidth 32)

/-- `add`, extra_ops_gcc_ppc.hpp 549–568 (assembly block 554–564).  Operands, in this order: %0
"=&b" (original); %1 "=&b" (result); %2 "+Z" (storage); %3 "b" (v). -/
def add_ (R : Nat) : Fn R 32 (BitVec 32) (Integral.Ret 32) where
  block := {
    prog := [
      .label 1,                               -- 1:
      lwarx 0 2,                              -- lwarx %0,%y2
      add 1 0 3,                              -- add %1,%0,%3
      stwcx 1 2,                              -- stwcx. %1,%y2
      bne 0 1 false (-12)]                    -- bne- 1b -12
    opnds := [(0, .outEarly), (1, .outEarly), (2, .input), (3, .input)]
    addr := [2]
    results := [1] }
  args a x := (x 3).setWidth 32 = a
  ret _ r := .val ((r 1).setWidth 32)

/-- `sub`, extra_ops_gcc_ppc.hpp 570–589 (assembly block 575–585).  Operands, in this order: %0
"=&b" (original); %1 "=&b" (result); %2 "+Z" (storage); %3 "b" (v). -/
def sub_ (R : Nat) : Fn R 32 (BitVec 32) (Integral.Ret 32) where
  block := {
    prog := [
      .label 1,                               -- 1:
      lwarx 0 2,                              -- lwarx %0,%y2
      sub 1 0 3,                              -- sub %1,%0,%3
      stwcx 1 2,                              -- stwcx. %1,%y2
      bne 0 1 false (-12)]                    -- bne- 1b -12
    opnds := [(0, .outEarly), (1, .outEarly), (2, .input), (3, .input)]
    addr := [2]
    results := [1] }
  args a x := (x 3).setWidth 32 = a
  ret _ r := .val ((r 1).setWidth 32)

/-- `bitwise_and`, extra_ops_gcc_ppc.hpp 591–610 (assembly block 596–606).  Operands, in this order:
%0 "=&b" (original); %1 "=&b" (result); %2 "+Z" (storage); %3 "b" (v). -/
def bitwiseAnd (R : Nat) : Fn R 32 (BitVec 32) (Integral.Ret 32) where
  block := {
    prog := [
      .label 1,                               -- 1:
      lwarx 0 2,                              -- lwarx %0,%y2
      and 1 0 3,                              -- and %1,%0,%3
      stwcx 1 2,                              -- stwcx. %1,%y2
      bne 0 1 false (-12)]                    -- bne- 1b -12
    opnds := [(0, .outEarly), (1, .outEarly), (2, .input), (3, .input)]
    addr := [2]
    results := [1] }
  args a x := (x 3).setWidth 32 = a
  ret _ r := .val ((r 1).setWidth 32)

/-- `bitwise_or`, extra_ops_gcc_ppc.hpp 612–631 (assembly block 617–627).  Operands, in this order:
%0 "=&b" (original); %1 "=&b" (result); %2 "+Z" (storage); %3 "b" (v). -/
def bitwiseOr (R : Nat) : Fn R 32 (BitVec 32) (Integral.Ret 32) where
  block := {
    prog := [
      .label 1,                               -- 1:
      lwarx 0 2,                              -- lwarx %0,%y2
      or 1 0 3,                               -- or %1,%0,%3
      stwcx 1 2,                              -- stwcx. %1,%y2
      bne 0 1 false (-12)]                    -- bne- 1b -12
    opnds := [(0, .outEarly), (1, .outEarly), (2, .input), (3, .input)]
    addr := [2]
    results := [1] }
  args a x := (x 3).setWidth 32 = a
  ret _ r := .val ((r 1).setWidth 32)

/-- `bitwise_xor`, extra_ops_gcc_ppc.hpp 633–652 (assembly block 638–648).  Operands, in this order:
%0 "=&b" (original); %1 "=&b" (result); %2 "+Z" (storage); %3 "b" (v). -/
def bitwiseXor (R : Nat) : Fn R 32 (BitVec 32) (Integral.Ret 32) where
  block := {
    prog := [
      .label 1,                               -- 1:
      lwarx 0 2,                              -- lwarx %0,%y2
      xor 1 0 3,                              -- xor %1,%0,%3
      stwcx 1 2,                              -- stwcx. %1,%y2
      bne 0 1 false (-12)]                    -- bne- 1b -12
    opnds := [(0, .outEarly), (1, .outEarly), (2, .input), (3, .input)]
    addr := [2]
    results := [1] }
  args a x := (x 3).setWidth 32 = a
  ret _ r := .val ((r 1).setWidth 32)

/-- `fetch_complement`, extra_ops_gcc_ppc.hpp 654–673 (assembly block 659–669).  Operands, in this
order: %0 "=&b" (original); %1 "=&b" (result); %2 "+Z" (storage). -/
def fetchComplement (R : Nat) : Fn R 32 (Unit) (Integral.Ret 32) where
  block := {
    prog := [
      .label 1,                               -- 1:
      lwarx 0 2,                              -- lwarx %0,%y2
      nor 1 0 0,                              -- nor %1,%0,%0
      stwcx 1 2,                              -- stwcx. %1,%y2
      bne 0 1 false (-12)]                    -- bne- 1b -12
    opnds := [(0, .outEarly), (1, .outEarly), (2, .input)]
    addr := [2]
    results := [0] }
  args _ _ := True
  ret _ r := .val ((r 0).setWidth 32)

/-- `bitwise_complement`, extra_ops_gcc_ppc.hpp 675–694 (assembly block 680–690).  Operands, in this
order: %0 "=&b" (original); %1 "=&b" (result); %2 "+Z" (storage). -/
def bitwiseComplement (R : Nat) : Fn R 32 (Unit) (Integral.Ret 32) where
  block := {
    prog := [
      .label 1,                               -- 1:
      lwarx 0 2,                              -- lwarx %0,%y2
      nor 1 0 0,                              -- nor %1,%0,%0
      stwcx 1 2,                              -- stwcx. %1,%y2
      bne 0 1 false (-12)]                    -- bne- 1b -12
    opnds := [(0, .outEarly), (1, .outEarly), (2, .input)]
    addr := [2]
    results := [1] }
  args _ _ := True
  ret _ r := .val ((r 1).setWidth 32)

end Ppc4

namespace Ppc8
open Ppc

/-- `store`, core_arch_ops_gcc_ppc.hpp 1091–1101 (assembly block 1095–1100).  Operands, in this
order: %0 "+m" (storage); %1 "r" (v). -/
def store_ : Fn 64 64 (BitVec 64) (Integral.Ret 64) where
  block := {
    prog := [
      std 1 0]                                -- std %1, %0
    opnds := [(0, .input), (1, .input)]
    addr := [0]
    results := [] }
  args a x := (x 1).setWidth 64 = a
  ret _ _ := .unit

/-- `load`, core_arch_ops_gcc_ppc.hpp 1103–1133 (assembly block 1110–1120).  Operands, in this
order: %0 "=&b" (v); %1 "m" (storage). -/
def load_1 : Fn 64 64 (Unit) (Integral.Ret 64) where
  block := {
    prog := [
      ldd 0 1,                                -- ld %0, %1
      cmpd 0 0,                               -- cmpd %0, %0
      bne 3 1 true 4,                         -- bne- 1f +4
      .label 1,                               -- 1:
      isync]                                  -- isync
    opnds := [(0, .outEarly), (1, .input)]
    addr := [1]
    results := [0] }
  args _ _ := True
  ret _ r := .val ((r 0).setWidth 64)

/-- `load`, core_arch_ops_gcc_ppc.hpp 1103–1133 (assembly block 1124–1129).  Operands, in this
order: %0 "=&b" (v); %1 "m" (storage). -/
def load_2 : Fn 64 64 (Unit) (Integral.Ret 64) where
  block := {
    prog := [
      ldd 0 1]                                -- ld %0, %1
    opnds := [(0, .outEarly), (1, .input)]
    addr := [1]
    results := [0] }
  args _ _ := True
  ret _ r := .val ((r 0).setWidth 64)

/-- `exchange`, core_arch_ops_gcc_ppc.hpp 1135–1153 (assembly block 1140–1149).  Operands, in this
order: %0 "=&b" (original); %1 "+Z" (storage); %2 "b" (v). -/
def exchange : Fn 64 64 (BitVec 64) (Integral.Ret 64) where
  block := {
    prog := [
      .label 1,                               -- 1:
      ldarx 0 1,                              -- ldarx %0,%y1
      stdcx 2 1,                              -- stdcx. %2,%y1
      bne 0 1 false (-8)]                     -- bne- 1b -8
    opnds := [(0, .outEarly), (1, .input), (2, .input)]
    addr := [1]
    results := [0] }
  args a x := (x 2).setWidth 64 = a
  ret _ r := .val ((r 0).setWidth 64)

/-- `compare_exchange_weak`, core_arch_ops_gcc_ppc.hpp 1155–1186 (assembly block 1161–1174). 
Operands, in this order: %0 "=&b" (expected); %1 "=&b" (success); %2 "+Z" (storage); %3 "b"
(expected); %4 "b" (desired). -/
def compareExchangeWeak : Fn 64 64 (BitVec 64 × BitVec 64) (Integral.Ret 64) where
  block := {
    prog := [
      li 1 0,                                 -- li %1, 0
      ldarx 0 2,                              -- ldarx %0,%y2
      cmpd 0 3,                               -- cmpd %0, %3
      bne 7 1 true 16,                        -- bne- 1f +16
      stdcx 4 2,                              -- stdcx. %4,%y2
      bne 7 1 true 8,                         -- bne- 1f +8
      li 1 1,                                 -- li %1, 1
      .label 1]                               -- 1:
    opnds := [(0, .outEarly), (1, .outEarly), (2, .input), (3, .input), (4, .input)]
    addr := [2]
    results := [0, 1] }
  args a x := (x 3).setWidth 64 = a.1 ∧ (x 4).setWidth 64 = a.2
  ret _ r := bool8 (r 1) (.cas · ((r 0).setWidth 64))

/-- `compare_exchange_strong`, core_arch_ops_gcc_ppc.hpp 1188–1220 (assembly block 1194–1208). 
Operands, in this order: %0 "=&b" (expected); %1 "=&b" (success); %2 "+Z" (storage); %3 "b"
(expected); %4 "b" (desired). -/
def compareExchangeStrong : Fn 64 64 (BitVec 64 × BitVec 64) (Integral.Ret 64) where
  block := {
    prog := [
      li 1 0,                                 -- li %1, 0
      .label 0,                               -- 0:
      ldarx 0 2,                              -- ldarx %0,%y2
      cmpd 0 3,                               -- cmpd %0, %3
      bne 8 1 true 16,                        -- bne- 1f +16
      stdcx 4 2,                              -- stdcx. %4,%y2
      bne 1 0 false (-16),                    -- bne- 0b -16
      li 1 1,                                 -- li %1, 1
      .label 1]                               -- 1:
    opnds := [(0, .outEarly), (1, .outEarly), (2, .input), (3, .input), (4, .input)]
    addr := [2]
    results := [0, 1] }
  args a x := (x 3).setWidth 64 = a.1 ∧ (x 4).setWidth 64 = a.2
  ret _ r := bool8 (r 1) (.cas · ((r 0).setWidth 64))

/-- `fetch_add`, core_arch_ops_gcc_ppc.hpp 1222–1241 (assembly block 1227–1237).  Operands, in this
order: %0 "=&b" (original); %1 "=&b" (result); %2 "+Z" (storage); %3 "b" (v). -/
def fetchAdd : Fn 64 64 (BitVec 64) (Integral.Ret 64) where
  block := {
    prog := [
      .label 1,                               -- 1:
      ldarx 0 2,                              -- ldarx %0,%y2
      add 1 0 3,                              -- add %1,%0,%3
      stdcx 1 2,                              -- stdcx. %1,%y2
      bne 0 1 false (-12)]                    -- bne- 1b -12
    opnds := [(0, .outEarly), (1, .outEarly), (2, .input), (3, .input)]
    addr := [2]
    results := [0] }
  args a x := (x 3).setWidth 64 = a
  ret _ r := .val ((r 0).setWidth 64)

/-- `fetch_sub`, core_arch_ops_gcc_ppc.hpp 1243–1262 (assembly block 1248–1258).  Operands, in this
order: %0 "=&b" (original); %1 "=&b" (result); %2 "+Z" (storage); %3 "b" (v). -/
def fetchSub : Fn 64 64 (BitVec 64) (Integral.Ret 64) where
  block := {
    prog := [
      .label 1,                               -- 1:
      ldarx 0 2,                              -- ldarx %0,%y2
      sub 1 0 3,                              -- sub %1,%0,%3
      stdcx 1 2,                              -- stdcx. %1,%y2
      bne 0 1 false (-12)]                    -- bne- 1b -12
    opnds := [(0, .outEarly), (1, .outEarly), (2, .input), (3, .input)]
    addr := [2]
    results := [0] }
  args a x := (x 3).setWidth 64 = a
  ret _ r := .val ((r 0).setWidth 64)

/-- `fetch_and`, core_arch_ops_gcc_ppc.hpp 1264–1283 (assembly block 1269–1279).  Operands, in this
order: %0 "=&b" (original); %1 "=&b" (result); %2 "+Z" (storage); %3 "b" (v). -/
def fetchAnd : Fn 64 64 (BitVec 64) (Integral.Ret 64) where
  block := {
    prog := [
      .label 1,                               -- 1:
      ldarx 0 2,                              -- ldarx %0,%y2
      and 1 0 3,                              -- and %1,%0,%3
      stdcx 1 2,                              -- stdcx. %1,%y2
      bne 0 1 false (-12)]                    -- bne- 1b -12
    opnds := [(0, .outEarly), (1, .outEarly), (2, .input), (3, .input)]
    addr := [2]
    results := [0] }
  args a x := (x 3).setWidth 64 = a
  ret _ r := .val ((r 0).setWidth 64)

/-- `fetch_or`, core_arch_ops_gcc_ppc.hpp 1285–1304 (assembly block 1290–1300).  Operands, in this
order: %0 "=&b" (original); %1 "=&b" (result); %2 "+Z" (storage); %3 "b" (v). -/
def fetchOr : Fn 64 64 (BitVec 64) (Integral.Ret 64) where
  block := {
    prog := [
      .label 1,                               -- 1:
      ldarx 0 2,                              -- ldarx %0,%y2
      or 1 0 3,                               -- or %1,%0,%3
      stdcx 1 2,                              -- stdcx. %1,%y2
      bne 0 1 false (-12)]                    -- bne- 1b -12
    opnds := [(0, .outEarly), (1, .outEarly), (2, .input), (3, .input)]
    addr := [2]
    results := [0] }
  args a x := (x 3).setWidth 64 = a
  ret _ r := .val ((r 0).setWidth 64)

/-- `fetch_xor`, core_arch_ops_gcc_ppc.hpp 1306–1325 (assembly block 1311–1321).  Operands, in this
order: %0 "=&b" (original); %1 "=&b" (result); %2 "+Z" (storage); %3 "b" (v). -/
def fetchXor : Fn 64 64 (BitVec 64) (Integral.Ret 64) where
  block := {
    prog := [
      .label 1,                               -- 1:
      ldarx 0 2,                              -- ldarx %0,%y2
      xor 1 0 3,                              -- xor %1,%0,%3
      stdcx 1 2,                              -- stdcx. %1,%y2
      bne 0 1 false (-12)]                    -- bne- 1b -12
    opnds := [(0, .outEarly), (1, .outEarly), (2, .input), (3, .input)]
    addr := [2]
    results := [0] }
  args a x := (x 3).setWidth 64 = a
  ret _ r := .val ((r 0).setWidth 64)

/-- `fetch_negate`, extra_ops_gcc_ppc.hpp 712–731 (assembly block 717–727).  Operands, in this
order: %0 "=&b" (original); %1 "=&b" (result); %2 "+Z" (storage). -/
def fetchNegate : Fn 64 64 (Unit) (Integral.Ret 64) where
  block := {
    prog := [
      .label 1,                               -- 1:
      ldarx 0 2,                              -- ldarx %0,%y2
      neg 1 0,                                -- neg %1,%0
      stdcx 1 2,                              -- stdcx. %1,%y2
      bne 0 1 false (-12)]                    -- bne- 1b -12
    opnds := [(0, .outEarly), (1, .outEarly), (2, .input)]
    addr := [2]
    results := [0] }
  args _ _ := True
  ret _ r := .val ((r 0).setWidth 64)

/-- `negate`, extra_ops_gcc_ppc.hpp 733–752 (assembly block 738–748).  Operands, in this order: %0
"=&b" (original); %1 "=&b" (result); %2 "+Z" (storage). -/
def negate : Fn 64 64 (Unit) (Integral.Ret 64) where
  block := {
    prog := [
      .label 1,                               -- 1:
      ldarx 0 2,                              -- ldarx %0,%y2
      neg 1 0,                                -- neg %1,%0
      stdcx 1 2,                              -- stdcx. %1,%y2
      bne 0 1 false (-12)]                    -- bne- 1b -12
    opnds := [(0, .outEarly), (1, .outEarly), (2, .input)]
    addr := [2]
    results := [1] }
  args _ _ := True
  ret _ r := .val ((r 1).setWidth 64)

/-- `add`, extra_ops_gcc_ppc.hpp 754–773 (assembly block 759–769).  Operands, in this order: %0
"=&b" (original); %1 "=&b" (result); %2 "+Z" (storage); %3 "b" (v). -/
def add_ : Fn 64 64 (BitVec 64) (Integral.Ret 64) where
  block := {
    prog := [
      .label 1,                               -- 1:
      ldarx 0 2,                              -- ldarx %0,%y2
      add 1 0 3,                              -- add %1,%0,%3
      stdcx 1 2,                              -- stdcx. %1,%y2
      bne 0 1 false (-12)]                    -- bne- 1b -12
    opnds := [(0, .outEarly), (1, .outEarly), (2, .input), (3, .input)]
    addr := [2]
    results := [1] }
  args a x := (x 3).setWidth 64 = a
  ret _ r := .val ((r 1).setWidth 64)

/-- `sub`, extra_ops_gcc_ppc.hpp 775–794 (assembly block 780–790).  Operands, in this order: %0
"=&b" (original); %1 "=&b" (result); %2 "+Z" (storage); %3 "b" (v). -/
def sub_ : Fn 64 64 (BitVec 64) (Integral.Ret 64) where
  block := {
    prog := [
      .label 1,                               -- 1:
      ldarx 0 2,                              -- ldarx %0,%y2
      sub 1 0 3,                              -- sub %1,%0,%3
      stdcx 1 2,                              -- stdcx. %1,%y2
      bne 0 1 false (-12)]                    -- bne- 1b -12
    opnds := [(0, .outEarly), (1, .outEarly), (2, .input), (3, .input)]
    addr := [2]
    results := [1] }
  args a x := (x 3).setWidth 64 = a
  ret _ r := .val ((r 1).setWidth 64)

/-- `bitwise_and`, extra_ops_gcc_ppc.hpp 796–815 (assembly block 801–811).  Operands, in this order:
%0 "=&b" (original); %1 "=&b" (result); %2 "+Z" (storage); %3 "b" (v). -/
def bitwiseAnd : Fn 64 64 (BitVec 64) (Integral.Ret 64) where
  block := {
    prog := [
      .label 1,                               -- 1:
      ldarx 0 2,                              -- ldarx %0,%y2
      and 1 0 3,                              -- and %1,%0,%3
      stdcx 1 2,                              -- stdcx. %1,%y2
      bne 0 1 false (-12)]                    -- bne- 1b -12
    opnds := [(0, .outEarly), (1, .outEarly), (2, .input), (3, .input)]
    addr := [2]
    results := [1] }
  args a x := (x 3).setWidth 64 = a
  ret _ r := .val ((r 1).setWidth 64)

/-- `bitwise_or`, extra_ops_gcc_ppc.hpp 817–836 (assembly block 822–832).  Operands, in this order:
%0 "=&b" (original); %1 "=&b" (result); %2 "+Z" (storage); %3 "b" (v). -/
def bitwiseOr : Fn 64 64 (BitVec 64) (Integral.Ret 64) where
  block := {
    prog := [
      .label 1,                               -- 1:
      ldarx 0 2,                              -- ldarx %0,%y2
      or 1 0 3,                               -- or %1,%0,%3
      stdcx 1 2,                              -- stdcx. %1,%y2
      bne 0 1 false (-12)]                    -- bne- 1b -12
    opnds := [(0, .outEarly), (1, .outEarly), (2, .input), (3, .input)]
    addr := [2]
    results := [1] }
  args a x := (x 3).setWidth 64 = a
  ret _ r := .val ((r 1).setWidth 64)

/-- `bitwise_xor`, extra_ops_gcc_ppc.hpp 838–857 (assembly block 843–853).  Operands, in this order:
%0 "=&b" (original); %1 "=&b" (result); %2 "+Z" (storage); %3 "b" (v). -/
def bitwiseXor : Fn 64 64 (BitVec 64) (Integral.Ret 64) where
  block := {
    prog := [
      .label 1,                               -- 1:
      ldarx 0 2,                              -- ldarx %0,%y2
      xor 1 0 3,                              -- xor %1,%0,%3
      stdcx 1 2,                              -- stdcx. %1,%y2
      bne 0 1 false (-12)]                    -- bne- 1b -12
    opnds := [(0, .outEarly), (1, .outEarly), (2, .input), (3, .input)]
    addr := [2]
    results := [1] }
  args a x := (x 3).setWidth 64 = a
  ret _ r := .val ((r 1).setWidth 64)

/-- `fetch_complement`, extra_ops_gcc_ppc.hpp 859–878 (assembly block 864–874).  Operands, in this
order: %0 "=&b" (original); %1 "=&b" (result); %2 "+Z" (storage). -/
def fetchComplement : Fn 64 64 (Unit) (Integral.Ret 64) where
  block := {
    prog := [
      .label 1,                               -- 1:
      ldarx 0 2,                              -- ldarx %0,%y2
      nor 1 0 0,                              -- nor %1,%0,%0
      stdcx 1 2,                              -- stdcx. %1,%y2
      bne 0 1 false (-12)]                    -- bne- 1b -12
    opnds := [(0, .outEarly), (1, .outEarly), (2, .input)]
    addr := [2]
    results := [0] }
  args _ _ := True
  ret _ r := .val ((r 0).setWidth 64)

/-- `bitwise_complement`, extra_ops_gcc_ppc.hpp 880–899 (assembly block 885–895).  Operands, in this
order: %0 "=&b" (original); %1 "=&b" (result); %2 "+Z" (storage). -/
def bitwiseComplement : Fn 64 64 (Unit) (Integral.Ret 64) where
  block := {
    prog := [
      .label 1,                               -- 1:
      ldarx 0 2,                              -- ldarx %0,%y2
      nor 1 0 0,                              -- nor %1,%0,%0
      stdcx 1 2,                              -- stdcx. %1,%y2
      bne 0 1 false (-12)]                    -- bne- 1b -12
    opnds := [(0, .outEarly), (1, .outEarly), (2, .input)]
    addr := [2]
    results := [1] }
  args _ _ := True
  ret _ r := .val ((r 1).setWidth 64)

end Ppc8

namespace PpcWord
open Ppc

/-- `fetch_add`, core_arch_ops_gcc_ppc.hpp 611–631 (assembly block 616–627).  Operands, in this
order: %0 "=&b" (original); %1 "=&b" (result); %2 "+Z" (storage); %3 "b" (v). -/
def fetchAdd1u (R : Nat) : Fn R 32 (BitVec 8) (Integral.Ret 32) where
  block := {
    prog := [
      .label 1,                               -- 1:
      lwarx 0 2,                              -- lwarx %0,%y2
      add 1 0 3,                              -- add %1,%0,%3
      rlwinm0 1 1 0xff,                       -- rlwinm %1, %1, 0, 0xff
      stwcx 1 2,                              -- stwcx. %1,%y2
      bne 0 1 false (-16)]                    -- bne- 1b -16
    opnds := [(0, .outEarly), (1, .outEarly), (2, .input), (3, .input)]
    addr := [2]
    results := [0] }
  args a x := (x 3).setWidth 32 = (BitVec.setWidth 32) a
  ret _ r := .val ((r 0).setWidth 32)

/-- `fetch_sub`, core_arch_ops_gcc_ppc.hpp 633–653 (assembly block 638–649).  Operands, in this
order: %0 "=&b" (original); %1 "=&b" (result); %2 "+Z" (storage); %3 "b" (v). -/
def fetchSub1u (R : Nat) : Fn R 32 (BitVec 8) (Integral.Ret 32) where
  block := {
    prog := [
      .label 1,                               -- 1:
      lwarx 0 2,                              -- lwarx %0,%y2
      sub 1 0 3,                              -- sub %1,%0,%3
      rlwinm0 1 1 0xff,                       -- rlwinm %1, %1, 0, 0xff
      stwcx 1 2,                              -- stwcx. %1,%y2
      bne 0 1 false (-16)]                    -- bne- 1b -16
    opnds := [(0, .outEarly), (1, .outEarly), (2, .input), (3, .input)]
    addr := [2]
    results := [0] }
  args a x := (x 3).setWidth 32 = (BitVec.setWidth 32) a
  ret _ r := .val ((r 0).setWidth 32)

/-- `fetch_add`, core_arch_ops_gcc_ppc.hpp 663–683 (assembly block 668–679).  Operands, in this
order: %0 "=&b" (original); %1 "=&b" (result); %2 "+Z" (storage); %3 "b" (v). -/
def fetchAdd1s (R : Nat) : Fn R 32 (BitVec 8) (Integral.Ret 32) where
  block := {
    prog := [
      .label 1,                               -- 1:
      lwarx 0 2,                              -- lwarx %0,%y2
      add 1 0 3,                              -- add %1,%0,%3
      extsb 1 1,                              -- extsb %1, %1
      stwcx 1 2,                              -- stwcx. %1,%y2
      bne 0 1 false (-16)]                    -- bne- 1b -16
    opnds := [(0, .outEarly), (1, .outEarly), (2, .input), (3, .input)]
    addr := [2]
    results := [0] }
  args a x := (x 3).setWidth 32 = (BitVec.signExtend 32) a
  ret _ r := .val ((r 0).setWidth 32)

/-- `fetch_sub`, core_arch_ops_gcc_ppc.hpp 685–705 (assembly block 690–701).  Operands, in this
order: %0 "=&b" (original); %1 "=&b" (result); %2 "+Z" (storage); %3 "b" (v). -/
def fetchSub1s (R : Nat) : Fn R 32 (BitVec 8) (Integral.Ret 32) where
  block := {
    prog := [
      .label 1,                               -- 1:
      lwarx 0 2,                              -- lwarx %0,%y2
      sub 1 0 3,                              -- sub %1,%0,%3
      extsb 1 1,                              -- extsb %1, %1
      stwcx 1 2,                              -- stwcx. %1,%y2
      bne 0 1 false (-16)]                    -- bne- 1b -16
    opnds := [(0, .outEarly), (1, .outEarly), (2, .input), (3, .input)]
    addr := [2]
    results := [0] }
  args a x := (x 3).setWidth 32 = (BitVec.signExtend 32) a
  ret _ r := .val ((r 0).setWidth 32)

/-- `fetch_add`, core_arch_ops_gcc_ppc.hpp 979–999 (assembly block 984–995).  Operands, in this
order: %0 "=&b" (original); %1 "=&b" (result); %2 "+Z" (storage); %3 "b" (v). -/
def fetchAdd2u (R : Nat) : Fn R 32 (BitVec 16) (Integral.Ret 32) where
  block := {
    prog := [
      .label 1,                               -- 1:
      lwarx 0 2,                              -- lwarx %0,%y2
      add 1 0 3,                              -- add %1,%0,%3
      rlwinm0 1 1 0xffff,                     -- rlwinm %1, %1, 0, 0xffff
      stwcx 1 2,                              -- stwcx. %1,%y2
      bne 0 1 false (-16)]                    -- bne- 1b -16
    opnds := [(0, .outEarly), (1, .outEarly), (2, .input), (3, .input)]
    addr := [2]
    results := [0] }
  args a x := (x 3).setWidth 32 = (BitVec.setWidth 32) a
  ret _ r := .val ((r 0).setWidth 32)

/-- `fetch_sub`, core_arch_ops_gcc_ppc.hpp 1001–1021 (assembly block 1006–1017).  Operands, in this
order: %0 "=&b" (original); %1 "=&b" (result); %2 "+Z" (storage); %3 "b" (v). -/
def fetchSub2u (R : Nat) : Fn R 32 (BitVec 16) (Integral.Ret 32) where
  block := {
    prog := [
      .label 1,                               -- 1:
      lwarx 0 2,                              -- lwarx %0,%y2
      sub 1 0 3,                              -- sub %1,%0,%3
      rlwinm0 1 1 0xffff,                     -- rlwinm %1, %1, 0, 0xffff
      stwcx 1 2,                              -- stwcx. %1,%y2
      bne 0 1 false (-16)]                    -- bne- 1b -16
    opnds := [(0, .outEarly), (1, .outEarly), (2, .input), (3, .input)]
    addr := [2]
    results := [0] }
  args a x := (x 3).setWidth 32 = (BitVec.setWidth 32) a
  ret _ r := .val ((r 0).setWidth 32)

/-- `fetch_add`, core_arch_ops_gcc_ppc.hpp 1031–1051 (assembly block 1036–1047).  Operands, in this
order: %0 "=&b" (original); %1 "=&b" (result); %2 "+Z" (storage); %3 "b" (v). -/
def fetchAdd2s (R : Nat) : Fn R 32 (BitVec 16) (Integral.Ret 32) where
  block := {
    prog := [
      .label 1,                               -- 1:
      lwarx 0 2,                              -- lwarx %0,%y2
      add 1 0 3,                              -- add %1,%0,%3
      extsh 1 1,                              -- extsh %1, %1
      stwcx 1 2,                              -- stwcx. %1,%y2
      bne 0 1 false (-16)]                    -- bne- 1b -16
    opnds := [(0, .outEarly), (1, .outEarly), (2, .input), (3, .input)]
    addr := [2]
    results := [0] }
  args a x := (x 3).setWidth 32 = (BitVec.signExtend 32) a
  ret _ r := .val ((r 0).setWidth 32)

/-- `fetch_sub`, core_arch_ops_gcc_ppc.hpp 1053–1073 (assembly block 1058–1069).  Operands, in this
order: %0 "=&b" (original); %1 "=&b" (result); %2 "+Z" (storage); %3 "b" (v). -/
def fetchSub2s (R : Nat) : Fn R 32 (BitVec 16) (Integral.Ret 32) where
  block := {
    prog := [
      .label 1,                               -- 1:
      lwarx 0 2,                              -- lwarx %0,%y2
      sub 1 0 3,                              -- sub %1,%0,%3
      extsh 1 1,                              -- extsh %1, %1
      stwcx 1 2,                              -- stwcx. %1,%y2
      bne 0 1 false (-16)]                    -- bne- 1b -16
    opnds := [(0, .outEarly), (1, .outEarly), (2, .input), (3, .input)]
    addr := [2]
    results := [0] }
  args a x := (x 3).setWidth 32 = (BitVec.signExtend 32) a
  ret _ r := .val ((r 0).setWidth 32)

end PpcWord

end Verif.Asm
