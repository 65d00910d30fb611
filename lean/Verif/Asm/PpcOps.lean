import Verif.Asm.PpcCode
import Verif.Asm.Ops

/-
Atomic objects on PowerPC.
Written by tools/asmgen.py.
-/

set_option linter.unusedVariables false

namespace Verif.Asm

/-- Objects of 1 byte, core_arch_ops_gcc_ppc.hpp 346–590 and extra_ops_gcc_ppc.hpp; `load` has a
variant with acquire semantics. The operand `expected` of strong compare-and-exchange is assumed to
be zero-extended. -/
def Ppc1.prims (R : Nat) (ordered : Bool) : Prims R 8 where
  load := (if ordered then Ppc1.load_1 R else Ppc1.load_2 R).code ()
  store := fun v => (Ppc1.store_ R).code v
  exchange := fun v => (Ppc1.exchange R).code v
  casWeak := fun e d => (Ppc1.compareExchangeWeak R).code (e, d)
  casStrong := fun e d => ((Ppc1.compareExchangeStrong R).zext 3).code (e, d)
  fetchAdd := fun v => (Ppc1.fetchAdd R).code v
  fetchSub := fun v => (Ppc1.fetchSub R).code v
  fetchAnd := fun v => (Ppc1.fetchAnd R).code v
  fetchOr := fun v => (Ppc1.fetchOr R).code v
  fetchXor := fun v => (Ppc1.fetchXor R).code v
  fetchNegate := (Ppc1.fetchNegate R).code ()
  fetchComplement := (Ppc1.fetchComplement R).code ()
  add := fun v => (Ppc1.add_ R).code v
  sub := fun v => (Ppc1.sub_ R).code v
  negate := (Ppc1.negate R).code ()
  bitwiseAnd := fun v => (Ppc1.bitwiseAnd R).code v
  bitwiseOr := fun v => (Ppc1.bitwiseOr R).code v
  bitwiseXor := fun v => (Ppc1.bitwiseXor R).code v
  bitwiseComplement := (Ppc1.bitwiseComplement R).code ()

/-- Objects of 2 bytes, core_arch_ops_gcc_ppc.hpp 714–958 and extra_ops_gcc_ppc.hpp; `load` has a
variant with acquire semantics. The operand `expected` of strong compare-and-exchange is assumed to
be zero-extended. -/
def Ppc2.prims (R : Nat) (ordered : Bool) : Prims R 16 where
  load := (if ordered then Ppc2.load_1 R else Ppc2.load_2 R).code ()
  store := fun v => (Ppc2.store_ R).code v
  exchange := fun v => (Ppc2.exchange R).code v
  casWeak := fun e d => (Ppc2.compareExchangeWeak R).code (e, d)
  casStrong := fun e d => ((Ppc2.compareExchangeStrong R).zext 3).code (e, d)
  fetchAdd := fun v => (Ppc2.fetchAdd R).code v
  fetchSub := fun v => (Ppc2.fetchSub R).code v
  fetchAnd := fun v => (Ppc2.fetchAnd R).code v
  fetchOr := fun v => (Ppc2.fetchOr R).code v
  fetchXor := fun v => (Ppc2.fetchXor R).code v
  fetchNegate := (Ppc2.fetchNegate R).code ()
  fetchComplement := (Ppc2.fetchComplement R).code ()
  add := fun v => (Ppc2.add_ R).code v
  sub := fun v => (Ppc2.sub_ R).code v
  negate := (Ppc2.negate R).code ()
  bitwiseAnd := fun v => (Ppc2.bitwiseAnd R).code v
  bitwiseOr := fun v => (Ppc2.bitwiseOr R).code v
  bitwiseXor := fun v => (Ppc2.bitwiseXor R).code v
  bitwiseComplement := (Ppc2.bitwiseComplement R).code ()

/-- Objects of 4 bytes, core_arch_ops_gcc_ppc.hpp 86–330 and extra_ops_gcc_ppc.hpp; `load` has a
variant with acquire semantics. -/
def Ppc4.prims (R : Nat) (ordered : Bool) : Prims R 32 where
  load := (if ordered then Ppc4.load_1 R else Ppc4.load_2 R).code ()
  store := fun v => (Ppc4.store_ R).code v
  exchange := fun v => (Ppc4.exchange R).code v
  casWeak := fun e d => (Ppc4.compareExchangeWeak R).code (e, d)
  casStrong := fun e d => (Ppc4.compareExchangeStrong R).code (e, d)
  fetchAdd := fun v => (Ppc4.fetchAdd R).code v
  fetchSub := fun v => (Ppc4.fetchSub R).code v
  fetchAnd := fun v => (Ppc4.fetchAnd R).code v
  fetchOr := fun v => (Ppc4.fetchOr R).code v
  fetchXor := fun v => (Ppc4.fetchXor R).code v
  fetchNegate := (Ppc4.fetchNegate R).code ()
  fetchComplement := (Ppc4.fetchComplement R).code ()
  add := fun v => (Ppc4.add_ R).code v
  sub := fun v => (Ppc4.sub_ R).code v
  negate := (Ppc4.negate R).code ()
  bitwiseAnd := fun v => (Ppc4.bitwiseAnd R).code v
  bitwiseOr := fun v => (Ppc4.bitwiseOr R).code v
  bitwiseXor := fun v => (Ppc4.bitwiseXor R).code v
  bitwiseComplement := (Ppc4.bitwiseComplement R).code ()

/-- Objects of 8 bytes, core_arch_ops_gcc_ppc.hpp 1082–1327 and extra_ops_gcc_ppc.hpp; `load` has a
variant with acquire semantics. -/
def Ppc8.prims (ordered : Bool) : Prims 64 64 where
  load := (if ordered then Ppc8.load_1 else Ppc8.load_2).code ()
  store := fun v => (Ppc8.store_).code v
  exchange := fun v => (Ppc8.exchange).code v
  casWeak := fun e d => (Ppc8.compareExchangeWeak).code (e, d)
  casStrong := fun e d => (Ppc8.compareExchangeStrong).code (e, d)
  fetchAdd := fun v => (Ppc8.fetchAdd).code v
  fetchSub := fun v => (Ppc8.fetchSub).code v
  fetchAnd := fun v => (Ppc8.fetchAnd).code v
  fetchOr := fun v => (Ppc8.fetchOr).code v
  fetchXor := fun v => (Ppc8.fetchXor).code v
  fetchNegate := (Ppc8.fetchNegate).code ()
  fetchComplement := (Ppc8.fetchComplement).code ()
  add := fun v => (Ppc8.add_).code v
  sub := fun v => (Ppc8.sub_).code v
  negate := (Ppc8.negate).code ()
  bitwiseAnd := fun v => (Ppc8.bitwiseAnd).code v
  bitwiseOr := fun v => (Ppc8.bitwiseOr).code v
  bitwiseXor := fun v => (Ppc8.bitwiseXor).code v
  bitwiseComplement := (Ppc8.bitwiseComplement).code ()

end Verif.Asm
