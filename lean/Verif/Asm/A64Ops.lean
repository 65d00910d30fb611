import Verif.Asm.A64Code
import Verif.Asm.Ops

/-
Atomic objects on AArch64.
Written by tools/asmgen.py.
-/

set_option linter.unusedVariables false

namespace Verif.Asm

/-- Objects of 1 byte, core_arch_ops_gcc_aarch64.hpp 48–452 and extra_ops_gcc_aarch64.hpp, without
the extension LSE; loads without acquire and stores without release semantics are plain accesses.
The operand `expected` of compare-and-exchange, which the block changes, is declared as changed
here. -/
def A64x1.prims (ordered : Bool) : Prims 64 8 where
  load := (if ordered then A64x1.load_ else plainLoad 64 8).code ()
  store := fun v => (if ordered then A64x1.store_ else plainStore 64 8).code v
  exchange := fun v => (A64x1.exchange).code v
  casWeak := fun e d => ((A64x1.compareExchangeWeak).writes 4).code (e, d)
  casStrong := fun e d => ((A64x1.compareExchangeStrong).writes 4).code (e, d)
  fetchAdd := fun v => (A64x1.fetchAdd).code v
  fetchSub := fun v => (A64x1.fetchSub).code v
  fetchAnd := fun v => (A64x1.fetchAnd).code v
  fetchOr := fun v => (A64x1.fetchOr).code v
  fetchXor := fun v => (A64x1.fetchXor).code v
  fetchNegate := (A64x1.fetchNegate).code ()
  fetchComplement := (A64x1.fetchComplement).code ()
  add := fun v => (A64x1.add_).code v
  sub := fun v => (A64x1.sub_).code v
  negate := (A64x1.negate).code ()
  bitwiseAnd := fun v => (A64x1.bitwiseAnd).code v
  bitwiseOr := fun v => (A64x1.bitwiseOr).code v
  bitwiseXor := fun v => (A64x1.bitwiseXor).code v
  bitwiseComplement := (A64x1.bitwiseComplement).code ()

/-- Objects of 1 byte with the extensions LSE and RCPC.  `negate` and `fetch_negate` are the same as
without (extra_ops_gcc_aarch64.hpp), the other functions are those of extra_ops_generic.hpp 65–101. 
The two instructions for loads with acquire semantics (`ldapr`, `ldar`) do the same here. -/
def A64Lse1.prims (ordered : Bool) : Prims 64 8 where
  load := (if ordered then A64Lse1.load_1 else plainLoad 64 8).code ()
  store := fun v => (if ordered then A64x1.store_ else plainStore 64 8).code v
  exchange := fun v => (A64Lse1.exchange).code v
  casWeak := fun e d => (A64Lse1.compareExchangeWeak).code (e, d)
  casStrong := fun e d => (A64Lse1.compareExchangeStrong).code (e, d)
  fetchAdd := fun v => (A64Lse1.fetchAdd).code v
  fetchSub := fun v => (A64Lse1.fetchSub).code v
  fetchAnd := fun v => (A64Lse1.fetchAnd).code v
  fetchOr := fun v => (A64Lse1.fetchOr).code v
  fetchXor := fun v => (A64Lse1.fetchXor).code v
  fetchNegate := A64x1.fetchNegate.code ()
  fetchComplement := A64Lse1.fetchXor.code (BitVec.allOnes 8)
  add := fun v => (A64Lse1.fetchAdd.code v).map (newVal (· + v))
  sub := fun v => (A64Lse1.fetchSub.code v).map (newVal (· - v))
  negate := A64x1.negate.code ()
  bitwiseAnd := fun v => (A64Lse1.fetchAnd.code v).map (newVal (· &&& v))
  bitwiseOr := fun v => (A64Lse1.fetchOr.code v).map (newVal (· ||| v))
  bitwiseXor := fun v => (A64Lse1.fetchXor.code v).map (newVal (· ^^^ v))
  bitwiseComplement := (A64Lse1.fetchXor.code (BitVec.allOnes 8)).map (newVal (· ^^^ (BitVec.allOnes 8)))

/-- Objects of 2 bytes, core_arch_ops_gcc_aarch64.hpp 454–858 and extra_ops_gcc_aarch64.hpp, without
the extension LSE; loads without acquire and stores without release semantics are plain accesses.
The operand `expected` of compare-and-exchange, which the block changes, is declared as changed
here. -/
def A64x2.prims (ordered : Bool) : Prims 64 16 where
  load := (if ordered then A64x2.load_ else plainLoad 64 16).code ()
  store := fun v => (if ordered then A64x2.store_ else plainStore 64 16).code v
  exchange := fun v => (A64x2.exchange).code v
  casWeak := fun e d => ((A64x2.compareExchangeWeak).writes 4).code (e, d)
  casStrong := fun e d => ((A64x2.compareExchangeStrong).writes 4).code (e, d)
  fetchAdd := fun v => (A64x2.fetchAdd).code v
  fetchSub := fun v => (A64x2.fetchSub).code v
  fetchAnd := fun v => (A64x2.fetchAnd).code v
  fetchOr := fun v => (A64x2.fetchOr).code v
  fetchXor := fun v => (A64x2.fetchXor).code v
  fetchNegate := (A64x2.fetchNegate).code ()
  fetchComplement := (A64x2.fetchComplement).code ()
  add := fun v => (A64x2.add_).code v
  sub := fun v => (A64x2.sub_).code v
  negate := (A64x2.negate).code ()
  bitwiseAnd := fun v => (A64x2.bitwiseAnd).code v
  bitwiseOr := fun v => (A64x2.bitwiseOr).code v
  bitwiseXor := fun v => (A64x2.bitwiseXor).code v
  bitwiseComplement := (A64x2.bitwiseComplement).code ()

/-- Objects of 2 bytes with the extensions LSE and RCPC.  `negate` and `fetch_negate` are the same
as without (extra_ops_gcc_aarch64.hpp), the other functions are those of extra_ops_generic.hpp
65–101.  The two instructions for loads with acquire semantics (`ldapr`, `ldar`) do the same here.
-/
def A64Lse2.prims (ordered : Bool) : Prims 64 16 where
  load := (if ordered then A64Lse2.load_1 else plainLoad 64 16).code ()
  store := fun v => (if ordered then A64x2.store_ else plainStore 64 16).code v
  exchange := fun v => (A64Lse2.exchange).code v
  casWeak := fun e d => (A64Lse2.compareExchangeWeak).code (e, d)
  casStrong := fun e d => (A64Lse2.compareExchangeStrong).code (e, d)
  fetchAdd := fun v => (A64Lse2.fetchAdd).code v
  fetchSub := fun v => (A64Lse2.fetchSub).code v
  fetchAnd := fun v => (A64Lse2.fetchAnd).code v
  fetchOr := fun v => (A64Lse2.fetchOr).code v
  fetchXor := fun v => (A64Lse2.fetchXor).code v
  fetchNegate := A64x2.fetchNegate.code ()
  fetchComplement := A64Lse2.fetchXor.code (BitVec.allOnes 16)
  add := fun v => (A64Lse2.fetchAdd.code v).map (newVal (· + v))
  sub := fun v => (A64Lse2.fetchSub.code v).map (newVal (· - v))
  negate := A64x2.negate.code ()
  bitwiseAnd := fun v => (A64Lse2.fetchAnd.code v).map (newVal (· &&& v))
  bitwiseOr := fun v => (A64Lse2.fetchOr.code v).map (newVal (· ||| v))
  bitwiseXor := fun v => (A64Lse2.fetchXor.code v).map (newVal (· ^^^ v))
  bitwiseComplement := (A64Lse2.fetchXor.code (BitVec.allOnes 16)).map (newVal (· ^^^ (BitVec.allOnes 16)))

/-- Objects of 4 bytes, core_arch_ops_gcc_aarch64.hpp 860–1262 and extra_ops_gcc_aarch64.hpp,
without the extension LSE; loads without acquire and stores without release semantics are plain
accesses. -/
def A64x4.prims (ordered : Bool) : Prims 64 32 where
  load := (if ordered then A64x4.load_ else plainLoad 64 32).code ()
  store := fun v => (if ordered then A64x4.store_ else plainStore 64 32).code v
  exchange := fun v => (A64x4.exchange).code v
  casWeak := fun e d => (A64x4.compareExchangeWeak).code (e, d)
  casStrong := fun e d => (A64x4.compareExchangeStrong).code (e, d)
  fetchAdd := fun v => (A64x4.fetchAdd).code v
  fetchSub := fun v => (A64x4.fetchSub).code v
  fetchAnd := fun v => (A64x4.fetchAnd).code v
  fetchOr := fun v => (A64x4.fetchOr).code v
  fetchXor := fun v => (A64x4.fetchXor).code v
  fetchNegate := (A64x4.fetchNegate).code ()
  fetchComplement := (A64x4.fetchComplement).code ()
  add := fun v => (A64x4.add_).code v
  sub := fun v => (A64x4.sub_).code v
  negate := (A64x4.negate).code ()
  bitwiseAnd := fun v => (A64x4.bitwiseAnd).code v
  bitwiseOr := fun v => (A64x4.bitwiseOr).code v
  bitwiseXor := fun v => (A64x4.bitwiseXor).code v
  bitwiseComplement := (A64x4.bitwiseComplement).code ()

/-- Objects of 4 bytes with the extensions LSE and RCPC.  `negate` and `fetch_negate` are the same
as without (extra_ops_gcc_aarch64.hpp), the other functions are those of extra_ops_generic.hpp
65–101.  The two instructions for loads with acquire semantics (`ldapr`, `ldar`) do the same here.
-/
def A64Lse4.prims (ordered : Bool) : Prims 64 32 where
  load := (if ordered then A64Lse4.load_1 else plainLoad 64 32).code ()
  store := fun v => (if ordered then A64x4.store_ else plainStore 64 32).code v
  exchange := fun v => (A64Lse4.exchange).code v
  casWeak := fun e d => (A64Lse4.compareExchangeWeak).code (e, d)
  casStrong := fun e d => (A64Lse4.compareExchangeStrong).code (e, d)
  fetchAdd := fun v => (A64Lse4.fetchAdd).code v
  fetchSub := fun v => (A64Lse4.fetchSub).code v
  fetchAnd := fun v => (A64Lse4.fetchAnd).code v
  fetchOr := fun v => (A64Lse4.fetchOr).code v
  fetchXor := fun v => (A64Lse4.fetchXor).code v
  fetchNegate := A64x4.fetchNegate.code ()
  fetchComplement := A64Lse4.fetchXor.code (BitVec.allOnes 32)
  add := fun v => (A64Lse4.fetchAdd.code v).map (newVal (· + v))
  sub := fun v => (A64Lse4.fetchSub.code v).map (newVal (· - v))
  negate := A64x4.negate.code ()
  bitwiseAnd := fun v => (A64Lse4.fetchAnd.code v).map (newVal (· &&& v))
  bitwiseOr := fun v => (A64Lse4.fetchOr.code v).map (newVal (· ||| v))
  bitwiseXor := fun v => (A64Lse4.fetchXor.code v).map (newVal (· ^^^ v))
  bitwiseComplement := (A64Lse4.fetchXor.code (BitVec.allOnes 32)).map (newVal (· ^^^ (BitVec.allOnes 32)))

/-- Objects of 8 bytes, core_arch_ops_gcc_aarch64.hpp 1264–1666 and extra_ops_gcc_aarch64.hpp,
without the extension LSE; loads without acquire and stores without release semantics are plain
accesses. -/
def A64x8.prims (ordered : Bool) : Prims 64 64 where
  load := (if ordered then A64x8.load_ else plainLoad 64 64).code ()
  store := fun v => (if ordered then A64x8.store_ else plainStore 64 64).code v
  exchange := fun v => (A64x8.exchange).code v
  casWeak := fun e d => (A64x8.compareExchangeWeak).code (e, d)
  casStrong := fun e d => (A64x8.compareExchangeStrong).code (e, d)
  fetchAdd := fun v => (A64x8.fetchAdd).code v
  fetchSub := fun v => (A64x8.fetchSub).code v
  fetchAnd := fun v => (A64x8.fetchAnd).code v
  fetchOr := fun v => (A64x8.fetchOr).code v
  fetchXor := fun v => (A64x8.fetchXor).code v
  fetchNegate := (A64x8.fetchNegate).code ()
  fetchComplement := (A64x8.fetchComplement).code ()
  add := fun v => (A64x8.add_).code v
  sub := fun v => (A64x8.sub_).code v
  negate := (A64x8.negate).code ()
  bitwiseAnd := fun v => (A64x8.bitwiseAnd).code v
  bitwiseOr := fun v => (A64x8.bitwiseOr).code v
  bitwiseXor := fun v => (A64x8.bitwiseXor).code v
  bitwiseComplement := (A64x8.bitwiseComplement).code ()

/-- Objects of 8 bytes with the extensions LSE and RCPC.  `negate` and `fetch_negate` are the same
as without (extra_ops_gcc_aarch64.hpp), the other functions are those of extra_ops_generic.hpp
65–101.  The two instructions for loads with acquire semantics (`ldapr`, `ldar`) do the same here.
-/
def A64Lse8.prims (ordered : Bool) : Prims 64 64 where
  load := (if ordered then A64Lse8.load_1 else plainLoad 64 64).code ()
  store := fun v => (if ordered then A64x8.store_ else plainStore 64 64).code v
  exchange := fun v => (A64Lse8.exchange).code v
  casWeak := fun e d => (A64Lse8.compareExchangeWeak).code (e, d)
  casStrong := fun e d => (A64Lse8.compareExchangeStrong).code (e, d)
  fetchAdd := fun v => (A64Lse8.fetchAdd).code v
  fetchSub := fun v => (A64Lse8.fetchSub).code v
  fetchAnd := fun v => (A64Lse8.fetchAnd).code v
  fetchOr := fun v => (A64Lse8.fetchOr).code v
  fetchXor := fun v => (A64Lse8.fetchXor).code v
  fetchNegate := A64x8.fetchNegate.code ()
  fetchComplement := A64Lse8.fetchXor.code (BitVec.allOnes 64)
  add := fun v => (A64Lse8.fetchAdd.code v).map (newVal (· + v))
  sub := fun v => (A64Lse8.fetchSub.code v).map (newVal (· - v))
  negate := A64x8.negate.code ()
  bitwiseAnd := fun v => (A64Lse8.fetchAnd.code v).map (newVal (· &&& v))
  bitwiseOr := fun v => (A64Lse8.fetchOr.code v).map (newVal (· ||| v))
  bitwiseXor := fun v => (A64Lse8.fetchXor.code v).map (newVal (· ^^^ v))
  bitwiseComplement := (A64Lse8.fetchXor.code (BitVec.allOnes 64)).map (newVal (· ^^^ (BitVec.allOnes 64)))

/-- Objects of 16 bytes, core_arch_ops_gcc_aarch64.hpp 1683–2030 and extra_ops_gcc_aarch64.hpp
1126–1405. -/
def A64x16.prims (be : Bool) (ordered : Bool) : Prims 64 128 where
  load := (if ordered then A64x16.load_1 be else A64x16.load_2 be).code ()
  store := fun v => (if ordered then A64x16.store_1 be else A64x16.store_2 be).code v
  exchange := fun v => (A64x16.exchange be).code v
  casWeak := fun e d => (A64x16.compareExchangeWeak be).code (e, d)
  casStrong := fun e d => (A64x16.compareExchangeStrong be).code (e, d)
  fetchAdd := fun v => (A64x16.fetchAdd be).code v
  fetchSub := fun v => (A64x16.fetchSub be).code v
  fetchAnd := fun v => (A64x16.fetchAnd be).code v
  fetchOr := fun v => (A64x16.fetchOr be).code v
  fetchXor := fun v => (A64x16.fetchXor be).code v
  fetchNegate := (A64x16.fetchNegate be).code ()
  fetchComplement := (A64x16.fetchComplement be).code ()
  add := fun v => (A64x16.add_ be).code v
  sub := fun v => (A64x16.sub_ be).code v
  negate := (A64x16.negate be).code ()
  bitwiseAnd := fun v => (A64x16.bitwiseAnd be).code v
  bitwiseOr := fun v => (A64x16.bitwiseOr be).code v
  bitwiseXor := fun v => (A64x16.bitwiseXor be).code v
  bitwiseComplement := (A64x16.bitwiseComplement be).code ()

end Verif.Asm
