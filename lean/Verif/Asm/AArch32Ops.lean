import Verif.Asm.AArch32Code
import Verif.Asm.Ops

/-
Atomic objects on AArch32 (32-bit ARMv8).
Written by tools/asmgen.py.
-/

set_option linter.unusedVariables false

namespace Verif.Asm

/-- Objects of 1 byte, core_arch_ops_gcc_aarch32.hpp 53–332 and extra_ops_gcc_aarch32.hpp; `load`
and `store` have a variant with acquire or release semantics (the same block, except for 8 bytes).
The operand `expected` of compare-and-exchange, which the block changes, is declared as changed
here. -/
def AArch32x1.prims (ordered : Bool) : Prims 32 8 where
  load := (AArch32x1.load_).code ()
  store := fun v => (AArch32x1.store_).code v
  exchange := fun v => (AArch32x1.exchange).code v
  casWeak := fun e d => ((AArch32x1.compareExchangeWeak).writes 3).code (e, d)
  casStrong := fun e d => ((AArch32x1.compareExchangeStrong).writes 3).code (e, d)
  fetchAdd := fun v => (AArch32x1.fetchAdd).code v
  fetchSub := fun v => (AArch32x1.fetchSub).code v
  fetchAnd := fun v => (AArch32x1.fetchAnd).code v
  fetchOr := fun v => (AArch32x1.fetchOr).code v
  fetchXor := fun v => (AArch32x1.fetchXor).code v
  fetchNegate := (AArch32x1.fetchNegate).code ()
  fetchComplement := (AArch32x1.fetchComplement).code ()
  add := fun v => (AArch32x1.add_).code v
  sub := fun v => (AArch32x1.sub_).code v
  negate := (AArch32x1.negate).code ()
  bitwiseAnd := fun v => (AArch32x1.bitwiseAnd).code v
  bitwiseOr := fun v => (AArch32x1.bitwiseOr).code v
  bitwiseXor := fun v => (AArch32x1.bitwiseXor).code v
  bitwiseComplement := (AArch32x1.bitwiseComplement).code ()

/-- Objects of 2 bytes, core_arch_ops_gcc_aarch32.hpp 335–614 and extra_ops_gcc_aarch32.hpp; `load`
and `store` have a variant with acquire or release semantics (the same block, except for 8 bytes).
The operand `expected` of compare-and-exchange, which the block changes, is declared as changed
here. -/
def AArch32x2.prims (ordered : Bool) : Prims 32 16 where
  load := (AArch32x2.load_).code ()
  store := fun v => (AArch32x2.store_).code v
  exchange := fun v => (AArch32x2.exchange).code v
  casWeak := fun e d => ((AArch32x2.compareExchangeWeak).writes 3).code (e, d)
  casStrong := fun e d => ((AArch32x2.compareExchangeStrong).writes 3).code (e, d)
  fetchAdd := fun v => (AArch32x2.fetchAdd).code v
  fetchSub := fun v => (AArch32x2.fetchSub).code v
  fetchAnd := fun v => (AArch32x2.fetchAnd).code v
  fetchOr := fun v => (AArch32x2.fetchOr).code v
  fetchXor := fun v => (AArch32x2.fetchXor).code v
  fetchNegate := (AArch32x2.fetchNegate).code ()
  fetchComplement := (AArch32x2.fetchComplement).code ()
  add := fun v => (AArch32x2.add_).code v
  sub := fun v => (AArch32x2.sub_).code v
  negate := (AArch32x2.negate).code ()
  bitwiseAnd := fun v => (AArch32x2.bitwiseAnd).code v
  bitwiseOr := fun v => (AArch32x2.bitwiseOr).code v
  bitwiseXor := fun v => (AArch32x2.bitwiseXor).code v
  bitwiseComplement := (AArch32x2.bitwiseComplement).code ()

/-- Objects of 4 bytes, core_arch_ops_gcc_aarch32.hpp 617–894 and extra_ops_gcc_aarch32.hpp; `load`
and `store` have a variant with acquire or release semantics (the same block, except for 8 bytes).
-/
def AArch32x4.prims (ordered : Bool) : Prims 32 32 where
  load := (AArch32x4.load_).code ()
  store := fun v => (AArch32x4.store_).code v
  exchange := fun v => (AArch32x4.exchange).code v
  casWeak := fun e d => (AArch32x4.compareExchangeWeak).code (e, d)
  casStrong := fun e d => (AArch32x4.compareExchangeStrong).code (e, d)
  fetchAdd := fun v => (AArch32x4.fetchAdd).code v
  fetchSub := fun v => (AArch32x4.fetchSub).code v
  fetchAnd := fun v => (AArch32x4.fetchAnd).code v
  fetchOr := fun v => (AArch32x4.fetchOr).code v
  fetchXor := fun v => (AArch32x4.fetchXor).code v
  fetchNegate := (AArch32x4.fetchNegate).code ()
  fetchComplement := (AArch32x4.fetchComplement).code ()
  add := fun v => (AArch32x4.add_).code v
  sub := fun v => (AArch32x4.sub_).code v
  negate := (AArch32x4.negate).code ()
  bitwiseAnd := fun v => (AArch32x4.bitwiseAnd).code v
  bitwiseOr := fun v => (AArch32x4.bitwiseOr).code v
  bitwiseXor := fun v => (AArch32x4.bitwiseXor).code v
  bitwiseComplement := (AArch32x4.bitwiseComplement).code ()

/-- Objects of 8 bytes, core_arch_ops_gcc_aarch32.hpp 914–1220 and extra_ops_gcc_aarch32.hpp; `load`
and `store` have a variant with acquire or release semantics (the same block, except for 8 bytes).
-/
def AArch32x8.prims (be : Bool) (ordered : Bool) : Prims 32 64 where
  load := (if ordered then AArch32x8.load_1 be else AArch32x8.load_2 be).code ()
  store := fun v => (if ordered then AArch32x8.store_1 be else AArch32x8.store_2 be).code v
  exchange := fun v => (AArch32x8.exchange be).code v
  casWeak := fun e d => (AArch32x8.compareExchangeWeak be).code (e, d)
  casStrong := fun e d => (AArch32x8.compareExchangeStrong be).code (e, d)
  fetchAdd := fun v => (AArch32x8.fetchAdd be).code v
  fetchSub := fun v => (AArch32x8.fetchSub be).code v
  fetchAnd := fun v => (AArch32x8.fetchAnd be).code v
  fetchOr := fun v => (AArch32x8.fetchOr be).code v
  fetchXor := fun v => (AArch32x8.fetchXor be).code v
  fetchNegate := (AArch32x8.fetchNegate be).code ()
  fetchComplement := (AArch32x8.fetchComplement be).code ()
  add := fun v => (AArch32x8.add_ be).code v
  sub := fun v => (AArch32x8.sub_ be).code v
  negate := (AArch32x8.negate be).code ()
  bitwiseAnd := fun v => (AArch32x8.bitwiseAnd be).code v
  bitwiseOr := fun v => (AArch32x8.bitwiseOr be).code v
  bitwiseXor := fun v => (AArch32x8.bitwiseXor be).code v
  bitwiseComplement := (AArch32x8.bitwiseComplement be).code ()

end Verif.Asm
