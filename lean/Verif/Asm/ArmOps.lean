import Verif.Asm.ArmCode
import Verif.Asm.Ops

/-
Atomic objects on ARM (ARMv6 and ARMv7).
Written by tools/asmgen.py.
-/

set_option linter.unusedVariables false

namespace Verif.Asm

/-- Objects of 1 byte, core_arch_ops_gcc_arm.hpp 325–586 and extra_ops_gcc_arm.hpp; loads and stores
are plain accesses. -/
def Arm1.prims (thumb : Bool) (ordered : Bool) : Prims 32 8 where
  load := (plainLoad 32 8).code ()
  store := fun v => (plainStore 32 8).code v
  exchange := fun v => (Arm1.exchange thumb).code v
  casWeak := fun e d => (Arm1.compareExchangeWeak thumb).code (e, d)
  casStrong := fun e d => (Arm1.compareExchangeStrong thumb).code (e, d)
  fetchAdd := fun v => (Arm1.fetchAdd thumb).code v
  fetchSub := fun v => (Arm1.fetchSub thumb).code v
  fetchAnd := fun v => (Arm1.fetchAnd thumb).code v
  fetchOr := fun v => (Arm1.fetchOr thumb).code v
  fetchXor := fun v => (Arm1.fetchXor thumb).code v
  fetchNegate := (Arm1.fetchNegate thumb).code ()
  fetchComplement := (Arm1.fetchComplement thumb).code ()
  add := fun v => (Arm1.add_ thumb).code v
  sub := fun v => (Arm1.sub_ thumb).code v
  negate := (Arm1.negate thumb).code ()
  bitwiseAnd := fun v => (Arm1.bitwiseAnd thumb).code v
  bitwiseOr := fun v => (Arm1.bitwiseOr thumb).code v
  bitwiseXor := fun v => (Arm1.bitwiseXor thumb).code v
  bitwiseComplement := (Arm1.bitwiseComplement thumb).code ()

/-- Objects of 2 bytes, core_arch_ops_gcc_arm.hpp 719–980 and extra_ops_gcc_arm.hpp; loads and
stores are plain accesses. -/
def Arm2.prims (thumb : Bool) (ordered : Bool) : Prims 32 16 where
  load := (plainLoad 32 16).code ()
  store := fun v => (plainStore 32 16).code v
  exchange := fun v => (Arm2.exchange thumb).code v
  casWeak := fun e d => (Arm2.compareExchangeWeak thumb).code (e, d)
  casStrong := fun e d => (Arm2.compareExchangeStrong thumb).code (e, d)
  fetchAdd := fun v => (Arm2.fetchAdd thumb).code v
  fetchSub := fun v => (Arm2.fetchSub thumb).code v
  fetchAnd := fun v => (Arm2.fetchAnd thumb).code v
  fetchOr := fun v => (Arm2.fetchOr thumb).code v
  fetchXor := fun v => (Arm2.fetchXor thumb).code v
  fetchNegate := (Arm2.fetchNegate thumb).code ()
  fetchComplement := (Arm2.fetchComplement thumb).code ()
  add := fun v => (Arm2.add_ thumb).code v
  sub := fun v => (Arm2.sub_ thumb).code v
  negate := (Arm2.negate thumb).code ()
  bitwiseAnd := fun v => (Arm2.bitwiseAnd thumb).code v
  bitwiseOr := fun v => (Arm2.bitwiseOr thumb).code v
  bitwiseXor := fun v => (Arm2.bitwiseXor thumb).code v
  bitwiseComplement := (Arm2.bitwiseComplement thumb).code ()

/-- Objects of 4 bytes, core_arch_ops_gcc_arm.hpp 60–320 and extra_ops_gcc_arm.hpp; loads and stores
are plain accesses. -/
def Arm4.prims (thumb : Bool) (ordered : Bool) : Prims 32 32 where
  load := (plainLoad 32 32).code ()
  store := fun v => (plainStore 32 32).code v
  exchange := fun v => (Arm4.exchange thumb).code v
  casWeak := fun e d => (Arm4.compareExchangeWeak thumb).code (e, d)
  casStrong := fun e d => (Arm4.compareExchangeStrong thumb).code (e, d)
  fetchAdd := fun v => (Arm4.fetchAdd thumb).code v
  fetchSub := fun v => (Arm4.fetchSub thumb).code v
  fetchAnd := fun v => (Arm4.fetchAnd thumb).code v
  fetchOr := fun v => (Arm4.fetchOr thumb).code v
  fetchXor := fun v => (Arm4.fetchXor thumb).code v
  fetchNegate := (Arm4.fetchNegate thumb).code ()
  fetchComplement := (Arm4.fetchComplement thumb).code ()
  add := fun v => (Arm4.add_ thumb).code v
  sub := fun v => (Arm4.sub_ thumb).code v
  negate := (Arm4.negate thumb).code ()
  bitwiseAnd := fun v => (Arm4.bitwiseAnd thumb).code v
  bitwiseOr := fun v => (Arm4.bitwiseOr thumb).code v
  bitwiseXor := fun v => (Arm4.bitwiseXor thumb).code v
  bitwiseComplement := (Arm4.bitwiseComplement thumb).code ()

/-- Objects of 8 bytes, core_arch_ops_gcc_arm.hpp 1124–1407 and extra_ops_gcc_arm.hpp; `store` is
`exchange` (1135–1138), and `load` (1140–1165) has two variants. -/
def Arm8.prims (thumb be : Bool) (ordered : Bool) : Prims 32 64 where
  load := (if thumb then Arm8.loadThumb thumb be else Arm8.load_ thumb be).code ()
  store := fun v => ((Arm8.exchange thumb be).code v).map discard
  exchange := fun v => (Arm8.exchange thumb be).code v
  casWeak := fun e d => (Arm8.compareExchangeWeak thumb be).code (e, d)
  casStrong := fun e d => (Arm8.compareExchangeStrong thumb be).code (e, d)
  fetchAdd := fun v => (Arm8.fetchAdd thumb be).code v
  fetchSub := fun v => (Arm8.fetchSub thumb be).code v
  fetchAnd := fun v => (Arm8.fetchAnd thumb be).code v
  fetchOr := fun v => (Arm8.fetchOr thumb be).code v
  fetchXor := fun v => (Arm8.fetchXor thumb be).code v
  fetchNegate := (Arm8.fetchNegate thumb be).code ()
  fetchComplement := (Arm8.fetchComplement thumb be).code ()
  add := fun v => (Arm8.add_ thumb be).code v
  sub := fun v => (Arm8.sub_ thumb be).code v
  negate := (Arm8.negate thumb be).code ()
  bitwiseAnd := fun v => (Arm8.bitwiseAnd thumb be).code v
  bitwiseOr := fun v => (Arm8.bitwiseOr thumb be).code v
  bitwiseXor := fun v => (Arm8.bitwiseXor thumb be).code v
  bitwiseComplement := (Arm8.bitwiseComplement thumb be).code ()

end Verif.Asm
