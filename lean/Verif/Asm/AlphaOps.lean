import Verif.Asm.AlphaCode
import Verif.Asm.Loop

/-
Atomic objects on Alpha.
Written by tools/asmgen.py.
-/

namespace Verif.Asm

/-- Objects of 4 bytes, core_arch_ops_gcc_alpha.hpp 90–348; loads and stores are plain accesses. The
operand `expected` of strong compare-and-exchange is assumed to be sign-extended. -/
def Alpha4.core : Core 64 32 where
  load := .once ((plainLoad 64 32).code ())
  store v := .once ((plainStore 64 32).code v)
  exchange v := .once (Alpha4.exchange.code v)
  casWeak e d := Alpha4.compareExchangeWeak.code (e, d)
  casStrong e d := (Alpha4.compareExchangeStrong.sext 0).code (e, d)
  fetchAdd v := .once (Alpha4.fetchAdd.code v)
  fetchSub v := .once (Alpha4.fetchSub.code v)
  fetchAnd v := .once (Alpha4.fetchAnd.code v)
  fetchOr v := .once (Alpha4.fetchOr.code v)
  fetchXor v := .once (Alpha4.fetchXor.code v)

/-- Objects of 8 bytes, core_arch_ops_gcc_alpha.hpp 601–859; loads and stores are plain accesses. -/
def Alpha8.core : Core 64 64 where
  load := .once ((plainLoad 64 64).code ())
  store v := .once ((plainStore 64 64).code v)
  exchange v := .once (Alpha8.exchange.code v)
  casWeak e d := Alpha8.compareExchangeWeak.code (e, d)
  casStrong e d := Alpha8.compareExchangeStrong.code (e, d)
  fetchAdd v := .once (Alpha8.fetchAdd.code v)
  fetchSub v := .once (Alpha8.fetchSub.code v)
  fetchAnd v := .once (Alpha8.fetchAnd.code v)
  fetchOr v := .once (Alpha8.fetchOr.code v)
  fetchXor v := .once (Alpha8.fetchXor.code v)

end Verif.Asm
