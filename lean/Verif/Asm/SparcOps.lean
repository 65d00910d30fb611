import Verif.Asm.SparcCode
import Verif.Asm.Loop

/-
Atomic objects on SPARC V9 (in 64-bit mode, for objects of 8 bytes).
Written by tools/asmgen.py.
-/

namespace Verif.Asm

/-- Objects of 4 bytes, core_arch_ops_gcc_sparc.hpp 65–137 and core_ops_cas_based.hpp; loads and
stores are plain accesses. -/
def Sparc4.core : Core 64 32 :=
  casBased (.once ((plainLoad 64 32).code ())) (fun v => .once ((plainStore 64 32).code v))
    (fun v => .once (Sparc4.exchange.code v))
    (fun e d => Sparc4.compareExchangeStrong.code (e, d))

/-- Objects of 8 bytes, core_arch_ops_gcc_sparc.hpp 151–210 and core_ops_cas_based.hpp; loads and
stores are plain accesses. -/
def Sparc8.core : Core 64 64 :=
  casBased (.once ((plainLoad 64 64).code ())) (fun v => .once ((plainStore 64 64).code v))
    (casExchange (fun e d => Sparc8.compareExchangeStrong.code (e, d)))
    (fun e d => Sparc8.compareExchangeStrong.code (e, d))

end Verif.Asm
