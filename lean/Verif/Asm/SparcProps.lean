import Verif.Asm.SparcOps
import Verif.Asm.LoopLemmas
import Verif.Asm.SparcProofs

/-
Atomic objects on SPARC V9 (in 64-bit mode, for objects of 8 bytes).
What is proved about them: `C48_*`, that each function does what its operation prescribes, for all arguments,
all register assignments the compiler may choose and all interference; `C49_*`, that an object on which any number
of cores execute all operations is linearizable.  Written by tools/asmgen.py.
-/

namespace Verif.Asm

theorem Sparc4.core_ok : Sparc4.core.Ok :=
  casBased_ok (Code.Does.once (plainLoad_ok (by decide) ())) (fun v => Code.Does.once (plainStore_ok v))
    (fun v => Code.Does.once (Sparc4.exchange_ok v))
    (fun e d => Sparc4.compareExchangeStrong_ok (e, d))

/-- SPARC, objects of 4 bytes: each function does what its operation prescribes. -/
theorem C48_sparc_4 :
    Sparc4.compareExchangeStrong.Implements Integral.spec (fun a => .casStrong a.1 a.2) ∧
    Sparc4.exchange.Implements Integral.spec .exchange :=
  ⟨Sparc4.compareExchangeStrong_ok,
    Sparc4.exchange_ok⟩

/-- SPARC, objects of 4 bytes: concurrent calls of all operations are linearizable. -/
theorem C49_sparc_4 : AtomicByLoops Sparc4.core true :=
  atomicByLoops_of_ok Sparc4.core_ok true

theorem Sparc8.core_ok : Sparc8.core.Ok :=
  casBased_ok (Code.Does.once (plainLoad_ok (by decide) ())) (fun v => Code.Does.once (plainStore_ok v))
    (casExchange_ok (fun e d => Sparc8.compareExchangeStrong_ok (e, d)))
    (fun e d => Sparc8.compareExchangeStrong_ok (e, d))

/-- SPARC, objects of 8 bytes: each function does what its operation prescribes. -/
theorem C48_sparc_8 :
    Sparc8.compareExchangeStrong.Implements Integral.spec (fun a => .casStrong a.1 a.2) :=
  Sparc8.compareExchangeStrong_ok

/-- SPARC, objects of 8 bytes: concurrent calls of all operations are linearizable. -/
theorem C49_sparc_8 : AtomicByLoops Sparc8.core true :=
  atomicByLoops_of_ok Sparc8.core_ok true

end Verif.Asm
