import Verif.Asm.SparcCode

/-
The SPARC functions are correct.
Written by tools/asmgen.py.
-/

set_option linter.unusedSimpArgs false

namespace Verif.Asm
open Sparc

namespace Sparc4

theorem compareExchangeStrong_ok :
    compareExchangeStrong.Implements Integral.spec (fun a => .casStrong a.1 a.2) := by
  rintro ⟨e, d⟩
  asm_exec [compareExchangeStrong] [0] [0, 1, 2] [] 1

theorem exchange_ok :
    exchange.Implements Integral.spec .exchange := by
  intro a
  asm_exec [exchange] [0] [0, 1] [] 1

end Sparc4

namespace Sparc8

theorem compareExchangeStrong_ok :
    compareExchangeStrong.Implements Integral.spec (fun a => .casStrong a.1 a.2) := by
  rintro ⟨e, d⟩
  asm_exec [compareExchangeStrong] [0] [0, 1, 2] [] 1

end Sparc8

end Verif.Asm
