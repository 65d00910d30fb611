import Verif.Asm.X86Pair
import Verif.Asm.X86DcasCode

/-
The x86 functions for objects of two registers are correct.
Written by tools/asmgen.py.
-/

set_option linter.unusedSimpArgs false
set_option linter.unusedVariables false

namespace Verif.Asm
open X86

namespace X86d8

theorem storeAvx_ok :
    storeAvx.Implements Integral.spec .store := by
  intro a
  asm_pair [storeAvx] half64 [0] (fun _ x r => r 0 = x 0 ∧ r 1 = x 1 ∧ r 21 = x 21) [] 1

theorem storeSse2_ok :
    storeSse2.Implements Integral.spec .store := by
  intro a
  asm_pair [storeSse2] half64 [0] (fun _ x r => r 0 = x 0 ∧ r 1 = x 1 ∧ r 21 = x 21) [] 1

theorem storeSse_ok :
    storeSse.Implements Integral.spec .store := by
  intro a
  asm_pair [storeSse] half64 [0] (fun _ x r => r 0 = x 0 ∧ r 1 = x 1 ∧ r 21 = x 21) [] 1

theorem storeX87_ok :
    storeX87.Implements Integral.spec .store := by
  intro a
  asm_pair [storeX87] half64 [0] (fun _ x r => r 0 = x 0 ∧ r 1 = x 1 ∧ r 21 = x 21) [] 2

theorem storeLoop_ok :
    storeLoop.Implements Integral.spec .store := by
  intro a
  asm_pair [storeLoop] half64 [0, 2] (fun _ x r => r 0 = x 0 ∧ r 1 = x 1 ∧ r 2 = x 2 ∧ r 3 = x 3) [] 5

theorem loadAvx_ok :
    loadAvx.Implements Integral.spec (fun _ => .load) := by
  intro a
  asm_pair [loadAvx] half64 [0] (fun _ x r => r 1 = x 1) [] 1

theorem loadSse2_ok :
    loadSse2.Implements Integral.spec (fun _ => .load) := by
  intro a
  asm_pair [loadSse2] half64 [0] (fun _ x r => r 1 = x 1) [] 1

theorem loadSse_ok :
    loadSse.Implements Integral.spec (fun _ => .load) := by
  intro a
  asm_pair [loadSse] half64 [0] (fun _ x r => r 1 = x 1) [] 2

theorem loadX87_ok :
    loadX87.Implements Integral.spec (fun _ => .load) := by
  intro a
  asm_pair [loadX87] half64 [0] (fun _ x r => r 1 = x 1) [] 2

theorem loadCas_ok :
    loadCas.Implements Integral.spec (fun _ => .load) := by
  intro a
  asm_pair [loadCas] half64 [0] (fun _ x r => r 1 = x 1) [] 3

theorem loadCasBits_ok :
    loadCasBits.Implements Integral.spec (fun _ => .load) := by
  intro a
  asm_pair [loadCasBits] half64 [0] (fun _ x r => r 2 = x 2) [] 3

theorem cas_ok :
    cas.Implements Integral.spec (fun a => .casStrong a.1 a.2) := by
  rintro ⟨e, d⟩
  asm_pair [cas] half64 [0] (fun _ x r => r 0 = x 0 ∧ r 1 = x 1 ∧ r 3 = x 3 ∧ r 4 = x 4 ∧ r 20 = x 20) [] 2

theorem casSet_ok :
    casSet.Implements Integral.spec (fun a => .casStrong a.1 a.2) := by
  rintro ⟨e, d⟩
  asm_pair [casSet] half64 [0] (fun _ x r => r 0 = x 0 ∧ r 1 = x 1 ∧ r 3 = x 3 ∧ r 4 = x 4 ∧ r 20 = x 20) [] 2

theorem casPic_ok :
    casPic.Implements Integral.spec (fun a => .casStrong a.1 a.2) := by
  rintro ⟨e, d⟩
  asm_pair [casPic] half64 [0] (fun _ x r => r 0 = x 0 ∧ r 2 = x 2 ∧ r 3 = x 3 ∧ r 4 = x 4 ∧ r 20 = x 20 ∧ r 43 = x 43) [43, 2] 4

theorem casPicSet_ok :
    casPicSet.Implements Integral.spec (fun a => .casStrong a.1 a.2) := by
  rintro ⟨e, d⟩
  asm_pair [casPicSet] half64 [0] (fun _ x r => r 0 = x 0 ∧ r 2 = x 2 ∧ r 3 = x 3 ∧ r 4 = x 4 ∧ r 20 = x 20 ∧ r 43 = x 43) [43, 2] 4

theorem exchange_ok :
    exchange.Implements Integral.spec .exchange := by
  intro a
  asm_pair [exchange] half64 [0, 2] (fun _ x r => r 1 = x 1 ∧ r 2 = x 2 ∧ r 3 = x 3 ∧ r 4 = x 4) [] 5

theorem exchangeBits_ok :
    exchangeBits.Implements Integral.spec .exchange := by
  intro a
  asm_pair [exchangeBits] half64 [0, 2] (fun _ x r => r 2 = x 2 ∧ r 3 = x 3 ∧ r 4 = x 4 ∧ r 5 = x 5) [] 5

theorem exchangeMinGw_ok :
    exchangeMinGw.Implements Integral.spec .exchange := by
  intro a
  asm_pair [exchangeMinGw] half64 [0, 2] (fun _ x r => r 2 = x 2 ∧ r 3 = x 3 ∧ r 4 = x 4) [] 5

theorem exchangePic_ok :
    exchangePic.Implements Integral.spec .exchange := by
  intro a
  asm_pair [exchangePic] half64 [0, 3] (fun pc x r => r 2 = x 2 ∧ r 3 = x 3 ∧ if pc = 0 then r 43 = x 43 ∧ r 1 = x 1 else r 43 = x 1 ∧ r 1 = x 43) [43, 1] 7

theorem exchangePicBits_ok :
    exchangePicBits.Implements Integral.spec .exchange := by
  intro a
  asm_pair [exchangePicBits] half64 [0, 3] (fun pc x r => r 3 = x 3 ∧ r 4 = x 4 ∧ if pc = 0 then r 43 = x 43 ∧ r 2 = x 2 else r 43 = x 2 ∧ r 2 = x 43) [43, 2] 7

end X86d8

namespace X86d16

theorem storeAvx_ok :
    storeAvx.Implements Integral.spec .store := by
  intro a
  asm_pair [storeAvx] half128 [0] (fun _ x r => r 0 = x 0 ∧ r 1 = x 1 ∧ r 21 = x 21) [] 1

theorem storeLoop_ok :
    storeLoop.Implements Integral.spec .store := by
  intro a
  asm_pair [storeLoop] half128 [0, 2] (fun _ x r => r 0 = x 0 ∧ r 1 = x 1 ∧ r 2 = x 2 ∧ r 3 = x 3) [] 5

theorem loadAvx_ok :
    loadAvx.Implements Integral.spec (fun _ => .load) := by
  intro a
  asm_pair [loadAvx] half128 [0] (fun _ x r => r 1 = x 1) [] 1

theorem loadCas_ok :
    loadCas.Implements Integral.spec (fun _ => .load) := by
  intro a
  asm_pair [loadCas] half128 [0] (fun _ x r => r 1 = x 1) [] 3

theorem loadCasBits_ok :
    loadCasBits.Implements Integral.spec (fun _ => .load) := by
  intro a
  asm_pair [loadCasBits] half128 [0] (fun _ x r => r 2 = x 2) [] 3

theorem cas_ok :
    cas.Implements Integral.spec (fun a => .casStrong a.1 a.2) := by
  rintro ⟨e, d⟩
  asm_pair [cas] half128 [0] (fun _ x r => r 0 = x 0 ∧ r 1 = x 1 ∧ r 3 = x 3 ∧ r 4 = x 4 ∧ r 20 = x 20) [] 2

theorem casSet_ok :
    casSet.Implements Integral.spec (fun a => .casStrong a.1 a.2) := by
  rintro ⟨e, d⟩
  asm_pair [casSet] half128 [0] (fun _ x r => r 0 = x 0 ∧ r 1 = x 1 ∧ r 3 = x 3 ∧ r 4 = x 4 ∧ r 20 = x 20) [] 2

theorem casBits_ok :
    casBits.Implements Integral.spec (fun a => .casStrong a.1 a.2) := by
  rintro ⟨e, d⟩
  asm_pair [casBits] half128 [0] (fun _ x r => r 0 = x 0 ∧ r 1 = x 1 ∧ r 2 = x 2 ∧ r 4 = x 4 ∧ r 5 = x 5) [] 2

theorem exchange_ok :
    exchange.Implements Integral.spec .exchange := by
  intro a
  asm_pair [exchange] half128 [0, 2] (fun _ x r => r 1 = x 1 ∧ r 2 = x 2 ∧ r 3 = x 3 ∧ r 4 = x 4) [] 5

theorem exchangeBits_ok :
    exchangeBits.Implements Integral.spec .exchange := by
  intro a
  asm_pair [exchangeBits] half128 [0, 2] (fun _ x r => r 0 = x 0 ∧ r 1 = x 1 ∧ r 4 = x 4 ∧ r 5 = x 5) [] 5

end X86d16

end Verif.Asm
