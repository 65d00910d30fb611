import Verif.Asm.MsvcShape
import Verif.Asm.X86Pair
import Verif.Asm.MsvcCode

/-
The functions with `__asm` blocks are correct.
Written by tools/msvcgen.py.
-/

set_option linter.unusedSimpArgs false
set_option linter.unusedVariables false

namespace Verif.Asm
open X86

namespace Msvc1

theorem fetchAdd_ok :
    fetchAdd.Implements Integral.spec .fetchAdd :=
  msvc_xadd (by decide)

theorem exchange_ok :
    exchange.Implements Integral.spec .exchange :=
  msvc_xchg (by decide)

theorem compareExchangeStrong_ok :
    compareExchangeStrong.Implements Integral.spec (fun a => .casStrong a.1 a.2) :=
  msvc_cas (by decide)

theorem fetchAnd_ok :
    fetchAnd.Implements Integral.spec .fetchAnd :=
  msvc_fetch2 (by decide) (· &&& ·) (fun _ _ _ _ => Iff.rfl)

theorem fetchOr_ok :
    fetchOr.Implements Integral.spec .fetchOr :=
  msvc_fetch2 (by decide) (· ||| ·) (fun _ _ _ _ => Iff.rfl)

theorem fetchXor_ok :
    fetchXor.Implements Integral.spec .fetchXor :=
  msvc_fetch2 (by decide) (· ^^^ ·) (fun _ _ _ _ => Iff.rfl)

theorem fetchNegate_ok :
    fetchNegate.Implements Integral.spec (fun _ => .fetchNegate) :=
  msvc_fetch1 (by decide) (- ·) (fun _ _ _ _ => Iff.rfl)

theorem negate_ok :
    negate.Implements Integral.spec (fun _ => .negate) :=
  msvc_new1 (by decide) (- ·) (fun _ _ _ _ => Iff.rfl)

theorem negateAndTest_ok :
    negateAndTest.Implements Integral.spec (fun _ => .negateAndTest) :=
  msvc_test1 (by decide) (- ·) (fun _ _ _ _ => Iff.rfl)

theorem opaqueNegate_ok :
    opaqueNegate.Implements Integral.spec (fun _ => .opaqueNegate) :=
  msvc_opaque1 (by decide) (- ·) (fun _ _ _ _ => Iff.rfl)

theorem bitwiseAnd_ok :
    bitwiseAnd.Implements Integral.spec .bitwiseAnd :=
  msvc_new2 (by decide) (· &&& ·) (fun _ _ _ _ => Iff.rfl)

theorem bitwiseOr_ok :
    bitwiseOr.Implements Integral.spec .bitwiseOr :=
  msvc_new2 (by decide) (· ||| ·) (fun _ _ _ _ => Iff.rfl)

theorem bitwiseXor_ok :
    bitwiseXor.Implements Integral.spec .bitwiseXor :=
  msvc_new2 (by decide) (· ^^^ ·) (fun _ _ _ _ => Iff.rfl)

theorem fetchComplement_ok :
    fetchComplement.Implements Integral.spec (fun _ => .fetchComplement) :=
  msvc_fetch1 (by decide) (~~~ ·) (fun _ _ _ _ => Iff.rfl)

theorem bitwiseComplement_ok :
    bitwiseComplement.Implements Integral.spec (fun _ => .bitwiseComplement) :=
  msvc_new1 (by decide) (~~~ ·) (fun _ _ _ _ => Iff.rfl)

theorem complementAndTest_ok :
    complementAndTest.Implements Integral.spec (fun _ => .complementAndTest) :=
  msvc_test1 (by decide) (~~~ ·) (fun _ _ _ _ => Iff.rfl)

theorem opaqueComplement_ok :
    opaqueComplement.Implements Integral.spec (fun _ => .opaqueComplement) :=
  msvc_opaque1 (by decide) (~~~ ·) (fun _ _ _ _ => Iff.rfl)

theorem opaqueAdd_ok :
    opaqueAdd.Implements Integral.spec .opaqueAdd :=
  msvc_opaque2 (by decide) (· + ·) (fun _ _ _ _ => Iff.rfl)

theorem opaqueSub_ok :
    opaqueSub.Implements Integral.spec .opaqueSub :=
  msvc_opaque2 (by decide) (· - ·) (fun _ _ _ _ => Iff.rfl)

theorem opaqueNegateLock_ok :
    opaqueNegateLock.Implements Integral.spec (fun _ => .opaqueNegate) :=
  msvc_lock1 (- ·) (fun _ _ _ _ => Iff.rfl)

theorem opaqueAnd_ok :
    opaqueAnd.Implements Integral.spec .opaqueAnd :=
  msvc_opaque2 (by decide) (· &&& ·) (fun _ _ _ _ => Iff.rfl)

theorem opaqueOr_ok :
    opaqueOr.Implements Integral.spec .opaqueOr :=
  msvc_opaque2 (by decide) (· ||| ·) (fun _ _ _ _ => Iff.rfl)

theorem opaqueXor_ok :
    opaqueXor.Implements Integral.spec .opaqueXor :=
  msvc_opaque2 (by decide) (· ^^^ ·) (fun _ _ _ _ => Iff.rfl)

theorem opaqueComplementLock_ok :
    opaqueComplementLock.Implements Integral.spec (fun _ => .opaqueComplement) :=
  msvc_lock1 (~~~ ·) (fun _ _ _ _ => Iff.rfl)

theorem addAndTest_ok :
    addAndTest.Implements Integral.spec .addAndTest :=
  msvc_test2 (by decide) (· + ·) (fun _ _ _ _ => Iff.rfl)

theorem subAndTest_ok :
    subAndTest.Implements Integral.spec .subAndTest :=
  msvc_test2 (by decide) (· - ·) (fun _ _ _ _ => Iff.rfl)

theorem andAndTest_ok :
    andAndTest.Implements Integral.spec .andAndTest :=
  msvc_test2 (by decide) (· &&& ·) (fun _ _ _ _ => Iff.rfl)

theorem orAndTest_ok :
    orAndTest.Implements Integral.spec .orAndTest :=
  msvc_test2 (by decide) (· ||| ·) (fun _ _ _ _ => Iff.rfl)

theorem xorAndTest_ok :
    xorAndTest.Implements Integral.spec .xorAndTest :=
  msvc_test2 (by decide) (· ^^^ ·) (fun _ _ _ _ => Iff.rfl)

end Msvc1

namespace Msvc2

theorem fetchAdd_ok :
    fetchAdd.Implements Integral.spec .fetchAdd :=
  msvc_xadd (by decide)

theorem exchange_ok :
    exchange.Implements Integral.spec .exchange :=
  msvc_xchg (by decide)

theorem compareExchangeStrong_ok :
    compareExchangeStrong.Implements Integral.spec (fun a => .casStrong a.1 a.2) :=
  msvc_cas (by decide)

theorem fetchAnd_ok :
    fetchAnd.Implements Integral.spec .fetchAnd :=
  msvc_fetch2 (by decide) (· &&& ·) (fun _ _ _ _ => Iff.rfl)

theorem fetchOr_ok :
    fetchOr.Implements Integral.spec .fetchOr :=
  msvc_fetch2 (by decide) (· ||| ·) (fun _ _ _ _ => Iff.rfl)

theorem fetchXor_ok :
    fetchXor.Implements Integral.spec .fetchXor :=
  msvc_fetch2 (by decide) (· ^^^ ·) (fun _ _ _ _ => Iff.rfl)

theorem fetchNegate_ok :
    fetchNegate.Implements Integral.spec (fun _ => .fetchNegate) :=
  msvc_fetch1 (by decide) (- ·) (fun _ _ _ _ => Iff.rfl)

theorem negate_ok :
    negate.Implements Integral.spec (fun _ => .negate) :=
  msvc_new1 (by decide) (- ·) (fun _ _ _ _ => Iff.rfl)

theorem negateAndTest_ok :
    negateAndTest.Implements Integral.spec (fun _ => .negateAndTest) :=
  msvc_test1 (by decide) (- ·) (fun _ _ _ _ => Iff.rfl)

theorem opaqueNegate_ok :
    opaqueNegate.Implements Integral.spec (fun _ => .opaqueNegate) :=
  msvc_opaque1 (by decide) (- ·) (fun _ _ _ _ => Iff.rfl)

theorem bitwiseAnd_ok :
    bitwiseAnd.Implements Integral.spec .bitwiseAnd :=
  msvc_new2 (by decide) (· &&& ·) (fun _ _ _ _ => Iff.rfl)

theorem bitwiseOr_ok :
    bitwiseOr.Implements Integral.spec .bitwiseOr :=
  msvc_new2 (by decide) (· ||| ·) (fun _ _ _ _ => Iff.rfl)

theorem bitwiseXor_ok :
    bitwiseXor.Implements Integral.spec .bitwiseXor :=
  msvc_new2 (by decide) (· ^^^ ·) (fun _ _ _ _ => Iff.rfl)

theorem fetchComplement_ok :
    fetchComplement.Implements Integral.spec (fun _ => .fetchComplement) :=
  msvc_fetch1 (by decide) (~~~ ·) (fun _ _ _ _ => Iff.rfl)

theorem bitwiseComplement_ok :
    bitwiseComplement.Implements Integral.spec (fun _ => .bitwiseComplement) :=
  msvc_new1 (by decide) (~~~ ·) (fun _ _ _ _ => Iff.rfl)

theorem complementAndTest_ok :
    complementAndTest.Implements Integral.spec (fun _ => .complementAndTest) :=
  msvc_test1 (by decide) (~~~ ·) (fun _ _ _ _ => Iff.rfl)

theorem opaqueComplement_ok :
    opaqueComplement.Implements Integral.spec (fun _ => .opaqueComplement) :=
  msvc_opaque1 (by decide) (~~~ ·) (fun _ _ _ _ => Iff.rfl)

theorem opaqueAdd_ok :
    opaqueAdd.Implements Integral.spec .opaqueAdd :=
  msvc_opaque2 (by decide) (· + ·) (fun _ _ _ _ => Iff.rfl)

theorem opaqueSub_ok :
    opaqueSub.Implements Integral.spec .opaqueSub :=
  msvc_opaque2 (by decide) (· - ·) (fun _ _ _ _ => Iff.rfl)

theorem opaqueNegateLock_ok :
    opaqueNegateLock.Implements Integral.spec (fun _ => .opaqueNegate) :=
  msvc_lock1 (- ·) (fun _ _ _ _ => Iff.rfl)

theorem opaqueAnd_ok :
    opaqueAnd.Implements Integral.spec .opaqueAnd :=
  msvc_opaque2 (by decide) (· &&& ·) (fun _ _ _ _ => Iff.rfl)

theorem opaqueOr_ok :
    opaqueOr.Implements Integral.spec .opaqueOr :=
  msvc_opaque2 (by decide) (· ||| ·) (fun _ _ _ _ => Iff.rfl)

theorem opaqueXor_ok :
    opaqueXor.Implements Integral.spec .opaqueXor :=
  msvc_opaque2 (by decide) (· ^^^ ·) (fun _ _ _ _ => Iff.rfl)

theorem opaqueComplementLock_ok :
    opaqueComplementLock.Implements Integral.spec (fun _ => .opaqueComplement) :=
  msvc_lock1 (~~~ ·) (fun _ _ _ _ => Iff.rfl)

theorem addAndTest_ok :
    addAndTest.Implements Integral.spec .addAndTest :=
  msvc_test2 (by decide) (· + ·) (fun _ _ _ _ => Iff.rfl)

theorem subAndTest_ok :
    subAndTest.Implements Integral.spec .subAndTest :=
  msvc_test2 (by decide) (· - ·) (fun _ _ _ _ => Iff.rfl)

theorem andAndTest_ok :
    andAndTest.Implements Integral.spec .andAndTest :=
  msvc_test2 (by decide) (· &&& ·) (fun _ _ _ _ => Iff.rfl)

theorem orAndTest_ok :
    orAndTest.Implements Integral.spec .orAndTest :=
  msvc_test2 (by decide) (· ||| ·) (fun _ _ _ _ => Iff.rfl)

theorem xorAndTest_ok :
    xorAndTest.Implements Integral.spec .xorAndTest :=
  msvc_test2 (by decide) (· ^^^ ·) (fun _ _ _ _ => Iff.rfl)

theorem bitTestAndSet_ok :
    bitTestAndSet.Implements Integral.spec .bitTestAndSet :=
  msvc_bit (by decide) (· ||| ·) (fun m b => ⟨Integral.setsBit_or m b, rfl⟩)

theorem bitTestAndReset_ok :
    bitTestAndReset.Implements Integral.spec .bitTestAndReset :=
  msvc_bit (by decide) (fun m k => m &&& ~~~ k) (fun m b => ⟨Integral.setsBit_reset m b, rfl⟩)

theorem bitTestAndComplement_ok :
    bitTestAndComplement.Implements Integral.spec .bitTestAndComplement :=
  msvc_bit (by decide) (· ^^^ ·) (fun m b => ⟨Integral.setsBit_xor m b, rfl⟩)

end Msvc2

namespace Msvc4

theorem fetchNegate_ok :
    fetchNegate.Implements Integral.spec (fun _ => .fetchNegate) :=
  msvc_fetch1 (by decide) (- ·) (fun _ _ _ _ => Iff.rfl)

theorem negate_ok :
    negate.Implements Integral.spec (fun _ => .negate) :=
  msvc_new1 (by decide) (- ·) (fun _ _ _ _ => Iff.rfl)

theorem negateAndTest_ok :
    negateAndTest.Implements Integral.spec (fun _ => .negateAndTest) :=
  msvc_test1 (by decide) (- ·) (fun _ _ _ _ => Iff.rfl)

theorem opaqueNegate_ok :
    opaqueNegate.Implements Integral.spec (fun _ => .opaqueNegate) :=
  msvc_opaque1 (by decide) (- ·) (fun _ _ _ _ => Iff.rfl)

theorem bitwiseAnd_ok :
    bitwiseAnd.Implements Integral.spec .bitwiseAnd :=
  msvc_new2 (by decide) (· &&& ·) (fun _ _ _ _ => Iff.rfl)

theorem bitwiseOr_ok :
    bitwiseOr.Implements Integral.spec .bitwiseOr :=
  msvc_new2 (by decide) (· ||| ·) (fun _ _ _ _ => Iff.rfl)

theorem bitwiseXor_ok :
    bitwiseXor.Implements Integral.spec .bitwiseXor :=
  msvc_new2 (by decide) (· ^^^ ·) (fun _ _ _ _ => Iff.rfl)

theorem fetchComplement_ok :
    fetchComplement.Implements Integral.spec (fun _ => .fetchComplement) :=
  msvc_fetch1 (by decide) (~~~ ·) (fun _ _ _ _ => Iff.rfl)

theorem bitwiseComplement_ok :
    bitwiseComplement.Implements Integral.spec (fun _ => .bitwiseComplement) :=
  msvc_new1 (by decide) (~~~ ·) (fun _ _ _ _ => Iff.rfl)

theorem complementAndTest_ok :
    complementAndTest.Implements Integral.spec (fun _ => .complementAndTest) :=
  msvc_test1 (by decide) (~~~ ·) (fun _ _ _ _ => Iff.rfl)

theorem opaqueComplement_ok :
    opaqueComplement.Implements Integral.spec (fun _ => .opaqueComplement) :=
  msvc_opaque1 (by decide) (~~~ ·) (fun _ _ _ _ => Iff.rfl)

theorem opaqueAdd_ok :
    opaqueAdd.Implements Integral.spec .opaqueAdd :=
  msvc_opaque2 (by decide) (· + ·) (fun _ _ _ _ => Iff.rfl)

theorem opaqueSub_ok :
    opaqueSub.Implements Integral.spec .opaqueSub :=
  msvc_opaque2 (by decide) (· - ·) (fun _ _ _ _ => Iff.rfl)

theorem opaqueNegateLock_ok :
    opaqueNegateLock.Implements Integral.spec (fun _ => .opaqueNegate) :=
  msvc_lock1 (- ·) (fun _ _ _ _ => Iff.rfl)

theorem opaqueAnd_ok :
    opaqueAnd.Implements Integral.spec .opaqueAnd :=
  msvc_opaque2 (by decide) (· &&& ·) (fun _ _ _ _ => Iff.rfl)

theorem opaqueOr_ok :
    opaqueOr.Implements Integral.spec .opaqueOr :=
  msvc_opaque2 (by decide) (· ||| ·) (fun _ _ _ _ => Iff.rfl)

theorem opaqueXor_ok :
    opaqueXor.Implements Integral.spec .opaqueXor :=
  msvc_opaque2 (by decide) (· ^^^ ·) (fun _ _ _ _ => Iff.rfl)

theorem opaqueComplementLock_ok :
    opaqueComplementLock.Implements Integral.spec (fun _ => .opaqueComplement) :=
  msvc_lock1 (~~~ ·) (fun _ _ _ _ => Iff.rfl)

theorem addAndTest_ok :
    addAndTest.Implements Integral.spec .addAndTest :=
  msvc_test2 (by decide) (· + ·) (fun _ _ _ _ => Iff.rfl)

theorem subAndTest_ok :
    subAndTest.Implements Integral.spec .subAndTest :=
  msvc_test2 (by decide) (· - ·) (fun _ _ _ _ => Iff.rfl)

theorem andAndTest_ok :
    andAndTest.Implements Integral.spec .andAndTest :=
  msvc_test2 (by decide) (· &&& ·) (fun _ _ _ _ => Iff.rfl)

theorem orAndTest_ok :
    orAndTest.Implements Integral.spec .orAndTest :=
  msvc_test2 (by decide) (· ||| ·) (fun _ _ _ _ => Iff.rfl)

theorem xorAndTest_ok :
    xorAndTest.Implements Integral.spec .xorAndTest :=
  msvc_test2 (by decide) (· ^^^ ·) (fun _ _ _ _ => Iff.rfl)

theorem bitTestAndComplement_ok :
    bitTestAndComplement.Implements Integral.spec .bitTestAndComplement :=
  msvc_bit (by decide) (· ^^^ ·) (fun m b => ⟨Integral.setsBit_xor m b, rfl⟩)

theorem bitTestAndSet_ok :
    bitTestAndSet.Implements Integral.spec .bitTestAndSet :=
  msvc_bit (by decide) (· ||| ·) (fun m b => ⟨Integral.setsBit_or m b, rfl⟩)

theorem bitTestAndReset_ok :
    bitTestAndReset.Implements Integral.spec .bitTestAndReset :=
  msvc_bit (by decide) (fun m k => m &&& ~~~ k) (fun m b => ⟨Integral.setsBit_reset m b, rfl⟩)

end Msvc4

namespace Msvc8

theorem storeAvx_ok :
    storeAvx.Implements Integral.spec .store := by
  intro a
  asm_pair [storeAvx, put_whole] half64 [0] (fun _ x r => r 0 = x 0 ∧ r 1 = x 1 ∧ r 21 = x 21) [] 6

theorem storeSse2_ok :
    storeSse2.Implements Integral.spec .store := by
  intro a
  asm_pair [storeSse2, put_whole] half64 [0] (fun _ x r => r 0 = x 0 ∧ r 1 = x 1 ∧ r 21 = x 21) [] 6

theorem storeX87_ok :
    storeX87.Implements Integral.spec .store := by
  intro a
  asm_pair [storeX87, put_whole] half64 [0] (fun _ x r => r 0 = x 0 ∧ r 1 = x 1 ∧ r 21 = x 21) [] 6

theorem storeLoop_ok :
    storeLoop.Implements Integral.spec .store := by
  intro a
  asm_pair [storeLoop, put_whole] half64 [0, 6] (fun pc x r => if pc = 0 then r 0 = x 0 ∧ r 1 = x 1 ∧ r 21 = x 21 ∧ r 43 = x 43 else r 47 = x 0 ∧ r 4 = x 43 ∧ r 43 = x 1 ∧ r 41 = x 21) [43] 20

theorem loadAvx_ok :
    loadAvx.Implements Integral.spec (fun _ => .load) := by
  intro a
  asm_pair [loadAvx, put_whole] half64 [0] (fun _ x r => r 0 = x 0) [] 6

theorem loadSse2_ok :
    loadSse2.Implements Integral.spec (fun _ => .load) := by
  intro a
  asm_pair [loadSse2, put_whole] half64 [0] (fun _ x r => r 0 = x 0) [] 6

theorem loadX87_ok :
    loadX87.Implements Integral.spec (fun _ => .load) := by
  intro a
  asm_pair [loadX87, put_whole] half64 [0] (fun _ x r => r 0 = x 0) [] 6

theorem loadCas_ok :
    loadCas.Implements Integral.spec (fun _ => .load) := by
  intro a
  asm_pair [loadCas, put_whole] half64 [0] (fun _ x r => r 0 = x 0 ∧ r 43 = x 43) [] 12

theorem cas_ok :
    cas.Implements Integral.spec (fun a => .casStrong a.1 a.2) := by
  rintro ⟨e, d⟩
  asm_pair [cas, put_whole] half64 [0] (fun _ x r => r 0 = x 0 ∧ r 1 = x 1 ∧ r 21 = x 21 ∧ r 2 = x 2 ∧ r 22 = x 22 ∧ r 43 = x 43) [43] 24

theorem exchange_ok :
    exchange.Implements Integral.spec .exchange := by
  intro a
  asm_pair [exchange, put_whole] half64 [0, 6] (fun pc x r => if pc = 0 then r 0 = x 0 ∧ r 1 = x 1 ∧ r 21 = x 21 ∧ r 43 = x 43 else r 47 = x 0 ∧ r 4 = x 43 ∧ r 43 = x 1 ∧ r 41 = x 21) [43] 24

end Msvc8

end Verif.Asm
