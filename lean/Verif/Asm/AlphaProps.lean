import Verif.Asm.AlphaOps
import Verif.Asm.LoopLemmas
import Verif.Asm.AlphaProofs

/-
Atomic objects on Alpha.
What is proved about them: `C48_*`, that each function does what its operation prescribes, for all arguments,
all register assignments the compiler may choose and all interference; `C49_*`, that an object on which any number
of cores execute all operations is linearizable.  Written by tools/asmgen.py.
-/

namespace Verif.Asm

theorem Alpha4.core_ok : Alpha4.core.Ok where
  load := Code.Does.once (plainLoad_ok (by decide) ())
  store v := Code.Does.once (plainStore_ok v)
  exchange v := Code.Does.once (Alpha4.exchange_ok v)
  casWeak e d := Alpha4.compareExchangeWeak_ok (e, d)
  casStrong e d := Alpha4.compareExchangeStrong_ok (e, d)
  fetchAdd v := Code.Does.once (Alpha4.fetchAdd_ok v)
  fetchSub v := Code.Does.once (Alpha4.fetchSub_ok v)
  fetchAnd v := Code.Does.once (Alpha4.fetchAnd_ok v)
  fetchOr v := Code.Does.once (Alpha4.fetchOr_ok v)
  fetchXor v := Code.Does.once (Alpha4.fetchXor_ok v)

/-- Alpha, objects of 4 bytes: each function does what its operation prescribes. -/
theorem C48_alpha_4 :
    Alpha4.exchange.Implements Integral.spec .exchange ∧
    Alpha4.compareExchangeWeak.Implements Integral.spec (fun a => .casWeak a.1 a.2) ∧
    Alpha4.fetchAdd.Implements Integral.spec .fetchAdd ∧
    Alpha4.fetchSub.Implements Integral.spec .fetchSub ∧
    Alpha4.fetchAnd.Implements Integral.spec .fetchAnd ∧
    Alpha4.fetchOr.Implements Integral.spec .fetchOr ∧
    Alpha4.fetchXor.Implements Integral.spec .fetchXor :=
  ⟨Alpha4.exchange_ok,
    Alpha4.compareExchangeWeak_ok,
    Alpha4.fetchAdd_ok,
    Alpha4.fetchSub_ok,
    Alpha4.fetchAnd_ok,
    Alpha4.fetchOr_ok,
    Alpha4.fetchXor_ok⟩

/-- Alpha, objects of 4 bytes: strong compare-and-exchange if the operand `expected` is held
sign-extended, see `Verif.Asm.Findings`. -/
theorem C48_alpha_4_partial :
    (Alpha4.compareExchangeStrong.sext 0).Implements Integral.spec (fun a => .casStrong a.1 a.2) :=
  Alpha4.compareExchangeStrong_ok

/-- Alpha, objects of 4 bytes: concurrent calls of all operations are linearizable (strong
compare-and-exchange if the operand `expected` is held sign-extended, see `Verif.Asm.Findings`). -/
theorem C49_alpha_4_partial : AtomicByLoops Alpha4.core false :=
  atomicByLoops_of_ok Alpha4.core_ok false

theorem Alpha8.core_ok : Alpha8.core.Ok where
  load := Code.Does.once (plainLoad_ok (by decide) ())
  store v := Code.Does.once (plainStore_ok v)
  exchange v := Code.Does.once (Alpha8.exchange_ok v)
  casWeak e d := Alpha8.compareExchangeWeak_ok (e, d)
  casStrong e d := Alpha8.compareExchangeStrong_ok (e, d)
  fetchAdd v := Code.Does.once (Alpha8.fetchAdd_ok v)
  fetchSub v := Code.Does.once (Alpha8.fetchSub_ok v)
  fetchAnd v := Code.Does.once (Alpha8.fetchAnd_ok v)
  fetchOr v := Code.Does.once (Alpha8.fetchOr_ok v)
  fetchXor v := Code.Does.once (Alpha8.fetchXor_ok v)

/-- Alpha, objects of 8 bytes: each function does what its operation prescribes. -/
theorem C48_alpha_8 :
    Alpha8.exchange.Implements Integral.spec .exchange ∧
    Alpha8.compareExchangeWeak.Implements Integral.spec (fun a => .casWeak a.1 a.2) ∧
    Alpha8.compareExchangeStrong.Implements Integral.spec (fun a => .casStrong a.1 a.2) ∧
    Alpha8.fetchAdd.Implements Integral.spec .fetchAdd ∧
    Alpha8.fetchSub.Implements Integral.spec .fetchSub ∧
    Alpha8.fetchAnd.Implements Integral.spec .fetchAnd ∧
    Alpha8.fetchOr.Implements Integral.spec .fetchOr ∧
    Alpha8.fetchXor.Implements Integral.spec .fetchXor :=
  ⟨Alpha8.exchange_ok,
    Alpha8.compareExchangeWeak_ok,
    Alpha8.compareExchangeStrong_ok,
    Alpha8.fetchAdd_ok,
    Alpha8.fetchSub_ok,
    Alpha8.fetchAnd_ok,
    Alpha8.fetchOr_ok,
    Alpha8.fetchXor_ok⟩

/-- Alpha, objects of 8 bytes: concurrent calls of all operations are linearizable. -/
theorem C49_alpha_8 : AtomicByLoops Alpha8.core false :=
  atomicByLoops_of_ok Alpha8.core_ok false

/-- Alpha, values of 1 or 2 bytes kept extended in words: `fetch_add` and `fetch_sub` do what they
should, and leave an extended value in the word. -/
theorem C48_alpha_word :
    AlphaWord.fetchAdd1u.Implements (inWord (BitVec.setWidth 32)) (.fetchAdd (N := 8)) ∧
    AlphaWord.fetchSub1u.Implements (inWord (BitVec.setWidth 32)) (.fetchSub (N := 8)) ∧
    AlphaWord.fetchAdd1s.Implements (inWord (BitVec.signExtend 32)) (.fetchAdd (N := 8)) ∧
    AlphaWord.fetchSub1s.Implements (inWord (BitVec.signExtend 32)) (.fetchSub (N := 8)) ∧
    AlphaWord.fetchAdd2u.Implements (inWord (BitVec.setWidth 32)) (.fetchAdd (N := 16)) ∧
    AlphaWord.fetchSub2u.Implements (inWord (BitVec.setWidth 32)) (.fetchSub (N := 16)) ∧
    AlphaWord.fetchAdd2s.Implements (inWord (BitVec.signExtend 32)) (.fetchAdd (N := 16)) ∧
    AlphaWord.fetchSub2s.Implements (inWord (BitVec.signExtend 32)) (.fetchSub (N := 16)) :=
  ⟨AlphaWord.fetchAdd1u_ok,
    AlphaWord.fetchSub1u_ok,
    AlphaWord.fetchAdd1s_ok,
    AlphaWord.fetchSub1s_ok,
    AlphaWord.fetchAdd2u_ok,
    AlphaWord.fetchSub2u_ok,
    AlphaWord.fetchAdd2s_ok,
    AlphaWord.fetchSub2s_ok⟩

end Verif.Asm
