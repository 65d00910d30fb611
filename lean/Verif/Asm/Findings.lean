import Verif.Asm.Reach
import Verif.Asm.ArmCode
import Verif.Asm.AArch32Code
import Verif.Asm.A64Ops
import Verif.Asm.PpcCode
import Verif.Asm.AlphaCode
import Verif.Asm.SparcCode
import Verif.Asm.X86DcasCode

/-
Functions that do not do what they should, for some choice of registers the constraints permit.  Each
theorem exhibits a register assignment and an execution without interference.
-/

namespace Verif.Asm

/-- Registers chosen for the operands: operand `s` in register `s`, except that `t` is in register `u`. -/
def sharing (t u : Slot) : Slot → Nat := fun s => if s = t then u else s

/-- Initial contents of the registers. -/
def regs {R : Nat} (l : List (Nat × BitVec R)) : Nat → BitVec R := fun k => (l.lookup k).getD 0

/-- Check the contents of the operands. -/
macro "args" : tactic => `(tactic|
  first | exact rfl | trivial | exact ⟨rfl, rfl⟩ | exact ⟨rfl, rfl, rfl⟩ | exact ⟨rfl, rfl, rfl, rfl⟩)

/-! ### ARM: `compare_exchange_*` to the value 0

`[success] "+r" (success)` is not an early-clobber operand although it is written (by `strexeq`) while
`desired` and `storage` are still needed (core_arch_ops_gcc_arm.hpp 114–187 and the same in the other sizes).
If `desired` is 0, as `success` is on entry, the compiler may keep both in one register, and `strex` with
the same register for status and source is unpredictable. -/

theorem C48_arm_1_violated (thumb : Bool) :
    ¬ (Arm1.compareExchangeWeak thumb).Implements Integral.spec (fun a => .casWeak a.1 a.2) ∧
    ¬ (Arm1.compareExchangeStrong thumb).Implements Integral.spec (fun a => .casStrong a.1 a.2) := by
  refine ⟨fun h => ?_, fun h => ?_⟩ <;> cases thumb <;>
  exact absurd ((h (5, 0)).alone (sharing 5 1) ⟨by decide, by decide, by decide⟩ 4096
    (regs [(3, 4096), (4, 5)]) (by decide) (by args) (by decide) ⟨false, false⟩ 5 (fun _ => 0) 20).1 (by decide)

theorem C48_arm_2_violated (thumb : Bool) :
    ¬ (Arm2.compareExchangeWeak thumb).Implements Integral.spec (fun a => .casWeak a.1 a.2) ∧
    ¬ (Arm2.compareExchangeStrong thumb).Implements Integral.spec (fun a => .casStrong a.1 a.2) := by
  refine ⟨fun h => ?_, fun h => ?_⟩ <;> cases thumb <;>
  exact absurd ((h (5, 0)).alone (sharing 5 1) ⟨by decide, by decide, by decide⟩ 4096
    (regs [(3, 4096), (4, 5)]) (by decide) (by args) (by decide) ⟨false, false⟩ 5 (fun _ => 0) 20).1 (by decide)

theorem C48_arm_4_violated (thumb : Bool) :
    ¬ (Arm4.compareExchangeWeak thumb).Implements Integral.spec (fun a => .casWeak a.1 a.2) ∧
    ¬ (Arm4.compareExchangeStrong thumb).Implements Integral.spec (fun a => .casStrong a.1 a.2) := by
  refine ⟨fun h => ?_, fun h => ?_⟩ <;> cases thumb <;>
  exact absurd ((h (5, 0)).alone (sharing 5 1) ⟨by decide, by decide, by decide⟩ 4096
    (regs [(3, 4096), (4, 5)]) (by decide) (by args) (by decide) ⟨false, false⟩ 5 (fun _ => 0) 20).1 (by decide)

/-- The same if one half of the desired value is 0. -/
theorem C48_arm_8_violated (thumb be : Bool) :
    ¬ (Arm8.compareExchangeWeak thumb be).Implements Integral.spec (fun a => .casWeak a.1 a.2) ∧
    ¬ (Arm8.compareExchangeStrong thumb be).Implements Integral.spec (fun a => .casStrong a.1 a.2) := by
  refine ⟨fun h => ?_, fun h => ?_⟩ <;> cases thumb <;> cases be <;>
  exact absurd ((h (0x500000005, 0)).alone (sharing 5 2) ⟨by decide, by decide, by decide⟩ 4096
    (regs [(3, 4096), (4, 5), (24, 5)]) (by decide) (by args) (by decide) ⟨false, false⟩ 0x500000005
    (fun _ => 0) 20).1 (by decide)

/-! ### AArch32: narrow `compare_exchange_*` changes an input

`uxtb %[expected], %[expected]` changes a register that is declared as input only
(core_arch_ops_gcc_aarch32.hpp 129–191, 411–473): the compiler may rely on its upper bits after the block,
or keep another input in the same register. -/

theorem C48_aarch32_1_violated :
    ¬ AArch32x1.compareExchangeWeak.Implements Integral.spec (fun a => .casWeak a.1 a.2) ∧
    ¬ AArch32x1.compareExchangeStrong.Implements Integral.spec (fun a => .casStrong a.1 a.2) := by
  refine ⟨fun h => ?_, fun h => ?_⟩ <;>
  exact absurd (((h (5, 7)).alone id ⟨by decide, by decide, by decide⟩ 4096
    (regs [(2, 4096), (3, 0x105), (4, 7)]) (by decide) (by args) (by decide) ⟨false, false⟩ 5
    (fun _ => 0) 20).2.2.2.2 (by decide) 3 (by decide)) (by decide)

theorem C48_aarch32_2_violated :
    ¬ AArch32x2.compareExchangeWeak.Implements Integral.spec (fun a => .casWeak a.1 a.2) ∧
    ¬ AArch32x2.compareExchangeStrong.Implements Integral.spec (fun a => .casStrong a.1 a.2) := by
  refine ⟨fun h => ?_, fun h => ?_⟩ <;>
  exact absurd (((h (5, 7)).alone id ⟨by decide, by decide, by decide⟩ 4096
    (regs [(2, 4096), (3, 0x10005), (4, 7)]) (by decide) (by args) (by decide) ⟨false, false⟩ 5
    (fun _ => 0) 20).2.2.2.2 (by decide) 3 (by decide)) (by decide)

/-! ### AArch64: narrow `compare_exchange_*` changes an input

The same: `uxtb %w[expected], %w[expected]` (core_arch_ops_gcc_aarch64.hpp 151–246, 557–652). -/

theorem C48_aarch64_1_violated :
    ¬ A64x1.compareExchangeWeak.Implements Integral.spec (fun a => .casWeak a.1 a.2) ∧
    ¬ A64x1.compareExchangeStrong.Implements Integral.spec (fun a => .casStrong a.1 a.2) := by
  refine ⟨fun h => ?_, fun h => ?_⟩ <;>
  exact absurd (((h (5, 7)).alone id ⟨by decide, by decide, by decide⟩ 4096
    (regs [(1, 4096), (4, 0x105), (3, 7)]) (by decide) (by args) (by decide) ⟨false, false⟩ 5
    (fun _ => 0) 20).2.2.2.2 (by decide) 4 (by decide)) (by decide)

theorem C48_aarch64_2_violated :
    ¬ A64x2.compareExchangeWeak.Implements Integral.spec (fun a => .casWeak a.1 a.2) ∧
    ¬ A64x2.compareExchangeStrong.Implements Integral.spec (fun a => .casStrong a.1 a.2) := by
  refine ⟨fun h => ?_, fun h => ?_⟩ <;>
  exact absurd (((h (5, 7)).alone id ⟨by decide, by decide, by decide⟩ 4096
    (regs [(1, 4096), (4, 0x10005), (3, 7)]) (by decide) (by args) (by decide) ⟨false, false⟩ 5
    (fun _ => 0) 20).2.2.2.2 (by decide) 4 (by decide)) (by decide)

/-! ### AArch64: a failing `compare_exchange_*` of 16 bytes reports a value the object never had

`ldxp` does not read both halves at one moment unless a store-exclusive succeeds after it, as the
comment in core_arch_ops_gcc_aarch64.hpp 1668–1680 says; `load` therefore stores the value back
(1702–1768).  If the comparison fails, compare-and-exchange stores nothing, and returns what it read
(1797–1864). -/

theorem not_explained {R M : Nat} {Op Ret : Type} {spec : SeqSpec (BitVec M) Op Ret} {op : Op} {c : Cpu R M}
    {r : Ret} (hw : c.wrote = []) (l : List (BitVec M)) (hs : c.seen = l) (r' : Ret) (hr : r = r')
    (hn : ∀ m ∈ l, ¬ spec m op m r') : ¬ Explains spec op c r := by
  rintro (⟨m, m', h, -⟩ | ⟨-, m, hm, h⟩)
  · rw [hw] at h; cases h
  · exact hn m (hs ▸ hm) (hr ▸ h)

set_option hygiene false in
/-- The first half of the object is read, then both halves are replaced, then the second half is read. -/
macro "torn" v:term : tactic => `(tactic|
  (have hs := (h (0x50000000000000005, 0x70000000000000007)).sound id ⟨by decide, by decide, by decide⟩ 4096
      (regs [(1, 4096), (4, 7), (5, 7), (6, 5), (7, 5)]) ⟨false, false⟩ none (by decide) (by args) (by decide) _ _
      (alone_reach (fun _ => 0) 8 _ _ (.env 0x10000000000000001 0
        (alone_reach (fun _ => 0) 2 _ _ (.start ⟨0, 0⟩ (by simp [entry])))))
   exact not_explained (by kernel_rfl) [0, 0x10000000000000001] (by kernel_rfl) (.cas false $v)
      (by kernel_rfl) (by simp [Integral.spec]) (hs.2.2.2.1 (by kernel_rfl))))

theorem C48_aarch64_16_violated (be : Bool) :
    ¬ (A64x16.compareExchangeWeak be).Implements Integral.spec (fun a => .casWeak a.1 a.2) ∧
    ¬ (A64x16.compareExchangeStrong be).Implements Integral.spec (fun a => .casStrong a.1 a.2) := by
  refine ⟨fun h => ?_, fun h => ?_⟩
  · cases be
    · torn 0x10000000000000000
    · torn 1
  · cases be
    · torn 0x10000000000000000
    · torn 1

/-! ### PowerPC: narrow `compare_exchange_strong` compares more than the object

`lbarx` and `lharx` clear the upper bits of the register, `cmpw` compares 32 bits (core_arch_ops_gcc_ppc.hpp
419–484, 787–852).  Nothing tells the compiler to extend the operand `expected`. -/

theorem C48_ppc_1_violated :
    ¬ (Ppc1.compareExchangeStrong 32).Implements Integral.spec (fun a => .casStrong a.1 a.2) ∧
    ¬ (Ppc1.compareExchangeStrong 64).Implements Integral.spec (fun a => .casStrong a.1 a.2) := by
  refine ⟨fun h => ?_, fun h => ?_⟩ <;>
  exact not_explained (by kernel_rfl) [5] (by kernel_rfl) (.cas false 5) (by kernel_rfl) (by simp [Integral.spec])
    (((h (5, 7)).alone id ⟨by decide, by decide, by decide⟩ 4096
      (regs [(2, 4096), (3, 0x105), (4, 7)]) (by decide) (by args) (by decide) ⟨false, false⟩ 5
      (fun _ => 0) 20).2.2.2.1 (by kernel_rfl))

theorem C48_ppc_2_violated :
    ¬ (Ppc2.compareExchangeStrong 32).Implements Integral.spec (fun a => .casStrong a.1 a.2) ∧
    ¬ (Ppc2.compareExchangeStrong 64).Implements Integral.spec (fun a => .casStrong a.1 a.2) := by
  refine ⟨fun h => ?_, fun h => ?_⟩ <;>
  exact not_explained (by kernel_rfl) [5] (by kernel_rfl) (.cas false 5) (by kernel_rfl) (by simp [Integral.spec])
    (((h (5, 7)).alone id ⟨by decide, by decide, by decide⟩ 4096
      (regs [(2, 4096), (3, 0x10005), (4, 7)]) (by decide) (by args) (by decide) ⟨false, false⟩ 5
      (fun _ => 0) 20).2.2.2.1 (by kernel_rfl))

/-! ### Alpha: 4-byte `compare_exchange_strong` compares more than the object

`ldl_l` extends the sign into the upper half of the register, `cmpeq` compares 64 bits (core_arch_ops_gcc_alpha.hpp
171–207).  Nothing in the constraints tells the compiler to extend the operand `expected` (it does so on its own
for most values, since 32-bit values are kept sign-extended on Alpha). -/

theorem C48_alpha_4_violated :
    ¬ Alpha4.compareExchangeStrong.Implements Integral.spec (fun a => .casStrong a.1 a.2) := by
  intro h
  exact not_explained (by kernel_rfl) [5] (by kernel_rfl) (.cas false 5) (by kernel_rfl) (by simp [Integral.spec])
    (((h (5, 7)).alone id ⟨by decide, by decide, by decide⟩ 4096
      (regs [(0, 0x100000005), (4, 4096), (5, 7)]) (by decide) (by args) (by decide) ⟨false, false⟩ 5
      (fun _ => 0) 20).2.2.2.1 (by kernel_rfl))

/-! ### SPARC: 8-byte `compare_exchange_strong` in 32-bit mode

The back end is also used in 32-bit mode (`__sparcv8plus`, platform.hpp 77) and claims to support 8 bytes there
(caps_arch_gcc_sparc.hpp 28).  In this mode the compiler keeps a 64-bit value in two registers, the upper
word in the first and the lower word in the second; `%0` is the name of the first.  `casx` works with the 64 bits of the
registers it is given (core_arch_ops_gcc_sparc.hpp 175–194). -/

/-- `compare_exchange_strong`, core_arch_ops_gcc_sparc.hpp 175–194 (assembly block 180–186), compiled for 32-bit
mode: operands are pairs of registers of which the lower halves are used.  The second registers are
slots 20 and 22. -/
def SparcV8plus.compareExchangeStrong : Fn 64 64 (BitVec 64 × BitVec 64) (Integral.Ret 64) where
  block := {
    prog := [Sparc.casx 1 2 0]
    opnds := [(0, .inout), (20, .inout), (1, .input), (2, .input), (22, .input)]
    addr := [1]
    results := [0, 20] }
  args a x := (x 0).setWidth 32 = upper 32 a.2 ∧ (x 20).setWidth 32 = lower 32 a.2 ∧
    (x 2).setWidth 32 = upper 32 a.1 ∧ (x 22).setWidth 32 = lower 32 a.1
  ret a r :=
    let v := (r 0).setWidth 32 ++ (r 20).setWidth 32
    .cas (v == a.1) v

theorem C48_sparc_v8plus_8_violated :
    ¬ SparcV8plus.compareExchangeStrong.Implements Integral.spec (fun a => .casStrong a.1 a.2) := by
  intro h
  exact not_explained (by kernel_rfl) [5] (by kernel_rfl) (.cas false 0x500000007) (by kernel_rfl) (by simp [Integral.spec])
    (((h (5, 7)).alone id ⟨by decide, by decide, by decide⟩ 4096
      (regs [(1, 4096), (20, 7), (22, 5)]) (by decide) (by args) (by decide) ⟨false, false⟩ 5
      (fun _ => 0) 20).2.2.2.1 (by kernel_rfl))

/-! ### x86, 32-bit mode: `store` changes `esi` and `eax`

Where `ebx` has to be preserved (`BOOST_ATOMIC_DETAIL_X86_ASM_PRESERVE_EBX`, config.hpp 67–71) the block of `store`
(core_arch_ops_gcc_x86.hpp 510–523) saves it in `esi`, whose contents are lost, and loads the old value to `eax`.
`esi` is not an operand and not declared as changed; `eax` is declared as input only. -/

/-- The registers of the block. -/
def picRegs : Slot → Nat := fun s => ([(0, 0), (1, 1), (2, 7), (42, 2), (43, 3), (46, 6)].lookup s).getD s

theorem C48_x86_dcas_8_violated : ¬ X86d8.storePic.Implements Integral.spec .store := by
  intro h
  exact absurd (((h 0x700000005).alone picRegs ⟨by decide, by decide, by decide⟩ 4096
    (regs [(0, 5), (1, 7), (7, 4096), (3, 99), (6, 77)]) (by decide) (by args) (by decide) ⟨false, false⟩ 1
    (fun _ => 0) 20).2.2.2.2 (by decide) 6 (by decide)) (by decide)

end Verif.Asm
