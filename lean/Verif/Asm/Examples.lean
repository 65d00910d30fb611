import Verif.Asm.Findings
import Verif.Asm.Ops
import Verif.Asm.ArmOps
import Verif.Asm.AArch32Ops
import Verif.Asm.A64Ops
import Verif.Asm.PpcOps
import Verif.Asm.AlphaOps
import Verif.Asm.SparcOps
import Verif.Asm.X86Ops
import Verif.Asm.X86DcasOps
import Verif.Asm.MsvcOps

/-
Concrete executions that meet the hypotheses of the theorems in `ArmProps`, `AArch32Props`, `A64Props`,
`PpcProps`, `AlphaProps`, `SparcProps`, `X86Props`, `X86DcasProps` and `MsvcProps`.
-/

namespace Verif.Asm

variable {R M : Nat} {A Op Ret : Type}

/-- A run of a function by a core that is alone with the object: with the operands in the registers `ρ`
and the given register contents, the object changes from `v` to `v'` and the function returns `r`. -/
structure Runs (f : Fn R M A Ret) (a : A) (ρ : Slot → Nat) (reg : Nat → BitVec R) (v v' : BitVec M)
    (r : Ret) : Prop where
  legal : f.block.Legal ρ
  args : f.args a fun s => reg (ρ s)
  addr : ∀ s ∈ f.block.addr, reg (ρ s) = 4096
  ends : ∃ n junk, let s := alone f.block.prog ρ junk n (⟨v, 0⟩, entry 4096 reg ⟨false, false⟩ none)
    s.2.pc = f.block.prog.length ∧ s.2.bad = false ∧ s.1.val = v' ∧ f.ret a (fun k => s.2.reg (ρ k)) = r

/-- Evaluate a run of at most `n` instructions. -/
macro "run" n:num : tactic => `(tactic|
  exact ⟨⟨by decide, by decide, by decide⟩, by args, by decide, $n, fun _ => 0xAA, rfl, rfl, rfl, rfl⟩)

/-- Such a run is an execution of the machine with the given functions. -/
theorem alone_exec {code : Op → Code R M Ret} {base : BitVec R} {op : Op} {ρ : Slot → Nat}
    {junk : Slot → BitVec R} {sh₀ : Cell M} {H : List (Event Nat Op Ret)} (i : Nat) :
    ∀ n m c (calls : Nat → CallSt Op (Local R M Op) Ret),
      Exec (machine code base) sh₀ ⟨m, calls⟩ H → calls i = .run op (.running op ρ c) →
      ∃ calls', Exec (machine code base) sh₀ ⟨(alone (code op).block.prog ρ junk n (m, c)).1, calls'⟩ H ∧
        calls' i = .run op (.running op ρ (alone (code op).block.prog ρ junk n (m, c)).2) := by
  intro n
  induction n with
  | zero => intro m c calls h hc; exact ⟨calls, h, hc⟩
  | succ n ih =>
    intro m c calls h hc
    simp only [alone]
    split
    · exact ⟨calls, h, hc⟩
    · rename_i ins hi
      refine ih _ _ (upd calls i (.run op (.running op ρ _))) (.step i op _ _ _ h hc (.exec _ _ _ _ _ _ ?_)) (upd_same ..)
      exact ⟨ins, ⟨m.val, m.ver, decide (c.link.map Prod.fst = some m.ver), junk⟩, hi, rfl, rfl,
        fun h => of_decide_eq_true h, rfl, rfl⟩

/-- The machine of a back end can execute a call that runs, after any other calls have been made. -/
theorem Runs.exec {f : Fn R M A Ret} {a : A} {ρ reg v v' r} (h : Runs f a ρ reg v v' r)
    {code : Op → Code R M Ret} {op : Op} (hc : code op = f.code a) :
    ∃ ver calls, Exec (Id := Nat) (machine code 4096) ⟨v, 0⟩ ⟨⟨v', ver⟩, calls⟩ [.inv 0 op, .res 0 r] := by
  obtain ⟨hl, ha, hb, n, junk, h1, h2, h3, h4⟩ := h
  have e0 : Exec (Id := Nat) (machine code 4096) ⟨v, 0⟩ _ ([] ++ [.inv 0 op]) := .invoke 0 op .init rfl
  have e1 := Exec.step (M := machine code 4096) 0 op _ ⟨v, 0⟩
    (Local.running op ρ (entry 4096 reg ⟨false, false⟩ none)) e0 (by simp [machine])
    (LStep.enter op ⟨v, 0⟩ ρ reg ⟨false, false⟩ none (by rw [hc]; exact hl) (by rw [hc]; exact ha)
      (by rw [hc]; exact hb) (by simp))
  obtain ⟨calls', e2, hr⟩ := alone_exec (junk := junk) 0 n _ _ _ e1 (upd_same ..)
  rw [hc] at e2 hr
  have e3 := Exec.ret (M := machine code 4096) 0 op _ r e2 hr (by
    simp only [machine, hc, Fn.code]
    rw [if_pos h1, h4])
  subst h3
  exact ⟨_, _, e3⟩

/-! ### ARM -/

example : Runs (Arm1.fetchAdd true) 200 id (regs [(3, 4096), (4, 0xABC8)]) 100 44 (.val 100) := by run 20
example : Runs (Arm2.exchange false) 7 id (regs [(2, 4096), (3, 7)]) 65535 7 (.val 65535) := by run 20
example : Runs (Arm4.compareExchangeStrong true) (3, 4) id (regs [(3, 4096), (4, 3), (5, 4)]) 3 4 (.cas true 3) := by
  run 20
example : Runs (Arm4.compareExchangeWeak true) (3, 4) id (regs [(3, 4096), (4, 3), (5, 4)]) 9 9 (.cas false 9) := by
  run 20
/-- With the operands for the result and the expected value in one register. -/
example : Runs (Arm4.compareExchangeWeak true) (0, 4) (sharing 4 1) (regs [(3, 4096), (5, 4)]) 0 4 (.cas true 0) := by
  run 20
example : Runs (Arm8.fetchAdd false false) 1 id (regs [(3, 4096), (4, 1), (24, 0)]) 0xFFFFFFFF 0x100000000
    (.val 0xFFFFFFFF) := by run 20
example : Runs (ArmWord.fetchAdd1s true) 127 id (regs [(3, 4096), (4, 127)]) 1 0xFFFFFF80 (.val 1) := by run 20

/-- An execution of the machine of `C49_arm_4_partial`. -/
example : ∃ ver calls, Exec (Id := Nat) (opsMachine (Arm4.prims true) true (fun _ d => d ≠ 0) 4096) ⟨3, 0⟩
    ⟨⟨4, ver⟩, calls⟩ [.inv 0 ⟨.casStrong 3 4, true, show (4 : BitVec 32) ≠ 0 by decide⟩, .res 0 (.cas true 3)] :=
  (show Runs (Arm4.compareExchangeStrong true) (3, 4) id (regs [(3, 4096), (4, 3), (5, 4)]) 3 4 (.cas true 3) by
    run 20).exec rfl

/-! ### AArch32 -/

example : Runs (AArch32x1.compareExchangeStrong.writes 3) (5, 7) id (regs [(2, 4096), (3, 0x105), (4, 7)]) 5 7
    (.cas true 5) := by run 20
example : Runs AArch32x2.negate () id (regs [(2, 4096)]) 1 65535 (.val 65535) := by run 20
example : Runs AArch32x4.fetchXor 6 id (regs [(3, 4096), (4, 6)]) 5 3 (.val 5) := by run 20
example : Runs (AArch32x8.sub_ true) 1 id (regs [(2, 4096), (3, 0), (23, 1)]) 0x100000000 0xFFFFFFFF
    (.val 0xFFFFFFFF) := by run 20

/-- An execution of the machine of `C49_aarch32_4`. -/
example : ∃ ver calls, Exec (Id := Nat) (opsMachine AArch32x4.prims false anyCas 4096) ⟨5, 0⟩
    ⟨⟨3, ver⟩, calls⟩ [.inv 0 ⟨.fetchXor 6, true, trivial⟩, .res 0 (.val 5)] :=
  (show Runs AArch32x4.fetchXor 6 id (regs [(3, 4096), (4, 6)]) 5 3 (.val 5) by run 20).exec rfl

/-! ### AArch64 -/

example : Runs (A64x1.compareExchangeStrong.writes 4) (5, 7) id (regs [(1, 4096), (3, 7), (4, 0x105)]) 5 7
    (.cas true 5) := by run 20
example : Runs A64x2.fetchSub 1 id (regs [(2, 4096), (4, 0xABC0001)]) 0 65535 (.val 0) := by run 20
example : Runs A64x8.bitwiseComplement () id (regs [(1, 4096)]) 0xFF 0xFFFFFFFFFFFFFF00 (.val 0xFFFFFFFFFFFFFF00) := by
  run 20
example : Runs A64Lse4.fetchAnd 6 id (regs [(0, 4096), (2, 0xFFFFFFF9)]) 5 4 (.val 5) := by run 20
example : Runs A64Lse1.compareExchangeWeak (5, 7) id (regs [(0, 4096), (1, 0x105), (2, 7)]) 6 6 (.cas false 6) := by
  run 20
example : Runs (A64x16.fetchAdd true) 1 id (regs [(1, 4096), (6, 0), (7, 1)]) 0xFFFFFFFFFFFFFFFF 0x10000000000000000
    (.val 0xFFFFFFFFFFFFFFFF) := by run 20
example : Runs (A64x16.compareExchangeStrong false) (0x30000000000000002, 5) id
    (regs [(1, 4096), (4, 5), (5, 0), (6, 2), (7, 3)]) 0x30000000000000002 5 (.cas true 0x30000000000000002) := by run 20

/-- An execution of the machine of `C49_aarch64_lse_4`. -/
example : ∃ ver calls, Exec (Id := Nat) (opsMachine A64Lse4.prims false anyCas 4096) ⟨5, 0⟩
    ⟨⟨4, ver⟩, calls⟩ [.inv 0 ⟨.fetchAnd 6, true, trivial⟩, .res 0 (.val 5)] :=
  (show Runs A64Lse4.fetchAnd 6 id (regs [(0, 4096), (2, 0xFFFFFFF9)]) 5 4 (.val 5) by run 20).exec rfl

/-- An execution of the machine of `C49_aarch64_16_partial`. -/
example : ∃ ver calls, Exec (Id := Nat) (opsMachine (A64x16.prims true) false anyCas 4096) ⟨0xFFFFFFFFFFFFFFFF, 0⟩
    ⟨⟨0x10000000000000000, ver⟩, calls⟩ [.inv 0 ⟨.fetchAdd 1, true, trivial⟩, .res 0 (.val 0xFFFFFFFFFFFFFFFF)] :=
  (show Runs (A64x16.fetchAdd true) 1 id (regs [(1, 4096), (6, 0), (7, 1)]) 0xFFFFFFFFFFFFFFFF 0x10000000000000000
    (.val 0xFFFFFFFFFFFFFFFF) by run 20).exec rfl

/-! ### PowerPC -/

example : Runs (Ppc1.fetchAdd 32) 200 id (regs [(2, 4096), (3, 0xABC8)]) 100 44 (.val 100) := by run 20
example : Runs (Ppc1.load_1 64) () id (regs [(1, 4096)]) 100 100 (.val 100) := by run 20
example : Runs (Ppc2.exchange 64) 7 id (regs [(1, 4096), (2, 0x10007)]) 65535 7 (.val 65535) := by run 20
example : Runs (Ppc4.compareExchangeStrong 64) (3, 4) id (regs [(2, 4096), (3, 0xA00000003), (4, 4)]) 3 4 (.cas true 3) := by
  run 20
example : Runs (Ppc4.compareExchangeWeak 32) (3, 4) id (regs [(2, 4096), (3, 3), (4, 4)]) 9 9 (.cas false 9) := by run 20
/-- With the operand `expected` extended. -/
example : Runs ((Ppc1.compareExchangeStrong 64).zext 3) (3, 4) id (regs [(2, 4096), (3, 3), (4, 0x104)]) 3 4 (.cas true 3) := by
  run 20
/-- With the operand `expected` not extended: the comparison of 3 and 3 fails whenever it is tried. -/
example : Runs (Ppc1.compareExchangeWeak 64) (3, 4) id (regs [(2, 4096), (3, 0x103), (4, 4)]) 3 3 (.cas false 3) := by
  run 20
example : Runs Ppc8.bitwiseComplement () id (regs [(2, 4096)]) 1 0xFFFFFFFFFFFFFFFE (.val 0xFFFFFFFFFFFFFFFE) := by run 20
example : Runs (PpcWord.fetchAdd1s 32) 127 id (regs [(2, 4096), (3, 127)]) 1 0xFFFFFF80 (.val 1) := by run 20
example : Runs (PpcWord.fetchSub2u 64) 1 id (regs [(2, 4096), (3, 0x100000001)]) 0 65535 (.val 0) := by run 20
/-- An execution of the machine of `C49_ppc_4`. -/
example : ∃ ver calls, Exec (Id := Nat) (opsMachine (Ppc4.prims 64) true anyCas 4096) ⟨3, 0⟩
    ⟨⟨10, ver⟩, calls⟩ [.inv 0 ⟨.fetchAdd 7, true, trivial⟩, .res 0 (.val 3)] :=
  (show Runs (Ppc4.fetchAdd 64) 7 id (regs [(2, 4096), (3, 7)]) 3 10 (.val 3) by run 20).exec rfl

/-! ### Alpha -/

example : Runs Alpha4.fetchAdd 200 id (regs [(2, 4096), (3, 0xA000000C8)]) 0x7FFFFFFF 0x800000C7 (.val 0x7FFFFFFF) := by run 20
example : Runs Alpha8.exchange 7 id (regs [(2, 4096), (3, 7)]) 65535 7 (.val 65535) := by run 20
example : Runs Alpha4.compareExchangeWeak (3, 4) id (regs [(0, 3), (1, 4), (4, 4096)]) 3 4 (.cas true 3) := by run 20
example : Runs Alpha8.compareExchangeStrong (3, 4) id (regs [(0, 3), (4, 4096), (5, 4)]) 9 9 (.cas false 9) := by run 20
/-- With the operand `expected` extended. -/
example : Runs (Alpha4.compareExchangeStrong.sext 0) (0xFFFFFFFF, 4) id (regs [(0, 0xFFFFFFFFFFFFFFFF), (4, 4096), (5, 4)])
    0xFFFFFFFF 4 (.cas true 0xFFFFFFFF) := by run 20
/-- `expected` may share a register with the address if they are equal. -/
example : Runs Alpha8.compareExchangeStrong (4096, 4) (sharing 4 0) (regs [(0, 4096), (5, 4)]) 4096 4 (.cas true 4096) := by run 20
example : Runs AlphaWord.fetchAdd1s 127 id (regs [(2, 4096), (3, 127)]) 1 0xFFFFFF80 (.val 1) := by run 20
example : Runs AlphaWord.fetchSub2u 1 id (regs [(2, 4096), (3, 0x100000001)]) 0 65535 (.val 0) := by run 20

/-! ### SPARC -/

example : Runs Sparc4.compareExchangeStrong (3, 4) id (regs [(0, 4), (1, 4096), (2, 0xA00000003)]) 3 4 (.cas true 3) := by run 20
example : Runs Sparc8.compareExchangeStrong (3, 4) id (regs [(0, 4), (1, 4096), (2, 3)]) 9 9 (.cas false 9) := by run 20
example : Runs Sparc4.exchange 7 id (regs [(0, 7), (1, 4096)]) 65535 7 (.val 65535) := by run 20

/-- An execution of the machine of `C49_sparc_4`: `fetch_add` by compare-and-exchange, the first of which fails. -/
example : ∃ ver calls, Exec (Id := Nat) (routineMachine (Sparc4.core.routine true) 4096) ⟨3, 0⟩
    ⟨⟨10, ver⟩, calls⟩ [.inv 0 (.fetchAdd 7), .res 0 (.val 3)] := by
  let M := routineMachine (Sparc4.core.routine true) 4096
  have step (reg : Nat → BitVec 64) (m : Cell 32) (old : BitVec 32) :
      Step (R := 64) (((Sparc4.core.routine true (.fetchAdd 7)).code old).block.prog) id m (entry 4096 reg ⟨false, false⟩ none) _ _ :=
    ⟨Sparc.cas 1 2 0, ⟨m.val, m.ver, false, fun _ => 0⟩, rfl, rfl, rfl, by simp, rfl, rfl⟩
  have e0 : Exec (Id := Nat) M ⟨3, 0⟩ _ ([] ++ [.inv 0 (.fetchAdd 7)]) := .invoke 0 _ .init rfl
  have e1 := Exec.step (M := M) 0 _ _ _ _ e0 rfl (.start _ 5)
  have e2 := Exec.step (M := M) 0 _ _ _ _ e1 rfl
    (.enter _ _ id (regs [(0, 12), (1, 4096), (2, 5)]) ⟨false, false⟩ none ⟨by decide, by decide, by decide⟩ (by args) (by decide) (by simp))
  have e3 := Exec.step (M := M) 0 _ _ _ _ e2 rfl (.exec _ _ _ _ _ _ (step _ _ _))
  have e4 := Exec.step (M := M) 0 _ _ _ _ e3 rfl (.again _ _ _ _ 3 rfl rfl)
  have e5 := Exec.step (M := M) 0 _ _ _ _ e4 rfl
    (.enter _ _ id (regs [(0, 10), (1, 4096), (2, 3)]) ⟨false, false⟩ none ⟨by decide, by decide, by decide⟩ (by args) (by decide) (by simp))
  have e6 := Exec.step (M := M) 0 _ _ _ _ e5 rfl (.exec _ _ _ _ _ _ (step _ _ _))
  have e7 := Exec.step (M := M) 0 _ _ _ _ e6 rfl (.finish _ _ _ _ (.val 3) rfl rfl)
  have e8 := Exec.ret (M := M) 0 _ _ (.val 3) e7 rfl rfl
  exact ⟨_, _, e8⟩

/-! ### x86 -/

example : Runs (X86x1.fetchAdd 32) 250 id (regs [(0, 0xABCD00FA), (1, 4096)]) 9 3 (.val 9) := by run 20
example : Runs (X86x2.compareExchangeStrong 64) (3, 4) (fun s => if s = 0 then 0 else s + 1) (regs [(0, 3), (2, 4096), (4, 4)]) 3 4 (.cas true 3) := by run 20
example : Runs X86x8.compareExchangeStrongSet (3, 4) id (regs [(0, 3), (1, 4096), (3, 4)]) 9 9 (.cas false 9) := by run 20
example : Runs (X86x4.fetchAnd 64) 6 id (regs [(0, 77), (1, 4096), (3, 6)]) 0xC 4 (.val 0xC) := by run 20
example : Runs (X86x1.negate 32) () id (regs [(0, 7), (1, 4096)]) 1 255 (.val 255) := by run 20
example : Runs (X86x4.opaqueAddOne 32) () id (regs [(0, 4096)]) 0xFFFFFFFF 0 .unit := by run 20
example : Runs (X86x2.bitTestAndReset 32) 3 id (regs [(0, 4096), (2, 3)]) 0xFF 0xF7 (.flag true) := by run 20
example : Runs X86x8.subAndTestSet 5 id (regs [(0, 4096), (2, 5)]) 5 0 (.flag false) := by run 20

/-- Registers for the blocks with `cmpxchg8b`. -/
def place (l : List (Slot × Nat)) : Slot → Nat := fun s => (l.lookup s).getD (s + 10)

example : Runs X86d8.cas (0x200000001, 0x400000003) (place [(0, 0), (20, 2), (3, 3), (4, 1)])
    (regs [(0, 1), (2, 2), (3, 3), (1, 4), (11, 4096)]) 0x200000001 0x400000003 (.cas true 0x200000001) := by run 20
example : Runs X86d8.casPicSet (0x200000001, 0x400000003) (place [(0, 0), (20, 2), (2, 6), (3, 1), (4, 7), (43, 3)])
    (regs [(0, 1), (2, 2), (6, 3), (1, 4), (7, 4096), (3, 99)]) 0x200000005 0x200000005 (.cas false 0x200000005) := by run 20
example : Runs X86d8.loadCas () (place [(0, 0), (20, 2), (43, 3), (41, 1)])
    (regs [(3, 5), (1, 6), (11, 4096)]) 0x200000001 0x200000001 (.val 0x200000001) := by run 20
example : Runs X86d8.exchangePic 0x400000003 (place [(0, 0), (20, 2), (1, 6), (2, 1), (3, 7), (43, 3)])
    (regs [(6, 3), (1, 4), (7, 4096), (3, 99)]) 0x200000001 0x400000003 (.val 0x200000001) := by run 20
example : Runs X86d8.storePicDeclared 0x700000005 picRegs
    (regs [(0, 5), (1, 7), (7, 4096), (3, 99), (6, 77)]) 1 0x700000005 .unit := by run 20
example : Runs X86d8.storeX87 0x700000005 id (regs [(0, 4096), (1, 5), (21, 7)]) 1 0x700000005 .unit := by run 20
example : Runs X86d16.casBits (5, 6) (place [(1, 0), (2, 2), (4, 3), (5, 1)])
    (regs [(0, 5), (2, 0), (3, 6), (1, 0), (10, 4096)]) 5 6 (.cas true 5) := by run 20
example : Runs X86d16.exchange 6 (place [(0, 0), (20, 2), (3, 3), (4, 1)])
    (regs [(3, 6), (1, 0), (11, 4096), (12, 4096)]) 5 6 (.val 5) := by run 20

/-- Both kinds of blocks are used. -/
example : X86d8.load ⟨.sse2, false, false, true, false⟩ 4096 = X86d8.loadSse2.code () ∧
    X86d8.load ⟨.sse2, false, false, true, false⟩ 4100 = X86d8.loadCas.code () ∧
    X86d16.store ⟨true, false, true⟩ 4096 false 7 = X86d16.storeAvx.code 7 ∧
    X86d16.store ⟨true, false, true⟩ 4096 true 7 = X86d16.storeLoop.code 7 ∧
    X86d16.store ⟨true, false, true⟩ 4104 false 7 = X86d16.storeLoop.code 7 := ⟨rfl, rfl, rfl, rfl, rfl⟩

/-! ### Windows -/

open Interlocked

/-- Registers for the `__asm` blocks. -/
def msvcRegs : Slot → Nat := fun s => if 40 ≤ s then s - 40 else s + 10

example : Runs Msvc1.fetchXor 6 msvcRegs (regs [(10, 4096), (11, 6)]) 5 3 (.val 5) := by run 30
example : Runs Msvc2.compareExchangeStrong (3, 4) msvcRegs (regs [(10, 4096), (11, 0x10003), (12, 4)]) 3 4 (.cas true 3) := by
  run 20
example : Runs Msvc4.bitTestAndReset 31 msvcRegs (regs [(10, 4096), (11, 31)]) 0x80000001 1 (.flag true) := by run 20
example : Runs Msvc8.exchange 0x400000003 msvcRegs (regs [(10, 4096), (11, 3), (31, 4)]) 0x200000001 0x400000003
    (.val 0x200000001) := by run 20
example : Runs (fetch 64 8 (resolve (.msvc .arm 1900) (Interlocked.Arm.fetchAdd 8 2))) 200 id (regs [(0, 4096), (1, 200)]) 100 44
    (.val 100) := by run 5
example : Runs (Interlocked.compareExchange 64 32 (resolve (.msvc .amd64 1900) (Interlocked.X86.compareExchangeStrong 32))) (3, 4) id
    (regs [(0, 4096), (1, 3), (2, 4)]) 9 9 (.cas false 9) := by run 5
example : Runs (compareExchange16 128 128 (resolve (.msvc .amd64 1900) (Interlocked.X86.compareExchangeStrong 128)))
    (0x20000000000000001, 0x40000000000000003) id (regs [(0, 4096), (1, 0x20000000000000001), (2, 0x40000000000000003)])
    0x20000000000000001 0x40000000000000003 (.cas true 0x20000000000000001) := by run 5
example : Runs (bitTestAnd 64 64 (resolve (.msvc .amd64 1900) (X86Extra.bitTestAndSet 64))) 40 id
    (regs [(0, 4096), (1, 40)]) 0 0x10000000000 (.flag false) := by run 5

/-- An execution of the machine of `C49_msvc_x86_4`, with an old compiler that has no interlocked function for
`fetch_and`. -/
example : ∃ ver calls, Exec (Id := Nat) (routineMachine (Msvc4.object ⟨false⟩ (.msvc .x86 1310)) 4096) ⟨12, 0⟩
    ⟨⟨4, ver⟩, calls⟩ [.inv 0 ⟨.fetchAnd 6, .seqCst, .relaxed⟩, .res 0 (.val 12)] := by
  let c : OrderedCall 32 := ⟨.fetchAnd 6, .seqCst, .relaxed⟩
  let f := Msvc4.object ⟨false⟩ (.msvc .x86 1310)
  let M := routineMachine f 4096
  let reg : Nat → BitVec 32 := regs [(0, 4096), (1, 12), (2, 4)]
  have step (m : Cell 32) (k : Cpu 32 32) (i) (h : ((f c).code 12).block.prog[k.pc]? = some i) :
      Step ((f c).code 12).block.prog id m k _ _ := ⟨i, ⟨m.val, m.ver, false, fun _ => 0⟩, h, rfl, rfl, by simp, rfl, rfl⟩
  have e0 : Exec (Id := Nat) M ⟨12, 0⟩ _ ([] ++ [.inv 0 c]) := .invoke 0 _ .init rfl
  have e1 := Exec.step (M := M) 0 _ _ _ _ e0 rfl (.start _ 12)
  have e2 := Exec.step (M := M) 0 _ _ _ _ e1 rfl
    (.enter _ _ id reg ⟨false, false⟩ none ⟨by decide, by decide, by decide⟩ (by args) (by decide) (by simp))
  have e3 := Exec.step (M := M) 0 _ _ _ _ e2 rfl (.exec _ _ _ _ _ _ (step _ _ _ rfl))
  have e4 := Exec.step (M := M) 0 _ _ _ _ e3 rfl (.exec _ _ _ _ _ _ (step _ _ _ rfl))
  have e5 := Exec.step (M := M) 0 _ _ _ _ e4 rfl (.exec _ _ _ _ _ _ (step _ _ _ rfl))
  have e6 := Exec.step (M := M) 0 _ _ _ _ e5 rfl (.exec _ _ _ _ _ _ (step _ _ _ rfl))
  have e7 := Exec.step (M := M) 0 _ _ _ _ e6 rfl (.finish _ _ _ _ (.val 12) rfl rfl)
  have e8 := Exec.ret (M := M) 0 _ _ (.val 12) e7 rfl rfl
  exact ⟨_, _, e8⟩

end Verif.Asm
