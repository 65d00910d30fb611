import Lean.Elab.Tactic
import Verif.Asm.Rule
import Verif.Integral.Spec

/-
The tactic that proves a block correct by symbolic execution.
-/

namespace Verif.Asm

open Lean Elab Tactic Meta in
/-- Close an equation by reflexivity; that the sides are equal is checked by the kernel only. -/
elab "kernel_rfl" : tactic => liftMetaTactic fun g => do
  let some (α, _, b) := (← instantiateMVars (← g.getType)).eq? | throwError "not an equation"
  g.assign (mkApp2 (mkConst ``Eq.refl [← getLevel α]) α b)
  return []

variable {R M N : Nat}

/-- How a `bool` in an 8-bit part of a register is read.  Any other contents than 0 and 1 count as
no result. -/
def bool8 (b : BitVec R) (k : Bool → Integral.Ret N) : Integral.Ret N :=
  if b.setWidth 8 = 1#8 then k true else if b.setWidth 8 = 0#8 then k false else .unit

@[asm_bv] theorem setWidth_neg' {w i : Nat} (x : BitVec w) (h : i ≤ w) :
    (-x).setWidth i = -x.setWidth i := by
  apply BitVec.eq_of_toNat_eq
  have hd : 2 ^ i ∣ 2 ^ w := Nat.pow_dvd_pow 2 h
  simp only [BitVec.toNat_setWidth, BitVec.toNat_neg, Nat.mod_mod_of_dvd _ hd]
  have hx : x.toNat < 2 ^ w := x.isLt
  obtain ⟨k, hk⟩ := hd
  have hk0 : 0 < k := by
    rcases Nat.eq_zero_or_pos k with rfl | h
    · simp at hk
    · exact h
  generalize hn : 2 ^ i = n at *
  have hn0 : 0 < n := hn ▸ Nat.two_pow_pos i
  rw [hk] at hx ⊢
  have e := Nat.div_add_mod x.toNat n
  have hm := Nat.mod_lt x.toNat hn0
  have hq : x.toNat / n < k := Nat.div_lt_of_lt_mul hx
  have : n * k - x.toNat = n * (k - 1 - x.toNat / n) + (n - x.toNat % n) := by
    have h1 : n * k = n * (k - 1 - x.toNat / n) + n * (x.toNat / n) + n := by
      rw [← Nat.mul_add, ← Nat.mul_succ]
      congr 1; omega
    omega
  rw [this, Nat.mul_add_mod]

@[asm_bv] theorem setWidth_sub' {w i : Nat} (x y : BitVec w) (h : i ≤ w) :
    (x - y).setWidth i = x.setWidth i - y.setWidth i := by
  rw [BitVec.sub_eq_add_neg, BitVec.setWidth_add _ _ h, setWidth_neg' _ h, ← BitVec.sub_eq_add_neg]

@[asm_bv] theorem setWidth_inj {n w : Nat} (x y : BitVec n) (h : n ≤ w) :
    x.setWidth w = y.setWidth w ↔ x = y := by
  refine ⟨fun e => ?_, fun e => by rw [e]⟩
  have := congrArg (BitVec.setWidth n) e
  simpa [BitVec.setWidth_setWidth_of_le _ h] using this

@[asm_bv] theorem setWidth_eq_zero {n w : Nat} (x : BitVec n) (h : n ≤ w) :
    x.setWidth w = 0#w ↔ x = 0#n := by
  rw [← setWidth_inj x 0#n h]; simp

attribute [asm_bv] BitVec.setWidth_add BitVec.setWidth_not BitVec.setWidth_setWidth_of_le

attribute [asm] insA_label insA_comp insA_havoc insA_load insA_store insA_sc insA_rmw insA_jump wpA_zero wpA_end wpA_step

set_option hygiene false in
/-- The arguments are put into operands that are declared as inputs. -/
macro "asm_loads" "[" fs:Lean.Parser.Tactic.simpLemma,* "]" : tactic => `(tactic|
  (intro x x' e hx
   simp [Kind.loaded, $fs,*] at e
   set_option linter.unnecessarySimpa false in simpa [e, $fs,*] using hx))

set_option hygiene false in
/-- `asm_exec f cuts keep restored n`: the function `f` is correct.  `cuts` are the entry and the
targets of backward jumps, `keep` the operands that must still be in place there, `restored` the
operands that are changed and restored, `n` a number of instructions that suffices. -/
macro "asm_exec" "[" fs:Lean.Parser.Tactic.simpLemma,* "]" cuts:term:max keep:term:max restored:term:max n:num : tactic => `(tactic|
  (refine correct_of $cuts (fun _ x r => ∀ s ∈ $keep, r s = x s) $restored $n (by kernel_rfl) (by kernel_rfl) (by kernel_rfl)
      (fun _ _ _ => rfl) (by rfl) (by simp [$fs,*])
      (by simp +contextual [$fs,*]) (by asm_loads [$fs,*]) ?_ ?_
   · intro base x h0 hx ha pc hpc reg fl link seen hk
     simp only [List.mem_cons, List.not_mem_nil, or_false, forall_eq, forall_eq_or_imp, $fs,*] at hpc hk hx ha
     (try rcases hpc with rfl | rfl | rfl | rfl) <;> (try subst hpc)
     all_goals simp [wp, insWp, asm, rd, wr, After, Last, upd, hk, ha, hx, Integral.spec, $fs,*]
     all_goals try simp +contextual [bool8, hx, asm_bv]
   · intro base x h0 hx ha fl link m junk hl
     simp only [List.mem_cons, List.not_mem_nil, or_false, forall_eq, forall_eq_or_imp, $fs,*] at hx ha
     simp [asm, rd, wr, upd, entry, Link.after, hx, ha, $fs,*]
     all_goals try simp +contextual))

set_option hygiene false in
/-- The same with a general assertion `inv pc x r` at the cuts, about the initial contents `x` and the
present contents `r` of the operands. -/
macro "asm_inv" "[" fs:Lean.Parser.Tactic.simpLemma,* "]" cuts:term:max inv:term:max restored:term:max n:num : tactic => `(tactic|
  (refine correct_of $cuts $inv $restored $n (by kernel_rfl) (by kernel_rfl) (by kernel_rfl)
      (fun x => by simp) (by rfl) (by simp [$fs,*])
      (by simp +contextual [$fs,*]) (by asm_loads [$fs,*]) ?_ ?_
   · intro base x h0 hx ha pc hpc reg fl link seen hk
     simp only [List.mem_cons, List.not_mem_nil, or_false, forall_eq, forall_eq_or_imp, $fs,*] at hpc hk hx ha
     (try rcases hpc with rfl | rfl | rfl | rfl) <;> (try subst hpc)
     all_goals simp at hk
     all_goals simp [wp, insWp, asm, rd, wr, After, Last, upd, hk, ha, hx, Integral.spec, $fs,*]
     all_goals try simp +contextual [bool8, hx, asm_bv]
   · intro base x h0 hx ha fl link m junk hl
     simp only [List.mem_cons, List.not_mem_nil, or_false, forall_eq, forall_eq_or_imp, $fs,*] at hx ha
     simp [asm, rd, wr, upd, entry, Link.after, hx, ha, $fs,*]
     all_goals try simp +contextual))

set_option hygiene false in
/-- The same for functions whose arguments are in pairs of registers. -/
macro "asm_exec2" "[" fs:Lean.Parser.Tactic.simpLemma,* "]" cuts:term:max keep:term:max restored:term:max n:num : tactic => `(tactic|
  (refine correct_of $cuts (fun _ x r => ∀ s ∈ $keep, r s = x s) $restored $n (by kernel_rfl) (by kernel_rfl) (by kernel_rfl)
      (fun _ _ _ => rfl) (by rfl) (by simp [$fs,*])
      (by simp +contextual [$fs,*]) (by asm_loads [$fs,*]) ?_ ?_
   · intro base x h0 hx ha pc hpc reg fl link seen hk
     simp only [List.mem_cons, List.not_mem_nil, or_false, forall_eq, forall_eq_or_imp, $fs,*] at hpc hk hx ha
     have hx1 := True.intro
     try first | subst hx | obtain ⟨rfl, rfl⟩ := hx | obtain ⟨hx1, rfl, rfl⟩ := hx
     (try rcases hpc with rfl | rfl | rfl | rfl) <;> (try subst hpc)
     all_goals simp [wp, insWp, asm, rd, wr, After, Last, upd, hk, ha, hx1, Integral.spec, asm_bv, $fs,*]
     all_goals try simp +contextual [bool8, hx1, asm_bv]
     all_goals try simp +contextual [eq_joined]
     all_goals try grind
   · intro base x h0 hx ha fl link m junk hl
     simp only [List.mem_cons, List.not_mem_nil, or_false, forall_eq, forall_eq_or_imp, $fs,*] at hx ha
     simp [asm, rd, wr, upd, entry, Link.after, hx, ha, $fs,*]
     all_goals try simp +contextual))

set_option hygiene false in
/-- The same with a general assertion. -/
macro "asm_inv2" "[" fs:Lean.Parser.Tactic.simpLemma,* "]" cuts:term:max inv:term:max restored:term:max n:num : tactic => `(tactic|
  (refine correct_of $cuts $inv $restored $n (by kernel_rfl) (by kernel_rfl) (by kernel_rfl)
      (fun x => by simp) (by rfl) (by simp [$fs,*])
      (by simp +contextual [$fs,*]) (by asm_loads [$fs,*]) ?_ ?_
   · intro base x h0 hx ha pc hpc reg fl link seen hk
     simp only [List.mem_cons, List.not_mem_nil, or_false, forall_eq, forall_eq_or_imp, $fs,*] at hpc hk hx ha
     have hx1 := True.intro
     try first | subst hx | obtain ⟨rfl, rfl⟩ := hx
     (try rcases hpc with rfl | rfl | rfl | rfl) <;> (try subst hpc)
     all_goals simp at hk
     all_goals simp [wp, insWp, asm, rd, wr, After, Last, upd, hk, ha, hx1, Integral.spec, asm_bv, $fs,*]
     all_goals try simp +contextual [bool8, hx1, asm_bv]
     all_goals try simp +contextual [eq_joined]
     all_goals try grind
   · intro base x h0 hx ha fl link m junk hl
     simp only [List.mem_cons, List.not_mem_nil, or_false, forall_eq, forall_eq_or_imp, $fs,*] at hx ha
     simp [asm, rd, wr, upd, entry, Link.after, hx, ha, $fs,*]
     all_goals try simp +contextual))

set_option hygiene false in
/-- The contents of the operand for the result of a compare-and-exchange differ from the address and
from the desired value. -/
macro "cas_differ" "[" fs:Lean.Parser.Tactic.simpLemma,* "]" : tactic => `(tactic|
  (intro base x h0 hx ha p hp
   simp only [List.mem_cons, List.not_mem_nil, or_false, forall_eq, $fs,*] at hx ha hp
   obtain ⟨hx1, hx2, rfl⟩ := hx
   simp [asm, asm_bv] at hd
   (try rcases hp with rfl | rfl | rfl) <;> intro e <;> simp [hx1, ha] at e <;>
   first
     | exact h0 e.symm
     | simp [← e] at hd))

set_option hygiene false in
/-- If the operands for the result and for the expected value share a register, the latter is 0. -/
macro "cas_zero" "[" fs:Lean.Parser.Tactic.simpLemma,* "]" : tactic => `(tactic|
  (intro x hx
   simp [merge, $fs,*] at hx
   have h := hx.2.1.symm.trans hx.1
   first
     | exact h
     | exact (setWidth_eq_zero (n := 8) (w := 32) e (by decide)).1 h
     | exact (setWidth_eq_zero (n := 16) (w := 32) e (by decide)).1 h))

/-- Spell out a block with merged operands. -/
macro "cas_merge" "[" fs:Lean.Parser.Tactic.simpLemma,* "]" : tactic => `(tactic|
  (simp only [Block.merge, merge, Ins.rename, asm, List.map, List.filter, $fs,*]
   simp))

end Verif.Asm
