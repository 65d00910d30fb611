import Verif.Asm.X86Shape

/-
Proof steps for the blocks of the x86 back end that access objects of two registers.
-/

set_option linter.unusedSimpArgs false
set_option linter.unusedVariables false

namespace Verif.Asm.X86

theorem half64 {x y : BitVec 64} : x = y ↔ lower 32 x = lower 32 y ∧ upper 32 x = upper 32 y :=
  ⟨fun h => by rw [h]; simp, fun h => ext_half (by rfl) h.1 h.2⟩

theorem half128 {x y : BitVec 128} : x = y ↔ lower 64 x = lower 64 y ∧ upper 64 x = upper 64 y :=
  ⟨fun h => by rw [h]; simp, fun h => ext_half (by rfl) h.1 h.2⟩

set_option hygiene false in
/-- As `asm_inv`, and splits on the outcome of `cmpxchg8b` or `cmpxchg16b`; `h` compares values by halves. -/
macro "asm_pair" "[" fs:Lean.Parser.Tactic.simpLemma,* "]" h:ident cuts:term:max inv:term:max restored:term:max n:num : tactic => `(tactic|
  (refine correct_of $cuts $inv $restored $n (by kernel_rfl) (by kernel_rfl) (by kernel_rfl)
      (fun x => by simp) (by rfl) (by simp [$fs,*]) (by simp +contextual [$fs,*]) (by asm_loads [$fs,*]) ?_ ?_
   · intro base x h0 hx ha pc hpc reg fl link seen hk
     simp only [List.mem_cons, List.not_mem_nil, or_false, forall_eq, forall_eq_or_imp, $fs,*] at hpc hk hx ha
     (try rcases hpc with rfl | rfl) <;> (try subst hpc)
     all_goals try simp at hk
     all_goals simp [wp, insWp, asm, rd, wr, After, Last, upd, hk, ha, hx, Integral.spec, joined_eta, $fs,*]
     all_goals try (intro val; split <;> simp_all [joined_eta])
     all_goals try simp_all [$h:term, lower_joined, upper_joined, bool8]
   · intro base x h0 hx ha fl link m junk hl
     simp only [List.mem_cons, List.not_mem_nil, or_false, forall_eq, forall_eq_or_imp, $fs,*] at hx ha
     simp [asm, rd, wr, upd, entry, Link.after, hx, ha, $fs,*]
     all_goals try simp))

end Verif.Asm.X86
