import Verif.Asm.Spec

/-
Runs of a core that is alone with the object are possible executions.
-/

namespace Verif.Asm

variable {R M : Nat} {A Op Ret : Type}

theorem alone_reach {prog : List (Ins R M)} {ρ : Slot → Nat} {c₀ : Cpu R M} (junk : Slot → BitVec R) :
    ∀ n m c, Reach prog ρ c₀ m c →
      Reach prog ρ c₀ (alone prog ρ junk n (m, c)).1 (alone prog ρ junk n (m, c)).2 := by
  intro n
  induction n with
  | zero => intro m c h; exact h
  | succ n ih =>
    intro m c h
    simp only [alone]
    split
    · exact h
    · rename_i i hi
      refine ih _ _ (.step h ?_)
      exact ⟨i, ⟨m.val, m.ver, decide (c.link.map Prod.fst = some m.ver), junk⟩, hi, rfl, rfl,
        fun h => of_decide_eq_true h, rfl, rfl⟩

/-- What a correct block does for a core that is alone with the object. -/
theorem Correct.alone {b : Block R M} {spec : SeqSpec (BitVec M) Op Ret} {op : Op}
    {pre : (Slot → BitVec R) → Prop} {ret : (Slot → BitVec R) → Ret} (h : Correct b spec op pre ret)
    (ρ : Slot → Nat) (hρ : b.Legal ρ) (base : BitVec R) (reg : Nat → BitVec R) (hb : base ≠ 0)
    (hp : pre fun s => reg (ρ s)) (ha : ∀ s ∈ b.addr, reg (ρ s) = base) (fl : Flags) (v : BitVec M)
    (junk : Slot → BitVec R) (n : Nat) :
    let c := (Asm.alone b.prog ρ junk n (⟨v, 0⟩, entry base reg fl none)).2
    c.bad = false ∧ c.pc ≤ b.prog.length ∧
      (c.wrote = [] ∨ ∃ x x', c.wrote = [(x, x')] ∧ ∃ r, spec x op x' r) ∧
      (c.pc = b.prog.length → Explains spec op c (ret fun s => c.reg (ρ s))) ∧
      (c.pc = b.prog.length → ∀ k, (∀ p ∈ b.opnds, p.2.written = true → ρ p.1 ≠ k) → c.reg k = reg k) :=
  h.sound ρ hρ base reg fl none hb hp ha _ _
    (alone_reach junk n _ _ (.start ⟨v, 0⟩ (by simp [entry])))

end Verif.Asm
