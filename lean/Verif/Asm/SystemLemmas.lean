import Verif.Asm.System
import Verif.Common.LinLemmas

/-
Cores that execute correct blocks on one object implement a linearizable object.
-/

namespace Verif.Asm

variable {R M : Nat} {A Op Ret : Type}

/-- Correctness of the code of every operation. -/
def AllCorrect (code : Op → Code R M Ret) (spec : SeqSpec (BitVec M) Op Ret) : Prop :=
  ∀ op, Correct (code op).block spec op (code op).pre (code op).ret

/-- What is known about a call in state `l` while the object is `m`. -/
def LocalOk (code : Op → Code R M Ret) (base : BitVec R) (m : Cell M) (op : Op) :
    Local R M Op → Prop
  | .called op' => op' = op
  | .running op' ρ c => op' = op ∧ (code op).block.Legal ρ ∧ ∃ reg fl link,
      (code op).pre (fun s => reg (ρ s)) ∧ (∀ s ∈ (code op).block.addr, reg (ρ s) = base) ∧
      Reach (code op).block.prog ρ (entry base reg fl link) m c

theorem Step.cell {prog : List (Ins R M)} {ρ m c m' c'} (h : Step prog ρ m c m' c') :
    m' = m ∨ ∃ v, m' = ⟨v, m.ver + 0 + 1⟩ := by
  obtain ⟨i, o, _, _, _, _, _, h⟩ := h
  cases hx : (exec ρ i o c).2 with
  | none => left; simpa [hx] using h
  | some v => right; exact ⟨v, by simpa [hx] using h⟩

/-- What an instruction does to the records of a core. -/
theorem exec_records (ρ : Slot → Nat) (i : Ins R M) (o : Orc R M) (c : Cpu R M) :
    ((exec ρ i o c).2 = none ∧ (exec ρ i o c).1.wrote = c.wrote ∧
      ((exec ρ i o c).1.seen = c.seen ∨ (exec ρ i o c).1.seen = c.seen ++ [o.val])) ∨
    ∃ v, (exec ρ i o c).2 = some v ∧ (exec ρ i o c).1.wrote = c.wrote ++ [(o.val, v)] ∧
      (exec ρ i o c).1.seen = c.seen := by
  cases i with
  | label => simp [exec]
  | comp => simp [exec]
  | havoc => simp [exec]
  | jump => simp [exec]
  | load a link whole ws f => cases whole <;> simp [exec]
  | store => simp [exec]
  | sc a cond rs ws apart g st =>
    simp only [exec]
    split
    · split <;> simp
    · simp
  | rmw a rs ws f =>
    simp only [exec]
    split <;> simp

theorem LocalOk.env {code : Op → Code R M Ret} {base m op l} (h : LocalOk code base m op l)
    {m' : Cell M} (hm : m' = m ∨ ∃ v, m' = ⟨v, m.ver + 0 + 1⟩) : LocalOk code base m' op l := by
  rcases hm with rfl | ⟨v, rfl⟩
  · exact h
  · cases l with
    | called => exact h
    | running =>
      obtain ⟨h1, h2, reg, fl, link, h3, h4, h5⟩ := h
      exact ⟨h1, h2, reg, fl, link, h3, h4, .env v 0 h5⟩

/-- The results a call may be committed to. -/
def mayReturn (spec : SeqSpec (BitVec M) Op Ret) (op : Op) : Local R M Op → Option Ret → Prop
  | .called _, t => t = none
  | .running _ _ c, t =>
    (c.wrote = [] ∧ (t = none ∨ ∃ m ∈ c.seen, ∃ r, t = some r ∧ spec m op m r)) ∨
    (∃ m m', c.wrote = [(m, m')] ∧ ∃ r, t = some r ∧ spec m op m' r) ∨
    ((∀ m m', c.wrote = [(m, m')] → ¬ ∃ r, spec m op m' r) ∧ c.wrote ≠ [])

theorem linearizable_of_correct {code : Op → Code R M Ret} {spec : SeqSpec (BitVec M) Op Ret}
    (h : AllCorrect code spec) {base : BitVec R} (hb : base ≠ 0) (v₀ : BitVec M) :
    (machine code base).IsLinearizable spec ⟨v₀, 0⟩ v₀ := by
  intro Id _ sys H hex
  let Inv : Sys Id (machine code base) → Prop := fun sys =>
    ∀ i op l, sys.calls i = .run op l → LocalOk code base sys.sh op l
  have hInv : ∀ sys H, Exec (machine code base) ⟨v₀, 0⟩ sys H → Inv sys := by
    intro sys H hex
    induction hex with
    | init => intro i op l hc; simp at hc
    | @invoke sys H i op hex hi ih =>
      intro j op' l hc
      by_cases hj : j = i
      · subst hj
        simp at hc
        obtain ⟨rfl, rfl⟩ := hc
        rfl
      · simp only [upd_other _ _ hj] at hc
        exact ih j op' l hc
    | @step sys H i op l sh' l' hex hi hst ih =>
      have key : (sh' = sys.sh ∨ ∃ v, sh' = ⟨v, sys.sh.ver + 0 + 1⟩) ∧ LocalOk code base sh' op l' := by
        have hl := ih i op l hi
        cases hst with
        | enter ρ reg fl link h1 h2 h3 h4 =>
          exact ⟨.inl rfl, rfl, h1, reg, fl, link, h2, h3, .start _ h4⟩
        | exec ρ c _ c' hs =>
          obtain ⟨h1, h2, reg, fl, link, h3, h4, h5⟩ := hl
          exact ⟨hs.cell, rfl, h2, reg, fl, link, h3, h4, .step h5 hs⟩
      intro j op' l'' hc
      by_cases hj : j = i
      · subst hj
        simp at hc
        obtain ⟨rfl, rfl⟩ := hc
        exact key.2
      · simp only [upd_other _ _ hj] at hc
        exact (ih j op' l'' hc).env key.1
    | @ret sys H i op l r hex hi hr ih =>
      intro j op' l'' hc
      by_cases hj : j = i
      · subst hj; simp at hc
      · simp only [upd_other _ _ hj] at hc
        exact ih j op' l'' hc
  have S : Sim (Id := Id) (machine code base) spec ⟨v₀, 0⟩ v₀ Inv :=
    { abs := Cell.val
      may := mayReturn spec
      abs_init := rfl
      may_ne := by
        intro op l
        cases l with
        | called => exact ⟨none, rfl⟩
        | running _ _ c =>
          by_cases hw : c.wrote = []
          · exact ⟨none, .inl ⟨hw, .inl rfl⟩⟩
          · by_cases hx : ∃ m m', c.wrote = [(m, m')] ∧ ∃ r, spec m op m' r
            · obtain ⟨m, m', h1, r, h2⟩ := hx
              exact ⟨some r, .inr (.inl ⟨m, m', h1, r, rfl, h2⟩)⟩
            · exact ⟨none, .inr (.inr ⟨fun m m' h1 h2 => hx ⟨m, m', h1, h2⟩, hw⟩)⟩
      start_none := by intro op t ht; exact ht
      step_ok := by
        intro sys i op l sh' l' t' hinv hi hst ht
        have hl := hinv i op l hi
        cases hst with
        | enter ρ reg fl link h1 h2 h3 h4 =>
          refine ⟨none, rfl, .inl ⟨?_, rfl⟩⟩
          have : t' = none := by simpa [mayReturn, entry] using ht
          exact this.symm
        | exec ρ c _ c' hs =>
          obtain ⟨_, h2, reg, fl, link, h3, h4, h5⟩ := hl
          have s0 := ((h op).sound ρ h2 base reg fl link hb h3 h4 _ _ h5).2.2.1
          have s1 := ((h op).sound ρ h2 base reg fl link hb h3 h4 _ _ (.step h5 hs)).2.2.1
          obtain ⟨ins, o, _, hval, _, _, hc', hm'⟩ := hs
          rcases exec_records ρ ins o c with ⟨e1, e2, e3⟩ | ⟨v, e1, e2, e3⟩
          · -- no store
            simp only [e1] at hm'
            subst hm'
            rw [← hc'] at e2 e3
            rcases ht with ⟨w, ht⟩ | ⟨m, m', w, r, rfl, hr⟩ | ⟨ht, w⟩
            · rw [e2] at w
              rcases ht with rfl | ⟨m, hm, r, rfl, hr⟩
              · exact ⟨none, .inl ⟨w, .inl rfl⟩, .inl ⟨rfl, rfl⟩⟩
              · by_cases hms : m ∈ c.seen
                · exact ⟨some r, .inl ⟨w, .inr ⟨m, hms, r, rfl, hr⟩⟩, .inl ⟨rfl, rfl⟩⟩
                · have : m = o.val := by
                    rcases e3 with e3 | e3 <;> rw [e3] at hm
                    · exact absurd hm hms
                    · simpa [hms] using hm
                  subst this
                  refine ⟨none, .inl ⟨w, .inl rfl⟩, .inr ⟨rfl, r, rfl, ?_⟩⟩
                  rw [← hval]
                  exact hr
            · rw [e2] at w
              exact ⟨some r, .inr (.inl ⟨m, m', w, r, rfl, hr⟩), .inl ⟨rfl, rfl⟩⟩
            · rcases s1 with s1 | ⟨x, x', s1, r, hr⟩
              · exact absurd s1 w
              · exact absurd ⟨r, hr⟩ (ht x x' s1)
          · -- a store
            rw [e1] at hm'
            subst hm'
            rw [← hc'] at e2 e3
            have w0 : c.wrote = [] := by
              rcases s1 with s1 | ⟨x, x', s1, r, hr⟩
              · rw [e2] at s1; simp at s1
              · rw [e2] at s1
                cases hw : c.wrote with
                | nil => rfl
                | cons a b => rw [hw] at s1; simp at s1
            rw [w0] at e2
            simp only [List.nil_append] at e2
            refine ⟨none, .inl ⟨w0, .inl rfl⟩, .inr ⟨rfl, ?_⟩⟩
            rcases ht with ⟨w, _⟩ | ⟨m, m', w, r, rfl, hr⟩ | ⟨ht, w⟩
            · rw [e2] at w; simp at w
            · rw [e2] at w
              simp only [List.cons.injEq, Prod.mk.injEq, and_true] at w
              obtain ⟨rfl, rfl⟩ := w
              exact ⟨r, rfl, by rw [← hval]; exact hr⟩
            · rcases s1 with s1 | ⟨x, x', s1, r, hr⟩
              · exact absurd s1 w
              · exact absurd ⟨r, hr⟩ (ht x x' s1)
      ret_ok := by
        intro sys i op l r hinv hi hr
        have hl := hinv i op l hi
        cases l with
        | called => simp [machine] at hr
        | running op' ρ c =>
          obtain ⟨rfl, h2, reg, fl, link, h3, h4, h5⟩ := hl
          have s := (h op').sound ρ h2 base reg fl link hb h3 h4 _ _ h5
          simp only [machine] at hr
          split at hr
          · rename_i hpc
            simp only [Option.some.injEq] at hr
            subst hr
            rcases s.2.2.2.1 hpc with ⟨m, m', w, hs⟩ | ⟨w, m, hm, hs⟩
            · exact .inr (.inl ⟨m, m', w, _, rfl, hs⟩)
            · exact .inl ⟨w, .inr ⟨m, hm, _, rfl, hs⟩⟩
          · simp at hr }
  exact Sim.linearizable S hInv hex

end Verif.Asm
