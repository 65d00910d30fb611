import Verif.Weak.Model

/-
The memory machine as a function, for concrete runs in the examples.
-/

namespace Verif.Weak

open Verif (upd)

variable {T X V : Type} [DecidableEq T] [DecidableEq X] [DecidableEq V]

/-- Memory after an action at position `i`. -/
def Mach.apply (M : Mach T X V) (t : T) : Act X V → Nat → Mach T X V
  | .tau, _ => { M with cur := upd M.cur t ((M.cur t).tick t), acq := upd M.acq t ((M.acq t).tick t) }
  | .read x o _, i => match M.mem x i with
    | some m => M.seeRead t x o i m
    | none => M
  | .write x o v, i => (M.seeWrite t x i).put x i ⟨v, ((M.seeWrite t x i).handed t o).see x i⟩
  | .rmw x o _ v', i => match M.mem x (i - 1) with
    | some m => ((M.seeRead t x o (i - 1) m).seeWrite t x i).put x i
          ⟨v', (m.view.join (((M.seeRead t x o (i - 1) m).seeWrite t x i).handed t o)).see x i⟩
    | none => M
  | .fence o, _ =>
    let c := if o.isAcquire then (M.acq t).join (M.cur t) else M.cur t
    { M with
      cur := upd M.cur t (c.tick t)
      acq := upd M.acq t ((M.acq t).tick t)
      rel := if o.isRelease then upd M.rel t (c.tick t) else M.rel }
  | .naRead x _, i => match M.mem x i with
    | some m => M.seeRead t x .relaxed i m
    | none => M
  | .naWrite x v, i => (M.seeWrite t x i).put x i ⟨v, View.bot.see x i⟩

/-- Whether memory allows the action at that position. -/
def Mach.allows (M : Mach T X V) (t : T) : Act X V → Nat → Bool
  | .tau, i | .fence _, i => decide (i = 0)
  | .read x _ v, i | .naRead x v, i => match M.mem x i with
    | some m => decide (m.val = v) && decide ((M.cur t).seen x ≤ i)
    | none => false
  | .write x _ _, i | .naWrite x _, i => (M.mem x i).isNone && decide ((M.cur t).seen x < i)
  | .rmw x _ v _, i => match M.mem x (i - 1) with
    | some m => decide (m.val = v) && (M.mem x i).isNone && decide ((M.cur t).seen x ≤ i - 1) && decide (0 < i)
    | none => false

theorem apply_step {M : Mach T X V} {t : T} {a : Act X V} {i : Nat} (h : M.allows t a i = true) :
    MStep M t a i (M.apply t a i) := by
  cases a with
  | tau => simp only [Mach.allows, decide_eq_true_eq] at h; subst h; exact .tau
  | fence => simp only [Mach.allows, decide_eq_true_eq] at h; subst h; exact .fence
  | read x o v =>
    simp only [Mach.allows] at h
    split at h
    · rename_i m hm
      simp only [Bool.and_eq_true, decide_eq_true_eq] at h
      simp only [Mach.apply, hm]
      obtain ⟨rfl, h⟩ := h
      exact .read hm h
    · cases h
  | naRead x v =>
    simp only [Mach.allows] at h
    split at h
    · rename_i m hm
      simp only [Bool.and_eq_true, decide_eq_true_eq] at h
      simp only [Mach.apply, hm]
      obtain ⟨rfl, h⟩ := h
      exact .naRead hm h
    · cases h
  | write x o v =>
    simp only [Mach.allows, Bool.and_eq_true, decide_eq_true_eq, Option.isNone_iff_eq_none] at h
    exact .write h.1 h.2
  | naWrite x v =>
    simp only [Mach.allows, Bool.and_eq_true, decide_eq_true_eq, Option.isNone_iff_eq_none] at h
    exact .naWrite h.1 h.2
  | rmw x o v v' =>
    simp only [Mach.allows] at h
    split at h
    · rename_i m hm
      simp only [Bool.and_eq_true, decide_eq_true_eq, Option.isNone_iff_eq_none] at h
      obtain ⟨⟨⟨rfl, h1⟩, h2⟩, h3⟩ := h
      obtain ⟨j, rfl⟩ : ∃ j, i = j + 1 := ⟨i - 1, by omega⟩
      simp only [Nat.add_sub_cancel] at hm h2
      simp only [Mach.apply, Nat.add_sub_cancel, hm]
      exact .rmw hm h1 h2
    · cases h

/-- The state after thread `t` made action `a` at position `i` and went on to `p`. -/
def Sys.after {P : Type} (s : Sys T X V P) (t : T) (a : Act X V) (i : Nat) (p : P) : Sys T X V P :=
  ⟨s.m.apply t a i, upd s.pc t p, s.log ++ [⟨t, ((s.m.apply t a i).cur t).clk t, a, i⟩]⟩

theorem after_step {P : Type} {prog : P → Act X V → P → Prop} (s : Sys T X V P) {t : T} {a : Act X V} {i : Nat} {p : P}
    (hp : prog (s.pc t) a p) (h : s.m.allows t a i = true) :
    Step prog s ⟨t, ((s.m.apply t a i).cur t).clk t, a, i⟩ (s.after t a i p) :=
  .mk hp (apply_step h)

end Verif.Weak
