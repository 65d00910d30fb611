import Verif.Wait.Spec
import Verif.Wait.Model

/-! A program logic for the programs of `World.lean`. -/

namespace Verif.Wait

open Verif.Chrono

variable {V : Type} {W : World V}

theorem bind_def {α β} (p : Prog V α) (f : α → Prog V β) : (p >>= f) = Prog.bind p f := rfl
theorem pure_def {α} (a : α) : (pure a : Prog V α) = Prog.ret a := rfl

theorem Runs.le : ∀ {α} {p : Prog V α} {i j tr a}, Runs W p i j tr a → i ≤ j
  | _, .ret _, _, _, _, _, h => by obtain ⟨rfl, -⟩ := h; exact Nat.le_refl _
  | _, .bind p f, _, _, _, _, h => by
    obtain ⟨_, _, _, _, h1, h2, -⟩ := h
    exact Nat.le_trans (Runs.le h1) (Runs.le h2)
  | _, .load, _, _, _, _, h => h.1
  | _, .now _, _, _, _, _, h => h.1
  | _, .gettime _, _, _, _, _, h => h.1
  | _, .kwait _, _, _, _, _, h => h.1
  | _, .pause, _, _, _, _, h => h.1
  | _, .env, _, _, _, _, h => h.1
  | _, .loop body s, _, _, _, _, h => by
    have ih : ∀ s i j tr r, Runs W (body s) i j tr r → i ≤ j := fun s i j tr r h => Runs.le h
    unfold Runs at h
    induction h with
    | done h1 => exact ih _ _ _ _ _ h1
    | next h1 _ ih2 => exact Nat.le_trans (ih _ _ _ _ _ h1) ih2

/-- With history `h`: every complete run satisfies `Q`, the history after every incomplete run satisfies `S`. -/
def Good (W : World V) (S : List (Ev V) → Prop) {α} (p : Prog V α) (i : Nat) (h : List (Ev V))
    (Q : Nat → List (Ev V) → α → Prop) : Prop :=
  (∀ j tr a, Runs W p i j tr a → Q j (h ++ tr) a) ∧ (∀ tr, Partial W p i tr → S (h ++ tr))

variable {S : List (Ev V) → Prop} {α β : Type} {i : Nat} {h : List (Ev V)}

theorem Good.mono {p : Prog V α} {Q Q' : Nat → List (Ev V) → α → Prop} (hg : Good W S p i h Q)
    (hq : ∀ j h' a, i ≤ j → Q j h' a → Q' j h' a) : Good W S p i h Q' :=
  ⟨fun j tr a hr => hq _ _ _ hr.le (hg.1 j tr a hr), hg.2⟩

theorem good_any (p : Prog V α) : Good W (fun _ => True) p i h (fun _ _ _ => True) :=
  ⟨fun _ _ _ _ => trivial, fun _ _ => trivial⟩

theorem good_ret {a : α} {Q : Nat → List (Ev V) → α → Prop} (hs : S h) (hq : Q i h a) :
    Good W S (.ret a) i h Q := by
  constructor
  · rintro j tr b ⟨rfl, rfl, rfl⟩; simpa using hq
  · intro tr hp
    simp only [Partial] at hp
    subst hp; simpa using hs

theorem good_bind {p : Prog V α} {f : α → Prog V β} {Q : Nat → List (Ev V) → β → Prop}
    (hg : Good W S p i h (fun j h' a => Good W S (f a) j h' Q)) : Good W S (.bind p f) i h Q := by
  constructor
  · rintro j tr b ⟨a, k, tr1, tr2, h1, h2, rfl⟩
    rw [← List.append_assoc]; exact (hg.1 _ _ _ h1).1 _ _ _ h2
  · intro tr hp
    simp only [Partial] at hp
    rcases hp with h1 | ⟨a, k, tr1, tr2, h1, h2, rfl⟩
    · exact hg.2 _ h1
    · rw [← List.append_assoc]; exact (hg.1 _ _ _ h1).2 _ h2

theorem good_load {Q : Nat → List (Ev V) → V → Prop} (hs : S h)
    (hq : ∀ t, i ≤ t → S (h ++ [.load t (W.val t)]) ∧ Q t (h ++ [.load t (W.val t)]) (W.val t)) :
    Good W S .load i h Q := by
  constructor
  · rintro j tr a ⟨h1, rfl, rfl⟩; exact (hq _ h1).2
  · rintro tr (rfl | ⟨t, h1, rfl⟩)
    · simpa using hs
    · exact (hq _ h1).1

theorem good_now {c : Clk} {Q : Nat → List (Ev V) → Int → Prop} (hs : S h)
    (hq : ∀ t, i ≤ t → S (h ++ [.now c t]) ∧ Q t (h ++ [.now c t]) (W.clk c t)) : Good W S (.now c) i h Q := by
  constructor
  · rintro j tr a ⟨h1, rfl, rfl⟩; exact (hq _ h1).2
  · rintro tr (rfl | ⟨t, h1, rfl⟩)
    · simpa using hs
    · exact (hq _ h1).1

theorem good_gettime {c : Nat} {Q : Nat → List (Ev V) → Option Timespec → Prop} (hs : S h)
    (hq : ∀ t, i ≤ t → S (h ++ [.gettime c t]) ∧ Q t (h ++ [.gettime c t]) (some (W.posix c t)) ∧
      Q t (h ++ [.gettime c t]) none) : Good W S (.gettime c) i h Q := by
  constructor
  · rintro j tr a ⟨h1, rfl, rfl | rfl⟩
    · exact (hq _ h1).2.1
    · exact (hq _ h1).2.2
  · rintro tr (rfl | ⟨t, h1, rfl⟩)
    · simpa using hs
    · exact (hq _ h1).1

theorem good_kwait {l : Limit} {Q : Nat → List (Ev V) → KRes → Prop} (hs : S h) (hs' : S (h ++ [.block l i]))
    (hq : ∀ t r, i ≤ t → (r = .timedOut → ∀ c d, l = .abs c d → d.ns ≤ (W.posix c t).ns) →
      Q t (h ++ [.block l i]) r) : Good W S (.kwait l) i h Q := by
  constructor
  · rintro j tr a ⟨h1, rfl, h2⟩; exact hq _ _ h1 h2
  · rintro tr (rfl | rfl)
    · simpa using hs
    · exact hs'

theorem good_pause {Q : Nat → List (Ev V) → Unit → Prop} (hs : S h)
    (hq : ∀ t, i ≤ t → S (h ++ [.pause t]) ∧ Q t (h ++ [.pause t]) ()) : Good W S .pause i h Q := by
  constructor
  · rintro j tr a ⟨h1, rfl⟩; exact (hq _ h1).2
  · rintro tr (rfl | ⟨t, h1, rfl⟩)
    · simpa using hs
    · exact (hq _ h1).1

theorem good_env {Q : Nat → List (Ev V) → Bool → Prop} (hs : S h)
    (hq : ∀ t b, i ≤ t → S (h ++ [.env t]) ∧ Q t (h ++ [.env t]) b) : Good W S .env i h Q := by
  constructor
  · rintro j tr a ⟨h1, rfl⟩; exact (hq _ _ h1).2
  · rintro tr (rfl | ⟨t, h1, rfl⟩)
    · simpa using hs
    · exact (hq _ true h1).1

/-- Postcondition of the body of a loop with an invariant. -/
def Post {σ : Type} (Inv : σ → Nat → List (Ev V) → Prop) (Q : Nat → List (Ev V) → α → Prop) (j : Nat)
    (h : List (Ev V)) : σ ⊕ α → Prop
  | .inl s => Inv s j h
  | .inr a => Q j h a

theorem good_loop {σ : Type} (Inv : σ → Nat → List (Ev V) → Prop) {body : σ → Prog V (σ ⊕ α)} {s : σ}
    {Q : Nat → List (Ev V) → α → Prop} (h0 : Inv s i h)
    (hb : ∀ s i h, Inv s i h → Good W S (body s) i h (Post Inv Q)) : Good W S (.loop body s) i h Q := by
  constructor
  · intro j tr a hr
    simp only [Runs] at hr
    induction hr generalizing h with
    | done h1 => exact (hb _ _ _ h0).1 _ _ _ h1
    | next h1 _ ih => rw [← List.append_assoc]; exact ih ((hb _ _ _ h0).1 _ _ _ h1)
  · intro tr hp
    simp only [Partial] at hp
    induction hp generalizing h with
    | inside h1 => exact (hb _ _ _ h0).2 _ h1
    | next h1 _ ih => rw [← List.append_assoc]; exact ih ((hb _ _ _ h0).1 _ _ _ h1)

end Verif.Wait
