/-
What a program may rely on when it uses atomic objects that are lock-free and others that are not: all operations take
effect one after the other.  Independent of locks, instructions and processors.
-/

namespace Verif.Locked

/-- What a program observes of its operations. -/
structure History where
  /-- the operations of all threads -/
  Op : Type
  /-- the same thread executes the one before the other -/
  earlier : Op → Op → Prop
  /-- the operation found this value in this variable -/
  found : Op → Nat → Nat → Prop
  /-- the operation left this value in this variable -/
  left : Op → Nat → Nat → Prop
  init : Nat → Nat

/-- One step after the other: the operations can be put into one order, which contains the order of each thread, such
that every operation finds in every variable what the last operation before it that wrote this variable left there, and
the initial value if there is none. -/
def History.OneOrder (H : History) : Prop :=
  ∃ before : H.Op → H.Op → Prop,
    (∀ a, ¬ before a a) ∧ (∀ a b c, before a b → before b c → before a c) ∧
    (∀ a b, a ≠ b → before a b ∨ before b a) ∧ (∀ a b, H.earlier a b → before a b) ∧
    ∀ a x v, H.found a x v →
      (∃ b, before b a ∧ H.left b x v ∧ ∀ c u, before c a → H.left c x u → c = b ∨ before c b) ∨
      (v = H.init x ∧ ∀ c u, before c a → ¬ H.left c x u)

end Verif.Locked
