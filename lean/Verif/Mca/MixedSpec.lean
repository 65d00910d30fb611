/-
What a program may rely on when it mixes seq_cst operations and seq_cst fences with operations of other orders, in the
terms of the C++ standard ([atomics.order] 3–7) and independently of any processor.
-/

namespace Verif.Mca

/-- An execution of a program as the C++ standard describes it.  A read-modify-write makes two accesses, a read and a
write. -/
structure Mixed where
  /-- the memory accesses of all threads -/
  Acc : Type
  /-- the operations and fences of all threads -/
  Op : Type
  /-- the variable an access is to -/
  loc : Acc → Nat
  read : Acc → Prop
  write : Acc → Prop
  /-- `rf r (some w)`: `r` reads what `w` wrote; `rf r none`: `r` reads the initial value -/
  rf : Acc → Option Acc → Prop
  /-- modification order: of two writes to one variable, which is the earlier -/
  mo : Acc → Acc → Prop
  /-- the read and the write of one atomic read-modify-write -/
  rmw : Acc → Acc → Prop
  /-- the access is one of this operation -/
  of : Acc → Op → Prop
  /-- the operation has the order `memory_order_seq_cst` -/
  seqCst : Op → Prop
  /-- a fence with the order `memory_order_seq_cst` -/
  fence : Op → Prop
  /-- sequenced before: the same thread executes the one before the other -/
  sb : Op → Op → Prop
  /-- happens-before between operations, from operations to accesses and from accesses to operations -/
  hb : Op → Op → Prop
  after : Op → Acc → Prop
  upto : Acc → Op → Prop

namespace Mixed

variable (G : Mixed)

/-- The one access is coherence-ordered before the other, directly: the second reads what the first wrote, or writes the
same variable later, or overwrites what the first has read. -/
inductive Step : G.Acc → G.Acc → Prop where
  | rf {w r} : G.write w → G.read r → G.rf r (some w) → Step w r
  | mo {w v} : G.write w → G.write v → G.loc w = G.loc v → G.mo w v → Step w v
  | fr {r w s} : G.read r → G.write w → G.loc r = G.loc w → G.rf r s → (∀ v, s = some v → G.mo v w) → Step r w

/-- An access is another one or coherence-ordered before it. -/
inductive Coh (e : G.Acc) : G.Acc → Prop where
  | refl : Coh e e
  | step {f g} : Coh e f → G.Step f g → Coh e g

/-- The release sequence of a write: itself and the read-modify-writes that read it or each other. -/
inductive Sequence (w : G.Acc) : G.Acc → Prop where
  | head : Sequence w w
  | rmw {v r v'} : Sequence w v → G.read r → G.write v' → G.rmw r v' → G.rf r (some v) → Sequence w v'

/-- The seq_cst operations and fences. -/
def Strong (a : G.Op) : Prop := G.seqCst a ∨ G.fence a

/-- The access belongs to the seq_cst operation `a`, or the seq_cst fence `a` happens before it. -/
def From (a : G.Op) (e : G.Acc) : Prop :=
  (G.read e ∨ G.write e) ∧ ((G.seqCst a ∧ G.of e a) ∨ (G.fence a ∧ G.after a e))

/-- `before` is an order of the seq_cst operations and fences that agrees with what the program observes. -/
structure ScOrder (before : G.Op → G.Op → Prop) : Prop where
  irrefl : ∀ a, ¬ before a a
  trans : ∀ a b c, before a b → before b c → before a c
  total : ∀ a b, G.Strong a → G.Strong b → a ≠ b → before a b ∨ before b a
  /-- it contains the order of each thread -/
  sb : ∀ a b, G.Strong a → G.Strong b → G.sb a b → before a b
  /-- `a` strongly happens before `b`: something sequenced after `a` happens before something sequenced before `b` -/
  strong : ∀ a x y b, G.Strong a → G.Strong b → G.sb a x → G.hb x y → G.sb y b → before a b
  /-- `a` synchronises with `b`: `b` reads from the release sequence of the write of `a` -/
  sync : ∀ a w v r b, G.seqCst a → G.seqCst b → a ≠ b → G.of w a → G.write w → G.Sequence w v → G.read r →
    G.rf r (some v) → G.of r b → before a b
  /-- `b` is a fence and something coherence-ordered after `a` happens before it -/
  fence : ∀ a e f b, G.From a e → G.Coh e f → G.upto f b → G.fence b → before a b
  /-- an access of `b` is coherence-ordered after `a`, directly -/
  op : ∀ a e f b, G.From a e → G.Step e f → G.of f b → G.seqCst b → a ≠ b → before a b

/-- The rule for operations as the C++20 standard has it: an access of `b` is coherence-ordered after `a`, directly or
not. -/
def Literal (before : G.Op → G.Op → Prop) : Prop :=
  ∀ a e f b, G.From a e → G.Coh e f → G.of f b → G.seqCst b → a ≠ b → before a b

end Mixed
end Verif.Mca
