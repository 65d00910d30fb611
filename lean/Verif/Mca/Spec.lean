/-
What a program may rely on when threads synchronise through atomic objects, in the terms of the C++ standard and
independently of any processor: reads-from, modification order, happens-before and the coherence rules that connect
them ([intro.races]).
-/

namespace Verif.Mca

/-- An execution of a program as the C++ standard describes it. -/
structure Actions where
  /-- the memory accesses of all threads -/
  Act : Type
  /-- the variable an access is to -/
  loc : Act → Nat
  read : Act → Prop
  write : Act → Prop
  /-- `rf r (some w)`: `r` reads what `w` wrote; `rf r none`: `r` reads the initial value -/
  rf : Act → Option Act → Prop
  /-- modification order: of two writes to one variable, which is the earlier -/
  mo : Act → Act → Prop
  /-- happens-before -/
  hb : Act → Act → Prop
  /-- the read and the write of one atomic read-modify-write -/
  rmw : Act → Act → Prop

namespace Actions

variable (G : Actions)

/-- Write-write coherence: writes are ordered as they happen. -/
def WriteWrite : Prop :=
  ∀ a b, G.hb a b → G.write a → G.write b → G.loc a = G.loc b → G.mo a b

/-- Write-read coherence: a read after a write sees this write or a later one. -/
def WriteRead : Prop :=
  ∀ a b s, G.hb a b → G.write a → G.read b → G.loc a = G.loc b → G.rf b s →
    s = some a ∨ ∃ w, s = some w ∧ G.mo a w

/-- Read-write coherence: a read before a write sees an earlier write. -/
def ReadWrite : Prop :=
  ∀ a b w, G.hb a b → G.read a → G.write b → G.loc a = G.loc b → G.rf a (some w) → G.mo w b

/-- Read-read coherence: a read after another one does not see an earlier value. -/
def ReadRead : Prop :=
  ∀ a b w s, G.hb a b → G.read a → G.read b → G.loc a = G.loc b → G.rf a (some w) → G.rf b s →
    s = some w ∨ ∃ w', s = some w' ∧ G.mo w w'

/-- All writes of one variable are in one order. -/
def OneOrder : Prop :=
  (∀ a, ¬ G.mo a a) ∧ (∀ a b c, G.mo a b → G.mo b c → G.mo a c) ∧
  ∀ a b, G.write a → G.write b → G.loc a = G.loc b → a ≠ b → G.mo a b ∨ G.mo b a

/-- A read-modify-write reads the last write before its own one. -/
def Atomic : Prop :=
  ∀ r w s, G.rmw r w → G.read r → G.write w → G.rf r s →
    (∀ u, s = some u → G.mo u w) ∧
    ∀ v, G.write v → G.loc v = G.loc w → G.mo v w → s = some v ∨ ∃ u, s = some u ∧ G.mo v u

/-- What the C++ standard promises about the order of the writes of a variable, about read-modify-writes, and about
accesses that happen one before the other; and nothing happens before itself. -/
structure Coherent : Prop where
  irrefl : ∀ a, ¬ G.hb a a
  oneOrder : G.OneOrder
  atomic : G.Atomic
  writeWrite : G.WriteWrite
  writeRead : G.WriteRead
  readWrite : G.ReadWrite
  readRead : G.ReadRead

end Actions

/-- What a program observes of its operations on some objects. -/
structure Observations where
  /-- the operations of all threads -/
  Op : Type
  /-- the same thread executes the one before the other -/
  earlier : Op → Op → Prop
  obj : Op → Nat
  /-- the operation returned (or compared) this value of the object -/
  result : Op → Nat → Prop
  /-- the operation gave the object this value -/
  stored : Op → Nat → Prop
  init : Nat → Nat

/-- Sequential consistency: the operations can be put into one order, which contains the order of each thread, such that
every operation finds the value that the last operation before it that wrote the object gave it, and the initial one if
there is none. -/
def Observations.SequentiallyConsistent (O : Observations) : Prop :=
  ∃ before : O.Op → O.Op → Prop,
    (∀ a, ¬ before a a) ∧ (∀ a b c, before a b → before b c → before a c) ∧
    (∀ a b, a ≠ b → before a b ∨ before b a) ∧ (∀ a b, O.earlier a b → before a b) ∧
    ∀ a v, O.result a v →
      (∃ b, before b a ∧ O.obj b = O.obj a ∧ O.stored b v ∧
        ∀ c u, before c a → O.obj c = O.obj a → O.stored c u → c = b ∨ before c b) ∨
      (v = O.init (O.obj a) ∧ ∀ c u, before c a → O.obj c = O.obj a → ¬ O.stored c u)

end Verif.Mca
