import Verif.Idiom.Model

/-
What the documentation promises about its examples (doc/examples.qbk).
-/

namespace Verif.Idiom

open Verif.Order Verif.Mca Verif.Mca.Run

variable {cpu : Cpu}

/-- The section `A` has come to its end, and all that its thread did up to then happens before all that the thread of `B` does
after it has taken the lock. -/
def Section (R : Mca.Run cpu) (hb : Pos → Pos → Prop) (A B : Holding) : Prop :=
  ∃ u, A.unlock = some u ∧ ∀ e f, Until R A.thread u e → From R B.thread (B.locked + 1) f → hb e f

/-- "one access to the shared data structure always strictly happens before another" (doc/examples.qbk:126–128): of any two
sections one comes after the other. -/
def OneAtATime (R : Mca.Run cpu) (hb : Pos → Pos → Prop) (Secs : Holding → Prop) : Prop :=
  ∀ A B, Secs A → Secs B → A ≠ B → Section R hb A B ∨ Section R hb B A

/-- "The object can be destroyed as soon as the reference counter reaches zero" (doc/examples.qbk:11–12); "it is important
to enforce any possible access to the object in one thread ... to happen before deleting the object in a different thread"
(59–61). -/
structure DeletedOnce (R : Mca.Run cpu) (rf : Pos → Option Pos → Prop) (hb : Pos → Pos → Prop) (V : Values) (x : Nat)
    (P : Refs) : Prop where
  /-- whoever deletes comes after everything that was done with any reference before it was dropped; so all were dropped -/
  last : ∀ p d k, Deletes R rf V x P p d k → ∀ q, ∃ d', P.release q = some d' ∧
    ∀ e f, Until R d'.1 d'.2 e → From R d.1 (k + 1) f → hb e f
  /-- one call finds that it has dropped the last reference -/
  once : ∀ p q d d', P.release p = some d → P.release q = some d' → Finds R rf V d x 1 → Finds R rf V d' x 1 → p = q
  /-- one does when all references have been dropped -/
  deleted : ∀ refs : List P.Ref, (∀ p, p ∈ refs) → (∀ p, ∃ d, P.release p = some d) →
    ∃ p d, P.release p = some d ∧ Finds R rf V d x 1

/-- "The ring indices do not lap-around each other to ensure that no elements are either lost or read twice"; "read-access to
a particular object in `pop` happens after it has been written in `push`"; "read access to a particular ring element happens
before rewriting this element with a new value" (doc/examples.qbk:291–302). -/
structure Transfers (R : Mca.Run cpu) (rf : Pos → Option Pos → Prop) (hb : Pos → Pos → Prop) (size producer consumer pushes pops : Nat)
    (push pop : Nat → RingCall) : Prop where
  /-- nothing is taken out that was not put in -/
  enough : ∀ j, j < pops → j < pushes
  /-- the call number `j` of `pop` reads what call number `j` of `push` has written -/
  fifo : ∀ j, j < pops → ∀ f it s, R.Within f (consumer, (pop j).access) it → rf f s →
    ∃ e it', s = some e ∧ R.Within e (producer, (push j).access) it'
  /-- it was written before, -/
  written : ∀ i j, i ≤ j → j < pops → OpHb R hb (producer, (push i).access) (consumer, (pop j).access)
  /-- and is read before the element is used again: accesses of one element do not race -/
  read : ∀ i j, i < pushes → j < pops → j < i → i % size = j % size →
    OpHb R hb (consumer, (pop j).access) (producer, (push i).access)

/-- "buffer full", "buffer empty" (doc/examples.qbk:275–282): when a call fails that is what the thread can know. -/
structure Refuses (R : Mca.Run cpu) (rf : Pos → Option Pos → Prop) (hb : Pos → Pos → Prop) (V : Values)
    (size head tail producer consumer pushes pops : Nat) (push pop : Nat → RingCall) : Prop where
  /-- `i` elements were put in, and no more than `i - (size - 1)` of them were taken out before the call -/
  full : ∀ i own other, PushFails R rf V size head tail producer pushes push i own other →
    size ≤ i + 1 ∧ ∀ j, j < pops → OpHb R hb (consumer, (pop j).store) (producer, other) → j + size ≤ i
  /-- the `j` elements that were taken out are all that were put in before the call -/
  empty : ∀ j own other, PopFails R rf V head tail consumer pops pop j own other →
    ∀ i, i < pushes → OpHb R hb (producer, (push i).store) (consumer, other) → i < j

/-- "all objects enqueued are processed in the order they were enqueued"; "any access to an object to be enqueued by the
producer happens before any access by the consumer" (doc/examples.qbk:383–390). -/
def Delivers (R : Mca.Run cpu) (rf : Pos → Option Pos → Prop) (hb mo : Pos → Pos → Prop) (V : Values) (next : Nat → Nat) (t : Nat)
    (Pushes : PushCall → Prop) (Pops : PopCall → Prop) : Prop :=
  ∀ c, Pops c → ∃ L, Taken R mo t Pushes Pops c L ∧
    (∀ p, p ∈ L → ∀ e f, Until R p.thread p.cas e → From R t (c.exchange + 1) f → hb e f) ∧
    ∀ x l b, c.result = some x → Walk R rf V next t c.last x l b →
      ∃ rest, ((if c.forward then L else L.reverse).map fun p => p.node) = l ++ rest ∧ b = rest.headD 0

/-- "at most one instance of a particular object is created"; "any dereference of the object strictly happens after creating
the instance" (doc/examples.qbk:159–160, 207–209). -/
def OneInstance (R : Mca.Run cpu) (hb : Pos → Pos → Prop) (Calls : InstanceCall → Prop) : Prop :=
  ∀ c, Calls c → c.result ≠ 0 ∧ ∃ c₀ s₀, Calls c₀ ∧ c₀.store = some s₀ ∧
    (∀ c' s', Calls c' → c'.store = some s' → c' = c₀) ∧ c.result = c₀.result ∧
    ∀ e f, Until R c₀.thread s₀ e → From R c.thread c.after f → hb e f

end Verif.Idiom
