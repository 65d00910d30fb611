import Verif.Integral.Model
import Verif.Concurrent.Model

/-!
What programs do with atomic objects: counters, tickets, reference counts, hand-over by exchange, claiming of
bits.  All notions are about histories, that is, about calls and their results, whatever the implementation.
-/

namespace Verif.Use

open Verif.Integral (Op Ret)

section
variable {Id O R : Type}

/-- The calls made in a history, in the order of their invocations. -/
def calls (H : List (Event Id O R)) : List (Id × O) :=
  H.filterMap fun
    | .inv i op => some (i, op)
    | .res _ _ => none

/-- Every call has its own identity and only calls that were made return. -/
structure WellFormed (H : List (Event Id O R)) : Prop where
  nodup : ((calls H).map Prod.fst).Nodup
  res : ∀ i r, Event.res i r ∈ H → ∃ op, Event.inv i op ∈ H

/-- Every call has returned. -/
def Complete (H : List (Event Id O R)) : Prop :=
  ∀ i op, Event.inv i op ∈ H → ∃ r, Event.res i r ∈ H

/-- All calls of the history are calls of `op`. -/
def Only (op : O) (H : List (Event Id O R)) : Prop :=
  ∀ i o, Event.inv i o ∈ H → o = op

open Classical in
/-- The part of a history of many objects that concerns the object at `a`. -/
noncomputable def onObject {Addr : Type} (a : Addr) (H : List (Event Id (Addr × O) R)) : List (Event Id O R) :=
  H.filterMap fun
    | .inv i op => if op.1 = a then some (.inv i op.2) else none
    | .res i r => if ∃ op, Event.inv i (a, op) ∈ H then some (.res i r) else none

end

/-- What an operation adds to the object's value, for the operations that do nothing else. -/
def addend {N : Nat} : Op N → Option (BitVec N)
  | .load => some 0
  | .fetchAdd v | .add v | .opaqueAdd v | .addAndTest v => some v
  | .fetchSub v | .sub v | .opaqueSub v | .subAndTest v => some (-v)
  | _ => none

/-- The sum of everything the calls of a history add. -/
def total {Id : Type} {N : Nat} (H : List (Event Id (Op N) (Ret N))) : BitVec N :=
  ((calls H).filterMap fun c => addend c.2).foldr (· + ·) 0

open Concurrent Integral in
/-- `H` is a history of one `atomic<integral>` object of `N` bits initially holding `v₀`, on some implementation: CAS
loops, single instructions, loads by compare-and-swap, the ARM kernel helper, LL/SC loops (also for loads and stores),
mixtures, or the lock pool (there the object at `a` among all objects sharing the pool). -/
inductive Produced {Id : Type} [DecidableEq Id] (b : Backend) (sgn : Bool) {N : Nat} (v₀ : BitVec N) :
    List (Event Id (Op N) (Ret N)) → Prop where
  | cas {sys : Sys Id (casMachine (native b sgn N))} {H} :
      Exec (casMachine (native b sgn N)) (construct sgn N v₀) sys H → Produced b sgn v₀ H
  | one {sys : Sys Id (oneMachine (native b sgn N))} {H} :
      Exec (oneMachine (native b sgn N)) (construct sgn N v₀) sys H → Produced b sgn v₀ H
  | loadByCas {j} {sys : Sys Id (casMachine fun op => viaCas j (native b sgn N op))} {H} :
      Exec (casMachine fun op => viaCas j (native b sgn N op)) (construct sgn N v₀) sys H → Produced b sgn v₀ H
  | helper {sys : Sys Id (khMachine (native b sgn N))} {H} :
      Exec (khMachine (native b sgn N)) (construct sgn N v₀) sys H → Produced b sgn v₀ H
  | llsc {ver} {sys : Sys Id (llMachine (native b sgn N))} {H} :
      Exec (llMachine (native b sgn N)) ⟨construct sgn N v₀, ver⟩ sys H → Produced b sgn v₀ H
  | llscAll {ver} {sys : Sys Id (llMachine fun op => viaRmw (native b sgn N op))} {H} :
      Exec (llMachine fun op => viaRmw (native b sgn N op)) ⟨construct sgn N v₀, ver⟩ sys H → Produced b sgn v₀ H
  | mix {ver} {sys : Sys Id (mixMachine (native b sgn N))} {H} :
      Exec (mixMachine (native b sgn N)) ⟨construct sgn N v₀, ver⟩ sys H → Produced b sgn v₀ H
  | lock {Addr : Type} [DecidableEq Addr] {idx : Addr → Nat} {v : Addr → BitVec N} {a : Addr}
      {sys : Sys Id (lkMachine idx (native b sgn N))} {H} : v a = v₀ →
      Exec (lkMachine idx (native b sgn N)) ⟨fun x => .whole (construct sgn N (v x)), fun _ => false⟩ sys H →
      Produced b sgn v₀ (onObject a H)

end Verif.Use
