/-
Histories and linearizability (specification side), and concurrent machines whose
threads execute calls of an API in interleaved atomic steps (model side).

Nothing in this file is specific to one back end of the library; it fixes what it
means for an implementation to make every operation of an atomic object appear to
take effect instantaneously between its invocation and its return.
-/

namespace Verif

/-- A sequential specification: `spec s op s' r` says that applying `op` to the object
value `s` may produce the value `s'` and return `r`.  It is a relation, not a function,
because `compare_exchange_weak` is allowed to fail spuriously. -/
abbrev SeqSpec (σ Op Ret : Type) := σ → Op → σ → Ret → Prop

/-- Observable events: call `i` was invoked with operation `op`, or call `i` returned `r`.
Every call has its own identity; a thread that makes several calls appears as several
identities. -/
inductive Event (Id Op Ret : Type) where
  | inv (i : Id) (op : Op)
  | res (i : Id) (r : Ret)

/-- One entry of a sequential explanation: the call, its operation and its result. -/
structure Entry (Id Op Ret : Type) where
  id : Id
  op : Op
  ret : Ret

/-- `a` occurs strictly before `b` in the list `l`. -/
def Before {α : Type} (l : List α) (a b : α) : Prop :=
  ∃ l₁ l₂ l₃, l = l₁ ++ a :: (l₂ ++ b :: l₃)

/-- The entries, executed one after the other from `s`, obey the sequential
specification and leave the object holding `s'`. -/
inductive Legal {σ Id Op Ret : Type} (spec : SeqSpec σ Op Ret) :
    σ → List (Entry Id Op Ret) → σ → Prop where
  | nil (s : σ) : Legal spec s [] s
  | cons {s s₁ s₂ : σ} {e : Entry Id Op Ret} {L : List (Entry Id Op Ret)} :
      spec s e.op s₁ e.ret → Legal spec s₁ L s₂ → Legal spec s (e :: L) s₂

/-- Linearizability (Herlihy & Wing) of the history `H` of an object that initially
holds `s₀`.  There is a sequence `L` of entries, one per call at most, that is a legal
sequential execution, explains every returned result, contains only calls that were
invoked, and respects the real-time order of non-overlapping calls.  Calls that are
still pending may or may not be included. -/
def Linearizable {σ Id Op Ret : Type} (spec : SeqSpec σ Op Ret) (s₀ : σ)
    (H : List (Event Id Op Ret)) : Prop :=
  ∃ (L : List (Entry Id Op Ret)) (s : σ),
    Legal spec s₀ L s ∧
    (L.map Entry.id).Nodup ∧
    (∀ e ∈ L, Event.inv e.id e.op ∈ H) ∧
    (∀ i r, Event.res i r ∈ H → ∃ op, Entry.mk i op r ∈ L) ∧
    (∀ a ∈ L, ∀ b ∈ L, Before H (Event.res a.id a.ret) (Event.inv b.id b.op) → Before L a b)

/-- A concurrent implementation: shared memory `Sh`, the private state `Loc` of a running
call, the state a call starts in, the atomic steps a call of a given operation may take
(nondeterministic),
and the result of a call that has finished. -/
structure Machine (Sh Op Ret : Type) where
  Loc : Type
  start : Op → Loc
  step : Op → Sh → Loc → Sh → Loc → Prop
  result : Loc → Option Ret

/-- Status of one call. -/
inductive CallSt (Op Loc Ret : Type) where
  | idle
  | run (op : Op) (l : Loc)
  | done (op : Op) (r : Ret)

/-- A state of the whole system: shared memory and the status of every call. -/
structure Sys {Sh Op Ret : Type} (Id : Type) (M : Machine Sh Op Ret) where
  sh : Sh
  calls : Id → CallSt Op M.Loc Ret

/-- Replace the status of one call. -/
def upd {Id α : Type} [DecidableEq Id] (f : Id → α) (i : Id) (a : α) : Id → α :=
  fun j => if j = i then a else f j

@[simp] theorem upd_same {Id α : Type} [DecidableEq Id] (f : Id → α) (i : Id) (a : α) :
    upd f i a i = a := by simp [upd]

theorem upd_other {Id α : Type} [DecidableEq Id] (f : Id → α) {i j : Id} (a : α) (h : j ≠ i) :
    upd f i a j = f j := by simp [upd, h]

/-- Executions of a machine: any number of calls, any interleaving, any length.
`Exec M sh₀ sys H` says that `sys` can be reached from shared memory `sh₀` with no call
running, and that `H` is the history observed on the way. -/
inductive Exec {Sh Op Ret Id : Type} [DecidableEq Id] (M : Machine Sh Op Ret) (sh₀ : Sh) :
    Sys Id M → List (Event Id Op Ret) → Prop where
  | init : Exec M sh₀ ⟨sh₀, fun _ => .idle⟩ []
  | invoke {sys H} (i : Id) (op : Op) : Exec M sh₀ sys H → sys.calls i = .idle →
      Exec M sh₀ ⟨sys.sh, upd sys.calls i (.run op (M.start op))⟩ (H ++ [.inv i op])
  | step {sys H} (i : Id) (op : Op) (l : M.Loc) (sh' : Sh) (l' : M.Loc) :
      Exec M sh₀ sys H → sys.calls i = .run op l → M.step op sys.sh l sh' l' →
      Exec M sh₀ ⟨sh', upd sys.calls i (.run op l')⟩ H
  | ret {sys H} (i : Id) (op : Op) (l : M.Loc) (r : Ret) :
      Exec M sh₀ sys H → sys.calls i = .run op l → M.result l = some r →
      Exec M sh₀ ⟨sys.sh, upd sys.calls i (.done op r)⟩ (H ++ [.res i r])

/-- Every history the machine can produce is linearizable. -/
def Machine.IsLinearizable {Sh Op Ret σ : Type} (M : Machine Sh Op Ret)
    (spec : SeqSpec σ Op Ret) (sh₀ : Sh) (s₀ : σ) : Prop :=
  ∀ (Id : Type) [DecidableEq Id] (sys : Sys Id M) (H : List (Event Id Op Ret)),
    Exec M sh₀ sys H → Linearizable spec s₀ H

end Verif
