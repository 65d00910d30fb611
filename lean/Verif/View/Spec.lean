import Verif.Api.Spec

/-
Operations that are not part of the library, on the object that `value()` refers to (doc/atomic.qbk:722–726): "The returned
reference can be used to invoke external operations on the atomic value, which are not part of Boost.Atomic but are compatible with
it on the target architecture."
-/

namespace Verif.View

/-- A call of the library, or an indivisible operation of someone else that replaces the value `v` by `f v` and returns `v`.  With
`f = id` it only looks at the value, as a futex does. -/
inductive Any (Op V : Type) where
  | call (op : Op)
  | external (f : V → V)

inductive AnyRet (Ret V : Type) where
  | call (r : Ret)
  | saw (v : V)

/-- Both kinds of operations act on the same value. -/
def anySpec {σ Op Ret : Type} (spec : SeqSpec σ Op Ret) : SeqSpec σ (Any Op σ) (AnyRet Ret σ)
  | s, .call op, s', .call r => spec s op s' r
  | s, .external f, s', .saw v => s' = f s ∧ v = s
  | _, _, _, _ => False

/-- A specification for some of the operations. -/
def restrict {σ Op Ret : Type} (P : Op → Prop) (spec : SeqSpec σ Op Ret) : SeqSpec σ {op : Op // P op} Ret :=
  fun s op s' r => spec s op.1 s' r

/-- External operations that only look. -/
def Looks {Op V : Type} (op : Any Op V) : Prop := ∀ f, op = .external f → f = id

open Concurrent in
/-- Linearizable on all machines but the one with locks: external operations do not take the locks of the library.  The conjuncts are
those of `Api.LinearizableEverywhere`. -/
def LinearizableLockFree {W Op Ret σ : Type} [DecidableEq W] (code : Op → Code W Ret) (spec : SeqSpec σ Op Ret)
    (w₀ : W) (s₀ : σ) : Prop :=
  (casMachine code).IsLinearizable spec w₀ s₀ ∧
  (oneMachine code).IsLinearizable spec w₀ s₀ ∧
  (∀ j, (casMachine fun op => viaCas j (code op)).IsLinearizable spec w₀ s₀) ∧
  (khMachine code).IsLinearizable spec w₀ s₀ ∧
  (∀ ver, (llMachine code).IsLinearizable spec ⟨w₀, ver⟩ s₀) ∧
  (∀ ver, (llMachine fun op => viaRmw (code op)).IsLinearizable spec ⟨w₀, ver⟩ s₀) ∧
  (∀ ver, (mixMachine code).IsLinearizable spec ⟨w₀, ver⟩ s₀)

end Verif.View
