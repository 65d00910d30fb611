/-
What a user expects of seq_cst operations: every operation takes effect at once on one shared memory.
Independent of the x86 model.
-/

namespace Verif.Tso

/-- What the program observes of one operation by thread `t` on location `l`. -/
inductive Obs (T L V : Type) where
  /-- a load returned `v` -/
  | load (t : T) (l : L) (v : V)
  /-- a store of `v` -/
  | store (t : T) (l : L) (v : V)
  /-- a read-modify-write that found `v` and wrote `v'` (exchange, fetch_op, successful CAS) -/
  | rmw (t : T) (l : L) (v v' : V)

/-- The location of an observation. -/
def Obs.loc {T L V : Type} : Obs T L V → L
  | .load _ l _ | .store _ l _ | .rmw _ l _ _ => l

/-- A sequentially consistent execution: the observations happen one after another on a single memory. -/
inductive Sc {T L V : Type} [DecidableEq L] : (L → V) → List (Obs T L V) → (L → V) → Prop where
  | nil {m} : Sc m [] m
  | load {m t l es m'} : Sc m es m' → Sc m (.load t l (m l) :: es) m'
  | store {m t l v es m'} : Sc (fun k => if k = l then v else m k) es m' → Sc m (.store t l v :: es) m'
  | rmw {m t l v' es m'} : Sc (fun k => if k = l then v' else m k) es m' →
      Sc m (.rmw t l (m l) v' :: es) m'

/-- In the list (oldest first) `w` occurs, and `w'` is `w` or comes after it. -/
def AtOrAfter {α : Type} (l : List α) (w w' : α) : Prop :=
  ∃ a b, l = a ++ w' :: b ∧ w ∈ a ++ [w']

end Verif.Tso
