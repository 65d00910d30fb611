/-
What the memory orders mean for the user, independently of how any back end implements them.
-/

namespace Verif.Order

/-- The six memory orders of the API. -/
inductive MO where
  | relaxed | consume | acquire | release | acqRel | seqCst
  deriving DecidableEq, Repr

/-- Orders that make a read (or a fence) an acquire operation.  `consume` is included: the library
documents that it is promoted to `acquire`. -/
def MO.isAcquire : MO → Bool
  | .consume | .acquire | .acqRel | .seqCst => true
  | .relaxed | .release => false

/-- Orders that make a write (or a fence) a release operation. -/
def MO.isRelease : MO → Bool
  | .release | .acqRel | .seqCst => true
  | .relaxed | .consume | .acquire => false

/-- Orders the C++ standard allows for a load, a wait, or the failure case of compare-exchange. -/
def MO.okForLoad : MO → Bool
  | .release | .acqRel => false
  | _ => true

/-- Orders the C++ standard allows for a store or a `clear`. -/
def MO.okForStore : MO → Bool
  | .consume | .acquire | .acqRel => false
  | _ => true

/-- `a.weakerEq b`: order `a` asks for no guarantee that `b` does not give (the partial order of the
C++ standard: relaxed ≤ consume ≤ acquire ≤ acq_rel ≤ seq_cst, relaxed ≤ release ≤ acq_rel). -/
inductive MO.WeakerEq : MO → MO → Prop where
  | refl (a) : WeakerEq a a
  | relaxed (a) : WeakerEq .relaxed a
  | seqCst (a) : WeakerEq a .seqCst
  | consumeAcquire : WeakerEq .consume .acquire
  | consumeAcqRel : WeakerEq .consume .acqRel
  | acquireAcqRel : WeakerEq .acquire .acqRel
  | releaseAcqRel : WeakerEq .release .acqRel

/-- The two effects a memory access can have. -/
inductive Part where
  | rd | wr
  deriving DecidableEq, Repr

end Verif.Order
