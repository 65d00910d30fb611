/-
Bodies of the library's operations on one storage word, with the memory accesses made
explicit.  The concurrency skeleton (CAS loop, LL/SC loop, spin lock, single locked
instruction) is supplied separately by the machines that execute these bodies.
-/

namespace Verif

/-- The body of an operation on a storage word of type `W` returning `R`.
* `load k`         : one atomic read of the word `w`, returning `k w`;
* `store v r`      : one atomic write;
* `casWeak e d k`  : weak compare-exchange with expected `e` and desired `d`;
                     `k ok x` is the result when the exchange reports `ok` and leaves `x`
                     in the `expected` argument;
* `casStrong e d k`: the same for the strong form;
* `rmw f k`        : a read-modify-write that replaces the old word `w` by `f w` and returns
                     `k w (f w)`. -/
inductive Code (W R : Type) where
  | load (k : W → R)
  | store (v : W) (r : R)
  | casWeak (e d : W) (k : Bool → W → R)
  | casStrong (e d : W) (k : Bool → W → R)
  | rmw (f : W → W) (k : W → W → R)

/-- Post-process the result of an operation. -/
def Code.map {W R R' : Type} (g : R → R') : Code W R → Code W R'
  | .load k => .load fun w => g (k w)
  | .store v r => .store v (g r)
  | .casWeak e d k => .casWeak e d fun b w => g (k b w)
  | .casStrong e d k => .casStrong e d fun b w => g (k b w)
  | .rmw f k => .rmw f fun w w' => g (k w w')

/-- Uninterrupted (sequential) execution: from word `w` the operation may leave the word
`w'` and return `r`.  The weak compare-exchange may fail although the comparison holds. -/
inductive Code.Run {W R : Type} : Code W R → W → W → R → Prop where
  | load {k w} : Run (.load k) w w (k w)
  | store {v r w} : Run (.store v r) w v r
  | weakOk {d k w} : Run (.casWeak w d k) w d (k true w)
  | weakFail {e d k w} : Run (.casWeak e d k) w w (k false w)
  | strongOk {d k w} : Run (.casStrong w d k) w d (k true w)
  | strongFail {e d k w} : w ≠ e → Run (.casStrong e d k) w w (k false w)
  | rmw {f k w} : Run (.rmw f k) w (f w) (k w (f w))

end Verif
