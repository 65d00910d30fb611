import Verif.Asm.Spec

/-
Any number of cores that execute assembly blocks on one object.
-/

namespace Verif.Asm

variable {R M : Nat} {A Op Ret : Type}

/-- The code of one call: the block, what the surrounding C++ code puts into its operands, and how it
computes the result of the call from them. -/
structure Code (R M : Nat) (Ret : Type) where
  block : Block R M
  pre : (Slot → BitVec R) → Prop
  ret : (Slot → BitVec R) → Ret

/-- The call of a function with arguments `a`. -/
def Fn.code (f : Fn R M A Ret) (a : A) : Code R M Ret := ⟨f.block, f.args a, f.ret a⟩

/-- A call whose result is computed from that of another one. -/
def Code.map {Ret' : Type} (c : Code R M Ret) (g : Ret → Ret') : Code R M Ret' :=
  ⟨c.block, c.pre, fun r => g (c.ret r)⟩

/-- The private state of a call: before the block is entered, or inside it (with the register
assignment chosen by the compiler). -/
inductive Local (R M : Nat) (Op : Type) where
  | called (op : Op)
  | running (op : Op) (ρ : Slot → Nat) (c : Cpu R M)

/-- The steps of a call: enter the block, with any legal register assignment and any register contents
that the operands allow; execute one instruction.  `base` is the address of the object. -/
inductive LStep (code : Op → Code R M Ret) (base : BitVec R) :
    Op → Cell M → Local R M Op → Cell M → Local R M Op → Prop where
  | enter (op m ρ reg fl link) :
      (code op).block.Legal ρ → (code op).pre (fun s => reg (ρ s)) →
      (∀ s ∈ (code op).block.addr, reg (ρ s) = base) →
      (∀ v x, link = some (v, x) → v ≤ m.ver ∧ (v = m.ver → x = m.val)) →
      LStep code base op m (.called op) m (.running op ρ (entry base reg fl link))
  | exec (op m ρ c m' c') :
      Step (code op).block.prog ρ m c m' c' →
      LStep code base op m (.running op ρ c) m' (.running op ρ c')

/-- The machine: shared memory is the object, each call runs the code of its operation, and a call that
has reached the end of its block returns. -/
def machine (code : Op → Code R M Ret) (base : BitVec R) : Machine (Cell M) Op Ret where
  Loc := Local R M Op
  start := .called
  step := LStep code base
  result
    | .called _ => none
    | .running op ρ c =>
      if c.pc = (code op).block.prog.length then some ((code op).ret fun s => c.reg (ρ s)) else none

end Verif.Asm
