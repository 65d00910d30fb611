import Verif.Asm.Machine

/-
What it means for an assembly block to implement an operation.
-/

namespace Verif.Asm

variable {R M : Nat} {A Op Ret : Type}

/-- `r` is a correct result of `op` for a core that recorded the stores and observations of `c`:
either it made exactly one store, which replaced the value `m` by `m'` as `op` prescribes, or it made no
store, and at some moment the object had a value for which `op` prescribes `r` and no change. -/
def Explains (spec : SeqSpec (BitVec M) Op Ret) (op : Op) (c : Cpu R M) (r : Ret) : Prop :=
  (∃ m m', c.wrote = [(m, m')] ∧ spec m op m' r) ∨ (c.wrote = [] ∧ ∃ m ∈ c.seen, spec m op m r)

/-- Whether instruction `n` is the label `k`. -/
def isLabel (prog : List (Ins R M)) (k n : Nat) : Bool :=
  match prog[n]? with
  | some (.label j) => j == k
  | _ => false

/-- The number of machine instructions from position `a` up to `b`; labels take no room. -/
def codeSize (prog : List (Ins R M)) (a b : Nat) : Nat :=
  ((prog.take b).drop a).countP fun i => match i with | .label _ => false | _ => true

/-- The jumps lead where the source text says: to the next label of that name for `1f`, to the previous
one for `1b`; and where the text gives a distance in bytes instead (instructions have four bytes), the
distance leads there, too. -/
def Block.labelled (b : Block R M) : Bool :=
  b.prog.zipIdx.all fun (i, n) => match i with
    | .jump _ _ t lab fwd off =>
      isLabel b.prog lab t &&
      (if fwd then decide (n < t) && (List.range t).all fun j => decide (j ≤ n) || !isLabel b.prog lab j
        else decide (t < n) && (List.range n).all fun j => decide (j ≤ t) || !isLabel b.prog lab j) &&
      (match off with
        | none => true
        | some d => d == if fwd then 4 * (codeSize b.prog n t : Int) else -4 * (codeSize b.prog t n : Int))
    | _ => true

/-- The condition `pre` on the contents of the operands at the entry concerns only operands that the block declares as
inputs, or as both inputs and outputs: the compiler loads no value into others. -/
def Block.Loads (b : Block R M) (pre : (Slot → BitVec R) → Prop) : Prop :=
  ∀ x x' : Slot → BitVec R, (∀ p ∈ b.opnds, p.2.loaded = true → x p.1 = x' p.1) → pre x → pre x'

/-- The operands that hold the address of the object are declared as inputs. -/
def Block.addressed (b : Block R M) : Bool :=
  b.addr.all fun s => b.opnds.any fun p => p.1 == s && p.2.loaded

/-- The block `b` implements `op`.  For every register assignment the compiler may choose, all initial
register contents that satisfy `pre` (the operands have been loaded; the address of the object is not
null), and every behaviour of the other processors:
* jumps lead to the labels they name;
* the arguments and the address are put into operands that are declared as inputs;
* no unpredictable instruction is executed, no other object is accessed, and control does not leave
  the block except at its end;
* the block stores to the object at most once, and if it does, as `op` prescribes;
* whenever the end is reached, the result `ret` computed from the final register contents is correct
  for a single moment during the execution;
* at the end, registers the block does not declare as outputs or clobbered have their old contents;
* a core that is left alone with the object reaches the end. -/
structure Correct (b : Block R M) (spec : SeqSpec (BitVec M) Op Ret) (op : Op)
    (pre : (Slot → BitVec R) → Prop) (ret : (Slot → BitVec R) → Ret) : Prop where
  labels : (b.labelled && b.addressed) = true
  loads : b.Loads pre
  sound : ∀ ρ, b.Legal ρ → ∀ base reg fl link, base ≠ 0 → pre (fun s => reg (ρ s)) →
    (∀ s ∈ b.addr, reg (ρ s) = base) →
    ∀ m c, Reach b.prog ρ (entry base reg fl link) m c →
      c.bad = false ∧ c.pc ≤ b.prog.length ∧
      (c.wrote = [] ∨ ∃ x x', c.wrote = [(x, x')] ∧ ∃ r, spec x op x' r) ∧
      (c.pc = b.prog.length → Explains spec op c (ret fun s => c.reg (ρ s))) ∧
      (c.pc = b.prog.length → ∀ k, (∀ p ∈ b.opnds, p.2.written = true → ρ p.1 ≠ k) → c.reg k = reg k)
  ends : ∀ ρ, b.Legal ρ → ∀ base reg fl link, base ≠ 0 → pre (fun s => reg (ρ s)) →
    (∀ s ∈ b.addr, reg (ρ s) = base) →
    ∀ (m : Cell M) (junk : Slot → BitVec R), (∀ v x, link = some (v, x) → v ≤ m.ver) →
      ∃ n, (alone b.prog ρ junk n (m, entry base reg fl link)).2.pc = b.prog.length

/-- A function of the library whose work is done by an assembly block: how its arguments are put into
the operands, and how its results are taken from them. -/
structure Fn (R M : Nat) (A Ret : Type) where
  block : Block R M
  args : A → (Slot → BitVec R) → Prop
  ret : A → (Slot → BitVec R) → Ret

/-- The function implements the operation `op a` for all arguments `a`. -/
def Fn.Implements (f : Fn R M A Ret) (spec : SeqSpec (BitVec M) Op Ret) (op : A → Op) : Prop :=
  ∀ a, Correct f.block spec (op a) (f.args a) (f.ret a)

/-- The function implements the operation `op a` for the arguments `a` that satisfy `P`. -/
def Fn.ImplementsFor (f : Fn R M A Ret) (P : A → Prop) (spec : SeqSpec (BitVec M) Op Ret) (op : A → Op) : Prop :=
  ∀ a, P a → Correct f.block spec (op a) (f.args a) (f.ret a)

/-- The function with operand `s` declared as read and written (`"+&r"`). -/
def Fn.writes (f : Fn R M A Ret) (s : Slot) : Fn R M A Ret :=
  { f with block := { f.block with opnds := f.block.opnds.map fun p => if p.1 == s then (s, .inoutEarly) else p } }

end Verif.Asm
