import Verif.Common.Lin

/-
A machine that executes the inline assembly blocks of the library instruction by instruction: a
processor core with registers, flags and an exclusive monitor (reservation), working on one storage
object in shared memory.

An instruction is given by the registers it reads, the registers it writes and what it computes.  The
mnemonics of each instruction set are defined in `Verif.Asm.Isa`; the blocks, one list of mnemonics
per `__asm__` statement of the library, are in the files `Verif.Asm.Code*`.

A block does not name registers but operands (`%0`, `%[original]`, …).  Which register stands for
which operand is the compiler's choice, within the limits of the constraints written in the block.
Operands are called slots here (an operand that occupies a register pair has two), and `ρ` maps a slot
to the register chosen for it.

The address of the object is in a register, too: an access through a register that does not hold the
address (any more) is recorded as bad, like an unpredictable instruction.

Simplifications: the core has one condition flag for "equal" and one for "carry"; registers have all
the same width `R`; memory is one storage object of `M` bits, accesses to which are atomic and totally
ordered (the order of accesses to different objects is the subject of `Verif.Order`).
-/

namespace Verif.Asm

/-- An operand of a block (or one half of an operand held in two registers). -/
abbrev Slot := Nat

/-- Condition flags: `z` is "equal" (ARM/x86 Z, PowerPC CR0.EQ), `c` is the carry flag. -/
structure Flags where
  z : Bool
  c : Bool

/-- What a load does to the exclusive monitor: nothing, set it, or, in the second half of a load of a
pair of registers that is not indivisible, keep it only if no store came between the halves. -/
inductive Link where
  | plain
  | set
  | keep
  deriving DecidableEq

/-- Instructions for registers of `R` bits and a storage object of `M` bits.
`rs` are the operands read and `ws` those written, in this order; `addr` is the operand that holds
the address of the object.
* `label`: a local label, no effect;
* `comp`: computes on registers and flags;
* `havoc`: leaves unspecified values in `ws`;
* `load`: reads the object; `link` tells what it does to the exclusive monitor; `whole` tells whether
  it reads all of the object at once;
* `store`: plain store;
* `sc`: store-conditional, executed only if `cond` holds of the flags.  It may fail at any time and can
  succeed only if the monitor is still set.  `st ok` is what it leaves in the registers and flags.
  The pairs in `apart` must be different registers, otherwise the instruction is unpredictable;
* `rmw`: an indivisible read-modify-write; `none` means that the object is left as it is;
* `jump`: to the instruction number `target` if `cond` holds.  `lab` and `fwd` are the label as
  written (`1b`, `2f`), and `off` the byte offset written for assemblers without local labels. -/
inductive Ins (R M : Nat) where
  | label (n : Nat)
  | comp (rs ws : List Slot) (f : List (BitVec R) → Flags → List (BitVec R) × Flags)
  | havoc (ws : List Slot)
  | load (addr : Slot) (link : Link) (whole : Bool) (ws : List Slot) (f : BitVec M → List (BitVec R))
  | store (addr : Slot) (rs : List Slot) (g : List (BitVec R) → BitVec M)
  | sc (addr : Slot) (cond : Flags → Bool) (rs ws : List Slot) (apart : List (Slot × Slot))
      (g : List (BitVec R) → BitVec M) (st : Bool → Flags → List (BitVec R) × Flags)
  | rmw (addr : Slot) (rs ws : List Slot)
      (f : BitVec M → List (BitVec R) → Flags → Option (BitVec M) × List (BitVec R) × Flags)
  | jump (rs : List Slot) (cond : List (BitVec R) → Flags → Bool) (target : Nat)
      (lab : Nat) (fwd : Bool) (off : Option Int)

/-- The state of a core inside a block.  `link` is the monitor: the number of stores the object had
seen when it was set, and the value read then.  `base` is the address of the object.  The last three
fields only record what happened: the values the object was seen to have, the stores made by this core (old and new value), and whether
an unpredictable instruction was executed or another object accessed. -/
structure Cpu (R M : Nat) where
  pc : Nat
  reg : Nat → BitVec R
  fl : Flags
  link : Option (Nat × BitVec M)
  base : BitVec R
  seen : List (BitVec M)
  wrote : List (BitVec M × BitVec M)
  bad : Bool

/-- What an instruction finds outside the core: the value of the object and the number of stores it has
seen, whether a store-conditional is granted, and the values left by `havoc`. -/
structure Orc (R M : Nat) where
  val : BitVec M
  ver : Nat
  ok : Bool
  junk : Slot → BitVec R

variable {R M : Nat}

/-- The contents of the registers chosen for the slots `rs`. -/
def rd (ρ : Slot → Nat) (reg : Nat → BitVec R) (rs : List Slot) : List (BitVec R) :=
  rs.map fun s => reg (ρ s)

/-- Write the values `vs` to the registers chosen for `ws`, first to last. -/
def wr (ρ : Slot → Nat) : (Nat → BitVec R) → List Slot → List (BitVec R) → (Nat → BitVec R)
  | reg, [], _ => reg
  | reg, s :: ws, vs => wr ρ (upd reg (ρ s) (vs.headD 0)) ws vs.tail

/-- The monitor after a load. -/
def Link.after (l : Link) (link : Option (Nat × BitVec M)) (ver : Nat) (val : BitVec M) :
    Option (Nat × BitVec M) :=
  match l with
  | .plain => link
  | .set => some (ver, val)
  | .keep => if link.map Prod.fst = some ver then link else none

/-- One instruction.  Also returns the value stored to the object, if any. -/
def exec (ρ : Slot → Nat) (i : Ins R M) (o : Orc R M) (c : Cpu R M) : Cpu R M × Option (BitVec M) :=
  match i with
  | .label _ => ({ c with pc := c.pc + 1 }, none)
  | .comp rs ws f =>
    let r := f (rd ρ c.reg rs) c.fl
    ({ c with pc := c.pc + 1, reg := wr ρ c.reg ws r.1, fl := r.2 }, none)
  | .havoc ws =>
    ({ c with pc := c.pc + 1, reg := wr ρ c.reg ws (ws.map o.junk) }, none)
  | .load a link whole ws f =>
    ({ c with
        pc := c.pc + 1, reg := wr ρ c.reg ws (f o.val)
        link := link.after c.link o.ver o.val
        seen := if whole then c.seen ++ [o.val] else c.seen
        bad := c.bad || c.reg (ρ a) != c.base }, none)
  | .store a rs g =>
    let v := g (rd ρ c.reg rs)
    ({ c with
        pc := c.pc + 1, wrote := c.wrote ++ [(o.val, v)], bad := c.bad || c.reg (ρ a) != c.base }, some v)
  | .sc a cond rs ws apart g st =>
    let bad := c.bad || c.reg (ρ a) != c.base || apart.any fun p => ρ p.1 == ρ p.2
    if cond c.fl then
      match c.link, o.ok with
      | some _, true =>
        let v := g (rd ρ c.reg rs)
        let r := st true c.fl
        ({ c with
            pc := c.pc + 1, reg := wr ρ c.reg ws r.1, fl := r.2, link := none
            wrote := c.wrote ++ [(o.val, v)], bad := bad }, some v)
      | _, _ =>
        let r := st false c.fl
        ({ c with pc := c.pc + 1, reg := wr ρ c.reg ws r.1, fl := r.2, link := none, bad := bad }, none)
    else ({ c with pc := c.pc + 1 }, none)
  | .rmw a rs ws f =>
    let bad := c.bad || c.reg (ρ a) != c.base
    match f o.val (rd ρ c.reg rs) c.fl with
    | (some v, vs, fl) =>
      ({ c with
          pc := c.pc + 1, reg := wr ρ c.reg ws vs, fl := fl, wrote := c.wrote ++ [(o.val, v)]
          bad := bad }, some v)
    | (none, vs, fl) =>
      ({ c with
          pc := c.pc + 1, reg := wr ρ c.reg ws vs, fl := fl, seen := c.seen ++ [o.val]
          bad := bad }, none)
  | .jump rs cond target _ _ _ =>
    ({ c with pc := if cond (rd ρ c.reg rs) c.fl then target else c.pc + 1 }, none)

/-- The object in shared memory: its value and the number of stores made to it. -/
structure Cell (M : Nat) where
  val : BitVec M
  ver : Nat

/-- A step of a core executing `prog` on the object.  A store-conditional can succeed only if no store
was made to the object since the monitor was set. -/
def Step (prog : List (Ins R M)) (ρ : Slot → Nat) (m : Cell M) (c : Cpu R M) (m' : Cell M)
    (c' : Cpu R M) : Prop :=
  ∃ i o, prog[c.pc]? = some i ∧ o.val = m.val ∧ o.ver = m.ver ∧
    (o.ok = true → c.link.map Prod.fst = some m.ver) ∧
    c' = (exec ρ i o c).1 ∧
    m' = match (exec ρ i o c).2 with
      | some v => ⟨v, m.ver + 1⟩
      | none => m

/-! ### Blocks -/

/-- How a register operand is used, from its constraint: `"=r"`, `"=&r"`, `"+r"`, `"+&r"`, `"r"`.  An
address register of a memory operand counts as `input`, a clobbered register as `outEarly`.
`reserved` is a register that the compiler never allocates (the base register of position-independent
code on 32-bit x86). -/
inductive Kind where
  | out
  | outEarly
  | inout
  | inoutEarly
  | input
  | reserved
  deriving DecidableEq

/-- Whether the compiler must keep two operands of these kinds in different registers: two outputs
always; an early-clobber output (`&`) and any other operand always; an input and an output without `&`
may share a register (GCC manual, "Extended Asm", "OutputOperands": "GCC may allocate the output
operand in the same register as an unrelated input operand, on the assumption that the assembler code
consumes its inputs before producing outputs"), and so may two inputs that have the same value. -/
def Kind.apart : Kind → Kind → Bool
  | .outEarly, _ | _, .outEarly | .inoutEarly, _ | _, .inoutEarly => true
  | .reserved, _ | _, .reserved => true
  | .input, _ | _, .input => false
  | _, _ => true

/-- Operands whose register the block may change, from the compiler's point of view. -/
def Kind.written : Kind → Bool
  | .out | .outEarly | .inout | .inoutEarly => true
  | .input | .reserved => false

/-- Operands into whose register the compiler loads a value before the block. -/
def Kind.loaded : Kind → Bool
  | .input | .inout | .inoutEarly => true
  | .out | .outEarly | .reserved => false

/-- An `__asm__` statement: instructions, register operands, operands tied to a particular register
(`"=a"`, and registers named in the text), the operands that hold the address of the object, and the
operands whose final contents matter.  `differ` lists operands that cannot share a register for another
reason: the constraints name different sets of registers, or nothing lets the compiler know that the two have the
same contents (an operand initialised by a volatile read and the address or the argument: `fetch_and` on x86). -/
structure Block (R M : Nat) where
  prog : List (Ins R M)
  opnds : List (Slot × Kind)
  fixed : List (Slot × Nat) := []
  addr : List Slot
  results : List Slot
  differ : List (Slot × Slot) := []

/-- The register assignments the compiler may choose. -/
structure Block.Legal (b : Block R M) (ρ : Slot → Nat) : Prop where
  apart : ∀ p ∈ b.opnds, ∀ q ∈ b.opnds, p.1 ≠ q.1 → p.2.apart q.2 = true → ρ p.1 ≠ ρ q.1
  fixed : ∀ p ∈ b.fixed, ρ p.1 = p.2
  differ : ∀ p ∈ b.differ, ρ p.1 ≠ ρ p.2

/-- The core at the entry of a block, with the given register contents, flags and monitor. -/
def entry (base : BitVec R) (reg : Nat → BitVec R) (fl : Flags) (link : Option (Nat × BitVec M)) :
    Cpu R M :=
  { pc := 0, reg := reg, fl := fl, link := link, base := base, seen := [], wrote := [], bad := false }

/-- Everything that can happen while a core executes a block and others use the object: `Reach` relates
the core at the entry to the object and the core at any later time.  `env` is interference: any number
of stores by others, with any values.  At the entry the monitor may be set or not. -/
inductive Reach (prog : List (Ins R M)) (ρ : Slot → Nat) (c₀ : Cpu R M) : Cell M → Cpu R M → Prop where
  | start (m : Cell M) (h : ∀ v x, c₀.link = some (v, x) → v ≤ m.ver ∧ (v = m.ver → x = m.val)) :
      Reach prog ρ c₀ m c₀
  | step {m c m' c'} : Reach prog ρ c₀ m c → Step prog ρ m c m' c' → Reach prog ρ c₀ m' c'
  | env {m c} (v : BitVec M) (k : Nat) : Reach prog ρ c₀ m c → Reach prog ρ c₀ ⟨v, m.ver + k + 1⟩ c

/-- A core alone with the object: nobody else stores, and every store-conditional that can be granted
is. -/
def alone (prog : List (Ins R M)) (ρ : Slot → Nat) (junk : Slot → BitVec R) :
    Nat → Cell M × Cpu R M → Cell M × Cpu R M
  | 0, s => s
  | n + 1, (m, c) =>
    match prog[c.pc]? with
    | none => (m, c)
    | some i =>
      let o : Orc R M := ⟨m.val, m.ver, decide (c.link.map Prod.fst = some m.ver), junk⟩
      let r := exec ρ i o c
      alone prog ρ junk n ((match r.2 with | some v => ⟨v, m.ver + 1⟩ | none => m), r.1)

end Verif.Asm
