import Verif.Asm.Ops

/-
Operations that repeat an assembly block: the loops around compare-and-exchange of
core_ops_cas_based.hpp 37–76, cas_based_exchange.hpp 35–41 and extra_ops_generic.hpp 42–63, 207–298, and the
operations that the generic code makes of those of a back end.
-/

namespace Verif.Asm

variable {R N : Nat}

/-- A function of the library. -/
inductive Routine (R N : Nat) where
  /-- It executes one block. -/
  | once (code : Code R N (Integral.Ret N))
  /-- `non_atomic_load(storage, old_val); while (!compare_exchange_weak(storage, old_val, …)) {}`: a
  compare-and-exchange with `old_val` as the expected value, which is repeated with the value it reports until
  it succeeds; the result is computed from `old_val`. -/
  | loop (attempt : BitVec N → Code R N (Integral.Ret N)) (done : BitVec N → Integral.Ret N)

/-- The block to be executed when `old_val` is `v`. -/
def Routine.code : Routine R N → BitVec N → Code R N (Integral.Ret N)
  | .once c, _ => c
  | .loop attempt _, v => attempt v

/-- How it goes on after the block has returned: the next `old_val`, or the result. -/
def Routine.next : Routine R N → Integral.Ret N → BitVec N ⊕ Integral.Ret N
  | .loop _ _, .cas false v => .inl v
  | .loop _ done, .cas true v => .inr (done v)
  | .loop _ done, r => .inr (done (value r))      -- does not happen
  | .once _, r => .inr r

/-- A function whose result is computed from that of another one. -/
def Routine.map (g : Integral.Ret N → Integral.Ret N) : Routine R N → Routine R N
  | .once c => .once (c.map g)
  | .loop attempt done => .loop attempt fun v => g (done v)

/-- The private state of a call: not yet started, about to execute a block, inside it (with the register
assignment chosen by the compiler), finished. -/
inductive RLocal (R N : Nat) where
  | called
  | ready (old : BitVec N)
  | running (old : BitVec N) (ρ : Slot → Nat) (c : Cpu R N)
  | finished (r : Integral.Ret N)

/-- The steps of a call of the function `f`.  `non_atomic_load` is not atomic and may yield any value. -/
inductive RStep (f : Routine R N) (base : BitVec R) : Cell N → RLocal R N → Cell N → RLocal R N → Prop where
  | start (m old) : RStep f base m .called m (.ready old)
  | enter (m old ρ reg fl link) :
      (f.code old).block.Legal ρ → (f.code old).pre (fun s => reg (ρ s)) →
      (∀ s ∈ (f.code old).block.addr, reg (ρ s) = base) →
      (∀ v x, link = some (v, x) → v ≤ m.ver ∧ (v = m.ver → x = m.val)) →
      RStep f base m (.ready old) m (.running old ρ (entry base reg fl link))
  | exec (m old ρ c m' c') :
      Step (f.code old).block.prog ρ m c m' c' →
      RStep f base m (.running old ρ c) m' (.running old ρ c')
  | again (m old ρ c v) : c.pc = (f.code old).block.prog.length →
      f.next ((f.code old).ret fun s => c.reg (ρ s)) = .inl v →
      RStep f base m (.running old ρ c) m (.ready v)
  | finish (m old ρ c r) : c.pc = (f.code old).block.prog.length →
      f.next ((f.code old).ret fun s => c.reg (ρ s)) = .inr r →
      RStep f base m (.running old ρ c) m (.finished r)

/-- Any number of calls on one object at the address `base`, instruction by instruction. -/
def routineMachine {Op : Type} (f : Op → Routine R N) (base : BitVec R) : Machine (Cell N) Op (Integral.Ret N) where
  Loc := RLocal R N
  start _ := .called
  step op := RStep (f op) base
  result
    | .finished r => some r
    | _ => none

/-- The functions of a back end that the generic code builds on. -/
structure Core (R N : Nat) where
  load : Routine R N
  store : BitVec N → Routine R N
  exchange : BitVec N → Routine R N
  casWeak : BitVec N → BitVec N → Code R N (Integral.Ret N)
  casStrong : BitVec N → BitVec N → Code R N (Integral.Ret N)
  fetchAdd : BitVec N → Routine R N
  fetchSub : BitVec N → Routine R N
  fetchAnd : BitVec N → Routine R N
  fetchOr : BitVec N → Routine R N
  fetchXor : BitVec N → Routine R N

/-- `do { new_val = f(old_val) } while (!compare_exchange_weak(storage, old_val, new_val))`; returns `old_val`. -/
def Core.fetchBy (p : Core R N) (f : BitVec N → BitVec N) : Routine R N := .loop (fun e => p.casWeak e (f e)) .val

/-- The same; returns `new_val`. -/
def Core.newBy (p : Core R N) (f : BitVec N → BitVec N) : Routine R N := .loop (fun e => p.casWeak e (f e)) fun e => .val (f e)

/-- `core_operations_cas_based` (core_ops_cas_based.hpp 29–86) on top of the given load, store, exchange and
compare-and-exchange. -/
def casBased (load : Routine R N) (store exchange : BitVec N → Routine R N)
    (cas : BitVec N → BitVec N → Code R N (Integral.Ret N)) : Core R N where
  load := load
  store := store
  exchange := exchange
  casWeak := cas
  casStrong := cas
  fetchAdd v := .loop (fun e => cas e (e + v)) .val
  fetchSub v := .loop (fun e => cas e (e - v)) .val
  fetchAnd v := .loop (fun e => cas e (e &&& v)) .val
  fetchOr v := .loop (fun e => cas e (e ||| v)) .val
  fetchXor v := .loop (fun e => cas e (e ^^^ v)) .val

/-- `cas_based_exchange` (cas_based_exchange.hpp 29–42). -/
def casExchange (cas : BitVec N → BitVec N → Code R N (Integral.Ret N)) (v : BitVec N) : Routine R N :=
  .loop (fun e => cas e v) .val

/-- The functions that return the new value, which differ in the two versions of `extra_operations_generic`:
extra_ops_generic.hpp 65–101 compute it from the result of `fetch_*`, 233–312 (`full_cas_based`) repeat a
compare-and-exchange. -/
def Core.newOr (p : Core R N) (cas : Bool) (fetch : Routine R N) (f : BitVec N → BitVec N) : Routine R N :=
  if cas then p.newBy f else fetch.map (newVal f)

/-- `add` -/
def Core.add (p : Core R N) (cas : Bool) (v : BitVec N) : Routine R N := p.newOr cas (p.fetchAdd v) (· + v)
/-- `sub` -/
def Core.sub (p : Core R N) (cas : Bool) (v : BitVec N) : Routine R N := p.newOr cas (p.fetchSub v) (· - v)
/-- `bitwise_and` -/
def Core.bitwiseAnd (p : Core R N) (cas : Bool) (v : BitVec N) : Routine R N := p.newOr cas (p.fetchAnd v) (· &&& v)
/-- `bitwise_or` -/
def Core.bitwiseOr (p : Core R N) (cas : Bool) (v : BitVec N) : Routine R N := p.newOr cas (p.fetchOr v) (· ||| v)
/-- `bitwise_xor` -/
def Core.bitwiseXor (p : Core R N) (cas : Bool) (v : BitVec N) : Routine R N := p.newOr cas (p.fetchXor v) (· ^^^ v)

/-- All operations: those of the back end, and the others by extra_ops_generic.hpp 35–196, or 199–393 if `cas`.
`integral_extend` is the identity since the object is as wide as the storage. -/
def Core.routine (p : Core R N) (cas : Bool) : Integral.Op N → Routine R N
  | .load => p.load
  | .store v => p.store v
  | .exchange v => p.exchange v
  | .casWeak e d => .once (p.casWeak e d)
  | .casStrong e d => .once (p.casStrong e d)
  | .fetchAdd v => p.fetchAdd v
  | .fetchSub v => p.fetchSub v
  | .fetchAnd v => p.fetchAnd v
  | .fetchOr v => p.fetchOr v
  | .fetchXor v => p.fetchXor v
  | .fetchNegate => p.fetchBy (- ·)
  | .fetchComplement => p.fetchXor (BitVec.allOnes N)
  | .add v => p.add cas v
  | .sub v => p.sub cas v
  | .negate => p.newBy (- ·)
  | .bitwiseAnd v => p.bitwiseAnd cas v
  | .bitwiseOr v => p.bitwiseOr cas v
  | .bitwiseXor v => p.bitwiseXor cas v
  | .bitwiseComplement => p.bitwiseXor cas (BitVec.allOnes N)
  | .opaqueAdd v => (p.fetchAdd v).map discard
  | .opaqueSub v => (p.fetchSub v).map discard
  | .opaqueNegate => (p.fetchBy (- ·)).map discard
  | .opaqueAnd v => (p.fetchAnd v).map discard
  | .opaqueOr v => (p.fetchOr v).map discard
  | .opaqueXor v => (p.fetchXor v).map discard
  | .opaqueComplement => (p.fetchXor (BitVec.allOnes N)).map discard
  | .addAndTest v => (p.add cas v).map test
  | .subAndTest v => (p.sub cas v).map test
  | .negateAndTest => (p.newBy (- ·)).map test
  | .andAndTest v => (p.bitwiseAnd cas v).map test
  | .orAndTest v => (p.bitwiseOr cas v).map test
  | .xorAndTest v => (p.bitwiseXor cas v).map test
  | .complementAndTest => (p.bitwiseXor cas (BitVec.allOnes N)).map test
  | .bitTestAndSet b => (p.fetchOr (bit b)).map (testBit (bit b))
  | .bitTestAndReset b => (p.fetchAnd (~~~ bit b)).map (testBit (bit b))
  | .bitTestAndComplement b => (p.fetchXor (bit b)).map (testBit (bit b))

/-- An atomic object of `N` bits at any address and with any initial value is linearizable: all
histories of concurrent calls, executed instruction by instruction, are explained by `Integral.spec`. -/
def AtomicByLoops (p : Core R N) (cas : Bool) : Prop :=
  ∀ (base : BitVec R) (v₀ : BitVec N), base ≠ 0 →
    (routineMachine (p.routine cas) base).IsLinearizable Integral.spec ⟨v₀, 0⟩ v₀

end Verif.Asm
