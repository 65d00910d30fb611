import Verif.Integral.Spec
import Verif.Concurrent.Model

/-!
What a user of `atomic<T*>`, `atomic<bool>`, atomic enumerations and the overloaded operators relies on.
-/

namespace Verif.Api

open Verif.Integral (Ret)

/-! ### Pointers -/

/-- Operations of `atomic<T*>`; `n` counts elements. -/
inductive PtrOp (P : Nat) where
  | load
  | store (p : BitVec P)
  | exchange (p : BitVec P)
  | casWeak (e d : BitVec P)
  | casStrong (e d : BitVec P)
  | fetchAdd (n : Int) | fetchSub (n : Int)
  | add (n : Int) | sub (n : Int)
  | opaqueAdd (n : Int) | opaqueSub (n : Int)
  | addAndTest (n : Int) | subAndTest (n : Int)
  | postInc | preInc | postDec | preDec
  | addAssign (n : Int) | subAssign (n : Int)

/-- The address `p'` is `d` bytes away from `p`, addresses of `P` bits wrapping around. -/
def Moves {P : Nat} (p : BitVec P) (d : Int) (p' : BitVec P) : Prop :=
  (p'.toNat : Int) = ((p.toNat : Int) + d) % (2 ^ P : Int)

/-- Meaning of the pointer operations for elements of `sz` bytes. -/
def ptrSpec (sz : Nat) {P : Nat} : SeqSpec (BitVec P) (PtrOp P) (Ret P)
  | p, .load, p', r => p' = p ∧ r = .val p
  | _, .store q, p', r => p' = q ∧ r = .unit
  | p, .exchange q, p', r => p' = q ∧ r = .val p
  | p, .casWeak e d, p', r => (p = e ∧ p' = d ∧ r = .cas true e) ∨ (p' = p ∧ r = .cas false p)
  | p, .casStrong e d, p', r =>
      (p = e ∧ p' = d ∧ r = .cas true e) ∨ (p ≠ e ∧ p' = p ∧ r = .cas false p)
  | p, .fetchAdd n, p', r => Moves p (n * sz) p' ∧ r = .val p
  | p, .fetchSub n, p', r => Moves p (-(n * sz)) p' ∧ r = .val p
  | p, .add n, p', r => Moves p (n * sz) p' ∧ r = .val p'
  | p, .sub n, p', r => Moves p (-(n * sz)) p' ∧ r = .val p'
  | p, .opaqueAdd n, p', r => Moves p (n * sz) p' ∧ r = .unit
  | p, .opaqueSub n, p', r => Moves p (-(n * sz)) p' ∧ r = .unit
  | p, .addAndTest n, p', r => Moves p (n * sz) p' ∧ r = .flag (decide (p' ≠ 0))
  | p, .subAndTest n, p', r => Moves p (-(n * sz)) p' ∧ r = .flag (decide (p' ≠ 0))
  | p, .postInc, p', r => Moves p sz p' ∧ r = .val p
  | p, .preInc, p', r => Moves p sz p' ∧ r = .val p'
  | p, .postDec, p', r => Moves p (-sz) p' ∧ r = .val p
  | p, .preDec, p', r => Moves p (-sz) p' ∧ r = .val p'
  | p, .addAssign n, p', r => Moves p (n * sz) p' ∧ r = .val p'
  | p, .subAssign n, p', r => Moves p (-(n * sz)) p' ∧ r = .val p'

/-! ### bool -/

inductive BoolOp where
  | load
  | store (v : Bool)
  | exchange (v : Bool)
  | casWeak (e d : Bool)
  | casStrong (e d : Bool)

/-- The caller's `expected` argument ends up in the given state; `none` is a byte that is no valid `bool`. -/
inductive BoolRet where
  | unit
  | val (v : Bool)
  | cas (ok : Bool) (expected : Option Bool)

def boolSpec : SeqSpec Bool BoolOp BoolRet
  | s, .load, s', r => s' = s ∧ r = .val s
  | _, .store v, s', r => s' = v ∧ r = .unit
  | s, .exchange v, s', r => s' = v ∧ r = .val s
  | s, .casWeak e d, s', r => (s = e ∧ s' = d ∧ r = .cas true (some e)) ∨ (s' = s ∧ r = .cas false (some s))
  | s, .casStrong e d, s', r =>
      (s = e ∧ s' = d ∧ r = .cas true (some e)) ∨ (s ≠ e ∧ s' = s ∧ r = .cas false (some s))

/-! ### Enumerations: the operations without arithmetic, on the bits of the underlying type -/

inductive EnumOp (N : Nat) where
  | load
  | store (v : BitVec N)
  | exchange (v : BitVec N)
  | casWeak (e d : BitVec N)
  | casStrong (e d : BitVec N)
  | fetchAnd (v : BitVec N) | fetchOr (v : BitVec N) | fetchXor (v : BitVec N) | fetchComplement
  | bitwiseAnd (v : BitVec N) | bitwiseOr (v : BitVec N) | bitwiseXor (v : BitVec N) | bitwiseComplement
  | opaqueAnd (v : BitVec N) | opaqueOr (v : BitVec N) | opaqueXor (v : BitVec N) | opaqueComplement
  | andAndTest (v : BitVec N) | orAndTest (v : BitVec N) | xorAndTest (v : BitVec N) | complementAndTest
  | bitTestAndSet (b : Fin N) | bitTestAndReset (b : Fin N) | bitTestAndComplement (b : Fin N)
  | andAssign (v : BitVec N) | orAssign (v : BitVec N) | xorAssign (v : BitVec N)

def enumSpec {N : Nat} : SeqSpec (BitVec N) (EnumOp N) (Ret N)
  | s, .load, s', r => s' = s ∧ r = .val s
  | _, .store v, s', r => s' = v ∧ r = .unit
  | s, .exchange v, s', r => s' = v ∧ r = .val s
  | s, .casWeak e d, s', r => (s = e ∧ s' = d ∧ r = .cas true e) ∨ (s' = s ∧ r = .cas false s)
  | s, .casStrong e d, s', r =>
      (s = e ∧ s' = d ∧ r = .cas true e) ∨ (s ≠ e ∧ s' = s ∧ r = .cas false s)
  | s, .fetchAnd v, s', r => s' = s &&& v ∧ r = .val s
  | s, .fetchOr v, s', r => s' = s ||| v ∧ r = .val s
  | s, .fetchXor v, s', r => s' = s ^^^ v ∧ r = .val s
  | s, .fetchComplement, s', r => s' = ~~~s ∧ r = .val s
  | s, .bitwiseAnd v, s', r => s' = s &&& v ∧ r = .val s'
  | s, .bitwiseOr v, s', r => s' = s ||| v ∧ r = .val s'
  | s, .bitwiseXor v, s', r => s' = s ^^^ v ∧ r = .val s'
  | s, .bitwiseComplement, s', r => s' = ~~~s ∧ r = .val s'
  | s, .opaqueAnd v, s', r => s' = s &&& v ∧ r = .unit
  | s, .opaqueOr v, s', r => s' = s ||| v ∧ r = .unit
  | s, .opaqueXor v, s', r => s' = s ^^^ v ∧ r = .unit
  | s, .opaqueComplement, s', r => s' = ~~~s ∧ r = .unit
  | s, .andAndTest v, s', r => s' = s &&& v ∧ r = .flag (decide (s' ≠ 0))
  | s, .orAndTest v, s', r => s' = s ||| v ∧ r = .flag (decide (s' ≠ 0))
  | s, .xorAndTest v, s', r => s' = s ^^^ v ∧ r = .flag (decide (s' ≠ 0))
  | s, .complementAndTest, s', r => s' = ~~~s ∧ r = .flag (decide (s' ≠ 0))
  | s, .bitTestAndSet b, s', r => Integral.SetsBit s s' b true ∧ r = .flag (s.getLsbD b)
  | s, .bitTestAndReset b, s', r => Integral.SetsBit s s' b false ∧ r = .flag (s.getLsbD b)
  | s, .bitTestAndComplement b, s', r => Integral.SetsBit s s' b (!s.getLsbD b) ∧ r = .flag (s.getLsbD b)
  | s, .andAssign v, s', r => s' = s &&& v ∧ r = .val s'
  | s, .orAssign v, s', r => s' = s ||| v ∧ r = .val s'
  | s, .xorAssign v, s', r => s' = s ^^^ v ∧ r = .val s'

/-! Enumerations with the underlying type `bool` occupy a byte, of which only 0 and 1 are values: the value is one bit. -/

def ofBit (v : BitVec 1) : BitVec 8 := if v = 1 then 1 else 0

/-- The call with the same arguments, as bytes.  Only bit number 0 exists. -/
def EnumOp.ofBit : EnumOp 1 → EnumOp 8
  | .load => .load
  | .store v => .store (Api.ofBit v)
  | .exchange v => .exchange (Api.ofBit v)
  | .casWeak e d => .casWeak (Api.ofBit e) (Api.ofBit d)
  | .casStrong e d => .casStrong (Api.ofBit e) (Api.ofBit d)
  | .fetchAnd v => .fetchAnd (Api.ofBit v)
  | .fetchOr v => .fetchOr (Api.ofBit v)
  | .fetchXor v => .fetchXor (Api.ofBit v)
  | .fetchComplement => .fetchComplement
  | .bitwiseAnd v => .bitwiseAnd (Api.ofBit v)
  | .bitwiseOr v => .bitwiseOr (Api.ofBit v)
  | .bitwiseXor v => .bitwiseXor (Api.ofBit v)
  | .bitwiseComplement => .bitwiseComplement
  | .opaqueAnd v => .opaqueAnd (Api.ofBit v)
  | .opaqueOr v => .opaqueOr (Api.ofBit v)
  | .opaqueXor v => .opaqueXor (Api.ofBit v)
  | .opaqueComplement => .opaqueComplement
  | .andAndTest v => .andAndTest (Api.ofBit v)
  | .orAndTest v => .orAndTest (Api.ofBit v)
  | .xorAndTest v => .xorAndTest (Api.ofBit v)
  | .complementAndTest => .complementAndTest
  | .bitTestAndSet _ => .bitTestAndSet 0
  | .bitTestAndReset _ => .bitTestAndReset 0
  | .bitTestAndComplement _ => .bitTestAndComplement 0
  | .andAssign v => .andAssign (Api.ofBit v)
  | .orAssign v => .orAssign (Api.ofBit v)
  | .xorAssign v => .xorAssign (Api.ofBit v)

/-- The result with the same values, as bytes. -/
def retOfBit : Ret 1 → Ret 8
  | .unit => .unit
  | .val v => .val (ofBit v)
  | .flag b => .flag b
  | .cas ok v => .cas ok (ofBit v)

/-- The complement operations.  On values of type `bool` the operator `~` yields a non-zero `int`, which converts to `true`. -/
def EnumOp.Complements {N : Nat} : EnumOp N → Prop
  | .fetchComplement | .bitwiseComplement | .opaqueComplement | .complementAndTest => True
  | _ => False

/-! ### Operators of integral objects -/

inductive Operator (N : Nat) where
  | assign (v : BitVec N) | convert
  | postInc | preInc | postDec | preDec
  | addAssign (v : BitVec N) | subAssign (v : BitVec N)
  | andAssign (v : BitVec N) | orAssign (v : BitVec N) | xorAssign (v : BitVec N)

/-- Assignment and compound assignment yield the value assigned, not a reference; prefix forms the new value, postfix
forms the old one. -/
def operatorSpec {N : Nat} : SeqSpec (BitVec N) (Operator N) (Ret N)
  | _, .assign v, s', r => s' = v ∧ r = .val v
  | s, .convert, s', r => s' = s ∧ r = .val s
  | s, .postInc, s', r => s' = s + 1 ∧ r = .val s
  | s, .preInc, s', r => s' = s + 1 ∧ r = .val (s + 1)
  | s, .postDec, s', r => s' = s - 1 ∧ r = .val s
  | s, .preDec, s', r => s' = s - 1 ∧ r = .val (s - 1)
  | s, .addAssign v, s', r => s' = s + v ∧ r = .val (s + v)
  | s, .subAssign v, s', r => s' = s - v ∧ r = .val (s - v)
  | s, .andAssign v, s', r => s' = s &&& v ∧ r = .val (s &&& v)
  | s, .orAssign v, s', r => s' = s ||| v ∧ r = .val (s ||| v)
  | s, .xorAssign v, s', r => s' = s ^^^ v ∧ r = .val (s ^^^ v)

/-! ### All machines -/

open Concurrent in
/-- The operations `code` are linearizable with respect to `spec` however their read-modify-writes are made
indivisible: CAS loops, single instructions, CAS-only loads and stores, the ARM kernel helper, LL/SC loops (also for
loads and stores), mixtures, and the lock pool (there all objects together).  The object starts with word `w₀`,
standing for the value `s₀`. -/
def LinearizableEverywhere {W Op Ret σ : Type} [DecidableEq W] (code : Op → Code W Ret) (spec : SeqSpec σ Op Ret)
    (w₀ : W) (s₀ : σ) : Prop :=
  (casMachine code).IsLinearizable spec w₀ s₀ ∧
  (oneMachine code).IsLinearizable spec w₀ s₀ ∧
  (∀ j, (casMachine fun op => viaCas j (code op)).IsLinearizable spec w₀ s₀) ∧
  (khMachine code).IsLinearizable spec w₀ s₀ ∧
  (∀ ver, (llMachine code).IsLinearizable spec ⟨w₀, ver⟩ s₀) ∧
  (∀ ver, (llMachine fun op => viaRmw (code op)).IsLinearizable spec ⟨w₀, ver⟩ s₀) ∧
  (∀ ver, (mixMachine code).IsLinearizable spec ⟨w₀, ver⟩ s₀) ∧
  (∀ (Addr : Type) [DecidableEq Addr] (idx : Addr → Nat), (lkMachine idx code).IsLinearizable
    (fun s op s' r => spec (s op.1) op.2 (s' op.1) r ∧ ∀ b, b ≠ op.1 → s' b = s b)
    ⟨fun _ => .whole w₀, fun _ => false⟩ (fun _ => s₀))

end Verif.Api
