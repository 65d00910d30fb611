import Verif.Integral.Exact
import Verif.Api.Props

/-!
Which operations of pointers, enumerations and operators of integers are right in storage wider than the value: exactly those
of `EmulSafe` and `OperatorSafe`, for every pair of widths (C13, C41, C42).
-/

namespace Verif.Api

open Verif.Integral Verif.Concurrent

/-- Induction over sequences of operations each of which is right. -/
theorem runs_right {N W : Nat} {sgn : Bool} {O R : Type} {code : O → Code (BitVec W) R} {spec : SeqSpec (BitVec N) O R}
    {w w' : BitVec W} {tr : List (Entry Unit O R)}
    (hstep : ∀ e ∈ tr, ∀ w w' r, Canon sgn N w → (code e.op).Run w w' r →
      Canon sgn N w' ∧ spec (trunc N w) e.op (trunc N w') r)
    (hc : Canon sgn N w) (h : Runs code w tr w') : Legal spec (trunc N w) tr (trunc N w') := by
  induction h with
  | nil w => exact .nil _
  | @cons w w₁ w₂ op r tr h1 _ ih =>
    obtain ⟨hc1, hs⟩ := hstep ⟨(), op, r⟩ (by simp) _ _ _ hc h1
    exact .cons hs (ih (fun e he => hstep e (by simp [he])) hc1)

theorem moves_unique {P : Nat} {p a b : BitVec P} {d : Int} (ha : Moves p d a) (hb : Moves p d b) : a = b :=
  BitVec.eq_of_toNat_eq (Int.ofNat_inj.1 (by rw [ha, hb]))

/-- The meaning of pointer operations determines that of the integer operations they make. -/
theorem ptr_spec_iff {S P sz : Nat} (h : P ≤ S) (s : BitVec P) (op : PtrOp P) (s' : BitVec P) (r : Ret P) :
    Integral.spec s (lowerPtr S sz op) s' r ↔ ptrSpec sz s op s' r := by
  refine ⟨ptr_spec h s op s' r, fun hs => ?_⟩
  have o := offset_eq h sz
  have o1 := o 1
  rw [Int.one_mul] at o1
  cases op <;> simp only [lowerPtr, Integral.spec, o1, o] <;> simp only [ptrSpec] at hs <;>
    first
    | exact hs
    | (obtain ⟨h1, h2⟩ := hs; exact ⟨moves_unique h1 (moves_add _ _), h2⟩)
    | (obtain ⟨h1, h2⟩ := hs; exact ⟨moves_unique h1 (moves_sub _ _), h2⟩)

/-- C13, exactly: for pointers in wider storage, a program that uses one modifying operation together with `load` and
`compare_exchange_strong` always sees pointers moved by whole elements if and only if the operation is in `EmulSafe`. -/
theorem C13_emulated_exact (cb : Bool) {S P W : Nat} (sz : Nat) (hP : 0 < P) (h : P ≤ S) (hW : P < W) (op : PtrOp P) :
    EmulSafe cb false (lowerPtr S sz op) ↔ ∀ (p₀ : BitVec P) (tr : List (Entry Unit (PtrOp P) (Ret P))) (w : BitVec W),
      (∀ e ∈ tr, e.op = op ∨ e.op = .load ∨ ∃ x d, e.op = .casStrong x d) →
      Runs (ptrEmulated cb S sz P W) (ext false W p₀) tr w → ∃ p, Legal (ptrSpec sz) p₀ tr p := by
  have low : ∀ o : PtrOp P, ptrEmulated cb S sz P W o = emulated cb false P W (lowerPtr S sz o) := fun o => by
    rw [ptrEmulated, ptrApi_eq]; rfl
  constructor
  · intro hs p₀ tr w hops hr
    have := runs_right (sgn := false) (spec := ptrSpec sz) (N := P) (fun e he w w' r hc hr => by
      have hsafe : EmulSafe cb false (lowerPtr S sz e.op) := by
        rcases hops e he with e1 | e1 | ⟨x, d, e1⟩ <;> rw [e1]
        · exact hs
        · trivial
        · trivial
      rw [low] at hr
      have := emulated_implements cb false hP (by omega) _ w w' r hsafe hc hr
      exact ⟨this.1, ptr_spec h _ _ _ _ this.2⟩) (canon_ext (by omega) p₀) hr
    rw [trunc_ext (by omega)] at this
    exact ⟨_, this⟩
  · intro hall
    refine Classical.byContradiction fun hs => ?_
    obtain ⟨v₀, w', r, hr, hbad⟩ := unsafe_step cb false hP hW _ hs
    rw [← low] at hr
    rw [ptr_spec_iff h] at hbad
    obtain ⟨tr, w, hops, hruns, hno⟩ := seen (spec := ptrSpec sz) (code := ptrEmulated cb S sz P W) .load
      (fun x => .casStrong x 0) .val (.cas false) (fun w => run_load.2 ⟨rfl, rfl⟩)
      (fun w hc => run_strong.2 (.inr ⟨fun e => hc e, rfl, rfl⟩))
      (fun s s' v hs => ⟨hs.1, by simpa using hs.2⟩)
      (fun s s' hs => by
        rcases hs with ⟨_, _, c⟩ | ⟨c, _⟩
        · simp at c
        · exact c rfl) hr hbad
    refine hno (hall v₀ tr w (fun e he => ?_) hruns)
    rcases hops e he with e1 | e1 | ⟨x, e1⟩
    · exact .inl e1
    · exact .inr (.inl e1)
    · exact .inr (.inr ⟨_, _, e1⟩)

/-- 32-bit pointers to `int` in 64-bit words: moving back is right, `add_and_test(1)` is not; with CAS-only back ends `++p`
is not. -/
example : EmulSafe false false (lowerPtr 32 4 (.subAssign 1 : PtrOp 32)) ∧
    ¬ EmulSafe false false (lowerPtr 32 4 (.addAndTest 1 : PtrOp 32)) ∧
    ¬ EmulSafe true false (lowerPtr 32 4 (.preInc : PtrOp 32)) := by
  refine ⟨.inl rfl, ?_, ?_⟩
  · simp only [lowerPtr, EmulSafe]; decide
  · simp only [lowerPtr, EmulSafe]; decide

/-- C41, exactly, for enumerations in wider storage on little-endian machines. -/
theorem C41_emulated_exact (cb esgn : Bool) {N W : Nat} (hN : 0 < N) (h : N < W) (op : EnumOp N) :
    EmulSafe cb esgn (lowerEnum op) ↔ ∀ (v₀ : BitVec N) (tr : List (Entry Unit (EnumOp N) (Ret N))) (w : BitVec W),
      (∀ e ∈ tr, e.op = op ∨ e.op = .load ∨ ∃ x d, e.op = .casStrong x d) →
      Runs (enumEmulated cb false esgn N W) (ext esgn W v₀) tr w → ∃ v, Legal enumSpec v₀ tr v := by
  have hsp : ∀ (s : BitVec N) (o : EnumOp N) s' r, Integral.spec s (lowerEnum o) s' r ↔ enumSpec s o s' r := by
    intro s o s' r
    refine ⟨enum_spec s o s' r, fun hs => ?_⟩
    cases o <;> exact hs
  constructor
  · intro hs v₀ tr w hops hr
    have := runs_right (sgn := esgn) (spec := enumSpec) (N := N) (fun e he w w' r hc hr => by
      have hsafe : EmulSafe cb esgn (lowerEnum e.op) := by
        rcases hops e he with e1 | e1 | ⟨x, d, e1⟩ <;> rw [e1]
        · exact hs
        · trivial
        · trivial
      rw [enumEmulated_eq] at hr
      have := emulated_implements cb esgn hN (by omega) _ w w' r hsafe hc hr
      exact ⟨this.1, enum_spec _ _ _ _ this.2⟩) (canon_ext (by omega) v₀) hr
    rw [trunc_ext (by omega)] at this
    exact ⟨_, this⟩
  · intro hall
    refine Classical.byContradiction fun hs => ?_
    obtain ⟨v₀, w', r, hr, hbad⟩ := unsafe_step cb esgn hN h _ hs
    rw [← enumEmulated_eq] at hr
    rw [hsp] at hbad
    obtain ⟨tr, w, hops, hruns, hno⟩ := seen (spec := enumSpec) (code := enumEmulated cb false esgn N W) .load
      (fun x => .casStrong x 0) .val (.cas false) (fun w => run_load.2 ⟨rfl, rfl⟩)
      (fun w hc => run_strong.2 (.inr ⟨fun e => hc e, rfl, rfl⟩))
      (fun s s' v hs => ⟨hs.1, by simpa using hs.2⟩)
      (fun s s' hs => by
        rcases hs with ⟨_, _, c⟩ | ⟨c, _⟩
        · simp at c
        · exact c rfl) hr hbad
    refine hno (hall v₀ tr w (fun e he => ?_) hruns)
    rcases hops e he with e1 | e1 | ⟨x, e1⟩
    · exact .inl e1
    · exact .inr (.inl e1)
    · exact .inr (.inr ⟨_, _, e1⟩)

example : ¬ EmulSafe (N := 8) false false (lowerEnum .opaqueComplement) ∧
    ¬ EmulSafe (N := 8) true true (lowerEnum (.bitTestAndReset 7)) ∧ EmulSafe (N := 8) true true (lowerEnum (.bitTestAndReset 6)) := by
  refine ⟨?_, ?_, .inr (by decide)⟩
  · simp [lowerEnum, EmulSafe]
  · simp only [lowerEnum, EmulSafe]; decide

/-- C42, exactly: for an integer in wider storage, an operator has its meaning from every value stored as it should be, and leaves
the new value stored as it should be, if and only if it is in `OperatorSafe`. -/
theorem C42_emulated_exact (cb sgn : Bool) {N W : Nat} (hN : 0 < N) (h : N < W) (op : Operator N) :
    OperatorSafe cb op ↔ ∀ (w w' : BitVec W) (r : Ret N), w = ext sgn W (trunc N w) →
      (operators (emulated cb sgn N W) op).Run w w' r →
      w' = ext sgn W (trunc N w') ∧ operatorSpec (trunc N w) op (trunc N w') r := by
  constructor
  · exact fun hs w w' r hc hr => operators_emulated_correct cb sgn hN (by omega) ⟨op, hs⟩ w w' r hc hr
  · intro hall
    have h1 : (1 : BitVec N) ≠ 0 := by
      intro e
      have := congrArg BitVec.toNat e
      simp only [BitVec.ofNat_eq_ofNat, BitVec.toNat_ofNat, Nat.zero_mod] at this
      have h2 : 1 < 2 ^ N := Nat.one_lt_two_pow (by omega)
      rw [Nat.mod_eq_of_lt h2] at this
      omega
    have key : ∀ o : Op N, (operators (emulated cb sgn N W) op) = emulated cb sgn N W o →
        (∀ s s' r, operatorSpec s op s' r → Integral.spec s o s' r) → EmulSafe cb sgn o := by
      intro o e hsp
      refine (C07_emulated_exact cb sgn hN h o).2 fun w w' r hc hr => ?_
      rw [← e] at hr
      obtain ⟨a, b⟩ := hall w w' r hc hr
      exact ⟨a, hsp _ _ _ b⟩
    cases op with
    | assign _ | convert | postInc | postDec | andAssign _ | orAssign _ | xorAssign _ => trivial
    | preInc =>
      rcases key (.add 1) rfl (fun s s' r hs => ⟨hs.1, by rw [hs.1]; exact hs.2⟩) with e | e
      · exact e
      · exact absurd e h1
    | preDec =>
      rcases key (.sub 1) rfl (fun s s' r hs => ⟨hs.1, by rw [hs.1]; exact hs.2⟩) with e | e
      · exact e
      · exact absurd e h1
    | addAssign v => exact key (.add v) rfl (fun s s' r hs => ⟨hs.1, by rw [hs.1]; exact hs.2⟩)
    | subAssign v => exact key (.sub v) rfl (fun s s' r hs => ⟨hs.1, by rw [hs.1]; exact hs.2⟩)

example : ¬ OperatorSafe true (.preInc : Operator 8) ∧ OperatorSafe true (.postInc : Operator 8) ∧
    OperatorSafe true (.addAssign 0 : Operator 8) ∧ OperatorSafe false (.preInc : Operator 8) := by
  simp [OperatorSafe]

end Verif.Api
