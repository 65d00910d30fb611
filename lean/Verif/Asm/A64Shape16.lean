import Verif.Asm.OpsLemmas
import Verif.Asm.IsaA64

/-
The shapes of the blocks of the AArch64 back end for objects of 16 bytes.
-/

set_option linter.unusedSimpArgs false
set_option linter.unusedVariables false

namespace Verif.Asm.A64

theorem pair_eta (be : Bool) (m : BitVec 128) : pair be (first be m) (second be m) = m := by
  cases be <;> simp [pair, first, second, joined_eta]

theorem first_pair (be : Bool) (a b : BitVec 64) : first be (pair be a b) = a := by
  cases be <;> simp [pair, first, upper_joined, lower_joined]

theorem second_pair (be : Bool) (a b : BitVec 64) : second be (pair be a b) = b := by
  cases be <;> simp [pair, second, upper_joined, lower_joined]

theorem eq_pair (be : Bool) (m : BitVec 128) (a b : BitVec 64) :
    m = pair be a b ↔ first be m = a ∧ second be m = b :=
  ⟨fun h => by rw [h, first_pair, second_pair]; simp, fun ⟨h1, h2⟩ => by rw [← h1, ← h2, pair_eta]⟩

theorem load16_shape (be : Bool) : Fn.Implements {
    block := {
      prog := [.label 1, ldxp1 be 1 3, ldxp2 be 2 3, stxp be 0 1 2 3, cbnzw 0 0 1 false]
      opnds := [(0, .outEarly), (1, .outEarly), (2, .outEarly), (3, .input)]
      addr := [3]
      results := [1, 2] }
    args := fun _ _ => True
    ret := fun _ r => .val (pair be (r 1) (r 2)) : Fn 64 128 Unit (Integral.Ret 128) } Integral.spec fun _ => .load := by
  intro a
  asm_exec [pair_eta] [0] [3] [] 5

theorem store16_shape (be : Bool) : Fn.Implements {
    block := {
      prog := [.label 1, ldxp1 be 2 1, ldxp2 be 3 1, stxp be 0 4 5 1, cbnzw 0 0 1 false]
      opnds := [(0, .outEarly), (1, .input), (2, .outEarly), (3, .outEarly), (4, .input), (5, .input)]
      addr := [1]
      results := [] }
    args := fun a x => pair be (x 4) (x 5) = a
    ret := fun _ _ => .unit : Fn 64 128 (BitVec 128) (Integral.Ret 128) } Integral.spec .store := by
  intro a
  asm_exec [pair_eta] [0] [1, 4, 5] [] 5

theorem exchange16_shape (be : Bool) : Fn.Implements {
    block := {
      prog := [.label 1, ldxp1 be 2 1, ldxp2 be 3 1, stxp be 0 4 5 1, cbnzw 0 0 1 false]
      opnds := [(0, .outEarly), (1, .input), (2, .outEarly), (3, .outEarly), (4, .input), (5, .input)]
      addr := [1]
      results := [2, 3] }
    args := fun a x => pair be (x 4) (x 5) = a
    ret := fun _ r => .val (pair be (r 2) (r 3)) : Fn 64 128 (BitVec 128) (Integral.Ret 128) } Integral.spec .exchange := by
  intro a
  asm_exec [pair_eta] [0] [1, 4, 5] [] 5

/-- Operations with an argument that return the old value; the element at the lower address first. -/
theorem fetch2_up_shape (be : Bool) {Op : Type} {spec : SeqSpec (BitVec 128) Op (Integral.Ret 128)}
    {op : BitVec 128 → Op} (g : BitVec 128 → BitVec 128 → BitVec 128)
    {f1 f2 : List (BitVec 64) → Flags → BitVec 64} {k1 k2 : List (BitVec 64) → Flags → Flags}
    (hs : ∀ m v m' r, spec m (op v) m' r ↔ m' = g m v ∧ r = .val m)
    (hf : ∀ m u v fl, pair be (f1 [first be m, u] fl) (f2 [second be m, v] (k1 [first be m, u] fl)) =
      g m (pair be u v)) : Fn.Implements {
    block := {
      prog := [.label 1, ldxp1 be 2 1, ldxp2 be 3 1, .comp [2, 6] [4] (fun v fl => ([f1 v fl], k1 v fl)),
        .comp [3, 7] [5] (fun v fl => ([f2 v fl], k2 v fl)), stxp be 0 4 5 1, cbnzw 0 0 1 false]
      opnds := [(0, .outEarly), (1, .input), (2, .outEarly), (3, .outEarly), (4, .outEarly), (5, .outEarly),
        (6, .input), (7, .input)]
      addr := [1]
      results := [2, 3] }
    args := fun a x => pair be (x 6) (x 7) = a
    ret := fun _ r => .val (pair be (r 2) (r 3)) : Fn 64 128 (BitVec 128) (Integral.Ret 128) } spec op := by
  intro a
  asm_exec [pair_eta, hs, hf] [0] [1, 6, 7] [] 7

/-- The element at the higher address first. -/
theorem fetch2_down_shape (be : Bool) {Op : Type} {spec : SeqSpec (BitVec 128) Op (Integral.Ret 128)}
    {op : BitVec 128 → Op} (g : BitVec 128 → BitVec 128 → BitVec 128)
    {f1 f2 : List (BitVec 64) → Flags → BitVec 64} {k1 k2 : List (BitVec 64) → Flags → Flags}
    (hs : ∀ m v m' r, spec m (op v) m' r ↔ m' = g m v ∧ r = .val m)
    (hf : ∀ m u v fl, pair be (f2 [first be m, u] (k1 [second be m, v] fl)) (f1 [second be m, v] fl) =
      g m (pair be u v)) : Fn.Implements {
    block := {
      prog := [.label 1, ldxp1 be 2 1, ldxp2 be 3 1, .comp [3, 7] [5] (fun v fl => ([f1 v fl], k1 v fl)),
        .comp [2, 6] [4] (fun v fl => ([f2 v fl], k2 v fl)), stxp be 0 4 5 1, cbnzw 0 0 1 false]
      opnds := [(0, .outEarly), (1, .input), (2, .outEarly), (3, .outEarly), (4, .outEarly), (5, .outEarly),
        (6, .input), (7, .input)]
      addr := [1]
      results := [2, 3] }
    args := fun a x => pair be (x 6) (x 7) = a
    ret := fun _ r => .val (pair be (r 2) (r 3)) : Fn 64 128 (BitVec 128) (Integral.Ret 128) } spec op := by
  intro a
  asm_exec [pair_eta, hs, hf] [0] [1, 6, 7] [] 7

/-- Operations with an argument that return the new value; the element at the lower address first. -/
theorem new2_up_shape (be : Bool) {Op : Type} {spec : SeqSpec (BitVec 128) Op (Integral.Ret 128)}
    {op : BitVec 128 → Op} (g : BitVec 128 → BitVec 128 → BitVec 128)
    {f1 f2 : List (BitVec 64) → Flags → BitVec 64} {k1 k2 : List (BitVec 64) → Flags → Flags}
    (hs : ∀ m v m' r, spec m (op v) m' r ↔ m' = g m v ∧ r = .val m')
    (hf : ∀ m u v fl, pair be (f1 [first be m, u] fl) (f2 [second be m, v] (k1 [first be m, u] fl)) =
      g m (pair be u v)) : Fn.Implements {
    block := {
      prog := [.label 1, ldxp1 be 2 1, ldxp2 be 3 1, .comp [2, 4] [2] (fun v fl => ([f1 v fl], k1 v fl)),
        .comp [3, 5] [3] (fun v fl => ([f2 v fl], k2 v fl)), stxp be 0 2 3 1, cbnzw 0 0 1 false]
      opnds := [(0, .outEarly), (1, .input), (2, .outEarly), (3, .outEarly), (4, .input), (5, .input)]
      addr := [1]
      results := [2, 3] }
    args := fun a x => pair be (x 4) (x 5) = a
    ret := fun _ r => .val (pair be (r 2) (r 3)) : Fn 64 128 (BitVec 128) (Integral.Ret 128) } spec op := by
  intro a
  asm_exec [pair_eta, hs, hf] [0] [1, 4, 5] [] 7

theorem new2_down_shape (be : Bool) {Op : Type} {spec : SeqSpec (BitVec 128) Op (Integral.Ret 128)}
    {op : BitVec 128 → Op} (g : BitVec 128 → BitVec 128 → BitVec 128)
    {f1 f2 : List (BitVec 64) → Flags → BitVec 64} {k1 k2 : List (BitVec 64) → Flags → Flags}
    (hs : ∀ m v m' r, spec m (op v) m' r ↔ m' = g m v ∧ r = .val m')
    (hf : ∀ m u v fl, pair be (f2 [first be m, u] (k1 [second be m, v] fl)) (f1 [second be m, v] fl) =
      g m (pair be u v)) : Fn.Implements {
    block := {
      prog := [.label 1, ldxp1 be 2 1, ldxp2 be 3 1, .comp [3, 5] [3] (fun v fl => ([f1 v fl], k1 v fl)),
        .comp [2, 4] [2] (fun v fl => ([f2 v fl], k2 v fl)), stxp be 0 2 3 1, cbnzw 0 0 1 false]
      opnds := [(0, .outEarly), (1, .input), (2, .outEarly), (3, .outEarly), (4, .input), (5, .input)]
      addr := [1]
      results := [2, 3] }
    args := fun a x => pair be (x 4) (x 5) = a
    ret := fun _ r => .val (pair be (r 2) (r 3)) : Fn 64 128 (BitVec 128) (Integral.Ret 128) } spec op := by
  intro a
  asm_exec [pair_eta, hs, hf] [0] [1, 4, 5] [] 7

theorem weak16_shape (be : Bool) : Fn.Implements {
    block := {
      prog := [movwI 0 0, ldxp1 be 2 1, ldxp2 be 3 1, cmpx 2 6, ccmpxEq0 3 7, bne 8 1 true,
        stxp be 0 4 5 1, eorwI 0 0 1, .label 1]
      opnds := [(0, .outEarly), (1, .input), (2, .outEarly), (3, .outEarly), (4, .input), (5, .input),
        (6, .input), (7, .input)]
      addr := [1]
      results := [2, 3, 0] }
    args := fun a x => pair be (x 4) (x 5) = a.2 ∧ pair be (x 6) (x 7) = a.1
    ret := fun _ r => bool8 (r 0) (.cas · (pair be (r 2) (r 3))) :
      Fn 64 128 (BitVec 128 × BitVec 128) (Integral.Ret 128) } looseSpec fun a => .casWeak a.1 a.2 := by
  rintro ⟨e, d⟩
  have he : ∀ m a b, m = pair be a b ↔ first be m = a ∧ second be m = b := eq_pair be
  asm_exec2 [pair_eta, looseSpec, he] [0] [1, 4, 5, 6, 7] [] 9

/-- As `Last`, for either of the last two values seen. -/
def LastTwo {Op Ret : Type} {M : Nat} (spec : SeqSpec (BitVec M) Op Ret) (op : Op) (seen : List (BitVec M))
    (wrote : List (BitVec M × BitVec M)) (r : Ret) : Prop :=
  match wrote with
  | [] => ∃ s a b, seen = s ++ [a, b] ∧ (spec a op a r ∨ spec b op b r)
  | [(m, m')] => spec m op m' r
  | _ => False

theorem LastTwo.explains {R M : Nat} {Op Ret : Type} {spec : SeqSpec (BitVec M) Op Ret} {op : Op} {c : Cpu R M}
    {r : Ret} (h : LastTwo spec op c.seen c.wrote r) : Explains spec op c r := by
  unfold LastTwo at h
  split at h
  · rename_i hw
    obtain ⟨s, a, b, hs, h⟩ := h
    rcases h with h | h
    · exact .inr ⟨hw, a, by simp [hs], h⟩
    · exact .inr ⟨hw, b, by simp [hs], h⟩
  · rename_i m m' hw
    exact .inl ⟨m, m', hw, h⟩
  · exact h.elim

theorem two_eta {M : Nat} {s : List (BitVec M)} {x y : BitVec M} {P : BitVec M → BitVec M → Prop} :
    (∃ t a b, s ++ [x, y] = t ++ [a, b] ∧ P a b) ↔ P x y := by
  constructor
  · rintro ⟨t, a, b, h, hp⟩
    obtain ⟨-, h⟩ := List.append_inj' h rfl
    cases h
    exact hp
  · exact fun h => ⟨s, x, y, rfl, h⟩

theorem strong16_shape (be : Bool) : Fn.Implements {
    block := {
      prog := [.label 1, ldxp1 be 2 1, ldxp2 be 3 1, cmpx 2 6, ccmpxEq0 3 7, bne 8 2 true,
        stxp be 0 4 5 1, cbnzw 0 0 1 false, .label 2, cseteqw 0]
      opnds := [(0, .outEarly), (1, .input), (2, .outEarly), (3, .outEarly), (4, .input), (5, .input),
        (6, .input), (7, .input)]
      addr := [1]
      results := [2, 3, 0] }
    args := fun a x => pair be (x 4) (x 5) = a.2 ∧ pair be (x 6) (x 7) = a.1
    ret := fun _ r => bool8 (r 0) (.cas · (pair be (r 2) (r 3))) :
      Fn 64 128 (BitVec 128 × BitVec 128) (Integral.Ret 128) } looseSpec fun a => .casStrong a.1 a.2 := by
  rintro ⟨e, d⟩
  have he : ∀ m a b, m = pair be a b ↔ first be m = a ∧ second be m = b := eq_pair be
  refine correct_of_fin (fun _ _ => LastTwo.explains) [0] (fun _ x r => ∀ s ∈ [1, 4, 5, 6, 7], r s = x s) [] 10
    (by kernel_rfl) (by kernel_rfl) (by kernel_rfl) (fun _ _ _ => rfl) (by rfl) (by simp)
    (by simp +contextual) (by asm_loads []) ?_ ?_
  · intro base x h0 hx ha pc hpc reg fl link seen hk
    simp only [List.mem_cons, List.not_mem_nil, or_false, forall_eq, forall_eq_or_imp] at hpc hk hx ha
    subst hpc
    obtain ⟨rfl, rfl⟩ := hx
    simp [wp, insWp, asm, rd, wr, After, LastTwo, two_eta, upd, hk, ha, Integral.spec, asm_bv, pair_eta]
    simp [looseSpec, Integral.spec, bool8, he]
    grind
  · intro base x h0 hx ha fl link m junk hl
    simp only [List.mem_cons, List.not_mem_nil, or_false, forall_eq, forall_eq_or_imp] at hx ha
    simp [asm, rd, wr, upd, entry, Link.after, hx, ha]
    all_goals try simp +contextual

end Verif.Asm.A64
