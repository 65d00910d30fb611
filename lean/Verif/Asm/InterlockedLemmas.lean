import Verif.Asm.MsvcOps
import Verif.Asm.MsvcProofs
import Verif.Asm.LoopLemmas
import Verif.Asm.X86Pair

/-
The functions that call an interlocked function do what their operations prescribe, if the macro they use is the right
one with the right arguments.
-/

set_option linter.unusedSimpArgs false
set_option linter.unusedVariables false

namespace Verif.Asm.Interlocked

variable {R N : Nat}

set_option hygiene false in
/-- As `asm_inv`, for the functions of this file. -/
macro "asm_call" "[" fs:Lean.Parser.Tactic.simpLemma,* "]" inv:term:max n:num : tactic => `(tactic|
  (refine correct_of [0] $inv [] $n (by kernel_rfl) (by kernel_rfl) (by kernel_rfl)
      (fun x => by simp) (by rfl) (by simp [$fs,*]) (by simp +contextual [$fs,*]) (by asm_loads [$fs,*]) ?_ ?_
   · intro base x h0 hx ha pc hpc reg fl link seen hk
     simp only [List.mem_cons, List.not_mem_nil, or_false, forall_eq, forall_eq_or_imp, $fs,*] at hpc hk hx ha
     subst hpc
     all_goals simp [wp, insWp, asm, rd, wr, After, Last, upd, hk, ha, hx, Integral.spec, $fs,*]
   · intro base x h0 hx ha fl link m junk hl
     simp only [List.mem_cons, List.not_mem_nil, or_false, forall_eq, forall_eq_or_imp, $fs,*] at hx ha
     simp [asm, rd, wr, upd, entry, Link.after, hx, ha, $fs,*]))

/-- The shape of `fetch`. -/
theorem old_ok (h : N ≤ R) {Op : Type} {spec : SeqSpec (BitVec N) Op (Integral.Ret N)} {op : BitVec N → Op}
    (g : BitVec N → BitVec N → BitVec N) (hs : ∀ m v m' r, spec m (op v) m' r ↔ m' = g m v ∧ r = .val m) : Fn.Implements {
    block := {
      prog := [old g 0 1 N [1]]
      opnds := [(0, .input), (1, .inout)]
      addr := [0]
      results := [1] }
    args := fun a x => (x 1).setWidth N = a
    ret := fun _ r => .val ((r 1).setWidth N) : Fn R N (BitVec N) (Integral.Ret N) } spec op := by
  intro a
  have key : ∀ v : BitVec N, (v.setWidth R).setWidth N = v := fun v => by
    rw [BitVec.setWidth_setWidth_of_le _ h]; simp
  asm_call [hs, key, old] (fun _ x r => r 0 = x 0 ∧ r 1 = x 1) 2

/-- Operations that return the old value. -/
inductive Fetch where
  | add | exchange | and | or | xor
  deriving DecidableEq

def Fetch.prim : Fetch → Prim
  | .add => .exchangeAdd
  | .exchange => .exchange
  | .and => .and
  | .or => .or
  | .xor => .xor

def Fetch.op : Fetch → BitVec N → Integral.Op N
  | .add => .fetchAdd
  | .exchange => .exchange
  | .and => .fetchAnd
  | .or => .fetchOr
  | .xor => .fetchXor

theorem fetch_ok (h : N ≤ R) (f : Fetch) {c : Option (Call × List Slot)} {k : Nat} {s : Strength}
    (hc : c = some (⟨⟨f.prim, N, s⟩, [.param 0 k, .param 1 N]⟩, [0, 1])) :
    (fetch R N c).Implements Integral.spec f.op := by
  subst hc
  cases f <;> simp only [fetch, run, Call.ins, Fetch.prim, Fetch.op, ne_eq, not_true_eq_false, if_false]
  · exact old_ok h _ fun m v m' r => Iff.rfl
  · exact old_ok h _ fun m v m' r => Iff.rfl
  · exact old_ok h _ fun m v m' r => Iff.rfl
  · exact old_ok h _ fun m v m' r => Iff.rfl
  · exact old_ok h _ fun m v m' r => Iff.rfl

theorem compareExchange_ok (h : N ≤ R) (hN : N ≠ 0) {c : Option (Call × List Slot)} {k : Nat} {s : Strength}
    (hc : c = some (⟨⟨.compareExchange, N, s⟩, [.param 0 k, .param 1 N, .param 2 N]⟩, [0, 2, 3])) :
    (compareExchange R N c).Implements Integral.spec fun a => .casStrong a.1 a.2 := by
  subst hc
  rintro ⟨e, d⟩
  have key : ∀ v : BitVec N, (v.setWidth R).setWidth N = v := fun v => by
    rw [BitVec.setWidth_setWidth_of_le _ h]; simp
  have one : (1#R != 0#R) = true := by
    have : R ≠ 0 := by omega
    simp [this]
  simp only [compareExchange, run, Call.ins, ne_eq, not_true_eq_false, if_false]
  refine correct_of [0] (fun _ x r => r 0 = x 0 ∧ r 1 = x 1 ∧ r 2 = x 2) [] 5 (by kernel_rfl) (by kernel_rfl)
    (by kernel_rfl) (fun x => by simp) (by rfl) (by simp) (by simp +contextual) (by asm_loads []) ?_ ?_
  · intro base x h0 hx ha pc hpc reg fl link seen hk
    simp only [List.mem_cons, List.not_mem_nil, or_false, forall_eq] at hpc hk hx ha
    subst hpc
    simp [wp, insWp, asm, rd, wr, After, Last, upd, hk, ha, hx, Integral.spec, key]
    intro m
    by_cases hm : m = e
    · subst hm; simp [hx, key, one]; simpa using one
    · have : e ≠ m := fun h => hm h.symm
      simp [hm, hx, key, this]
  · intro base x h0 hx ha fl link m junk hl
    simp only [List.mem_cons, List.not_mem_nil, or_false, forall_eq] at hx ha
    simp [asm, rd, wr, upd, entry, Link.after, hx, ha, key]

/-- The shape of `bitTestAnd`. -/
theorem bitTest_ok {k : Nat} (h : N ≤ R) (hk : N ≤ k) {op : Fin N → Integral.Op N} (f : BitVec N → BitVec N → BitVec N)
    (hs : ∀ m (b : Fin N), Integral.spec m (op b) (f m (1#N <<< b.val)) (.flag (m.getLsbD b))) : Fn.Implements {
    block := {
      prog := [bitTest f 0 1 k [5]]
      opnds := [(0, .input), (1, .input), (5, .outEarly)]
      addr := [0]
      results := [5] }
    args := fun a x => x 1 = BitVec.ofNat R a
    ret := fun _ r => .flag (r 5 != 0) : Fn R N (Fin N) (Integral.Ret N) } Integral.spec op := by
  intro b
  have one : (1#R == 0#R) = false := by
    have : R ≠ 0 := by have := b.2; omega
    simp [this]
  have lt : ∀ {n}, N ≤ n → b.val < 2 ^ n := fun h =>
    Nat.lt_of_lt_of_le b.2 (Nat.le_trans h (Nat.le_of_lt Nat.lt_two_pow_self))
  have hb : b.val % 2 ^ R % 2 ^ k = b.val := by rw [Nat.mod_eq_of_lt (lt h), Nat.mod_eq_of_lt (lt hk)]
  refine correct_of [0] (fun _ x r => r 0 = x 0 ∧ r 1 = x 1) [] 2 (by kernel_rfl) (by kernel_rfl)
    (by kernel_rfl) (fun x => by simp) (by rfl) (by simp) (by simp +contextual) (by asm_loads []) ?_ ?_
  · intro base x h0 hx ha pc hpc reg fl link seen hk
    simp only [List.mem_cons, List.not_mem_nil, or_false, forall_eq] at hpc hk hx ha
    subst hpc
    simp [wp, insWp, asm, rd, wr, After, Last, upd, hk, ha, hx, bitTest, hb]
    intro m
    have this := hs m b
    cases hm : m[b.val] <;> simp [hm] at this ⊢
    · exact this
    · rw [show (1#R != 0#R) = true by simp only [bne, one, Bool.not_false]]
      exact this
  · intro base x h0 hx ha fl link m junk hl
    simp only [List.mem_cons, List.not_mem_nil, or_false, forall_eq] at hx ha
    simp [asm, rd, wr, upd, entry, Link.after, hx, ha, bitTest]

theorem bts_ok (h : N ≤ R) {c : Option (Call × List Slot)} {k : Nat} {s : Strength}
    (hc : c = some (⟨⟨.bts, N, s⟩, [.param 0 k, .param 1 N]⟩, [0, 1])) :
    (bitTestAnd R N c).Implements Integral.spec .bitTestAndSet := by
  subst hc
  simp only [bitTestAnd, run, Call.ins, ne_eq, not_true_eq_false, if_false]
  exact bitTest_ok h (Nat.le_refl N) _ fun m b => ⟨Integral.setsBit_or m b, rfl⟩

theorem btr_ok (h : N ≤ R) {c : Option (Call × List Slot)} {k : Nat} {s : Strength}
    (hc : c = some (⟨⟨.btr, N, s⟩, [.param 0 k, .param 1 N]⟩, [0, 1])) :
    (bitTestAnd R N c).Implements Integral.spec .bitTestAndReset := by
  subst hc
  simp only [bitTestAnd, run, Call.ins, ne_eq, not_true_eq_false, if_false]
  exact bitTest_ok h (Nat.le_refl N) _ fun m b => ⟨Integral.setsBit_reset m b, rfl⟩

/-! ### 16 bytes -/

theorem parts (x : BitVec 128) : part x 1 ++ part x 0 = x := by
  apply BitVec.eq_of_getLsbD_eq
  intro i hi
  simp only [part, BitVec.getLsbD_append]
  by_cases h : i < 64
  · simp [h]
  · have : i - 64 < 64 := by omega
    simp [h, this, show 64 + (i - 64) = i by omega]

theorem compareExchange16_ok {c : Option (Call × List Slot)} {k l : Nat} {s : Strength}
    (hc : c = some (⟨⟨.compareExchange, 128, s⟩, [.param 0 k, .part 1 1, .part 1 0, .param 2 l]⟩, [0, 2, 1])) :
    (compareExchange16 128 128 c).Implements Integral.spec fun a => .casStrong a.1 a.2 := by
  subst hc
  rintro ⟨e, d⟩
  simp only [compareExchange16, run, Call.ins, ne_eq, not_true_eq_false, if_false]
  refine correct_of [0] (fun _ x r => r 0 = x 0 ∧ r 1 = x 1 ∧ r 2 = x 2) [] 2 (by kernel_rfl) (by kernel_rfl)
    (by kernel_rfl) (fun x => by simp) (by rfl) (by simp) (by simp +contextual) (by asm_loads []) ?_ ?_
  · intro base x h0 hx ha pc hpc reg fl link seen hk
    simp only [List.mem_cons, List.not_mem_nil, or_false, forall_eq] at hpc hk hx ha
    subst hpc
    simp [wp, insWp, asm, rd, wr, After, Last, upd, hk, ha, hx, Integral.spec, parts]
    simp at hx
    intro m
    by_cases hm : m = e <;> simp [hm, hx]
  · intro base x h0 hx ha fl link m junk hl
    simp only [List.mem_cons, List.not_mem_nil, or_false, forall_eq] at hx ha
    simp [asm, rd, wr, upd, entry, Link.after, hx, ha]

theorem load16_ok {c : Option (Call × List Slot)} {k l : Nat} {s : Strength}
    (hc : c = some (⟨⟨.compareExchange, 128, s⟩, [.param 0 k, .part 1 1, .part 1 0, .param 2 l]⟩, [0, 1, 1])) :
    (load16 128 128 c).Implements Integral.spec fun _ => .load := by
  subst hc
  intro a
  simp only [load16, run, Call.ins, ne_eq, not_true_eq_false, if_false]
  refine correct_of [0] (fun _ x r => r 0 = x 0) [] 3 (by kernel_rfl) (by kernel_rfl)
    (by kernel_rfl) (fun x => by simp) (by rfl) (by simp) (by simp +contextual) (by asm_loads []) ?_ ?_
  · intro base x h0 hx ha pc hpc reg fl link seen hk
    simp only [List.mem_cons, List.not_mem_nil, or_false, forall_eq] at hpc hk hx ha
    subst hpc
    simp [wp, insWp, asm, rd, wr, After, Last, upd, hk, ha, hx, Integral.spec, parts]
    intro m
    by_cases hm : m = 0#128 <;> simp [hm]
  · intro base x h0 hx ha fl link m junk hl
    simp only [List.mem_cons, List.not_mem_nil, or_false, forall_eq] at hx ha
    simp [asm, rd, wr, upd, entry, Link.after, hx, ha]

end Verif.Asm.Interlocked

namespace Verif.Asm.Msvc8

open Interlocked

theorem casCall_ok {c : Interlocked.Call} {vars : List Slot} {k : Nat} {s : Strength}
    (hc : c = ⟨⟨.compareExchange, 64, s⟩, [.param 0 k, .param 1 64, .param 2 64]⟩) (hv : vars = [0, 2, 1]) :
    (casCall c vars).Implements Integral.spec fun a => .casStrong a.1 a.2 := by
  subst hc hv
  rintro ⟨e, d⟩
  simp only [casCall, casIns, ne_eq, not_true_eq_false, if_false]
  refine correct_of [0] (fun _ x r => r 0 = x 0 ∧ r 1 = x 1 ∧ r 2 = x 2 ∧ r 21 = x 21 ∧ r 22 = x 22) [] 4 (by kernel_rfl)
    (by kernel_rfl) (by kernel_rfl) (fun x => by simp) (by rfl) (by simp) (by simp +contextual) (by asm_loads []) ?_ ?_
  · intro base x h0 hx ha pc hpc reg fl link seen hk
    simp only [List.mem_cons, List.not_mem_nil, or_false, forall_eq] at hpc hk hx ha
    subst hpc
    simp [wp, insWp, asm, rd, wr, After, Last, upd, hk, ha, hx, Integral.spec, joined_eta]
    intro m
    by_cases hm : m = e
    · simp [hm, joined_eta]
    · have : ¬ (lower 32 m = lower 32 e ∧ upper 32 m = upper 32 e) := fun h => hm (ext_half (by rfl) h.1 h.2)
      simp [hm, joined_eta]
      exact fun h h' => this ⟨h, h'⟩
  · intro base x h0 hx ha fl link m junk hl
    simp only [List.mem_cons, List.not_mem_nil, or_false, forall_eq] at hx ha
    simp [asm, rd, wr, upd, entry, Link.after, hx, ha]

end Verif.Asm.Msvc8
