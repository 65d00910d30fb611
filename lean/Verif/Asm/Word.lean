import Verif.Asm.Tactic

/-
Narrow values kept in a whole word, for processors without narrow accesses: ARMv6 without `ldrexb` and
`ldrexh`, Alpha, POWER without `lbarx` and `lharx`.
-/

namespace Verif.Asm

variable {N M : Nat}

/-- A result with values of `N` bits, as values of `M` bits. -/
def mapRet (enc : BitVec N → BitVec M) : Integral.Ret N → Integral.Ret M
  | .unit => .unit
  | .val v => .val (enc v)
  | .flag b => .flag b
  | .cas ok e => .cas ok (enc e)

/-- Operations on a value of `N` bits in a word of `M` bits.  `enc` is the extension (with zeros or with
the sign) that gives the word for a value.  An operation finds the extension of some value, leaves the
extension of the new value and returns extensions. -/
def inWord (enc : BitVec N → BitVec M) : SeqSpec (BitVec M) (Integral.Op N) (Integral.Ret M) :=
  fun w op w' r => ∀ v, w = enc v → ∃ v' q, Integral.spec v op v' q ∧ w' = enc v' ∧ r = mapRet enc q

theorem setWidth_signExtend {w : Nat} (x : BitVec N) (h : N ≤ w) :
    (x.signExtend w).setWidth N = x := by
  apply BitVec.eq_of_getLsbD_eq
  intro i hi
  simp [BitVec.getElem_signExtend, hi, show i < w by omega]

theorem inWord_zext {w : Nat} (f : BitVec N → BitVec N → BitVec N) (g : BitVec w → BitVec w → BitVec w)
    (hfg : ∀ x y : BitVec w, (g x y).setWidth N = f (x.setWidth N) (y.setWidth N)) (h : N ≤ w)
    (a : BitVec N) (op : Integral.Op N) (hop : ∀ v, Integral.spec v op (f v a) (.val v)) (m : BitVec w) :
    inWord (BitVec.setWidth w) m op (((g m (a.setWidth w)).setWidth N).setWidth w) (.val m) := by
  rintro v rfl
  refine ⟨f v a, .val v, hop v, ?_, rfl⟩
  rw [hfg, BitVec.setWidth_setWidth_of_le _ h, BitVec.setWidth_setWidth_of_le _ h, BitVec.setWidth_eq,
    BitVec.setWidth_eq]

theorem inWord_sext {w : Nat} (f : BitVec N → BitVec N → BitVec N) (g : BitVec w → BitVec w → BitVec w)
    (hfg : ∀ x y : BitVec w, (g x y).setWidth N = f (x.setWidth N) (y.setWidth N)) (h : N ≤ w)
    (a : BitVec N) (op : Integral.Op N) (hop : ∀ v, Integral.spec v op (f v a) (.val v)) (m : BitVec w) :
    inWord (BitVec.signExtend w) m op (((g m (a.signExtend w)).setWidth N).signExtend w) (.val m) := by
  rintro v rfl
  refine ⟨f v a, .val v, hop v, ?_, rfl⟩
  rw [hfg, setWidth_signExtend _ h, setWidth_signExtend _ h]

/-- `fetch_add` on a zero-extended value. -/
theorem inWord_zext_add {w : Nat} (h : N ≤ w) (a : BitVec N) (m : BitVec w) :
    inWord (BitVec.setWidth w) m (.fetchAdd a) (((m + a.setWidth w).setWidth N).setWidth w) (.val m) :=
  inWord_zext (· + ·) (· + ·) (fun x y => BitVec.setWidth_add x y h) h a _
    (fun _ => by simp [Integral.spec]) m
/-- `fetch_sub` on a zero-extended value. -/
theorem inWord_zext_sub {w : Nat} (h : N ≤ w) (a : BitVec N) (m : BitVec w) :
    inWord (BitVec.setWidth w) m (.fetchSub a) (((m - a.setWidth w).setWidth N).setWidth w) (.val m) :=
  inWord_zext (· - ·) (· - ·) (fun x y => setWidth_sub' x y h) h a _
    (fun _ => by simp [Integral.spec]) m
/-- `fetch_add` on a sign-extended value. -/
theorem inWord_sext_add {w : Nat} (h : N ≤ w) (a : BitVec N) (m : BitVec w) :
    inWord (BitVec.signExtend w) m (.fetchAdd a) (((m + a.signExtend w).setWidth N).signExtend w) (.val m) :=
  inWord_sext (· + ·) (· + ·) (fun x y => BitVec.setWidth_add x y h) h a _
    (fun _ => by simp [Integral.spec]) m
/-- `fetch_sub` on a sign-extended value. -/
theorem inWord_sext_sub {w : Nat} (h : N ≤ w) (a : BitVec N) (m : BitVec w) :
    inWord (BitVec.signExtend w) m (.fetchSub a) (((m - a.signExtend w).setWidth N).signExtend w) (.val m) :=
  inWord_sext (· - ·) (· - ·) (fun x y => setWidth_sub' x y h) h a _
    (fun _ => by simp [Integral.spec]) m

set_option hygiene false in
/-- `asm_exec` for operations on narrow values in words. -/
macro "asm_word" "[" fs:Lean.Parser.Tactic.simpLemma,* "]" cuts:term:max keep:term:max n:num : tactic => `(tactic|
  (refine correct_of $cuts (fun _ x r => ∀ s ∈ $keep, r s = x s) [] $n (by rfl) (by rfl) (by rfl)
      (fun _ _ _ => rfl) (by rfl) (by simp [$fs,*])
      (by simp +contextual [$fs,*]) (by asm_loads [$fs,*]) ?_ ?_
   · intro base x h0 hx ha pc hpc reg fl link seen hk
     simp only [List.mem_cons, List.not_mem_nil, or_false, forall_eq, forall_eq_or_imp, $fs,*] at hpc hk hx ha
     (try rcases hpc with rfl | rfl | rfl | rfl) <;> (try subst hpc)
     all_goals simp [wp, insWp, asm, rd, wr, After, Last, upd, hk, ha, hx, $fs,*]
     all_goals first
       | exact fun val => inWord_zext_add (by decide) a val
       | exact fun val => inWord_zext_sub (by decide) a val
       | exact fun val => inWord_sext_add (by decide) a val
       | exact fun val => inWord_sext_sub (by decide) a val
       | skip
   · intro base x h0 hx ha fl link m junk hl
     simp only [List.mem_cons, List.not_mem_nil, or_false, forall_eq, forall_eq_or_imp, $fs,*] at hx ha
     simp [asm, rd, wr, upd, entry, Link.after, hx, ha, $fs,*]
     all_goals try simp +contextual))

end Verif.Asm
