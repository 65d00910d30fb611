import Verif.Find.Dispatch
import Verif.Find.Props

/-
C29, continued: the function that does the search exists in the build, uses only instructions the
processor has, and answers like the linear search, in every interleaving of concurrent first calls.
-/

namespace Verif.Find

/-! ### cpuid -/

/-- C29.  Each form of `cpuid` returns what the processor reports for the function and sub-function
that are asked for, and changes no register other than those of its operands (the form for position
independent code in particular leaves `rbx`, in which the compiler keeps the address of its table),
for registers of 32 and of 64 bits. -/
theorem C29_cpuid (w : Nat) (hw : 32 ≤ w) (leaf : BitVec 32 → BitVec 32 → Regs4) (x : Regs4)
    (other : Reg → BitVec w) (k : CpuidBlock) (hk : k = cpuidPlain ∨ ∃ useDi, k = cpuidPic useDi) :
    (k.call w leaf x other).1 = leaf x.eax x.ecx ∧
    ∀ r, r ≠ k.eax → r ≠ k.ebx → r ≠ k.ecx → r ≠ k.edx → (k.call w leaf x other).2 r = other r := by
  have hx : ∀ y : BitVec 32, (y.setWidth w).setWidth 32 = y := by
    intro y
    apply BitVec.eq_of_toNat_eq
    simp only [BitVec.toNat_setWidth]
    have h1 : y.toNat < 2 ^ 32 := y.isLt
    have h2 : 2 ^ 32 ≤ 2 ^ w := Nat.pow_le_pow_right (by decide) hw
    rw [Nat.mod_eq_of_lt (show y.toNat < 2 ^ w by omega), Nat.mod_eq_of_lt h1]
  rcases hk with rfl | ⟨useDi, rfl⟩
  · constructor
    · simp [CpuidBlock.call, CpuidBlock.run, cpuidPlain, CpuidIns.exec, hx]
    · intro r h1 h2 h3 h4
      cases r <;> simp_all [CpuidBlock.call, CpuidBlock.run, cpuidPlain, CpuidIns.exec]
  · cases useDi
    · constructor
      · simp [CpuidBlock.call, CpuidBlock.run, cpuidPic, CpuidIns.exec, hx]
      · intro r h1 h2 h3 h4
        cases r <;> simp_all [CpuidBlock.call, CpuidBlock.run, cpuidPic, CpuidIns.exec]
    · constructor
      · simp [CpuidBlock.call, CpuidBlock.run, cpuidPic, CpuidIns.exec, hx]
      · intro r h1 h2 h3 h4
        cases r <;> simp_all [CpuidBlock.call, CpuidBlock.run, cpuidPic, CpuidIns.exec]

/-- C29.  The form for position independent code preserves `rbx` whole, in which the compiler keeps
the address of its table. -/
theorem C29_cpuid_rbx (w : Nat) (hw : 32 ≤ w) (leaf : BitVec 32 → BitVec 32 → Regs4) (x : Regs4)
    (other : Reg → BitVec w) (useDi : Bool) :
    ((cpuidPic useDi).call w leaf x other).2 .b = other .b := by
  have h : Reg.b ≠ (cpuidPic useDi).eax ∧ Reg.b ≠ (cpuidPic useDi).ebx ∧ Reg.b ≠ (cpuidPic useDi).ecx ∧
      Reg.b ≠ (cpuidPic useDi).edx := by cases useDi <;> decide
  exact (C29_cpuid w hw leaf x other _ (Or.inr ⟨useDi, rfl⟩)).2 _ h.1 h.2.1 h.2.2.1 h.2.2.2

/-- The plain form does not: there `rbx` is an operand, and the compiler knows it. -/
example : ¬ (∀ (leaf : BitVec 32 → BitVec 32 → Regs4) (other : Reg → BitVec 64),
    (cpuidPlain.call 64 leaf ⟨0#32, 0#32, 0#32, 0#32⟩ other).2 .b = other .b) := by
  intro h
  exact absurd (h (fun _ _ => ⟨0#32, 1#32, 0#32, 0#32⟩) (fun _ => 0#64)) (by decide)

/-! ### The dispatcher -/

/-- The answers of `cpuid` that the dispatcher looks at: function 0 and function 1. -/
def cpuOf (leaf : BitVec 32 → BitVec 32 → Regs4) : Cpu :=
  ⟨(leaf 0#32 0#32).eax, (leaf 1#32 0#32).edx, (leaf 1#32 0#32).ecx⟩

/-- C29.  With any `cpuid` that returns what the processor reports, the dispatcher chooses as
`dispatch` does, or the generic search in a build without the SSE2 source. -/
theorem C29_choose (b : Build) (leaf : BitVec 32 → BitVec 32 → Regs4) (cpuid : Regs4 → Regs4)
    (h : ∀ x, x.ecx = 0#32 → cpuid x = leaf x.eax x.ecx) :
    b.choose cpuid = if b.useSse2 then dispatch b.ptr64 b.useSse41 (cpuOf leaf) else .generic := by
  unfold Build.choose dispatch cpuOf
  rw [h _ rfl, h _ rfl]

/-- All forms of `cpuid` meet the hypothesis. -/
example (leaf : BitVec 32 → BitVec 32 → Regs4) (other : Reg → BitVec 64) (x : Regs4) (_ : x.ecx = 0#32) :
    ((cpuidPic true).call 64 leaf x other).1 = leaf x.eax x.ecx :=
  (C29_cpuid 64 (by decide) leaf x other _ (Or.inr ⟨true, rfl⟩)).1

example (leaf : BitVec 32 → BitVec 32 → Regs4) (x : Regs4) (h : x.ecx = 0#32) :
    cpuidMsvc leaf x = leaf x.eax x.ecx := by rw [h]; rfl

/-! ### The pointer -/

/-- A build that configuration tests can produce: a compiler that may use instructions anyway also
compiles the source that uses them, and one that compiles SSE4.1 compiles SSE2. -/
structure Build.Sane (b : Build) : Prop where
  sse2 : sse2Version ≤ b.hw → b.useSse2 = true
  sse41 : sse41Version ≤ b.hw → b.useSse41 = true
  both : b.useSse41 = true → b.useSse2 = true

/-- C29.  In every such build, the functions that the code names exist: the initial value of the
pointer, if there is one, and what the dispatcher may choose. -/
theorem C29_links (b : Build) (h : b.Sane) (cpuid : Regs4 → Regs4) :
    (b.pointer = true → b.has b.initial = true) ∧ b.has (.impl (b.choose cpuid)) = true := by
  obtain ⟨p, u2, u41, hw⟩ := b
  obtain ⟨h1, h2, h3⟩ := h
  simp only at h1 h2 h3
  constructor
  · intro hp
    simp only [Build.pointer] at hp
    have hlt : ∀ v : Nat, decide (hw < v) = !decide (v ≤ hw) := by
      intro v; by_cases h : v ≤ hw <;> simp [h]; omega
    have h24 : sse41Version ≤ hw → sse2Version ≤ hw := fun h => Nat.le_trans (by decide) h
    have e2 := hlt sse2Version
    have e41 := hlt sse41Version
    have f2 : decide (sse2Version ≤ hw) = true → u2 = true := fun h => h1 (of_decide_eq_true h)
    have f41 : decide (sse41Version ≤ hw) = true → u41 = true := fun h => h2 (of_decide_eq_true h)
    have f24 : decide (sse41Version ≤ hw) = true → decide (sse2Version ≤ hw) = true :=
      fun h => decide_eq_true (h24 (of_decide_eq_true h))
    have key : ∀ (p u2 u41 d2 d41 : Bool), (d2 = true → u2 = true) → (d41 = true → u41 = true) →
        (d41 = true → d2 = true) → (u41 = true → u2 = true) → (u2 || u41) = true →
        (match (if u41 && p && d41 then Callee.impl .sse41
          else if u2 && !p && d2 then .impl .sse2 else .dispatch : Callee) with
        | .impl .generic => true
        | .impl .sse2 => u2
        | .impl .sse41 => u41 && p
        | .dispatch => (u2 || u41) && ((p && !d41) || (!p && !d2))) = true := by decide
    have := key p u2 u41 _ _ f2 f41 f24 h3 hp
    rw [← e2, ← e41] at this
    exact this
  · unfold Build.choose
    cases u2
    · rfl
    · simp only [if_true]
      split
      · split
        · next h => 
          simp only [Bool.and_eq_true] at h
          split
          · simp [Build.has, h.1, h.2]
          · split <;> simp [Build.has]
        · split <;> simp [Build.has]
      · rfl

/-- Builds of both sizes meet the hypothesis: the usual 64-bit one, which uses the dispatcher, and a
32-bit one whose compiler uses SSE2 anyway. -/
example : Build.Sane ⟨true, true, true, 200⟩ ∧ (⟨true, true, true, 200⟩ : Build).initial = .dispatch :=
  ⟨⟨by decide, by decide, by decide⟩, by decide⟩
example : Build.Sane ⟨false, true, true, 200⟩ ∧ (⟨false, true, true, 200⟩ : Build).initial = .impl .sse2 :=
  ⟨⟨by decide, by decide, by decide⟩, by decide⟩
/-- Without the hypothesis the claim is false: if the compiler used SSE4.1 and the SSE4.1 source were
not part of the build, the pointer would name a dispatcher that does not exist. -/
example : (⟨true, true, false, 410⟩ : Build).has (⟨true, true, false, 410⟩ : Build).initial = false := by decide

/-- What can be in the pointer and what a call can be doing. -/
theorem reaches_inv (b : Build) (chosen : Impl) {s : Calls} (h : b.Reaches chosen s) :
    (∀ f ∈ s.stored, f = b.initial ∨ f = .impl chosen) ∧
    (∀ t f, s.call t = .loaded f → f = b.initial ∨ f = .impl chosen) ∧
    (∀ t i, s.call t = .done i → (b.pointer = false ∧ i = .generic) ∨ (b.pointer = true ∧ (.impl i = b.initial ∨ (i = chosen ∧ b.initial = .dispatch)))) ∧
    ((∃ f ∈ s.stored, f ≠ b.initial) → b.initial = .dispatch) ∧
    ((∃ t f, s.call t = .loaded f ∧ f ≠ b.initial) → b.initial = .dispatch) ∧
    (∀ t f, s.call t = .loaded f → b.pointer = true) := by
  induction h with
  | start => simp [Build.start]
  | step _ hs ih =>
    obtain ⟨i1, i2, i3, i4, i5, i6⟩ := ih
    cases hs with
    | @plain t h hp =>
      refine ⟨i1, fun u f hf => ?_, fun u i hi => ?_, i4, fun ⟨u, f, hf, hn⟩ => ?_, fun u f hf => ?_⟩
      · by_cases e : u = t <;> simp [e] at hf; exact i2 u f hf
      · by_cases e : u = t
        · simp [e] at hi; exact .inl ⟨hp, hi.symm⟩
        · simp [e] at hi; exact i3 u i hi
      · by_cases e : u = t <;> simp [e] at hf; exact i5 ⟨u, f, hf, hn⟩
      · by_cases e : u = t <;> simp [e] at hf; exact i6 u f hf
    | @load t g h hp hg =>
      refine ⟨i1, fun u f hf => ?_, fun u i hi => ?_, i4, fun ⟨u, f, hf, hn⟩ => ?_, fun u f hf => ?_⟩
      · by_cases e : u = t
        · simp [e] at hf; subst hf; exact i1 g hg
        · simp [e] at hf; exact i2 u f hf
      · by_cases e : u = t <;> simp [e] at hi; exact i3 u i hi
      · by_cases e : u = t
        · simp [e] at hf; subst hf; exact i4 ⟨g, hg, hn⟩
        · simp [e] at hf; exact i5 ⟨u, f, hf, hn⟩
      · by_cases e : u = t
        · exact hp
        · simp [e] at hf; exact i6 u f hf
    | @search t j h =>
      refine ⟨i1, fun u f hf => ?_, fun u i hi => ?_, i4, fun ⟨u, f, hf, hn⟩ => ?_, fun u f hf => ?_⟩
      · by_cases e : u = t <;> simp [e] at hf; exact i2 u f hf
      · by_cases e : u = t
        · simp [e] at hi; subst hi
          refine .inr ⟨i6 t _ h, ?_⟩
          by_cases hin : Callee.impl j = b.initial
          · exact .inl hin
          · rcases i2 t _ h with h' | h'
            · exact .inl h'
            · injection h' with h'
              exact .inr ⟨h', i5 ⟨t, _, h, hin⟩⟩
        · simp [e] at hi; exact i3 u i hi
      · by_cases e : u = t <;> simp [e] at hf; exact i5 ⟨u, f, hf, hn⟩
      · by_cases e : u = t <;> simp [e] at hf; exact i6 u f hf
    | @dispatch t h =>
      have hd : b.initial = .dispatch := by
        rcases i2 t _ h with h' | h'
        · exact h'.symm
        · simp at h'
      refine ⟨fun f hf => ?_, fun u f hf => ?_, fun u i hi => ?_, fun _ => hd, fun _ => hd, fun u f hf => ?_⟩
      · rcases List.mem_cons.1 hf with rfl | hf
        · exact .inr rfl
        · exact i1 f hf
      · by_cases e : u = t <;> simp [e] at hf; exact i2 u f hf
      · by_cases e : u = t
        · simp [e] at hi; subst hi; exact .inr ⟨i6 t _ h, .inr ⟨rfl, hd⟩⟩
        · simp [e] at hi; exact i3 u i hi
      · by_cases e : u = t <;> simp [e] at hf; exact i6 u f hf

/-- C29.  In every interleaving of any number of calls, first calls among them, the function that
does the search uses only instructions that the processor reports, provided it has those that the
compiler was told to use. -/
theorem C29_concurrent_supported (b : Build) (leaf : BitVec 32 → BitVec 32 → Regs4) (cpuid : Regs4 → Regs4)
    (hc : ∀ x, x.ecx = 0#32 → cpuid x = leaf x.eax x.ecx)
    (h2 : sse2Version ≤ b.hw → (leaf 1#32 0#32).edx.getLsbD 26 = true)
    (h41 : sse41Version ≤ b.hw → (leaf 1#32 0#32).ecx.getLsbD 19 = true)
    {s : Calls} (h : b.Reaches (b.choose cpuid) s) (t : Nat) (i : Impl) (hd : s.call t = .done i) :
    (i = .sse2 → (leaf 1#32 0#32).edx.getLsbD 26 = true) ∧
    (i = .sse41 → (leaf 1#32 0#32).ecx.getLsbD 19 = true) := by
  rcases (reaches_inv b _ h).2.2.1 t i hd with ⟨_, rfl⟩ | ⟨_, hi | ⟨hi, _⟩⟩
  · exact ⟨nofun, nofun⟩
  · unfold Build.initial at hi
    split at hi
    · next hcond =>
      simp only [Bool.and_eq_true, decide_eq_true_eq] at hcond
      injection hi with hi; subst hi
      exact ⟨nofun, fun _ => h41 hcond.2⟩
    · split at hi
      · next hcond =>
        simp only [Bool.and_eq_true, decide_eq_true_eq] at hcond
        injection hi with hi; subst hi
        exact ⟨fun _ => h2 hcond.2, nofun⟩
      · simp at hi
  · rw [C29_choose b leaf cpuid hc] at hi
    have := C29_dispatch_supported b.ptr64 b.useSse41 (cpuOf leaf)
    split at hi
    · exact ⟨fun e => this.1 (hi ▸ e), fun e => this.2 (hi ▸ e)⟩
    · subst hi; exact ⟨nofun, nofun⟩

/-- C29.  In every interleaving of any number of calls on a 64-bit target, the function that does the
search neither leaves the table nor answers differently from the linear search. -/
theorem C29_concurrent_64 (b : Build) (cpuid : Regs4 → Regs4) {s : Calls} (_ : b.Reaches (b.choose cpuid) s)
    (t : Nat) (i : Impl) (_ : s.call t = .done i) (addr : BitVec 64) (A : Arr 64) (size : Nat)
    (hs : size ≤ A.cap) (hcap : A.cap % 2 = 0) :
    ∃ p q, runImpl64 i addr A size = some p ∧ find_address_generic addr A size = some q ∧ SameAnswer size p q := by
  obtain ⟨q, hq, _, aq⟩ := C29_generic addr A size hs
  cases i with
  | generic => exact ⟨q, q, hq, hq, C29_answer_unique _ _ _ _ _ aq aq⟩
  | sse2 =>
    obtain ⟨p, hp, ap⟩ := C29_sse2_64 addr A size hs hcap
    exact ⟨p, q, hp, hq, C29_answer_unique _ _ _ _ _ ap aq⟩
  | sse41 =>
    obtain ⟨p, hp, ap⟩ := C29_sse41 addr A size hs hcap
    exact ⟨p, q, hp, hq, C29_answer_unique _ _ _ _ _ ap aq⟩

/-- C29.  The same on a 32-bit target, on which the search with SSE4.1 does not exist and is never
reached. -/
theorem C29_concurrent_32 (b : Build) (hb : b.ptr64 = false) (cpuid : Regs4 → Regs4) {s : Calls}
    (h : b.Reaches (b.choose cpuid) s)
    (t : Nat) (i : Impl) (hd : s.call t = .done i) (addr : BitVec 32) (A : Arr 32) (size : Nat)
    (hs : size ≤ A.cap) (hcap : A.cap % 4 = 0) :
    ∃ p q, runImpl32 i addr A size = some p ∧ find_address_generic addr A size = some q ∧ SameAnswer size p q := by
  have hne : i ≠ .sse41 := by
    rintro rfl
    rcases (reaches_inv b _ h).2.2.1 t _ hd with ⟨_, hi⟩ | ⟨_, hi | ⟨hi, _⟩⟩
    · cases hi
    · unfold Build.initial at hi
      simp only [hb, Bool.and_false, Bool.false_and, Bool.false_eq_true, if_false] at hi
      split at hi <;> simp at hi
    · unfold Build.choose at hi
      simp only [hb, Bool.and_false, Bool.false_eq_true, if_false] at hi
      split at hi
      · split at hi
        · split at hi <;> simp at hi
        · simp at hi
      · simp at hi
  obtain ⟨q, hq, _, aq⟩ := C29_generic addr A size hs
  cases i with
  | generic => exact ⟨q, q, hq, hq, C29_answer_unique _ _ _ _ _ aq aq⟩
  | sse2 =>
    obtain ⟨p, hp, ap⟩ := C29_sse2_32 addr A size hs hcap
    exact ⟨p, q, hp, hq, C29_answer_unique _ _ _ _ _ ap aq⟩
  | sse41 => exact absurd rfl hne

/-- A state with two finished calls: both found the dispatcher in the pointer. -/
example : ∃ s, (⟨true, true, true, 200⟩ : Build).Reaches .sse41 s ∧ s.call 0 = .done .sse41 ∧ s.call 1 = .done .sse41 := by
  refine ⟨_, .step (.step (.step (.step .start (.load (t := 0) (f := .dispatch) rfl rfl ?_)) (.load (t := 1) (f := .dispatch) rfl rfl ?_))
    (.dispatch (t := 0) rfl)) (.dispatch (t := 1) rfl), rfl, rfl⟩ <;> simp [Build.start, Build.initial, sse41Version]

end Verif.Find
