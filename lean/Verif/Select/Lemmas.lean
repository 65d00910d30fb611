import Verif.Select.Model
import Verif.Select.Spec

set_option linter.unusedSimpArgs false

namespace Verif.Select

/-- The compiler's types: alignments valid, see `Spec.ValidAlign`. -/
structure Abi.Ok (abi : Abi) : Prop where
  a16 : Spec.ValidAlign 2 abi.align16
  a32 : Spec.ValidAlign 4 abi.align32
  a64 : Spec.ValidAlign 8 abi.align64
  a128 : Spec.ValidAlign 16 abi.align128

/-- The macros are 0, 1 or 2, and 64-bit intrinsics are no worse than 128-bit ones (true of gcc and
clang, where there is no standard 128-bit integer and the 128-bit macro is 0). -/
structure GccAtomic.Ok (g : GccAtomic) : Prop where
  le8 : g.i8 ≤ 2
  le16 : g.i16 ≤ 2
  le32 : g.i32 ≤ 2
  le64 : g.i64 ≤ 2
  le128 : g.i128 ≤ 2
  mono : g.i128 ≤ g.i64

/-- `GccAtomic.Ok` for the back end, if it is the `__atomic` one. -/
def Platform.MacrosOk (p : Platform) : Prop := ∀ g, p.core = .gcc_atomic g → g.Ok

theorem paddedSize_ge (size align : Nat) (h : 0 < align) : size ≤ paddedSize size align := by
  unfold paddedSize
  have h1 := Nat.div_add_mod (size + align - 1) align
  have h2 := Nat.mod_lt (size + align - 1) h
  have h3 : align * ((size + align - 1) / align) = (size + align - 1) / align * align :=
    Nat.mul_comm _ _
  omega

theorem paddedSize_of_dvd (size align : Nat) (h : 0 < align) (hd : align ∣ size) :
    paddedSize size align = size := by
  obtain ⟨k, rfl⟩ := hd
  unfold paddedSize
  have : (align * k + align - 1) / align = k := by
    rw [show align * k + align - 1 = (align - 1) + align * k by omega,
      Nat.add_mul_div_left _ _ h, Nat.div_eq_of_lt (by omega)]
    omega
  rw [this, Nat.mul_comm]

theorem traits_sizeof_eq (abi : Abi) (h : abi.Ok) (n : Nat) : traits_sizeof abi n = n := by
  unfold traits_sizeof
  split
  · next e => rw [paddedSize_of_dvd _ _ h.a128.1 h.a128.2, e]
  · rfl

theorem traits_alignment_pos (n : Nat) : 0 < traits_alignment n := by
  unfold traits_alignment; repeat' split
  all_goals omega

theorem emulated_size_ge (abi : Abi) (h : abi.Ok) (n align : Nat) (ha : 0 < align) :
    n ≤ (emulated abi n align).sizeofStorage := by
  unfold emulated
  simp only
  split
  · rw [traits_sizeof_eq abi h]; exact Nat.le_refl _
  · exact paddedSize_ge _ _ ha

theorem emulated_size_eq (abi : Abi) (h : abi.Ok) (n align : Nat) (ha : Spec.ValidAlign n align) :
    (emulated abi n align).sizeofStorage = n := by
  unfold emulated
  simp only
  split
  · exact traits_sizeof_eq abi h n
  · exact paddedSize_of_dvd _ _ ha.1 ha.2

/-! ### Architecture back ends -/

theorem arch_storage_ge (a : Arch) (n m : Nat) (h : a.storage n = some m) : n ≤ m := by
  cases a <;> simp only [Arch.storage] at h <;> repeat' (split at h)
  all_goals first | (cases h; omega) | (injection h with h; (try split at h); all_goals omega) | cases h

theorem arch_storage_some (a : Arch) (n : Nat) : a.storage n ≠ none ↔ a.lockFree n = 2 := by
  cases a <;> simp only [Arch.storage, Arch.lockFree] <;> repeat' split
  all_goals simp_all
  all_goals omega

theorem arch_lockFree_cases (a : Arch) (n : Nat) : a.lockFree n = 0 ∨ a.lockFree n = 2 := by
  cases a <;> simp only [Arch.lockFree] <;> repeat' split
  all_goals simp

theorem arch_mono (a : Arch) :
    a.lockFree 16 ≤ a.lockFree 8 ∧ a.lockFree 8 ≤ a.lockFree 4 ∧ a.lockFree 4 ≤ a.lockFree 2 ∧
      a.lockFree 2 ≤ a.lockFree 1 := by
  cases a <;> simp [Arch.lockFree] <;> (try split) <;> omega

theorem arch_sizes (a : Arch) (n : Nat) (h : a.lockFree n ≠ 0) :
    n = 1 ∨ n = 2 ∨ n = 4 ∨ n = 8 ∨ n = 16 := by
  cases a <;> simp only [Arch.lockFree] at h <;> (try split at h) <;> simp_all <;> omega

/-! ### The `__atomic` back end -/

/-- The entries for one size of `gccAtomicSpecs`. -/
theorem gcc_specs_filter (m g : GccAtomic) (n : Nat) :
    ((gccAtomicSpecs m g).filter (fun s => s.1 = n)).map (·.2) =
      if n = 16 then (if 0 < m.i128 ∧ m.i128 ≤ g.i128 then [gccOps 16 g.i128] else [])
      else if n = 8 then
        (if 0 < m.i64 then
          if m.i64 ≤ g.i64 then [gccOps 8 g.i64]
          else if m.i64 ≤ g.i128 then [gccOps 16 g.i128] else [] else []) ++
        (if 0 < m.i32 ∧ ¬ m.i32 ≤ g.i32 ∧ ¬ m.i32 ≤ g.i64 ∧ m.i32 ≤ g.i128 then [gccOps 16 g.i128] else [])
      else if n = 4 then
        (if 0 < m.i32 then
          if m.i32 ≤ g.i32 then [gccOps 4 g.i32]
          else if m.i32 ≤ g.i64 then [gccOps 8 g.i64] else [] else [])
      else if n = 2 then
        (if 0 < m.i16 then
          if m.i16 ≤ g.i16 then [gccOps 2 g.i16]
          else if m.i16 ≤ g.i32 then [gccOps 4 g.i32]
          else if m.i16 ≤ g.i64 then [gccOps 8 g.i64]
          else if m.i16 ≤ g.i128 then [gccOps 16 g.i128] else [] else [])
      else if n = 1 then
        (if 0 < m.i8 then
          if m.i8 ≤ g.i8 then [gccOps 1 g.i8]
          else if m.i8 ≤ g.i16 then [gccOps 2 g.i16]
          else if m.i8 ≤ g.i32 then [gccOps 4 g.i32]
          else if m.i8 ≤ g.i64 then [gccOps 8 g.i64]
          else if m.i8 ≤ g.i128 then [gccOps 16 g.i128] else [] else [])
      else [] := by
  unfold gccAtomicSpecs
  simp only [List.filter_append, List.map_append]
  have e : ∀ (c : Prop) [Decidable c] (a b : List (Nat × Ops)) (q : Nat × Ops → Bool),
      (if c then a else b).filter q = if c then a.filter q else b.filter q := by
    intro c _ a b q; split <;> rfl
  have e' : ∀ (c : Prop) [Decidable c] (a b : List (Nat × Ops)),
      (if c then a else b).map (·.2) = if c then a.map (·.2) else b.map (·.2) := by
    intro c _ a b; split <;> rfl
  simp only [e, e']
  by_cases h16 : n = 16
  · subst h16; simp
  by_cases h8 : n = 8
  · subst h8
    simp
    repeat' split
    all_goals first | rfl | omega | simp_all | (exfalso; omega)
  by_cases h4 : n = 4
  · subst h4; simp
  by_cases h2 : n = 2
  · subst h2; simp
  by_cases h1 : n = 1
  · subst h1; simp
  · simp [h16, h8, h4, h2, h1, Ne.symm h16, Ne.symm h8, Ne.symm h4, Ne.symm h2, Ne.symm h1]

/-- Sizes of native storage. -/
def IsNativeSize (n : Nat) : Prop := n = 1 ∨ n = 2 ∨ n = 4 ∨ n = 8 ∨ n = 16

/-- The possible outcomes of the selection. -/
def Outcome (p : Platform) (n : Nat) : Prop :=
  ((p.specsFor n).length ≤ 1) ∧
  ((p.lockFree n = 0 ∧ p.ops n = emulated p.abi n (traits_alignment n)) ∨
   (0 < p.lockFree n ∧ p.lockFree n ≤ 2 ∧ IsNativeSize n ∧ ∃ m always, p.ops n = nativeOps m always ∧ n ≤ m ∧
      IsNativeSize m ∧ (p.lockFree n = 2 ↔ always = true)))

theorem arch_native_size (a : Arch) (n m : Nat) (h : a.storage n = some m) : IsNativeSize m := by
  unfold IsNativeSize
  cases a <;> simp only [Arch.storage] at h <;> repeat' (split at h)
  all_goals first | (cases h; omega) | (injection h with h; (try split at h); all_goals omega) | cases h

theorem archOps_outcome (p : Platform) (n : Nat) :
    (p.arch.lockFree n = 0 ∧ p.archOps n = emulated p.abi n (traits_alignment n)) ∨
    (p.arch.lockFree n = 2 ∧ IsNativeSize n ∧ ∃ m, p.archOps n = nativeOps m true ∧ n ≤ m ∧ IsNativeSize m) := by
  unfold Platform.archOps
  have h := arch_storage_some p.arch n
  have hc := arch_lockFree_cases p.arch n
  cases hs : p.arch.storage n with
  | none => left; simp [hs] at h; exact ⟨by omega, rfl⟩
  | some m =>
    right; simp [hs] at h
    exact ⟨h, arch_sizes p.arch n (by rw [h]; decide), m, rfl, arch_storage_ge _ _ _ hs, arch_native_size _ _ _ hs⟩

/-- The chosen class is the first specialization or the architecture's. -/
theorem ops_nil (p : Platform) (n : Nat) (h : p.specsFor n = []) : p.ops n = p.archOps n := by
  unfold Platform.ops; rw [h]

theorem ops_cons (p : Platform) (n : Nat) (o : Ops) (l : List Ops) (h : p.specsFor n = o :: l) :
    p.ops n = o := by
  unfold Platform.ops; rw [h]

theorem outcome_none (p : Platform) (n : Nat) (hc : p.core = .none) : Outcome p n := by
  have hs : p.specsFor n = [] := by simp [Platform.specsFor, Platform.coreSpecs, hc]
  have hl : p.lockFree n = p.arch.lockFree n := by simp [Platform.lockFree, hc]
  unfold Outcome
  rw [hs, ops_nil p n hs, hl]
  refine ⟨by simp, ?_⟩
  rcases archOps_outcome p n with h | ⟨h1, h2, m, h3, h4, h5⟩
  · exact Or.inl h
  · exact Or.inr ⟨by omega, by omega, h2, m, true, h3, h4, h5, fun _ => rfl, fun _ => by omega⟩

/-- The values of the macros of the `__atomic` back end, as used below. -/
theorem gccMacros_facts (a : Arch) (g : GccAtomic) (hg : g.Ok) :
    let m := gccMacros a g
    (m.i128 ≤ 2 ∧ m.i64 ≤ 2 ∧ m.i32 ≤ 2 ∧ m.i16 ≤ 2 ∧ m.i8 ≤ 2) ∧
    (m.i128 = a.lockFree 16 ∨ m.i128 ≤ g.i128) ∧
    (m.i64 = a.lockFree 8 ∨ m.i64 ≤ g.i64) ∧
    (m.i32 = a.lockFree 4 ∨ m.i32 ≤ g.i32 ∨ m.i32 ≤ g.i64) ∧
    (m.i16 = a.lockFree 2 ∨ m.i16 ≤ g.i16 ∨ m.i16 ≤ g.i32 ∨ m.i16 ≤ g.i64) ∧
    (m.i8 = a.lockFree 1 ∨ m.i8 ≤ g.i8 ∨ m.i8 ≤ g.i16 ∨ m.i8 ≤ g.i32 ∨ m.i8 ≤ g.i64) ∧
    (a.lockFree 16 ≤ m.i128 ∧ a.lockFree 8 ≤ m.i64 ∧ a.lockFree 4 ≤ m.i32 ∧ a.lockFree 2 ≤ m.i16 ∧
      a.lockFree 1 ≤ m.i8) ∧
    (g.i128 ≤ m.i128 ∧ g.i64 ≤ m.i64 ∧ g.i32 ≤ m.i32 ∧ g.i16 ≤ m.i16 ∧ g.i8 ≤ m.i8) ∧
    (m.i128 ≤ m.i64 ∧ m.i64 ≤ m.i32 ∧ m.i32 ≤ m.i16 ∧ m.i16 ≤ m.i8) := by
  obtain ⟨h1, h2, h3, h4, h5, h6⟩ := hg
  have mo := arch_mono a
  have c1 := arch_lockFree_cases a 1
  have c2 := arch_lockFree_cases a 2
  have c4 := arch_lockFree_cases a 4
  have c8 := arch_lockFree_cases a 8
  have c16 := arch_lockFree_cases a 16
  simp only [gccMacros]
  generalize a.lockFree 1 = a1 at *
  generalize a.lockFree 2 = a2 at *
  generalize a.lockFree 4 = a4 at *
  generalize a.lockFree 8 = a8 at *
  generalize a.lockFree 16 = a16 at *
  generalize g.i8 = g8 at *
  generalize g.i16 = g16 at *
  generalize g.i32 = g32 at *
  generalize g.i64 = g64 at *
  generalize g.i128 = g128 at *
  have k128 : (if a16 < g128 then g128 else a16) ≤ 2 ∧
      ((if a16 < g128 then g128 else a16) = a16 ∨ (if a16 < g128 then g128 else a16) ≤ g128) ∧
      a16 ≤ (if a16 < g128 then g128 else a16) ∧ g128 ≤ (if a16 < g128 then g128 else a16) := by
    split <;> omega
  generalize (if a16 < g128 then g128 else a16) = x at *
  have k : ∀ c o w : Nat, c ≤ 2 → o ≤ 2 → w ≤ 2 → overrideMacro c o w ≤ 2 ∧
      (overrideMacro c o w = c ∨ overrideMacro c o w = o ∨ (overrideMacro c o w = w ∧ c < w)) ∧
      c ≤ overrideMacro c o w ∧ o ≤ overrideMacro c o w ∧ w ≤ overrideMacro c o w := by
    intro c o w _ _ _; unfold overrideMacro; repeat' split
    all_goals omega
  have ky := k a8 g64 x (by omega) (by omega) (by omega)
  generalize overrideMacro a8 g64 x = y at *
  have kz := k a4 g32 y (by omega) (by omega) (by omega)
  generalize overrideMacro a4 g32 y = z at *
  have ku := k a2 g16 z (by omega) (by omega) (by omega)
  generalize overrideMacro a2 g16 z = u at *
  have kv := k a1 g8 u (by omega) (by omega) (by omega)
  generalize overrideMacro a1 g8 u = v at *
  refine ⟨by omega, by omega, by omega, by omega, by omega, by omega, by omega, by omega, by omega⟩

theorem outcome_gcc (p : Platform) (n : Nat) (g : GccAtomic) (hc : p.core = .gcc_atomic g) (hg : g.Ok) :
    Outcome p n := by
  have hs0 : p.specsFor n =
      ((gccAtomicSpecs (gccMacros p.arch g) g).filter (fun s => s.1 = n)).map (·.2) := by
    simp only [Platform.specsFor, Platform.coreSpecs, hc]
  have hs := hs0.trans (gcc_specs_filter (gccMacros p.arch g) g n)
  clear hs0
  have hl : p.lockFree n = (let m := gccMacros p.arch g
      if n = 1 then m.i8 else if n = 2 then m.i16 else if n = 4 then m.i32
      else if n = 8 then m.i64 else if n = 16 then m.i128 else 0) := by
    simp [Platform.lockFree, hc]
  have ho : p.ops n = match p.specsFor n with | [] => p.archOps n | o :: _ => o := rfl
  have ha := archOps_outcome p n
  have f := gccMacros_facts p.arch g hg
  obtain ⟨b1, b2, b3, b4, b5, b6⟩ := hg
  simp only at f hl
  obtain ⟨⟨l1, l2, l3, l4, l5⟩, f1, f2, f3, f4, f5, f6⟩ := f
  generalize gccMacros p.arch g = m at *
  unfold Outcome
  rw [hl, ho, hs]
  have key : ∀ (L : Nat) (S : List Ops), L ≤ 2 →
      (S = [] ∧ L = p.arch.lockFree n ∨
        ∃ k lv, S = [gccOps k lv] ∧ n ≤ k ∧ IsNativeSize k ∧ L ≤ lv ∧ lv ≤ 2 ∧ 0 < L ∧ IsNativeSize n ∧ (lv = 2 → L = 2)) →
      S.length ≤ 1 ∧
      ((L = 0 ∧ (match S with | [] => p.archOps n | o :: _ => o) = emulated p.abi n (traits_alignment n)) ∨
       (0 < L ∧ L ≤ 2 ∧ IsNativeSize n ∧ ∃ m always, (match S with | [] => p.archOps n | o :: _ => o) = nativeOps m always ∧
          n ≤ m ∧ IsNativeSize m ∧ (L = 2 ↔ always = true))) := by
    intro L S hL h
    rcases h with ⟨rfl, hL2⟩ | ⟨k, lv, rfl, h1, h2, h3, h4, h5, h6, h7⟩
    · refine ⟨by simp, ?_⟩
      rcases ha with ⟨e1, e2⟩ | ⟨e1, e2, m, e3, e4, e5⟩
      · exact Or.inl ⟨by omega, e2⟩
      · exact Or.inr ⟨by omega, by omega, e2, m, true, e3, e4, e5, fun _ => rfl, fun _ => by omega⟩
    · refine ⟨by simp, Or.inr ⟨h5, hL, h6, k, _, rfl, h1, h2, ?_⟩⟩
      simp; omega
  apply key
  · repeat' split
    all_goals omega
  · by_cases h16 : n = 16
    · subst h16
      simp only [show ¬ (16 = 1) by decide, show ¬ (16 = 2) by decide, show ¬ (16 = 4) by decide,
        show ¬ (16 = 8) by decide, if_false, if_true]
      split
      · exact Or.inr ⟨16, _, rfl, by omega, by simp [IsNativeSize], by omega, by omega, by omega, by simp [IsNativeSize], by omega⟩
      · exact Or.inl ⟨rfl, by omega⟩
    by_cases h8 : n = 8
    · subst h8
      simp only [show ¬ (8 = 1) by decide, show ¬ (8 = 2) by decide, show ¬ (8 = 4) by decide,
        show ¬ (8 = 16) by decide, if_false, if_true]
      rw [if_neg (show ¬ (0 < m.i32 ∧ ¬ m.i32 ≤ g.i32 ∧ ¬ m.i32 ≤ g.i64 ∧ m.i32 ≤ g.i128) by omega), List.append_nil]
      repeat' split
      · exact Or.inr ⟨8, _, rfl, by omega, by simp [IsNativeSize], by omega, by omega, by omega, by simp [IsNativeSize], by omega⟩
      · exact Or.inr ⟨16, _, rfl, by omega, by simp [IsNativeSize], by omega, by omega, by omega, by simp [IsNativeSize], by omega⟩
      · exact Or.inl ⟨rfl, by omega⟩
      · exact Or.inl ⟨rfl, by omega⟩
    by_cases h4 : n = 4
    · subst h4
      simp only [show ¬ (4 = 1) by decide, show ¬ (4 = 2) by decide, show ¬ (4 = 8) by decide,
        show ¬ (4 = 16) by decide, if_false, if_true]
      repeat' split
      · exact Or.inr ⟨4, _, rfl, by omega, by simp [IsNativeSize], by omega, by omega, by omega, by simp [IsNativeSize], by omega⟩
      · exact Or.inr ⟨8, _, rfl, by omega, by simp [IsNativeSize], by omega, by omega, by omega, by simp [IsNativeSize], by omega⟩
      · exact Or.inl ⟨rfl, by omega⟩
      · exact Or.inl ⟨rfl, by omega⟩
    by_cases h2 : n = 2
    · subst h2
      simp only [show ¬ (2 = 1) by decide, show ¬ (2 = 4) by decide, show ¬ (2 = 8) by decide,
        show ¬ (2 = 16) by decide, if_false, if_true]
      repeat' split
      · exact Or.inr ⟨2, _, rfl, by omega, by simp [IsNativeSize], by omega, by omega, by omega, by simp [IsNativeSize], by omega⟩
      · exact Or.inr ⟨4, _, rfl, by omega, by simp [IsNativeSize], by omega, by omega, by omega, by simp [IsNativeSize], by omega⟩
      · exact Or.inr ⟨8, _, rfl, by omega, by simp [IsNativeSize], by omega, by omega, by omega, by simp [IsNativeSize], by omega⟩
      · exact Or.inr ⟨16, _, rfl, by omega, by simp [IsNativeSize], by omega, by omega, by omega, by simp [IsNativeSize], by omega⟩
      · exact Or.inl ⟨rfl, by omega⟩
      · exact Or.inl ⟨rfl, by omega⟩
    by_cases h1 : n = 1
    · subst h1
      simp only [show ¬ (1 = 2) by decide, show ¬ (1 = 4) by decide, show ¬ (1 = 8) by decide,
        show ¬ (1 = 16) by decide, if_false, if_true]
      repeat' split
      · exact Or.inr ⟨1, _, rfl, by omega, by simp [IsNativeSize], by omega, by omega, by omega, by simp [IsNativeSize], by omega⟩
      · exact Or.inr ⟨2, _, rfl, by omega, by simp [IsNativeSize], by omega, by omega, by omega, by simp [IsNativeSize], by omega⟩
      · exact Or.inr ⟨4, _, rfl, by omega, by simp [IsNativeSize], by omega, by omega, by omega, by simp [IsNativeSize], by omega⟩
      · exact Or.inr ⟨8, _, rfl, by omega, by simp [IsNativeSize], by omega, by omega, by omega, by simp [IsNativeSize], by omega⟩
      · exact Or.inr ⟨16, _, rfl, by omega, by simp [IsNativeSize], by omega, by omega, by omega, by simp [IsNativeSize], by omega⟩
      · exact Or.inl ⟨rfl, by omega⟩
      · exact Or.inl ⟨rfl, by omega⟩
    · left
      simp only [h16, h8, h4, h2, h1, if_false]
      refine ⟨trivial, ?_⟩
      have := arch_lockFree_cases p.arch n
      rcases this with h | h
      · exact h.symm
      · have := arch_sizes p.arch n (by omega); omega

theorem outcome_sync (p : Platform) (n : Nat) (g : GccSync) (hc : p.core = .gcc_sync g)
    (ha : p.arch = .none) : Outcome p n := by
  unfold Outcome Platform.ops Platform.specsFor Platform.archOps
  simp only [Platform.coreSpecs, Platform.lockFree, hc, ha, Arch.storage]
  obtain ⟨s1, s2, s4, s8, s16⟩ := g
  by_cases h16 : n = 16
  · subst h16
    cases s1 <;> cases s2 <;> cases s4 <;> cases s8 <;> cases s16 <;>
      simp [IsNativeSize, nativeOps, traits_alignment] <;>
      first | (refine ⟨1, ?_⟩; simp; done) | (refine ⟨2, ?_⟩; simp; done) |
        (refine ⟨4, ?_⟩; simp; done) | (refine ⟨8, ?_⟩; simp; done) | (refine ⟨16, ?_⟩; simp; done)
  by_cases h8 : n = 8
  · subst h8
    cases s1 <;> cases s2 <;> cases s4 <;> cases s8 <;> cases s16 <;>
      simp [IsNativeSize, nativeOps, traits_alignment] <;>
      first | (refine ⟨1, ?_⟩; simp; done) | (refine ⟨2, ?_⟩; simp; done) |
        (refine ⟨4, ?_⟩; simp; done) | (refine ⟨8, ?_⟩; simp; done) | (refine ⟨16, ?_⟩; simp; done)
  by_cases h4 : n = 4
  · subst h4
    cases s1 <;> cases s2 <;> cases s4 <;> cases s8 <;> cases s16 <;>
      simp [IsNativeSize, nativeOps, traits_alignment] <;>
      first | (refine ⟨1, ?_⟩; simp; done) | (refine ⟨2, ?_⟩; simp; done) |
        (refine ⟨4, ?_⟩; simp; done) | (refine ⟨8, ?_⟩; simp; done) | (refine ⟨16, ?_⟩; simp; done)
  by_cases h2 : n = 2
  · subst h2
    cases s1 <;> cases s2 <;> cases s4 <;> cases s8 <;> cases s16 <;>
      simp [IsNativeSize, nativeOps, traits_alignment] <;>
      first | (refine ⟨1, ?_⟩; simp; done) | (refine ⟨2, ?_⟩; simp; done) |
        (refine ⟨4, ?_⟩; simp; done) | (refine ⟨8, ?_⟩; simp; done) | (refine ⟨16, ?_⟩; simp; done)
  by_cases h1 : n = 1
  · subst h1
    cases s1 <;> cases s2 <;> cases s4 <;> cases s8 <;> cases s16 <;>
      simp [IsNativeSize, nativeOps, traits_alignment] <;>
      first | (refine ⟨1, ?_⟩; simp; done) | (refine ⟨2, ?_⟩; simp; done) |
        (refine ⟨4, ?_⟩; simp; done) | (refine ⟨8, ?_⟩; simp; done) | (refine ⟨16, ?_⟩; simp; done)
  · cases s1 <;> cases s2 <;> cases s4 <;> cases s8 <;> cases s16 <;>
      simp [h16, h8, h4, h2, h1, Ne.symm h16, Ne.symm h8, Ne.symm h4, Ne.symm h2, Ne.symm h1]

theorem outcome_os (p : Platform) (n : Nat) (hc : p.core = .linux_arm ∨ p.core = .windows)
    (ha : p.arch = .none) : Outcome p n := by
  unfold Outcome Platform.ops Platform.specsFor Platform.archOps
  by_cases h4 : n = 4
  · subst h4
    rcases hc with hc | hc <;> simp [Platform.coreSpecs, Platform.lockFree, hc, ha, Arch.storage,
      IsNativeSize, nativeOps, traits_alignment] <;> exact ⟨4, by simp⟩
  by_cases h2 : n = 2
  · subst h2
    rcases hc with hc | hc <;> simp [Platform.coreSpecs, Platform.lockFree, hc, ha, Arch.storage,
      IsNativeSize, nativeOps, traits_alignment] <;> exact ⟨4, by simp⟩
  by_cases h1 : n = 1
  · subst h1
    rcases hc with hc | hc <;> simp [Platform.coreSpecs, Platform.lockFree, hc, ha, Arch.storage,
      IsNativeSize, nativeOps, traits_alignment] <;> exact ⟨4, by simp⟩
  · rcases hc with hc | hc <;> simp [Platform.coreSpecs, Platform.lockFree, hc, ha, Arch.storage,
      h4, h2, h1, Ne.symm h4, Ne.symm h2, Ne.symm h1]

theorem outcome (p : Platform) (hp : p.Ok) (hm : p.MacrosOk) (n : Nat) : Outcome p n := by
  unfold Platform.Ok at hp
  match hc : p.core with
  | .none => exact outcome_none p n hc
  | .gcc_atomic g => exact outcome_gcc p n g hc (hm g hc)
  | .gcc_sync g => rw [hc] at hp; exact outcome_sync p n g hc hp.1
  | .linux_arm => rw [hc] at hp; exact outcome_os p n (Or.inl hc) hp
  | .windows => rw [hc] at hp; exact outcome_os p n (Or.inr hc) hp

/-- Without assumptions on the macros: storage is never too small. -/
theorem spec_size_ge (p : Platform) (n : Nat) (o : Ops) (h : o ∈ p.specsFor n) :
    n ≤ o.sizeofStorage := by
  unfold Platform.specsFor at h
  cases hc : p.core with
  | none => simp [Platform.coreSpecs, hc] at h
  | gcc_atomic g =>
    simp only [Platform.coreSpecs, hc] at h
    rw [gcc_specs_filter] at h
    repeat' (split at h)
    all_goals (simp [gccOps, nativeOps] at h; try (rcases h with h | h))
    all_goals (try subst h)
    all_goals (try simp)
    all_goals (try omega)
    all_goals (try (subst_vars; simp))
    all_goals (try (split at h <;> simp at h))
    all_goals (try subst h)
    all_goals (try simp)
    all_goals (try omega)
  | gcc_sync g =>
    obtain ⟨s1, s2, s4, s8, s16⟩ := g
    simp only [Platform.coreSpecs, hc, List.mem_map, List.mem_filter] at h
    obtain ⟨⟨k, o'⟩, ⟨hm, hk⟩, rfl⟩ := h
    simp at hk; subst hk
    cases s1 <;> cases s2 <;> cases s4 <;> cases s8 <;> cases s16 <;>
      simp [Platform.lockFree, hc, nativeOps] at hm <;> (try rcases hm with hm | hm | hm | hm | hm) <;> simp_all
  | linux_arm =>
    simp only [Platform.coreSpecs, hc, List.mem_map, List.mem_filter] at h
    obtain ⟨⟨k, o'⟩, ⟨hm, hk⟩, rfl⟩ := h
    simp at hk; subst hk
    simp [nativeOps] at hm
    rcases hm with hm | hm | hm <;> simp [hm]
  | windows =>
    simp only [Platform.coreSpecs, hc, List.mem_map, List.mem_filter] at h
    obtain ⟨⟨k, o'⟩, ⟨hm, hk⟩, rfl⟩ := h
    simp at hk; subst hk
    simp [nativeOps] at hm
    rcases hm with hm | hm | hm <;> simp [hm]

end Verif.Select
