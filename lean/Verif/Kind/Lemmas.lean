import Verif.Kind.Spec
import Verif.WaitSel.Props

/-
Helper lemmas for C65, C66 and C67.
-/

namespace Verif.Kind

open Verif.Select Verif.WaitSel Spec

/-! ### C65 -/

/-- The members promised to a type, by its classification: an integer, a pointer to objects, a floating point type, an enumeration. -/
theorem promised_iff {noFloat : Bool} {t : Ty} (i o f e : Bool) (hI : Integer t ↔ i = true) (hO : ObjectPointer t ↔ o = true)
    (hF : (Floating t ∧ noFloat = false) ↔ f = true) (hE : Enumeration t ↔ e = true) (m : Member) :
    Promised noFloat t m ↔
      (m ∈ common ∨ (m ∈ additive ∧ (i = true ∨ o = true ∨ f = true)) ∨ (m ∈ stepping ∧ (i = true ∨ o = true)) ∨
        (m ∈ testedSums ∧ (i = true ∨ o = true)) ∨ (m ∈ signChanging ∧ (i = true ∨ f = true)) ∨
        (m = .negate_and_test ∧ i = true) ∨ (m ∈ bitwise ∧ (i = true ∨ e = true))) := by
  unfold Promised
  rw [hI, hO, hF, hE]

/-- The members of each class are those promised to its types. -/
theorem members_cls (c : Cls) (i o f e : Bool)
    (h : (c = .generic ∧ i = false ∧ o = false ∧ f = false ∧ e = false) ∨ (c = .bool ∧ i = false ∧ o = false ∧ f = false ∧ e = false) ∨
      (c = .enum ∧ i = false ∧ o = false ∧ f = false ∧ e = true) ∨ (c = .integer ∧ i = true ∧ o = false ∧ f = false ∧ e = false) ∨
      (c = .floating ∧ i = false ∧ o = false ∧ f = true ∧ e = false) ∨
      (c = .pointer ∧ i = false ∧ o = true ∧ f = false ∧ e = false)) (m : Member) :
    m ∈ commonMembers ++ c.own ++ outerMembers ↔
      (m ∈ common ∨ (m ∈ additive ∧ (i = true ∨ o = true ∨ f = true)) ∨ (m ∈ stepping ∧ (i = true ∨ o = true)) ∨
        (m ∈ testedSums ∧ (i = true ∨ o = true)) ∨ (m ∈ signChanging ∧ (i = true ∨ f = true)) ∨
        (m = .negate_and_test ∧ i = true) ∨ (m ∈ bitwise ∧ (i = true ∨ e = true))) := by
  rcases h with ⟨rfl, rfl, rfl, rfl, rfl⟩ | ⟨rfl, rfl, rfl, rfl, rfl⟩ | ⟨rfl, rfl, rfl, rfl, rfl⟩ | ⟨rfl, rfl, rfl, rfl, rfl⟩ |
    ⟨rfl, rfl, rfl, rfl, rfl⟩ | ⟨rfl, rfl, rfl, rfl, rfl⟩ <;> cases m <;> decide

theorem members_some {noFloat : Bool} {cv : Cv} {t : Ty} (c : Cls) (hc : specialization noFloat cv t (classify noFloat cv t) = some c) :
    members noFloat cv t = some (commonMembers ++ c.own ++ outerMembers) := by
  rw [members, hc]; rfl

/-! ### C66 -/

theorem atomicOps_candidate (p : Platform) {n : Nat} (h : Candidate n) : p.atomicOps n = p.ops n := by
  rcases h with rfl | rfl | rfl | rfl <;> rfl

theorem alias_mem {s : Os} {p : Platform} {n : Nat} (h : lockFreeAlias s p = some n) : Candidate n ∧ p.lockFree n = 2 := by
  unfold lockFreeAlias at h
  unfold Candidate
  repeat' split at h
  all_goals first | (injection h with h; subst h; constructor <;> omega) | cases h

/-- The aliases name an integer with native waiting if the macros report it for any of the four. -/
theorem alias_native {s : Os} {p : Platform} {m n : Nat} (hm : Candidate m) (h2 : p.lockFree m = 2) (hw : waitMacro s p m false = 2)
    (h : lockFreeAlias s p = some n) : waitMacro s p n false = 2 := by
  unfold lockFreeAlias at h
  repeat' split at h
  all_goals first
    | (injection h with h; subst h; rename_i hh; exact hh.2)
    | (exfalso; rcases hm with rfl | rfl | rfl | rfl <;> simp_all)

/-- The storage of the classes for an architecture is that of a lock-free integer of its own size. -/
theorem arch_storage_self (a : Arch) (n k : Nat) (hn : Candidate n) (h : a.storage n = some k) :
    Candidate k ∧ a.lockFree k = 2 ∧ a.storage k = some k := by
  rcases hn with rfl | rfl | rfl | rfl <;> cases a <;> simp only [Arch.storage] at h
  all_goals
    repeat' split at h
    all_goals first
      | (cases h; done)
      | (injection h with h; (try split at h) <;> subst h <;> simp_all [Candidate, Arch.storage, Arch.lockFree])

/-- The width of the narrowest intrinsics of at least `n` bytes that are always lock-free. -/
def firstWidth (g : GccAtomic) (n : Nat) : Option Nat :=
  if n ≤ 1 ∧ g.i8 = 2 then some 1 else if n ≤ 2 ∧ g.i16 = 2 then some 2 else if n ≤ 4 ∧ g.i32 = 2 then some 4
  else if n ≤ 8 ∧ g.i64 = 2 then some 8 else none

theorem firstWidth_none (g : GccAtomic) (n : Nat) : firstWidth g n = none ↔
    ¬ (n ≤ 1 ∧ g.i8 = 2) ∧ ¬ (n ≤ 2 ∧ g.i16 = 2) ∧ ¬ (n ≤ 4 ∧ g.i32 = 2) ∧ ¬ (n ≤ 8 ∧ g.i64 = 2) := by
  unfold firstWidth
  repeat' split
  all_goals simp <;> omega

/-- The operations of lock-free integers in the `__atomic` back end. -/
theorem gcc_ops (p : Platform) (g : GccAtomic) (hc : p.core = .gcc_atomic g) (hg : g.Ok) (n : Nat) (hn : Candidate n)
    (h2 : p.lockFree n = 2) :
    (∃ k, firstWidth g n = some k ∧ p.ops n = nativeOps k true) ∨
    (firstWidth g n = none ∧ p.ops n = p.archOps n ∧ p.arch.lockFree n = 2) := by
  have hs0 : p.specsFor n = ((gccAtomicSpecs (gccMacros p.arch g) g).filter (fun s => s.1 = n)).map (·.2) := by
    simp only [Platform.specsFor, Platform.coreSpecs, hc]
  have hs := hs0.trans (gcc_specs_filter (gccMacros p.arch g) g n)
  clear hs0
  have hl : p.lockFree n = (let m := gccMacros p.arch g
      if n = 1 then m.i8 else if n = 2 then m.i16 else if n = 4 then m.i32
      else if n = 8 then m.i64 else if n = 16 then m.i128 else 0) := by
    simp [Platform.lockFree, hc]
  rw [h2] at hl
  have ho : p.ops n = match p.specsFor n with | [] => p.archOps n | o :: _ => o := rfl
  have f := gccMacros_facts p.arch g hg
  obtain ⟨b1, b2, b3, b4, b5, b6⟩ := hg
  simp only at f hl
  obtain ⟨⟨l1, l2, l3, l4, l5⟩, f1, f2, f3, f4, f5, f6, f7, f8⟩ := f
  generalize gccMacros p.arch g = m at *
  rw [ho, hs]
  unfold firstWidth
  rcases hn with rfl | rfl | rfl | rfl
  · simp only [show ¬ (1 = 2) by decide, show ¬ (1 = 4) by decide, show ¬ (1 = 8) by decide,
      show ¬ (1 = 16) by decide, if_false, if_true] at hl ⊢
    rw [← hl, if_pos (show 0 < 2 by decide)]
    by_cases e1 : g.i8 = 2
    · left; simp [e1, gccOps]
    by_cases e2 : g.i16 = 2
    · left; simp [e1, e2, show ¬ 2 ≤ g.i8 by omega, gccOps]
    by_cases e3 : g.i32 = 2
    · left; simp [e1, e2, e3, show ¬ 2 ≤ g.i8 by omega, show ¬ 2 ≤ g.i16 by omega, gccOps]
    by_cases e4 : g.i64 = 2
    · left; simp [e1, e2, e3, e4, show ¬ 2 ≤ g.i8 by omega, show ¬ 2 ≤ g.i16 by omega, show ¬ 2 ≤ g.i32 by omega, gccOps]
    · right; simp [e1, e2, e3, e4, show ¬ 2 ≤ g.i8 by omega, show ¬ 2 ≤ g.i16 by omega, show ¬ 2 ≤ g.i32 by omega,
        show ¬ 2 ≤ g.i64 by omega, show ¬ 2 ≤ g.i128 by omega]; omega
  · simp only [show ¬ (2 = 1) by decide, show ¬ (2 = 4) by decide, show ¬ (2 = 8) by decide,
      show ¬ (2 = 16) by decide, if_false, if_true] at hl ⊢
    rw [← hl, if_pos (show 0 < 2 by decide)]
    by_cases e2 : g.i16 = 2
    · left; simp [e2, gccOps]
    by_cases e3 : g.i32 = 2
    · left; simp [e2, e3, show ¬ 2 ≤ g.i16 by omega, gccOps]
    by_cases e4 : g.i64 = 2
    · left; simp [e2, e3, e4, show ¬ 2 ≤ g.i16 by omega, show ¬ 2 ≤ g.i32 by omega, gccOps]
    · right; simp [e2, e3, e4, show ¬ 2 ≤ g.i16 by omega, show ¬ 2 ≤ g.i32 by omega,
        show ¬ 2 ≤ g.i64 by omega, show ¬ 2 ≤ g.i128 by omega]; omega
  · simp only [show ¬ (4 = 1) by decide, show ¬ (4 = 2) by decide, show ¬ (4 = 8) by decide,
      show ¬ (4 = 16) by decide, if_false, if_true] at hl ⊢
    rw [← hl, if_pos (show 0 < 2 by decide)]
    by_cases e3 : g.i32 = 2
    · left; simp [e3, gccOps]
    by_cases e4 : g.i64 = 2
    · left; simp [e3, e4, show ¬ 2 ≤ g.i32 by omega, gccOps]
    · right; simp [e3, e4, show ¬ 2 ≤ g.i32 by omega, show ¬ 2 ≤ g.i64 by omega]; omega
  · simp only [show ¬ (8 = 1) by decide, show ¬ (8 = 2) by decide, show ¬ (8 = 4) by decide,
      show ¬ (8 = 16) by decide, if_false, if_true] at hl ⊢
    rw [if_neg (show ¬ (0 < m.i32 ∧ ¬ m.i32 ≤ g.i32 ∧ ¬ m.i32 ≤ g.i64 ∧ m.i32 ≤ g.i128) by omega), List.append_nil,
      ← hl, if_pos (show 0 < 2 by decide)]
    by_cases e4 : g.i64 = 2
    · left; simp [e4, gccOps]
    · right; simp [e4, show ¬ 2 ≤ g.i64 by omega, show ¬ 2 ≤ g.i128 by omega]; omega

/-- A lock-free integer is kept in the storage of a lock-free integer, which is kept in storage of its own size, unless it is kept
in 16 bytes. -/
theorem storage_self (p : Platform) (hp : p.Ok) (hm : p.MacrosOk) (n k : Nat) (hn : Candidate n) (h2 : p.lockFree n = 2)
    (hk : (p.ops n).sizeofStorage = k) (h8 : k ≤ 8) :
    Candidate k ∧ n ≤ k ∧ p.lockFree k = 2 ∧ (p.ops k).sizeofStorage = k := by
  have harch : p.ops n = p.archOps n → p.arch.lockFree n = 2 →
      Candidate k ∧ n ≤ k ∧ p.arch.lockFree k = 2 ∧ p.arch.storage k = some k := by
    intro ho ha
    have hs := arch_storage_some p.arch n
    rw [ho] at hk
    unfold Platform.archOps at hk
    cases he : p.arch.storage n with
    | none => rw [he, ha] at hs; simp at hs
    | some j =>
      rw [he] at hk
      have : j = k := hk
      subst this
      have := arch_storage_self p.arch n j hn he
      exact ⟨this.1, arch_storage_ge _ _ _ he, this.2.1, this.2.2⟩
  unfold Platform.Ok at hp
  match hc : p.core with
  | .none =>
    have ho : ∀ n, p.ops n = p.archOps n := fun n => ops_nil p n (by simp [Platform.specsFor, Platform.coreSpecs, hc])
    have hl : ∀ n, p.lockFree n = p.arch.lockFree n := fun n => by simp [Platform.lockFree, hc]
    obtain ⟨a, b, c, d⟩ := harch (ho n) (by rw [← hl]; exact h2)
    refine ⟨a, b, by rw [hl]; exact c, ?_⟩
    rw [ho]; unfold Platform.archOps; rw [d]; rfl
  | .gcc_atomic g =>
    have hg := hm g hc
    have f := gccMacros_facts p.arch g hg
    have hl : ∀ k, p.lockFree k = (let m := gccMacros p.arch g
        if k = 1 then m.i8 else if k = 2 then m.i16 else if k = 4 then m.i32
        else if k = 8 then m.i64 else if k = 16 then m.i128 else 0) := by
      intro k; simp [Platform.lockFree, hc]
    simp only at f hl
    obtain ⟨⟨l1, l2, l3, l4, l5⟩, f1, f2, f3, f4, f5, f6, f7, f8⟩ := f
    have mono : ∀ k, Candidate k → p.arch.lockFree k = 2 → p.lockFree k = 2 := by
      intro k hk h
      rw [hl]
      rcases hk with rfl | rfl | rfl | rfl <;> simp <;> omega
    rcases gcc_ops p g hc hg n hn h2 with ⟨j, hj, e⟩ | ⟨hj, e, ha⟩
    · rw [e] at hk
      have : j = k := hk
      subst this
      have hself : Candidate j ∧ n ≤ j ∧ firstWidth g j = some j ∧ p.lockFree j = 2 := by
        rw [hl]
        unfold firstWidth at hj ⊢
        unfold Candidate
        repeat' split at hj
        all_goals first
          | (injection hj with hj; subst hj; simp_all; omega)
          | cases hj
      obtain ⟨hcj, hnj, hfj, hlj⟩ := hself
      refine ⟨hcj, hnj, hlj, ?_⟩
      rcases gcc_ops p g hc hg j hcj hlj with ⟨i, hi, e'⟩ | ⟨hi, _⟩
      · rw [hfj] at hi; injection hi with hi; subst hi; rw [e']; rfl
      · rw [hfj] at hi; cases hi
    · obtain ⟨a, b, c, d⟩ := harch e ha
      have hlk := mono k a c
      refine ⟨a, b, hlk, ?_⟩
      have hnone : firstWidth g k = none := by
        rw [firstWidth_none] at hj ⊢; omega
      rcases gcc_ops p g hc hg k a hlk with ⟨i, hi, e'⟩ | ⟨_, e', _⟩
      · rw [hnone] at hi; cases hi
      · rw [e']; unfold Platform.archOps; rw [d]; rfl
  | .gcc_sync g =>
    rw [hc] at hp
    have ho : ∀ n, p.ops n = match p.specsFor n with | [] => p.archOps n | o :: _ => o := fun _ => rfl
    obtain ⟨s1, s2, s4, s8, s16⟩ := g
    simp only [ho, Platform.specsFor, Platform.coreSpecs, Platform.lockFree, hc] at hk h2 ⊢
    rcases hn with rfl | rfl | rfl | rfl <;> cases s1 <;> cases s2 <;> cases s4 <;> cases s8 <;> cases s16 <;>
      simp [nativeOps] at h2 hk <;> subst hk <;> simp [Candidate, nativeOps] at h8 ⊢
  | .linux_arm =>
    have ho : ∀ n, p.ops n = match p.specsFor n with | [] => p.archOps n | o :: _ => o := fun _ => rfl
    simp only [ho, Platform.specsFor, Platform.coreSpecs, Platform.lockFree, hc] at hk h2 ⊢
    rcases hn with rfl | rfl | rfl | rfl <;> simp [nativeOps] at h2 hk <;> subst hk <;> simp [Candidate, nativeOps]
  | .windows =>
    have ho : ∀ n, p.ops n = match p.specsFor n with | [] => p.archOps n | o :: _ => o := fun _ => rfl
    simp only [ho, Platform.specsFor, Platform.coreSpecs, Platform.lockFree, hc] at hk h2 ⊢
    rcases hn with rfl | rfl | rfl | rfl <;> simp [nativeOps] at h2 hk <;> subst hk <;> simp [Candidate, nativeOps]

/-- Lock-free integers are kept in at most 8 bytes, unless there are `__sync` operations of 16 and none of 8 bytes. -/
theorem storage_le (p : Platform) (hm : p.MacrosOk) (hs : ∀ g, p.core = .gcc_sync g → g.s16 = true → g.s8 = true)
    (n : Nat) (hn : Candidate n) (h2 : p.lockFree n = 2) : (p.ops n).sizeofStorage ≤ 8 := by
  have harch : p.ops n = p.archOps n → p.arch.lockFree n = 2 → (p.ops n).sizeofStorage ≤ 8 := by
    intro ho ha
    have hs := arch_storage_some p.arch n
    rw [ho]
    unfold Platform.archOps
    cases he : p.arch.storage n with
    | none => rw [he, ha] at hs; simp at hs
    | some j =>
      have := (arch_storage_self p.arch n j hn he).1
      unfold Candidate at this
      show j ≤ 8
      omega
  match hc : p.core with
  | .none =>
    refine harch (ops_nil p n (by simp [Platform.specsFor, Platform.coreSpecs, hc])) ?_
    rw [← h2]; simp [Platform.lockFree, hc]
  | .gcc_atomic g =>
    rcases gcc_ops p g hc (hm g hc) n hn h2 with ⟨j, hj, e⟩ | ⟨_, e, ha⟩
    · rw [e]
      show j ≤ 8
      unfold firstWidth at hj
      repeat' split at hj
      all_goals first | (injection hj with hj; omega) | cases hj
    · exact harch e ha
  | .gcc_sync g =>
    have hs := hs g hc
    have ho : p.ops n = match p.specsFor n with | [] => p.archOps n | o :: _ => o := rfl
    obtain ⟨s1, s2, s4, s8, s16⟩ := g
    simp only [ho, Platform.specsFor, Platform.coreSpecs, Platform.lockFree, hc] at h2 hs ⊢
    rcases hn with rfl | rfl | rfl | rfl <;> cases s1 <;> cases s2 <;> cases s4 <;> cases s8 <;> cases s16 <;>
      simp [nativeOps] at h2 hs ⊢
  | .linux_arm | .windows =>
    have ho : p.ops n = match p.specsFor n with | [] => p.archOps n | o :: _ => o := rfl
    simp only [ho, Platform.specsFor, Platform.coreSpecs, Platform.lockFree, hc] at h2 ⊢
    rcases hn with rfl | rfl | rfl | rfl <;> simp [nativeOps] at h2 ⊢

/-- The system waits for objects of all four sizes, or for none of the sizes 1 and 2. -/
theorem native_sizes (s : Os) (hs : s.Ok) :
    (∀ n, Candidate n → s.specsFor n false ≠ []) ∨ (s.specsFor 1 false = [] ∧ s.specsFor 2 false = []) := by
  obtain ⟨hi, hl⟩ := hs
  unfold Os.specsFor Os.specs
  cases s.backend
  · right; simp
  · left; rintro n (rfl | rfl | rfl | rfl) <;> simp
  · right; simp
  · right; cases s.darwin19 <;> simp
  · right; cases s.umtxWaitUint <;> cases s.umtxWait <;> rcases hl with hl | hl <;> simp [hi, hl]
  · right; simp [hi]

/-- A lock-free object waits natively if the back end has a specialization for the size of its storage. -/
theorem native_iff (s : Os) (o : Ops) (h : o.is_always_lock_free = true) :
    (s.waitOps o false).native = true ↔ s.specsFor o.sizeofStorage false ≠ [] := by
  rcases waitOps_cases s o false with ⟨hl, e⟩ | ⟨_, hnil, e⟩ | ⟨_, hm⟩
  · rw [hl] at h; cases h
  · rw [e]; exact ⟨fun hn => absurd hn (by simp [genericOps]), fun hn => absurd hnil hn⟩
  · refine ⟨fun _ hn => ?_, fun _ => (spec_native hm).1⟩
    have := mem_specsFor.2 hm
    rw [hn] at this; cases this

/-! ### C67 -/

theorem pow_inj {a b : Nat} (h : 2 ^ a - 1 = 2 ^ b - 1) : a = b := by
  have ha := Nat.one_le_two_pow (n := a)
  have hb := Nat.one_le_two_pow (n := b)
  have : 2 ^ a = 2 ^ b := by omega
  exact (Nat.pow_right_inj (by omega : 1 < 2)).1 this

theorem max_iff {a b c : Nat} (hc : c = 2 ^ b - 1) : 2 ^ a - 1 = c ↔ a = b := by
  subst hc; exact ⟨pow_inj, fun h => by rw [h]⟩

theorem ff1 {a : Nat} : 2 ^ a - 1 = 0xff ↔ a = 8 := max_iff (by decide)
theorem ff2 {a : Nat} : 2 ^ a - 1 = 0xffff ↔ a = 16 := max_iff (by decide)
theorem ff4 {a : Nat} : 2 ^ a - 1 = 0xffffffff ↔ a = 32 := max_iff (by decide)
theorem ff8 {a : Nat} : 2 ^ a - 1 = 0xffffffffffffffff ↔ a = 64 := max_iff (by decide)
theorem f71 {a : Nat} : 2 ^ a - 1 = 0x7f ↔ a = 7 := max_iff (by decide)
theorem f72 {a : Nat} : 2 ^ a - 1 = 0x7fff ↔ a = 15 := max_iff (by decide)
theorem f74 {a : Nat} : 2 ^ a - 1 = 0x7fffffff ↔ a = 31 := max_iff (by decide)
theorem f78 {a : Nat} : 2 ^ a - 1 = 0x7fffffffffffffff ↔ a = 63 := max_iff (by decide)

theorem sizeofInt_max (k : Nat) : sizeofInt none (unsignedMax k) = if k = 1 ∨ k = 2 ∨ k = 4 ∨ k = 8 then some k else none := by
  unfold sizeofInt unsignedMax
  simp only [ff1, ff2, ff4, ff8]
  repeat' split
  all_goals first | rfl | (congr 1; omega) | (exfalso; omega)

theorem sizeofPointer_max (k : Nat) : sizeofPointer none none (some (unsignedMax k)) = if k = 2 ∨ k = 4 ∨ k = 8 then some k else none := by
  unfold sizeofPointer unsignedMax
  simp only [ff2, ff4, ff8]
  repeat' split
  all_goals first | rfl | (congr 1; omega) | (exfalso; omega)

theorem sizeofWchar_max (k : Nat) (max : Nat) (hk : 0 < k) (h : max = unsignedMax k ∨ max = signedMax k) :
    sizeofWchar none false max = if k = 1 ∨ k = 2 ∨ k = 4 ∨ k = 8 then some k else none := by
  unfold sizeofWchar
  simp only [Bool.false_eq_true, if_false]
  rcases h with rfl | rfl
  · unfold unsignedMax
    simp only [ff1, ff2, ff4, ff8, f71, f72, f74, f78]
    repeat' split
    all_goals first | rfl | (congr 1; omega) | (exfalso; omega)
  · unfold signedMax
    simp only [ff1, ff2, ff4, ff8, f71, f72, f74, f78]
    repeat' split
    all_goals first | rfl | (congr 1; omega) | (exfalso; omega)

end Verif.Kind
