import Verif.Select.Lemmas

/-
Theorems for C16 (storage), C17 (locks), C32 (size dispatch) and C39 (lock-freedom constants).
-/

namespace Verif.Select

open Spec

/-! ### Concrete platforms used in the examples -/

/-- x86-64, gcc 12 with `-mcx16`. -/
def exX64 : Platform :=
  ⟨⟨2, 4, 8, 16⟩, .gcc_x86_64 true, .gcc_atomic ⟨2, 2, 2, 2, 0⟩⟩

/-- ARMv6 without byte and halfword exclusive instructions, compiler without `__atomic`. -/
def exArm6 : Platform := ⟨⟨2, 4, 8, 8⟩, .gcc_arm false false false, .none⟩

/-- i486: gcc reports that 64-bit operations are sometimes lock-free. -/
def exI486 : Platform :=
  ⟨⟨2, 4, 4, 16⟩, .gcc_x86_32 false, .gcc_atomic ⟨2, 2, 2, 1, 0⟩⟩

/-- A compiler whose only always lock-free intrinsics besides the narrow ones are 16 bytes wide. -/
def exWide : Platform :=
  ⟨⟨2, 4, 8, 16⟩, .none, .gcc_atomic ⟨2, 2, 0, 0, 2⟩⟩

theorem exX64_abi : exX64.abi.Ok := by constructor <;> (unfold ValidAlign exX64; decide)
theorem exArm6_abi : exArm6.abi.Ok := by constructor <;> (unfold ValidAlign exArm6; decide)

theorem exX64_ok : exX64.Ok ∧ exX64.MacrosOk := by
  refine ⟨trivial, ?_⟩
  intro g h; injection h with h; subst h; constructor <;> decide

/-! ### C32: dispatch by size -/

/-- C32.  Every size has at most one specialization, so that exactly one class (the specialization
or the primary template) implements it.  Partial: assumes that 64-bit intrinsics are at least as
lock-free as 128-bit ones; without it the claim is false, see `C32_unique_violated`. -/
theorem C32_unique_partial (p : Platform) (hp : p.Ok) (hm : p.MacrosOk) (n : Nat) :
    (p.specsFor n).length ≤ 1 :=
  (outcome p hp hm n).1

example : exX64.Ok ∧ exX64.MacrosOk ∧ (exX64.specsFor 8).length = 1 ∧ (exX64.specsFor 16).length = 0 :=
  ⟨exX64_ok.1, exX64_ok.2, by decide, by decide⟩

/-- C32, the exception (core_ops_gcc_atomic.hpp:213): with lock-free 16-byte intrinsics and
no lock-free 4- and 8-byte ones there are two specializations for 8 bytes, and 4-byte objects,
for which `BOOST_ATOMIC_INT32_LOCK_FREE` is 2, use the lock pool. -/
theorem C32_unique_violated :
    ∃ p : Platform, p.Ok ∧ p.abi.Ok ∧ (p.specsFor 8).length = 2 ∧
      p.lockFree 4 = 2 ∧ (p.ops 4).kind = .locked := by
  refine ⟨exWide, trivial, ?_, by decide, by decide, by decide⟩
  constructor <;> (unfold ValidAlign exWide; decide)

/-- C32.  Whatever class serves an object size has storage for all of the object, without any
assumption on the macros. -/
theorem C32_fits (p : Platform) (ha : p.abi.Ok) (n : Nat) : n ≤ (p.ops n).sizeofStorage := by
  unfold Platform.ops
  cases hs : p.specsFor n with
  | cons o l => exact spec_size_ge p n o (by rw [hs]; exact List.mem_cons_self ..)
  | nil =>
    show n ≤ (p.archOps n).sizeofStorage
    unfold Platform.archOps
    cases h : p.arch.storage n with
    | none => exact emulated_size_ge _ ha _ _ (traits_alignment_pos n)
    | some m => exact arch_storage_ge _ _ _ h

example : exArm6.abi.Ok ∧ (exArm6.ops 1).sizeofStorage = 4 ∧ (exArm6.ops 8).sizeofStorage = 8 :=
  ⟨exArm6_abi, by decide, by decide⟩

/-- C32.  An object size is served by native operations exactly when the library's macro for it is
not 0, and by the lock pool otherwise. -/
theorem C32_native_iff_macro (p : Platform) (hp : p.Ok) (hm : p.MacrosOk) (n : Nat) :
    ((p.ops n).kind ≠ .locked ↔ 0 < p.lockFree n) ∧
    (p.lockFree n = 0 → (p.ops n).kind = .locked ∧ (p.ops n).is_always_lock_free = false) := by
  obtain ⟨_, ⟨h0, h⟩ | ⟨h0, _, _, m, al, h, _⟩⟩ := outcome p hp hm n
  · rw [h, h0]; simp [emulated]
  · rw [h]; simp [nativeOps]; omega

example : exX64.lockFree 16 = 2 ∧ (exX64.ops 16).kind = .native true ∧
    exX64.lockFree 32 = 0 ∧ (exX64.ops 32).kind = .locked := by decide

/-- C32.  A natively supported size is served by storage of exactly that size: compiler intrinsics
that are always lock-free, `__sync` intrinsics, or (without a compiler back end) the
architecture's own instructions. -/
theorem C32_exact_when_available (p : Platform) (hp : p.Ok) (hm : p.MacrosOk) :
    (∀ g, p.core = .gcc_atomic g →
      (g.i8 = 2 → p.ops 1 = nativeOps 1 true) ∧ (g.i16 = 2 → p.ops 2 = nativeOps 2 true) ∧
      (g.i32 = 2 → p.ops 4 = nativeOps 4 true) ∧ (g.i64 = 2 → p.ops 8 = nativeOps 8 true) ∧
      (g.i128 = 2 → p.ops 16 = nativeOps 16 true)) ∧
    (∀ g, p.core = .gcc_sync g →
      (g.s1 = true → p.ops 1 = nativeOps 1 true) ∧ (g.s2 = true → p.ops 2 = nativeOps 2 true) ∧
      (g.s4 = true → p.ops 4 = nativeOps 4 true) ∧ (g.s8 = true → p.ops 8 = nativeOps 8 true) ∧
      (g.s16 = true → p.ops 16 = nativeOps 16 true)) ∧
    (p.core = .none → ∀ n, p.arch.storage n = some n → p.ops n = nativeOps n true) := by
  refine ⟨?_, ?_, ?_⟩
  · intro g hc
    have hg := hm g hc
    have f := gccMacros_facts p.arch g hg
    obtain ⟨⟨l1, l2, l3, l4, l5⟩, -⟩ := f
    have c1 := arch_lockFree_cases p.arch 1
    have c2 := arch_lockFree_cases p.arch 2
    have c4 := arch_lockFree_cases p.arch 4
    have c8 := arch_lockFree_cases p.arch 8
    have c16 := arch_lockFree_cases p.arch 16
    have pos : ∀ c o w : Nat, c ≤ 2 → o = 2 → 0 < overrideMacro c o w := by
      intro c o w _ _; unfold overrideMacro; repeat' split
      all_goals omega
    have hs : ∀ n, p.specsFor n =
        ((gccAtomicSpecs (gccMacros p.arch g) g).filter (fun s => s.1 = n)).map (·.2) := by
      intro n; simp only [Platform.specsFor, Platform.coreSpecs, hc]
    have ho : ∀ n, p.ops n = match p.specsFor n with | [] => p.archOps n | o :: _ => o := fun _ => rfl
    refine ⟨?_, ?_, ?_, ?_, ?_⟩ <;> intro h <;> rw [ho, hs, gcc_specs_filter]
    · have hp : 0 < (gccMacros p.arch g).i8 := by
        simp only [gccMacros]; exact pos _ _ _ (by omega) h
      rw [if_neg (by decide), if_neg (by decide), if_neg (by decide), if_neg (by decide), if_pos rfl,
        if_pos hp, if_pos (by omega)]
      simp [gccOps, h]
    · have hp : 0 < (gccMacros p.arch g).i16 := by
        simp only [gccMacros]; exact pos _ _ _ (by omega) h
      rw [if_neg (by decide), if_neg (by decide), if_neg (by decide), if_pos rfl,
        if_pos hp, if_pos (by omega)]
      simp [gccOps, h]
    · have hp : 0 < (gccMacros p.arch g).i32 := by
        simp only [gccMacros]; exact pos _ _ _ (by omega) h
      rw [if_neg (by decide), if_neg (by decide), if_pos rfl, if_pos hp, if_pos (by omega)]
      simp [gccOps, h]
    · have hp : 0 < (gccMacros p.arch g).i64 := by
        simp only [gccMacros]; exact pos _ _ _ (by omega) h
      rw [if_neg (by decide), if_pos rfl, if_pos hp, if_pos (by omega)]
      simp [gccOps, h]
    · have hp : 0 < (gccMacros p.arch g).i128 := by
        simp only [gccMacros]; split <;> omega
      rw [if_pos rfl, if_pos (by omega)]
      simp [gccOps, h]
  · intro g hc
    have ha : p.arch = .none := by unfold Platform.Ok at hp; rw [hc] at hp; exact hp.1
    obtain ⟨s1, s2, s4, s8, s16⟩ := g
    refine ⟨?_, ?_, ?_, ?_, ?_⟩ <;> intro h <;> simp only at h <;> subst h <;>
      simp [Platform.ops, Platform.specsFor, Platform.coreSpecs, Platform.lockFree, hc]
  · intro hc n h
    have hs : p.specsFor n = [] := by simp [Platform.specsFor, Platform.coreSpecs, hc]
    rw [ops_nil p n hs, Platform.archOps, h]

example : exX64.core = .gcc_atomic ⟨2, 2, 2, 2, 0⟩ ∧ exArm6.core = .none ∧ exArm6.arch.storage 4 = some 4 := by
  decide

/-! ### C39: the lock-freedom constants -/

/-- C39.  `is_always_lock_free` is true exactly when the corresponding `BOOST_ATOMIC_INT*_LOCK_FREE`
macro is 2, and then the operations never take a lock.  Partial: sizes for which the macro is 1 are
excluded, see `C39_sometimes_lock_free_violated`. -/
theorem C39_always_lock_free_partial (p : Platform) (hp : p.Ok) (hm : p.MacrosOk) (n : Nat)
    (h1 : p.lockFree n ≠ 1) :
    ((p.ops n).is_always_lock_free = true ↔ p.lockFree n = 2) ∧
    ((p.ops n).is_always_lock_free = true ↔ (p.ops n).kind = .native true) := by
  obtain ⟨_, ⟨h0, h⟩ | ⟨h0, h2, _, m, al, h, _, _, ht⟩⟩ := outcome p hp hm n
  · rw [h, h0]; simp [emulated]
  · have e : p.lockFree n = 2 := by omega
    rw [h, ht.1 e]; simp [nativeOps, e]

example : exX64.lockFree 8 ≠ 1 ∧ (exX64.ops 8).is_always_lock_free = true ∧
    exArm6.lockFree 8 ≠ 1 ∧ (exArm6.ops 8).is_always_lock_free = false := by decide

/-- C39.  The macros are right, for every size: operations never take a lock exactly if the macro is 2, may take one inside the
compiler's run-time library exactly if it is 1, and use the lock pool exactly if it is 0. -/
theorem C39_macro (p : Platform) (hp : p.Ok) (hm : p.MacrosOk) (n : Nat) :
    ((p.ops n).kind = .native true ↔ p.lockFree n = 2) ∧ ((p.ops n).kind = .native false ↔ p.lockFree n = 1) ∧
    ((p.ops n).kind = .locked ↔ p.lockFree n = 0) := by
  obtain ⟨_, ⟨h0, h⟩ | ⟨h0, h2, _, m, al, h, _, _, ht⟩⟩ := outcome p hp hm n
  · rw [h, h0]; simp [emulated]
  · rw [h]
    cases al <;> simp [nativeOps] at ht ⊢ <;> omega

example : (exX64.ops 16).kind = .native true ∧ exX64.lockFree 16 = 2 ∧ (exI486.ops 8).kind = .native false ∧ exI486.lockFree 8 = 1 ∧
    (exArm6.ops 8).kind = .locked ∧ exArm6.lockFree 8 = 0 ∧ (exX64.ops 3).kind = .locked := by decide

/-- C39 is false for sizes whose macro is 1: on i486 gcc reports 1 for 64-bit operations, the
library's macro is 1 too, yet `is_always_lock_free` is true for an implementation that may
lock (core_ops_gcc_atomic.hpp:64-67 and 173). -/
theorem C39_sometimes_lock_free_violated :
    ∃ p : Platform, p.Ok ∧ p.MacrosOk ∧ p.abi.Ok ∧ p.lockFree 8 = 1 ∧
      (p.ops 8).is_always_lock_free = true ∧ (p.ops 8).kind = .native false := by
  refine ⟨exI486, trivial, ?_, ?_, by decide, by decide, by decide⟩
  · intro g h; injection h with h; subst h; constructor <;> decide
  · constructor <;> (unfold ValidAlign exI486; decide)

/-- C39.  Lock-freedom is inherited by narrower objects: if the macro for a size is 2, so is the
macro for every smaller native size. -/
theorem C39_narrower_lock_free (p : Platform) (hm : p.MacrosOk) :
    (p.lockFree 16 = 2 → p.lockFree 8 = 2) ∧ (p.lockFree 8 = 2 → p.lockFree 4 = 2) ∧
    (p.lockFree 4 = 2 → p.lockFree 2 = 2) ∧ (p.lockFree 2 = 2 → p.lockFree 1 = 2) := by
  have mo := arch_mono p.arch
  have c1 := arch_lockFree_cases p.arch 1
  have c2 := arch_lockFree_cases p.arch 2
  have c4 := arch_lockFree_cases p.arch 4
  have c8 := arch_lockFree_cases p.arch 8
  match hc : p.core with
  | .none => simp only [Platform.lockFree, hc]; omega
  | .gcc_atomic g =>
    have hg := hm g hc
    have f := gccMacros_facts p.arch g hg
    obtain ⟨⟨l1, l2, l3, l4, l5⟩, -⟩ := f
    have k : ∀ c o w : Nat, w ≤ overrideMacro c o w := by
      intro c o w; unfold overrideMacro; repeat' split
      all_goals omega
    have k1 : (gccMacros p.arch g).i128 ≤ (gccMacros p.arch g).i64 := k _ _ _
    have k2 : (gccMacros p.arch g).i64 ≤ (gccMacros p.arch g).i32 := k _ _ _
    have k3 : (gccMacros p.arch g).i32 ≤ (gccMacros p.arch g).i16 := k _ _ _
    have k4 : (gccMacros p.arch g).i16 ≤ (gccMacros p.arch g).i8 := k _ _ _
    simp [Platform.lockFree, hc]
    omega
  | .gcc_sync g =>
    obtain ⟨s1, s2, s4, s8, s16⟩ := g
    simp [Platform.lockFree, hc]
    cases s1 <;> cases s2 <;> cases s4 <;> cases s8 <;> cases s16 <;> simp
  | .linux_arm => simp [Platform.lockFree, hc]
  | .windows => simp [Platform.lockFree, hc]

example : exX64.lockFree 16 = 2 ∧ exX64.lockFree 1 = 2 := by decide

/-! ### C16: storage -/

/-- C16.  The storage size requested for an object of up to 16 bytes is the least power of two that
holds it; larger objects get storage of exactly their size. -/
theorem C16_storage_size (size : Nat) (h : 0 < size) :
    (size ≤ 16 → LeastPow2 size (storage_size_of size)) ∧
    (16 < size → storage_size_of size = size) := by
  constructor
  · intro h16
    have key : ∀ k n : Nat, n = 2 ^ k → size ≤ n → (∀ j, j < k → 2 ^ j < size) → LeastPow2 size n := by
      intro k n e hle hlt
      refine ⟨⟨k, e⟩, hle, ?_⟩
      intro j hj
      rw [e]
      apply Nat.pow_le_pow_right (by decide)
      by_cases hjk : j < k
      · have := hlt j hjk; omega
      · omega
    have small : ∀ k, k ≤ 4 → (2 ^ (k - 1) < size ∨ k = 0) → size ≤ 2 ^ k →
        storage_size_of size = 2 ^ k → LeastPow2 size (storage_size_of size) := by
      intro k _ hlo hhi he
      refine key k _ he (by rw [he]; exact hhi) ?_
      intro j hj
      rcases hlo with hlo | hlo
      · exact Nat.lt_of_le_of_lt (Nat.pow_le_pow_right (by decide) (by omega)) hlo
      · omega
    by_cases c1 : size = 1
    · exact small 0 (by omega) (by omega) (by omega) (by subst c1; decide)
    by_cases c2 : size = 2
    · exact small 1 (by omega) (by omega) (by omega) (by subst c2; decide)
    by_cases c4 : size ≤ 4
    · exact small 2 (by omega) (by omega) (by omega) (by unfold storage_size_of; repeat' split
                                                         all_goals omega)
    by_cases c8 : size ≤ 8
    · exact small 3 (by omega) (by omega) (by omega) (by unfold storage_size_of; repeat' split
                                                         all_goals omega)
    · exact small 4 (by omega) (by omega) (by omega) (by unfold storage_size_of; repeat' split
                                                         all_goals omega)
  · intro h16; unfold storage_size_of; repeat' split
    all_goals omega

example : storage_size_of 3 = 4 ∧ storage_size_of 7 = 8 ∧ storage_size_of 12 = 16 ∧ storage_size_of 24 = 24 := by
  decide

/-- C16.  The storage of `atomic<T>` holds `T`, and its alignment is at least that of `T` and that
required by the selected operations. -/
theorem C16_atomic_fits (p : Platform) (ha : p.abi.Ok) (sizeofT alignofT : Nat) :
    sizeofT ≤ (p.atomicOps sizeofT).sizeofStorage ∧
    alignofT ≤ p.atomicAlignment sizeofT alignofT ∧
    (p.atomicOps sizeofT).alignment ≤ p.atomicAlignment sizeofT alignofT := by
  refine ⟨?_, ?_, ?_⟩
  · refine Nat.le_trans ?_ (C32_fits p ha (storage_size_of sizeofT))
    unfold storage_size_of; repeat' split
    all_goals omega
  · unfold Platform.atomicAlignment; split <;> omega
  · unfold Platform.atomicAlignment; split <;> omega

example : exX64.abi.Ok ∧ (exX64.atomicOps 12).sizeofStorage = 16 ∧ exX64.atomicAlignment 12 4 = 16 :=
  ⟨exX64_abi, by decide, by decide⟩

/-- C16.  Natively accessed storage is aligned to its own size. -/
theorem C16_native_alignment (p : Platform) (hp : p.Ok) (hm : p.MacrosOk) (n : Nat)
    (h : (p.ops n).kind ≠ .locked) : (p.ops n).alignment = (p.ops n).sizeofStorage := by
  obtain ⟨_, ⟨h0, e⟩ | ⟨_, _, _, m, al, e, _, hn, _⟩⟩ := outcome p hp hm n
  · rw [e] at h; exact absurd rfl h
  · rw [e]; unfold IsNativeSize at hn; rcases hn with rfl | rfl | rfl | rfl | rfl <;> rfl

example : (exX64.ops 16).kind ≠ .locked ∧ (exX64.ops 16).alignment = 16 := by decide

/-- C16.  The storage through which `atomic_ref<T>` accesses the object has exactly the size of `T`
(the library's `static_assert` never fires), on every platform. -/
theorem C16_ref_size (p : Platform) (ha : p.abi.Ok) (sizeofT alignofT : Nat)
    (hT : ValidAlign sizeofT alignofT) : (p.refOps sizeofT alignofT).sizeofStorage = sizeofT := by
  unfold Platform.refOps
  split
  · next h =>
    unfold Platform.refLockFree at h
    simp at h
    exact h.1.symm
  · exact emulated_size_eq _ ha _ _ hT

example : exArm6.abi.Ok ∧ ValidAlign 1 1 ∧ (exArm6.ops 1).sizeofStorage = 4 ∧
    (exArm6.refOps 1 1).sizeofStorage = 1 ∧ (exArm6.refOps 1 1).kind = .locked :=
  ⟨exArm6_abi, by unfold ValidAlign; decide, by decide, by decide, by decide⟩

/-- C16.  An operation through `atomic_ref<T>`, which accesses the storage of its class at the
address of the object, leaves every byte outside the object as it was, and its result and
the bytes it writes do not depend on bytes outside the object. -/
theorem C16_ref_footprint (p : Platform) (ha : p.abi.Ok) (sizeofT alignofT addr : Nat)
    (hT : ValidAlign sizeofT alignofT) (ρ : Type)
    (f : (Fin (p.refOps sizeofT alignofT).sizeofStorage → BitVec 8) →
      (Fin (p.refOps sizeofT alignofT).sizeofStorage → BitVec 8) × ρ) (m m' : Mem)
    (hsame : ∀ a, addr ≤ a → a < addr + sizeofT → m a = m' a) :
    (∀ a, (a < addr ∨ addr + sizeofT ≤ a) → (m.access addr _ f).1 a = m a) ∧
    (∀ a, addr ≤ a → a < addr + sizeofT → (m.access addr _ f).1 a = (m'.access addr _ f).1 a) ∧
    (m.access addr _ f).2 = (m'.access addr _ f).2 := by
  have hs := C16_ref_size p ha sizeofT alignofT hT
  have hold : (fun i : Fin (p.refOps sizeofT alignofT).sizeofStorage => m (addr + i)) =
      (fun i : Fin (p.refOps sizeofT alignofT).sizeofStorage => m' (addr + i)) := by
    funext i
    have := i.2
    exact hsame _ (by omega) (by omega)
  refine ⟨?_, ?_, ?_⟩
  · intro a h
    unfold Mem.access
    simp only
    rw [dif_neg (by omega)]
  · intro a h1 h2
    unfold Mem.access
    simp only
    rw [dif_pos (by omega), dif_pos (by omega), hold]
  · unfold Mem.access
    simp only
    rw [hold]

example : ∃ (m : Mem), ((Mem.access m 100 (exX64.refOps 4 4).sizeofStorage
    (fun old => (fun _ => 7, old))).1 103 = 7) ∧
    ((Mem.access m 100 (exX64.refOps 4 4).sizeofStorage (fun old => (fun _ => 7, old))).1 104 = 0) :=
  ⟨fun _ => 0, by decide, by decide⟩

/-- C16.  `atomic_ref<T>` is lock-free only when native operations of exactly the size of `T` exist,
and then it requires the object to be aligned to its size. -/
theorem C16_ref_lock_free (p : Platform) (hp : p.Ok) (hm : p.MacrosOk) (sizeofT alignofT : Nat) :
    ((p.refOps sizeofT alignofT).is_always_lock_free = true ↔
      (p.ops sizeofT).sizeofStorage = sizeofT ∧ (p.ops sizeofT).kind ≠ .locked) ∧
    ((p.refOps sizeofT alignofT).is_always_lock_free = true →
      sizeofT ≤ p.refAlignment sizeofT alignofT) ∧
    alignofT ≤ p.refAlignment sizeofT alignofT := by
  have hk : (p.ops sizeofT).is_always_lock_free = true ↔ (p.ops sizeofT).kind ≠ .locked := by
    obtain ⟨_, ⟨h0, e⟩ | ⟨_, _, _, m, al, e, _, hn, _⟩⟩ := outcome p hp hm sizeofT <;> rw [e] <;>
      simp [emulated, nativeOps]
  have hl : (p.refOps sizeofT alignofT).is_always_lock_free = true ↔ p.refLockFree sizeofT = true := by
    unfold Platform.refOps
    split
    · next h => simp only [h, iff_true]; unfold Platform.refLockFree at h; simp at h; exact h.2
    · next h => simp [emulated, h]
  have hr : p.refLockFree sizeofT = true ↔
      (p.ops sizeofT).sizeofStorage = sizeofT ∧ (p.ops sizeofT).is_always_lock_free = true := by
    unfold Platform.refLockFree
    rw [Bool.and_eq_true, decide_eq_true_iff, eq_comm]
  refine ⟨by rw [hl, hr, hk], ?_, ?_⟩
  · intro h
    have h1 := hl.1 h
    have h2 := hr.1 h1
    have h3 := C16_native_alignment p hp hm sizeofT (hk.1 h2.2)
    have e : p.refOps sizeofT alignofT = p.ops sizeofT := by unfold Platform.refOps; rw [if_pos h1]
    unfold Platform.refAlignment
    rw [e]
    split <;> omega
  · unfold Platform.refAlignment; split <;> omega

example : (exX64.refOps 8 4).is_always_lock_free = true ∧ exX64.refAlignment 8 4 = 8 ∧
    (exArm6.refOps 2 2).is_always_lock_free = false := by decide

/-- C16.  When `atomic_ref<T>` uses the lock pool, it requires no more than the alignment of `T`: every object of type
`T` may be referenced. -/
theorem C16_ref_any_object (p : Platform) (sizeofT alignofT : Nat) (h : p.refLockFree sizeofT = false) :
    p.refAlignment sizeofT alignofT = alignofT := by
  unfold Platform.refAlignment Platform.refOps
  simp only [h, emulated]
  repeat' split
  all_goals first | omega | (simp_all; try omega)

example : exArm6.refLockFree 2 = false ∧ exX64.refLockFree 12 = false ∧ exX64.refAlignment 12 4 = 4 := by decide

/-! ### C17: the lock of an object -/

/-- C17.  The index of the selected lock is inside the pool, for every address, alignment parameter,
pool size and pointer width. -/
theorem C17_index_in_range {w : Nat} (log2 align : Nat) (hw : log2 < w) (long : Bool) (addr : BitVec w) :
    (scoped_lock log2 align long addr).toNat < 2 ^ log2 := by
  unfold scoped_lock get_lock_index
  rw [BitVec.toNat_and]
  have hp : 2 ^ log2 < 2 ^ w := Nat.pow_lt_pow_right (by decide) hw
  have h0 : 0 < 2 ^ log2 := Nat.two_pow_pos _
  have h1 : (1#w).toNat = 1 := by
    rw [BitVec.toNat_ofNat, Nat.mod_eq_of_lt]; omega
  have hm : ((1#w <<< log2) - 1#w).toNat = 2 ^ log2 - 1 := by
    rw [BitVec.toNat_sub, BitVec.toNat_shiftLeft, h1, Nat.shiftLeft_eq, Nat.one_mul, Nat.mod_eq_of_lt hp,
      show 2 ^ w - 1 + 2 ^ log2 = (2 ^ log2 - 1) + 2 ^ w by omega, Nat.add_mod_right, Nat.mod_eq_of_lt]
    omega
  rw [hm]
  have := Nat.and_le_right (n := (hash_ptr align addr).toNat) (m := 2 ^ log2 - 1)
  omega

example : (scoped_lock 8 16 false (0x7fff12345678#64)).toNat = 0x67 ∧
    (scoped_lock 8 4 true (0x7fff12345678#64)).toNat = 0xf9 := by decide

/-- C17.  The mask only drops high bits: with the smallest pool all objects share the one lock, and
every lock of the pool is the lock of some object. -/
theorem C17_every_lock_used {w : Nat} (log2 : Nat) (hw : log2 + 4 < w) (h64 : 64 ≤ w) (i : Nat)
    (hi : i < 2 ^ log2) : ∃ addr : BitVec w, (scoped_lock log2 16 false addr).toNat = i := by
  have hp : 2 ^ (log2 + 4) < 2 ^ w := Nat.pow_lt_pow_right (by decide) hw
  have hp' : 2 ^ log2 * 16 = 2 ^ (log2 + 4) := by rw [Nat.pow_add]
  have h0 : 0 < 2 ^ log2 := Nat.two_pow_pos _
  have h16 : 16 < 2 ^ w := by
    have : 2 ^ 5 ≤ 2 ^ w := Nat.pow_le_pow_right (by decide) (by omega)
    omega
  refine ⟨BitVec.ofNat w (i * 16), ?_⟩
  have hm : malloc_alignment w = 16 := by unfold malloc_alignment; rw [if_pos (by omega)]
  unfold scoped_lock get_lock_index hash_ptr
  simp only [hm, ne_eq, not_true_eq_false, if_false]
  have h1 : (1#w).toNat = 1 := by
    rw [BitVec.toNat_ofNat, Nat.mod_eq_of_lt]; omega
  have hmask : ((1#w <<< log2) - 1#w).toNat = 2 ^ log2 - 1 := by
    rw [BitVec.toNat_sub, BitVec.toNat_shiftLeft, h1, Nat.shiftLeft_eq, Nat.one_mul,
      Nat.mod_eq_of_lt (show 2 ^ log2 < 2 ^ w by omega),
      show 2 ^ w - 1 + 2 ^ log2 = (2 ^ log2 - 1) + 2 ^ w by omega, Nat.add_mod_right, Nat.mod_eq_of_lt]
    omega
  rw [BitVec.toNat_and, hmask, BitVec.toNat_udiv, BitVec.toNat_ofNat, BitVec.toNat_ofNat,
    Nat.mod_eq_of_lt (show i * 16 < 2 ^ w by omega), Nat.mod_eq_of_lt h16,
    Nat.mul_div_cancel _ (by decide : 0 < 16), Nat.and_two_pow_sub_one_eq_mod, Nat.mod_eq_of_lt hi]

example : (scoped_lock 8 16 false (200#64 * 16#64)).toNat = 200 := by decide

/-- C17.  All lock-taking operations on an object select the same lock: data, arithmetic and
floating-point operations, waits and notifications, for both waiting back ends. -/
theorem C17_one_lock {w : Nat} (log2 : Nat) (o : Ops) (addr : BitVec w) (u u' : LockUse) :
    lockTaken log2 o addr u = lockTaken log2 o addr u' := by
  cases u <;> cases u' <;> rfl

/-- C17.  Two `atomic_ref`s of one type to one object use the same class and therefore the same
lock, whichever operations they perform. -/
theorem C17_refs_share_lock {w : Nat} (log2 : Nat) (p : Platform) (sizeofT alignofT : Nat) (addr : BitVec w)
    (hw : log2 < w) (u u' : LockUse) :
    lockTaken log2 (p.refOps sizeofT alignofT) addr u = lockTaken log2 (p.refOps sizeofT alignofT) addr u' ∧
    (lockTaken log2 (p.refOps sizeofT alignofT) addr u).toNat < 2 ^ log2 := by
  refine ⟨C17_one_lock _ _ _ _ _, ?_⟩
  rw [C17_one_lock log2 _ addr u .data]
  exact C17_index_in_range log2 (p.refOps sizeofT alignofT).alignment hw false addr

example : lockTaken 8 (exArm6.refOps 8 8) (0x20001238#32) .data =
    lockTaken 8 (exArm6.refOps 8 8) (0x20001238#32) .waitEmulated := by decide

/-- C17.  The lock depends on the alignment parameter: taking it with another one can select another
lock, so that the equality above is not a property of `hash_ptr` alone. -/
theorem C17_alignment_matters :
    ∃ addr : BitVec 64, scoped_lock 8 8 false addr ≠ scoped_lock 8 4 false addr :=
  ⟨0x1008#64, by decide⟩

end Verif.Select
