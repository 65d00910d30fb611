import Verif.WaitSel.Spec
import Verif.Select.Props

/-
Helper lemmas for C47.
-/

namespace Verif.WaitSel

open Verif.Select Spec

/-- Sizes of `int` and `long` on the supported systems. -/
def Os.Ok (s : Os) : Prop := s.sizeofInt = 4 ∧ (s.sizeofLong = 4 ∨ s.sizeofLong = 8)

theorem mem_specsFor {s : Os} {n : Nat} {ipc : Bool} {w : WaitOps} :
    w ∈ s.specsFor n ipc ↔ (n, ipc, w) ∈ s.specs := by
  unfold Os.specsFor
  simp only [List.mem_map, List.mem_filter, decide_eq_true_eq, Bool.decide_and, Bool.and_eq_true]
  constructor
  · rintro ⟨⟨a, b, c⟩, ⟨h, rfl, rfl⟩, rfl⟩; exact h
  · intro h; exact ⟨_, ⟨h, rfl, rfl⟩, rfl⟩

theorem waitOps_cases (s : Os) (o : Ops) (ipc : Bool) :
    (o.is_always_lock_free = false ∧ s.waitOps o ipc = emulatedOps ipc) ∨
    (o.is_always_lock_free = true ∧ s.specsFor o.sizeofStorage ipc = [] ∧ s.waitOps o ipc = genericOps ipc) ∨
    (o.is_always_lock_free = true ∧ (o.sizeofStorage, ipc, s.waitOps o ipc) ∈ s.specs) := by
  unfold Os.waitOps
  cases hl : o.is_always_lock_free
  · simp
  · cases hs : s.specsFor o.sizeofStorage ipc with
    | nil => simp
    | cons w l =>
      simp only [if_true, Bool.true_eq_false, false_and, true_and, reduceCtorEq, false_or]
      exact mem_specsFor.mp (hs ▸ List.mem_cons_self ..)

/-- Every specialization is one of these. -/
theorem spec_cases {s : Os} {n : Nat} {ipc : Bool} {w : WaitOps} (h : (n, ipc, w) ∈ s.specs) :
    (ipc = false ∧ w = windowsOps n) ∨
    (n = 4 ∧ w = futexOps s ipc) ∨
    (n = 4 ∧ w = ulockOps (if ipc then .compare_and_wait_shared else .compare_and_wait)) ∨
    (n = 8 ∧ w = ulockOps (if ipc then .compare_and_wait64_shared else .compare_and_wait64)) ∨
    (n = s.sizeofInt ∧ w = uintUmtx s ipc) ∨
    (n = s.sizeofLong ∧ w = ulongUmtx s) ∨
    (n = s.sizeofInt ∧ w = dragonflyOps) := by
  unfold Os.specs at h
  split at h
  · simp at h
  · simp at h
    rcases h with ⟨rfl, rfl, rfl⟩ | ⟨rfl, rfl, rfl⟩ | ⟨rfl, rfl, rfl⟩ | ⟨rfl, rfl, rfl⟩ <;> simp
  · simp at h
    rcases h with ⟨rfl, rfl, rfl⟩ | ⟨rfl, rfl, rfl⟩ <;> simp
  · cases hd : s.darwin19 <;> simp [hd] at h
    · obtain ⟨rfl, rfl, rfl⟩ := h; simp
    · rcases h with ⟨rfl, rfl, rfl⟩ | ⟨rfl, rfl, rfl⟩ | ⟨rfl, rfl, rfl⟩ | ⟨rfl, rfl, rfl⟩ <;> simp
  · rw [List.mem_append] at h
    rcases h with h | h
    · split at h
      · simp at h; rcases h with ⟨rfl, rfl, rfl⟩ | ⟨rfl, rfl, rfl⟩ <;> simp
      · simp at h
    · split at h
      · simp at h; rcases h with ⟨rfl, rfl, rfl⟩ | ⟨rfl, rfl, rfl⟩ <;> simp
      · simp at h
  · simp at h
    rcases h with ⟨rfl, rfl, rfl⟩ | ⟨rfl, rfl, rfl⟩ <;> simp

theorem spec_native {s : Os} {n : Nat} {ipc : Bool} {w : WaitOps} (h : (n, ipc, w) ∈ s.specs) :
    w.native = true ∧ OfSystem w.sleep := by
  rcases spec_cases h with ⟨_, rfl⟩ | ⟨_, rfl⟩ | ⟨_, rfl⟩ | ⟨_, rfl⟩ | ⟨_, rfl⟩ | ⟨_, rfl⟩ | ⟨_, rfl⟩ <;>
    simp [windowsOps, futexOps, ulockOps, uintUmtx, ulongUmtx, umtxOps, dragonflyOps, OfSystem] <;>
    split <;> simp

open Classical in
theorem waitMacro_iff (s : Os) (hs : s.Ok) (p : Platform) (n : Nat) (ipc : Bool) :
    waitMacro s p n ipc = if (∃ w, (n, ipc, w) ∈ s.specs) then p.lockFree n else 0 := by
  obtain ⟨hi, hl⟩ := hs
  unfold waitMacro Os.specs
  cases s.backend
  · simp
  · cases ipc
    · by_cases h1 : n = 1
      · simp [h1]
      by_cases h2 : n = 2
      · simp [h2]
      by_cases h4 : n = 4
      · simp [h4]
      by_cases h8 : n = 8
      · simp [h8]
      simp [h1, h2, h4, h8]
    · simp
  · by_cases h4 : n = 4 <;> cases ipc <;> simp [h4]
  · by_cases h4 : n = 4
    · subst h4
      cases ipc <;> cases hd : s.darwin19 <;> simp
    · by_cases h8 : n = 8
      · subst h8
        cases ipc <;> cases hd : s.darwin19 <;> simp
      · cases ipc <;> cases hd : s.darwin19 <;> simp [h4, h8]
  · by_cases h4 : n = 4
    · subst h4
      cases hu : s.umtxWaitUint <;> cases hw : s.umtxWait <;> rcases hl with hl | hl <;>
        cases ipc <;> simp [hi, hl]
    · by_cases h8 : n = 8
      · subst h8
        cases hu : s.umtxWaitUint <;> cases hw : s.umtxWait <;> rcases hl with hl | hl <;>
          cases ipc <;> simp [hi, hl]
      · cases hu : s.umtxWaitUint <;> cases hw : s.umtxWait <;> rcases hl with hl | hl <;>
          cases ipc <;> simp [hi, hl, h4, h8]
  · by_cases h4 : n = 4 <;> cases ipc <;> simp [h4, hi]

/-- The macro for a size is the lock-freedom macro if the back end has a specialization for that size, else 0. -/
theorem waitMacro_eq (s : Os) (hs : s.Ok) (p : Platform) (n : Nat) (ipc : Bool) :
    waitMacro s p n ipc = if s.specsFor n ipc = [] then 0 else p.lockFree n := by
  have key : s.specsFor n ipc = [] ↔ ∀ w, (n, ipc, w) ∉ s.specs := by
    rw [List.eq_nil_iff_forall_not_mem]; simp [mem_specsFor]
  rw [waitMacro_iff s hs p n ipc]
  by_cases h : s.specsFor n ipc = []
  · rw [if_pos h, if_neg]
    rintro ⟨w, hw⟩; exact key.mp h w hw
  · rw [if_neg h, if_pos]
    apply Classical.byContradiction
    intro hn; exact h (key.mpr fun w hw => hn ⟨w, hw⟩)

theorem typeMacro_eq (s : Os) (hs : s.Ok) (p : Platform) (n : Nat) (ipc : Bool) :
    typeMacro s p n ipc = waitMacro s p n ipc := by
  unfold typeMacro
  by_cases h1 : n = 1
  · simp [h1]
  by_cases h2 : n = 2
  · simp [h2]
  by_cases h4 : n = 4
  · simp [h4]
  by_cases h8 : n = 8
  · simp [h8]
  obtain ⟨hi, hl⟩ := hs
  simp only [h1, h2, h4, h8, if_false]
  unfold waitMacro
  split <;> simp [h1, h2, h4, h8]

theorem waitMacro_native (s : Os) (hs : s.Ok) (p : Platform) (hp : p.Ok) (hm : p.MacrosOk) (n : Nat) (ipc : Bool)
    (h1 : p.lockFree n ≠ 1) (hsz : (p.ops n).sizeofStorage = n) :
    waitMacro s p n ipc = if (s.waitOps (p.ops n) ipc).native then 2 else 0 := by
  rw [waitMacro_eq s hs]
  have h39 := (C39_always_lock_free_partial p hp hm n h1).1
  have h32 := (C32_native_iff_macro p hp hm n)
  rcases waitOps_cases s (p.ops n) ipc with ⟨hl, e⟩ | ⟨hl, hnil, e⟩ | ⟨hl, h⟩
  · have h0 : p.lockFree n = 0 := by
      rcases outcome p hp hm n with ⟨_, ⟨h0, _⟩ | ⟨h0, h2, _⟩⟩
      · exact h0
      · have e2 : p.lockFree n = 2 := by omega
        rw [← h39, hl] at e2; cases e2
    rw [e, h0]; cases ipc <;> simp [emulatedOps]
  · rw [hsz] at hnil; rw [e, hnil]; cases ipc <;> simp [genericOps]
  · rw [(spec_native h).1, h39.mp hl]
    rw [hsz] at h
    have := mem_specsFor.mpr h
    rw [if_neg (by intro hn; rw [hn] at this; cases this)]; rfl

end Verif.WaitSel
