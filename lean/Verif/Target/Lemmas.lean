import Verif.Target.Spec
import Verif.Select.Lemmas
import Verif.Mca.Mixed

/-
Facts about the code selected for a target.
-/

namespace Verif.Target

open Verif.Order Verif.Mca

variable {t : Target} {obj : Nat → Obj}

theorem arch_runs (h : t.arch ≠ .none) (m : Nat) : t.cpu.runs (t.archBackend m) = true := by
  unfold Target.cpu Target.archBackend
  cases ha : t.arch <;> first | exact absurd ha h | rfl | (simp only []; split <;> rfl)

theorem core_runs (h : t.Ok) (hc : t.core ≠ .none) (m : Nat) : t.cpu.runs (t.coreBackend m) = true := by
  obtain ⟨hp, ho⟩ := h
  unfold Select.Platform.Ok at hp
  unfold Target.cpu Target.coreBackend
  cases hcore : t.core with
  | none => exact absurd hcore hc
  | gcc_atomic g =>
    rw [hcore] at ho
    cases ha : t.arch <;> first | (rw [ha] at ho; exact ho.elim) | rfl | (simp only []; split <;> rfl)
  | gcc_sync g =>
    rw [hcore] at hp; rw [hp.1]; simp only []; split <;> rfl
  | linux_arm => rw [hcore] at hp; rw [hp]; rfl
  | windows => rw [hcore] at hp; rw [hp]; simp only []; cases t.x86 <;> rfl

theorem specs_core {n : Nat} (h : t.core = .none) : t.toPlatform.specsFor n = [] := by
  simp [Select.Platform.specsFor, Select.Platform.coreSpecs, h]

theorem storage_arch {n m : Nat} (h : t.arch.storage n = some m) : t.arch ≠ .none := by
  intro ha; rw [ha] at h; cases h

/-- What the selected code of a class is. -/
theorem backend_cases {n : Nat} {b : Backend} (h : t.backend n = some b) :
    (∃ o os, t.toPlatform.specsFor n = o :: os ∧ t.core ≠ .none ∧ b = t.coreBackend o.sizeofStorage ∧
      (t.toPlatform.ops n).sizeofStorage = o.sizeofStorage) ∨
    (∃ m, t.asm n ∧ t.arch.storage n = some m ∧ b = t.archBackend m ∧ (t.toPlatform.ops n).sizeofStorage = m) := by
  unfold Target.backend at h
  split at h
  case h_1 o os hs =>
    injection h with h
    refine Or.inl ⟨o, os, hs, fun hc => ?_, h.symm, ?_⟩
    · rw [specs_core hc] at hs; cases hs
    · simp [Select.Platform.ops, hs]
  case h_2 hs =>
    simp only [Option.map_eq_some_iff] at h
    obtain ⟨m, hm, rfl⟩ := h
    exact Or.inr ⟨m, hs, hm, rfl, by simp [Select.Platform.ops, hs, Select.Platform.archOps, hm, Select.nativeOps]⟩

theorem backend_runs (h : t.Ok) {n : Nat} {b : Backend} (hb : t.backend n = some b) : t.cpu.runs b = true := by
  rcases backend_cases hb with ⟨o, os, -, hc, rfl, -⟩ | ⟨m, -, hm, rfl, -⟩
  · exact core_runs h hc _
  · exact arch_runs (storage_arch hm) _

/-- Loads are by the class's own code, or, with intrinsics on 64-bit ARM, by inline assembly. -/
theorem load_cases {n : Nat} {b : Backend} (h : t.loadBackend n = some b) :
    t.backend n = some b ∨ (t.arch = .gcc_aarch64 ∧ ∃ m, b = t.archBackend m) := by
  unfold Target.loadBackend at h
  split at h
  case h_1 o os g hs hc ha =>
    split at h
    · simp only [Option.map_eq_some_iff] at h
      obtain ⟨m, -, rfl⟩ := h
      exact Or.inr ⟨ha, m, rfl⟩
    · exact Or.inl h
  case h_2 => exact Or.inl h

theorem load_runs (h : t.Ok) {n : Nat} {b : Backend} (hb : t.loadBackend n = some b) : t.cpu.runs b = true := by
  rcases load_cases hb with hb | ⟨ha, m, rfl⟩
  · exact backend_runs h hb
  · exact arch_runs (by rw [ha]; simp) _

theorem fence_cases {b : Backend} (h : t.fenceBackend = some b) :
    (t.core = .none ∧ t.arch ≠ .none ∧ b = t.archBackend 0) ∨ (t.core ≠ .none ∧ b = t.coreBackend 0) := by
  unfold Target.fenceBackend at h
  split at h
  case h_1 => cases h
  case h_2 hc ha => injection h with h; exact Or.inl ⟨hc, fun h' => ha h', h.symm⟩
  case h_3 hc _ => injection h with h; exact Or.inr ⟨fun h' => by simp_all, h.symm⟩

theorem fence_runs (h : t.Ok) {b : Backend} (hb : t.fenceBackend = some b) : t.cpu.runs b = true := by
  rcases fence_cases hb with ⟨-, ha, rfl⟩ | ⟨hc, rfl⟩
  · exact arch_runs ha _
  · exact core_runs h hc _

theorem extra_arch {m : Nat} (h : extraSpecialised t.arch m = true) : t.arch ≠ .none := by
  intro ha; rw [ha] at h; cases h

theorem fits (h : t.Ok) {c : Call} {it : Item} (he : t.Emits obj c it) : it.Fits t.cpu := by
  intro b hb
  cases he with
  | user x l => cases hb
  | load _ h1 => injection hb with hb; subst hb; exact load_runs h h1
  | fence h1 => injection hb with hb; subst hb; exact fence_runs h h1
  | extraArch _ _ h1 => injection hb with hb; subst hb; exact arch_runs (extra_arch h1) _
  | store _ h1 | exchange _ h1 | casOk _ h1 | casFail _ h1 | arith _ h1 | arithWide _ h1 | extraCore _ h1 | extraLoop _ h1
    | fp _ h1 | testAndSet h1 | clear h1 => injection hb with hb; subst hb; exact backend_runs h h1

theorem accepts {c : Call} {it : Item} (he : t.Emits obj c it) (ha : c.Allowed) : it.accepts = true := by
  cases he <;> first | rfl | skip
  case load o l n k b h1 h2 => simpa [Item.accepts, Kind.accepts, loadAsserts, Call.Allowed] using ha
  case store o l n k b h1 h2 => simpa [Item.accepts, Kind.accepts, storeAsserts, Call.Allowed, and_assoc] using ha
  case clear o l b h1 => simpa [Item.accepts, storeAsserts, Call.Allowed, and_assoc] using ha
  case casOk => simpa [Item.accepts, Kind.accepts, casAsserts, Call.Allowed, and_assoc] using ha
  case casFail => simpa [Item.accepts, Kind.accepts, casAsserts, Call.Allowed, and_assoc] using ha

/-! ### Where the code is weaker than its order -/

theorem core_broken {m : Nat} {k : Kind} {o : MO} (h : acquireBroken (t.coreBackend m) k o = true) :
    t.core = .linux_arm ∧ ∃ f, k = .casFail f := by
  unfold Target.coreBackend at h
  cases hc : t.core with
  | linux_arm =>
    rw [hc] at h
    cases k <;> first | (cases h; done) | exact ⟨rfl, _, rfl⟩
  | gcc_sync g => rw [hc] at h; simp only [] at h; split at h <;> cases h
  | windows => rw [hc] at h; cases h
  | none =>
    rw [hc] at h; simp only [] at h
    cases ha : t.arch <;> rw [ha] at h <;> first | (cases h; done) | (simp only [] at h; split at h <;> cases h)
  | gcc_atomic g =>
    rw [hc] at h; simp only [] at h
    cases ha : t.arch <;> rw [ha] at h <;> first | (cases h; done) | (simp only [] at h; split at h <;> cases h)

theorem arch_broken {m : Nat} {k : Kind} {o : MO} (h : acquireBroken (t.archBackend m) k o = true) :
    (t.arch = .gcc_sparc ∧ k.readOrder o ≠ .seqCst) ∨
    ((t.arch = .gcc_aarch64 ∨ t.arch = .gcc_aarch32) ∧ ∃ f, k = .casFail f ∧ o = .release ∧ f.isAcquire = true) ∨
    (t.arch = .gcc_aarch32 ∧ m = 8 ∧ k = .load) := by
  unfold Target.archBackend at h
  cases ha : t.arch <;> rw [ha] at h <;> simp only [] at h
  case gcc_sparc => left; exact ⟨rfl, by simpa [acquireBroken] using h⟩
  case gcc_aarch64 =>
    right; left
    split at h <;> cases k <;> first | (cases h; done) | exact ⟨Or.inl rfl, _, rfl, by simpa [acquireBroken] using h⟩
  case gcc_aarch32 =>
    right
    cases k with
    | casFail f => exact Or.inl ⟨Or.inr rfl, f, rfl, by simpa [acquireBroken] using h⟩
    | load => exact Or.inr ⟨rfl, by simpa [acquireBroken] using h, rfl⟩
    | _ => cases h
  all_goals first | (cases h; done) | (split at h <;> cases h)

theorem aarch32_storage {n m : Nat} (ha : t.arch = .gcc_aarch32) (h : t.arch.storage n = some m) : m = n := by
  rw [ha] at h
  simp only [Select.Arch.storage] at h
  repeat' split at h
  all_goals simp_all

/-- What the code of a class may be too weak for. -/
theorem backend_broken {n : Nat} {b : Backend} (hb : t.backend n = some b) {k : Kind} {o : MO}
    (h : acquireBroken b k o = true) :
    (t.core = .linux_arm ∧ ∃ f, k = .casFail f) ∨
    (t.asm n ∧ ((t.arch = .gcc_sparc ∧ k.readOrder o ≠ .seqCst) ∨
      ((t.arch = .gcc_aarch64 ∨ t.arch = .gcc_aarch32) ∧ ∃ f, k = .casFail f ∧ o = .release ∧ f.isAcquire = true) ∨
      (t.arch = .gcc_aarch32 ∧ n = 8 ∧ k = .load))) := by
  rcases backend_cases hb with ⟨o, os, -, hc, rfl, -⟩ | ⟨m, hs, hm, rfl, -⟩
  · exact Or.inl (core_broken h)
  · right
    refine ⟨hs, ?_⟩
    rcases arch_broken h with h | h | ⟨ha, h8, hk⟩
    · exact Or.inl h
    · exact Or.inr (Or.inl h)
    · exact Or.inr (Or.inr ⟨ha, by rw [← aarch32_storage ha hm, h8], hk⟩)

theorem fence_broken {b : Backend} {o : MO} (hb : t.fenceBackend = some b) (h : fenceBroken b o = true) :
    t.Weak obj (.fence o) := by
  rcases fence_cases hb with ⟨hc, ha, rfl⟩ | ⟨hc, rfl⟩
  · unfold Target.archBackend at h
    cases ha' : t.arch <;> rw [ha'] at h <;> simp only [] at h
    case gcc_x86_32 d => cases o <;> first | (cases h; done) | exact .x86Fence hc (Or.inl ha')
    case gcc_x86_64 d => cases o <;> first | (cases h; done) | exact .x86Fence hc (Or.inr ha')
    case gcc_ppc => split at h <;> cases h
    all_goals cases o <;> cases h
  · unfold Target.coreBackend at h
    cases hc' : t.core with
    | none => exact absurd hc' hc
    | windows =>
      rw [hc'] at h; simp only [] at h
      cases hx : t.x86 <;> rw [hx] at h <;> cases o <;> first | (cases h; done) | exact .windowsFence hc' hx (by simp) (by simp)
    | gcc_sync g => rw [hc'] at h; simp only [] at h; split at h <;> cases o <;> cases h
    | linux_arm => rw [hc'] at h; cases o <;> cases h
    | gcc_atomic g =>
      rw [hc'] at h; simp only [] at h
      cases ha : t.arch <;> rw [ha] at h <;> first | (cases o <;> cases h; done) | (simp only [] at h; split at h <;> cases o <;> cases h)

theorem not_broken {c : Call} {it : Item} (he : t.Emits obj c it) (hal : c.Allowed) (hw : ¬ t.Weak obj c) :
    it.broken = false := by
  rw [Bool.eq_false_iff]
  intro hb
  -- read-modify-writes
  have rmw : ∀ {n b k o}, t.backend n = some b → (∀ f, k ≠ .casFail f) → k ≠ .load → (k.readOrder o) = o →
      o.isAcquire = true → acquireBroken b k o = true → t.asm n ∧ t.arch = .gcc_sparc ∧ o ≠ .seqCst := by
    intro n b k o h1 hk hl hr _ h
    rcases backend_broken h1 h with ⟨-, f, hf⟩ | ⟨hs, ⟨ha, h⟩ | ⟨-, f, hf, -⟩ | ⟨-, -, hf⟩⟩
    · exact absurd hf (hk f)
    · exact ⟨hs, ha, by rwa [hr] at h⟩
    · exact absurd hf (hk f)
    · exact absurd hf hl
  cases he with
  | user x l => cases hb
  | @load o l n c b h0 h1 =>
    simp only [Item.broken, Kind.readOrder, Bool.and_eq_true] at hb
    obtain ⟨ho, hb⟩ := hb
    rcases load_cases h1 with h1 | ⟨ha, m, rfl⟩
    · rcases backend_broken h1 hb with ⟨-, f, hf⟩ | ⟨hs, ⟨ha, h⟩ | ⟨-, f, hf, -⟩ | ⟨ha, h8, -⟩⟩
      · cases hf
      · exact hw (.sparc ha ⟨c, h0, hs⟩ rfl ho h)
      · cases hf
      · exact hw (.armLoad ha h0 h8 hs ho)
    · rcases arch_broken hb with ⟨h, -⟩ | ⟨-, f, hf, -⟩ | ⟨h, -⟩
      · rw [ha] at h; cases h
      · cases hf
      · rw [ha] at h; cases h
  | store h0 h1 =>
    rename_i o l n c b
    simp only [Item.broken, Kind.readOrder, Bool.and_eq_true] at hb
    obtain ⟨hs, -, h⟩ := rmw h1 (by simp) (by simp) rfl hb.1 hb.2
    obtain ⟨ho, -⟩ := hb
    obtain ⟨a1, a2, a3⟩ := hal
    cases o <;> first | (cases ho; done) | exact absurd rfl a1 | exact absurd rfl a2 | exact absurd rfl a3 | exact absurd rfl h
  | exchange h0 h1 =>
    simp only [Item.broken, Bool.and_eq_true] at hb
    obtain ⟨⟨-, ho⟩, hb⟩ := hb
    obtain ⟨hs, ha, h⟩ := rmw h1 (by simp) (by simp) rfl ho hb
    exact hw (.sparc ha ⟨_, h0, hs⟩ rfl ho h)
  | casOk h0 h1 =>
    simp only [Item.broken, Kind.readOrder, Bool.and_eq_true] at hb
    obtain ⟨ho, hb⟩ := hb
    obtain ⟨hs, ha, h⟩ := rmw h1 (by simp) (by simp) rfl ho hb
    exact hw (.sparc ha ⟨_, h0, hs⟩ rfl ho h)
  | casFail h0 h1 =>
    simp only [Item.broken, Kind.readOrder, Bool.and_eq_true] at hb
    obtain ⟨ho, hb⟩ := hb
    rcases backend_broken h1 hb with ⟨hc, -⟩ | ⟨hs, ⟨ha, h⟩ | ⟨ha, f', hf, rfl, hf'⟩ | ⟨-, -, hf⟩⟩
    · exact hw (.linuxArm hc ho)
    · exact hw (.sparc ha ⟨_, h0, hs⟩ rfl ho h)
    · exact hw (.armCas ha ⟨_, h0, hs⟩ ho)
    · cases hf
  | extraArch h0 h1 hx =>
    simp only [Item.broken, Kind.readOrder, Bool.and_eq_true] at hb
    rcases arch_broken hb.2 with ⟨h, -⟩ | ⟨-, f, hf, -⟩ | ⟨-, -, hf⟩
    · rw [h] at hx; cases hx
    · cases hf
    · cases hf
  | arith h0 h1 | arithWide h0 h1 | extraCore h0 h1 | extraLoop h0 h1 | fp h0 h1 =>
    simp only [Item.broken, Kind.readOrder, Bool.and_eq_true] at hb
    obtain ⟨ho, hb⟩ := hb
    obtain ⟨hs, ha, h⟩ := rmw h1 (by simp) (by simp) rfl ho hb
    exact hw (.sparc ha ⟨_, h0, hs⟩ rfl ho h)
  | testAndSet h1 =>
    simp only [Item.broken, Bool.and_eq_true] at hb
    obtain ⟨⟨-, ho⟩, hb⟩ := hb
    obtain ⟨hs, ha, h⟩ := rmw h1 (by simp) (by simp) rfl ho hb
    exact hw (.sparc ha hs rfl ho h)
  | clear h1 => cases hb
  | fence h1 => exact hw (fence_broken h1 hb)

/-! ### Seq_cst operations -/

theorem asked {c : Call} {it : Item} (he : t.Emits obj c it) : it.asksSeqCst = true ↔ c.SeqCst := by
  cases he <;> simp [Item.asksSeqCst, Kind.isSeqCst, Call.SeqCst]

theorem core_sync {m : Nat} (h : (t.coreBackend m).isSync = true) : ∃ g, t.core = .gcc_sync g := by
  unfold Target.coreBackend at h
  cases hc : t.core with
  | gcc_sync g => exact ⟨g, rfl⟩
  | linux_arm | windows => rw [hc] at h; cases h
  | none | gcc_atomic =>
    rw [hc] at h; simp only [] at h
    cases ha : t.arch <;> rw [ha] at h <;> first | (cases h; done) | (simp only [] at h; split at h <;> cases h)

theorem arch_plain (m : Nat) : (t.archBackend m).isSync = false ∧ ∀ k, scBroken (t.archBackend m) k = false := by
  unfold Target.archBackend
  cases ha : t.arch <;> simp only [] <;> first | exact ⟨rfl, fun _ => rfl⟩ | (split <;> exact ⟨rfl, fun _ => rfl⟩)

theorem core_sc {m : Nat} {k : Kind} (h : scBroken (t.coreBackend m) k = true) :
    (t.core = .linux_arm ∧ ∃ f, k = .casFail f) ∨ (∃ g, t.core = .gcc_sync g) ∧ t.pointer < m ∧ k = .store := by
  unfold Target.coreBackend at h
  cases hc : t.core with
  | linux_arm =>
    rw [hc] at h
    cases k <;> first | (cases h; done) | exact Or.inl ⟨rfl, _, rfl⟩
  | gcc_sync g =>
    rw [hc] at h; simp only [] at h
    split at h
    · cases h
    · rename_i hm
      cases k <;> first | (cases h; done) | exact Or.inr ⟨⟨g, rfl⟩, by omega, rfl⟩
  | windows => rw [hc] at h; cases h
  | none | gcc_atomic =>
    rw [hc] at h; simp only [] at h
    cases ha : t.arch <;> rw [ha] at h <;> first | (cases h; done) | (simp only [] at h; split at h <;> cases h)

theorem backend_sc {n : Nat} {b : Backend} {k : Kind} (hb : t.backend n = some b) (h : scBroken b k = true) :
    (t.core = .linux_arm ∧ ∃ f, k = .casFail f) ∨
    (∃ g, t.core = .gcc_sync g) ∧ t.pointer < (t.toPlatform.ops n).sizeofStorage ∧ k = .store := by
  rcases backend_cases hb with ⟨o, os, -, hc, rfl, e⟩ | ⟨m, hs, hm, rfl, -⟩
  · rw [e]; exact core_sc h
  · rw [(arch_plain m).2] at h; cases h

theorem backend_sync {n : Nat} {b : Backend} (hb : t.backend n = some b) (h : b.isSync = true) :
    ∃ g, t.core = .gcc_sync g := by
  rcases backend_cases hb with ⟨o, os, -, hc, rfl, e⟩ | ⟨m, hs, hm, rfl, -⟩
  · exact core_sync h
  · rw [(arch_plain m).1] at h; cases h

theorem is_seq_cst {c : Call} {it : Item} (he : t.Emits obj c it) (ha : c.Allowed) (hs : c.SeqCst)
    (hw : ¬ t.WeakSeqCst obj c) : it.isSeqCst = true := by
  have hask := (asked he).2 hs
  have hacc := accepts he ha
  have op : ∀ {b k o n l}, it = .op b k o n l → scBroken b k = false → it.isSeqCst = true := by
    rintro b k o n l rfl h
    simp only [Item.isSeqCst, h, Bool.not_false, Bool.and_true, Bool.and_eq_true]
    exact ⟨hask, hacc⟩
  have sc : ∀ {n b k}, t.backend n = some b → (∀ f, k ≠ .casFail f) → k ≠ .store → scBroken b k = false := by
    intro n b k h1 hf hk
    rw [Bool.eq_false_iff]
    intro h
    rcases backend_sc h1 h with ⟨-, f, h⟩ | ⟨-, -, h⟩
    · exact hf f h
    · exact hk h
  cases he with
  | user x l => cases hs
  | load h0 h1 =>
    refine op rfl ?_
    rcases load_cases h1 with h1 | ⟨-, m, rfl⟩
    · exact sc h1 (by simp) (by simp)
    · exact (arch_plain m).2 _
  | store h0 h1 =>
    refine op rfl ?_
    rw [Bool.eq_false_iff]
    intro h
    rcases backend_sc h1 h with ⟨-, f, h⟩ | ⟨⟨g, hg⟩, h, -⟩
    · cases h
    · cases hs; exact hw (.store hg h0 h)
  | exchange h0 h1 =>
    cases hs
    simp only [Item.isSeqCst, beq_self_eq_true, Bool.and_true, Bool.not_eq_true', Bool.eq_false_iff]
    intro h
    obtain ⟨g, hg⟩ := backend_sync h1 h
    exact hw (.exchange hg)
  | casOk h0 h1 => exact op rfl (sc h1 (by simp) (by simp))
  | casFail h0 h1 =>
    refine op rfl ?_
    rw [Bool.eq_false_iff]
    intro h
    obtain ⟨rfl, rfl⟩ := hs
    rcases backend_sc h1 h with ⟨hc, -⟩ | ⟨-, -, h⟩
    · exact hw (.linuxArm hc)
    · cases h
  | extraArch h0 h1 hx => exact op rfl ((arch_plain _).2 _)
  | arith h0 h1 | arithWide h0 h1 | extraCore h0 h1 | extraLoop h0 h1 | fp h0 h1 => exact op rfl (sc h1 (by simp) (by simp))
  | testAndSet h1 =>
    cases hs
    simp only [Item.isSeqCst, beq_self_eq_true, Bool.and_true, Bool.not_eq_true', Bool.eq_false_iff]
    intro h
    obtain ⟨g, hg⟩ := backend_sync h1 h
    exact hw (.testAndSet hg)
  | clear h1 => exact hask
  | fence h1 => cases hs

theorem seq_cst_or_fence {c : Call} {it : Item} (he : t.Emits obj c it) (ha : c.Allowed) {A : Nat → Prop}
    (hA : ∀ l, c.loc = some l → A l → c.SeqCst) (hw : ¬ t.WeakSeqCst obj c) (hl : A it.loc) :
    it.isSeqCst = true ∨ it.isFence = true := by
  by_cases hf : it.isFence = true
  · exact Or.inr hf
  · refine Or.inl (is_seq_cst he ha ?_ hw)
    cases he <;> first | exact absurd rfl hf | exact hA _ rfl hl

/-! ### Classes -/

theorem native_specs {n : Nat} {o : Select.Ops} (h : o ∈ t.toPlatform.specsFor n) :
    o.kind ≠ .locked ∧ (o.sizeofStorage = 1 ∨ o.sizeofStorage = 2 ∨ o.sizeofStorage = 4 ∨ o.sizeofStorage = 8 ∨
      o.sizeofStorage = 16) := by
  have all : ∀ s ∈ t.toPlatform.coreSpecs, ∃ m a, (m = 1 ∨ m = 2 ∨ m = 4 ∨ m = 8 ∨ m = 16) ∧
      s.2 = Select.nativeOps m a := by
    intro s hs
    unfold Select.Platform.coreSpecs at hs
    split at hs
    · cases hs
    · unfold Select.gccAtomicSpecs at hs
      simp only [List.mem_append] at hs
      rcases hs with (((hs | hs) | hs) | hs) | hs <;>
        (repeat' (split at hs)) <;>
        first
          | (cases hs; done)
          | (rw [List.mem_singleton] at hs; subst hs; exact ⟨_, _, by simp, rfl⟩)
    · simp only [List.mem_append] at hs
      rcases hs with (((hs | hs) | hs) | hs) | hs <;>
        (repeat' (split at hs)) <;>
        first
          | (cases hs; done)
          | (rw [List.mem_singleton] at hs; subst hs; exact ⟨_, _, by simp, rfl⟩)
    all_goals
      simp only [List.mem_cons, List.not_mem_nil, or_false] at hs
      rcases hs with rfl | rfl | rfl <;> exact ⟨_, _, by simp, rfl⟩
  simp only [Select.Platform.specsFor, List.mem_map, List.mem_filter] at h
  obtain ⟨s, ⟨hs, -⟩, rfl⟩ := h
  obtain ⟨m, a, hm, h⟩ := all s hs
  rw [h]
  exact ⟨by simp [Select.nativeOps], hm⟩

theorem load_selected {n : Nat} {b : Backend} (h : t.backend n = some b) : ∃ b', t.loadBackend n = some b' := by
  unfold Target.loadBackend
  split
  case h_1 o os g hs hc ha =>
    split
    · obtain ⟨-, h'⟩ := native_specs (t := t) (n := n) (o := o) (by rw [hs]; simp)
      rw [ha]
      rcases h' with h' | h' | h' | h' | h' <;> rw [h'] <;> exact ⟨_, rfl⟩
    · exact ⟨b, h⟩
  case h_2 => exact ⟨b, h⟩

/-! ### Threads -/

theorem compiled_nil : t.Compiled obj [] [] := ⟨rfl, by simp⟩

theorem compiled_cons {c : Call} {it : Item} {cs : List Call} {is : List Item} (he : t.Emits obj c it)
    (h : t.Compiled obj cs is) : t.Compiled obj (c :: cs) (it :: is) := by
  refine ⟨by simp [h.1], fun i c' it' hc hi => ?_⟩
  cases i with
  | zero => simp at hc hi; subst hc; subst hi; exact he
  | succ i => exact h.2 i c' it' (by simpa using hc) (by simpa using hi)

theorem compiled_mem {calls : List Call} {items : List Item} (h : t.Compiled obj calls items) {it : Item} (hi : it ∈ items) :
    ∃ c ∈ calls, t.Emits obj c it := by
  obtain ⟨i, hi⟩ := List.mem_iff_getElem?.1 hi
  have hlt : i < calls.length := by
    rw [h.1]; exact (List.getElem?_eq_some_iff.1 hi).1
  exact ⟨calls[i], List.getElem_mem hlt, h.2 i _ it (List.getElem?_eq_getElem hlt) hi⟩

theorem item_loc {c : Call} {it : Item} (he : t.Emits obj c it) {l : Nat} (h : c.loc = some l) : it.loc = l := by
  cases he <;> first | (cases h; rfl) | cases h

end Verif.Target
