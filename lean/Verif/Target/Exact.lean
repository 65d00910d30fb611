import Verif.Mca.Interlocked
import Verif.Target.Props
import Verif.Mca.Exact

/-
The table `Target.Weak` is exact as far as operations are concerned: every operation in it, on every target, is the cause of
an execution that violates the guarantee of C53.
-/

namespace Verif.Target

open Verif.Order Verif.Mca

variable {t : Target} {obj : Nat → Obj}

/-- There is a program with the call `c` and allowed orders, in which no other call is in the table, and an execution of its
code on the target that is not coherent. -/
def Guilty (t : Target) (obj : Nat → Obj) (c : Call) : Prop :=
  ∃ (prog : Nat → List Call) (R : Mca.Run t.cpu), (∀ i, t.Compiled obj (prog i) (R.prog i)) ∧ (∀ i, ∀ c ∈ prog i, c.Allowed) ∧
    (∃ i, c ∈ prog i) ∧ (∀ i, ∀ c' ∈ prog i, t.Weak obj c' → c' = c) ∧ R.Valid ∧ ¬ R.actions.Coherent

theorem guilty {n : Nat} {A B : Item} {ca cb : Call} {o : MO} (h : Spoils t.cpu n A B) (ha : t.Emits obj ca A) (hb : t.Emits obj cb B)
    (hA : A.writeOrder = some .release) (hB : B.readOrder = some o) (ho : o.isAcquire = true) (aa : ca.Allowed) (ab : cb.Allowed)
    (hw : ¬ t.Weak obj ca) : Guilty t obj cb := by
  obtain ⟨hv, hc⟩ := h.spec hA rfl hB ho
  have calls : ∀ {Q : Call → Prop}, Q (.user userStore 0) → Q ca → Q cb → Q (.user userLoad 0) →
      ∀ i, ∀ c ∈ twoThreads [.user userStore 0, ca] [cb, .user userLoad 0] i, Q c := by
    intro Q h1 h2 h3 h4 i c h
    match i with
    | 0 => simp [twoThreads] at h; rcases h with rfl | rfl <;> assumption
    | 1 => simp [twoThreads] at h; rcases h with rfl | rfl <;> assumption
    | i + 2 => simp [twoThreads] at h
  have nu : ∀ x l, ¬ t.Weak obj (.user x l) := by intro x l h; cases h with | sparc _ _ h => cases h
  refine ⟨twoThreads [.user userStore 0, ca] [cb, .user userLoad 0], publication t.cpu (late n A B) A B, fun i => ?_,
    calls trivial aa ab trivial, ⟨1, by simp [twoThreads]⟩, ?_, hv, hc⟩
  · match i with
    | 0 => exact compiled_cons (.user _ _) (compiled_cons ha compiled_nil)
    | 1 => exact compiled_cons hb (compiled_cons (.user _ _) compiled_nil)
    | i + 2 => exact compiled_nil
  · exact calls (Q := fun c => t.Weak obj c → c = cb) (fun h => absurd h (nu _ _)) (fun h => absurd h hw) (fun _ => rfl)
      (fun h => absurd h (nu _ _))

theorem not_weak_store {o : MO} {l : Nat} : ¬ t.Weak obj (.store o l) := by intro h; cases h with | sparc _ _ h => cases h
theorem not_weak_clear {o : MO} {l : Nat} : ¬ t.Weak obj (.clear o l) := by intro h; cases h with | sparc _ _ h => cases h

theorem guilty_op {c : Call} {b : Backend} {k : Kind} {o : MO} {n : Nat} (hc : b.cpu = t.cpu) (h0 : t.classOf (obj 1) = some n)
    (h1 : t.backend n = some b) (he : t.Emits obj c (.op b k o 0 1)) (hal : c.Allowed) (ho : (k.readOrder o).isAcquire = true)
    (hr : (Item.op b k o 0 1).readOrder = some (k.readOrder o)) (hb : acquireBroken b k o = true) : Guilty t obj c := by
  have := spoils_op b k o (accepts he hal) ho hb
  rw [hc] at this
  exact guilty this (.store h0 h1) he rfl hr ho (by simp [Call.Allowed]) hal not_weak_store

theorem spoils_flag (o : MO) (h : o.isAcquire = true) (h' : o ≠ .seqCst) :
    Spoils .sparc 0 (.clear .sparc .release 1) (.exchange .sparc o 0 1) := by
  have key : ∀ o ∈ orders, o.isAcquire = true → o ≠ .seqCst →
      Spoils .sparc 0 (.clear .sparc .release 1) (.exchange .sparc o 0 1) := by decide +kernel
  exact key o (mem_orders o) h h'

theorem asm_backend {n : Nat} {b : Backend} (hs : t.asm n) (hb : t.backend n = some b) :
    ∃ m, t.arch.storage n = some m ∧ b = t.archBackend m := by
  rcases backend_cases hb with ⟨o, os, h, -⟩ | ⟨m, -, hm, rfl, -⟩
  · rw [Target.asm] at hs; rw [hs] at h; cases h
  · exact ⟨m, hm, rfl⟩

/-- Every operation in the table is the cause of a violation, on every target for which its object has code, that is, does not
use the lock pool.  (The object is the variable number 1.) -/
theorem C53_exact {c : Call} (ht : t.Ok) (hw : t.Weak obj c) (hal : c.Allowed) (hl : c.loc = some 1)
    (hcode : ∃ it, t.Emits obj c it) : Guilty t obj c := by
  obtain ⟨it, he⟩ := hcode
  cases hw with
  | x86Fence => cases hl
  | windowsFence => cases hl
  | @armLoad o l n ha hn h8 hs ho =>
    cases hl
    subst h8
    cases he with
    | load h0 h1 =>
      rename_i b
      cases h0.symm.trans hn
      rcases load_cases h1 with h2 | ⟨h, -⟩
      · obtain ⟨m, hm, rfl⟩ := asm_backend hs h2
        have hm8 := aarch32_storage ha hm
        subst hm8
        have hb : t.archBackend 8 = .aarch32 true := by simp [Target.archBackend, ha]
        rw [hb] at h1 h2
        exact guilty_op (by simp [Target.cpu, ha, Backend.cpu]) hn h2 (.load hn h1) hal ho rfl rfl
      · rw [ha] at h; cases h
  | @armCas f l ha hs hf =>
    cases hl
    obtain ⟨n, hn, hs⟩ := hs
    cases he with
    | casFail h0 h1 =>
      cases h0.symm.trans hn
      obtain ⟨m, hm, rfl⟩ := asm_backend hs h1
      refine guilty_op ?_ hn h1 (.casFail hn h1) hal hf rfl ?_
      · rcases ha with ha | ha <;> simp only [Target.archBackend, Target.cpu, ha]
        · split <;> rfl
        · rfl
      · rcases ha with ha | ha <;> simp [Target.archBackend, ha] <;> (try split) <;> simp [acquireBroken, hf]
  | @linuxArm s f l hc hf =>
    cases hl
    cases he with
    | casFail h0 h1 =>
      have ha : t.arch = .none := by
        have := ht.1; simpa [Select.Platform.Ok, hc] using this
      rcases backend_cases h1 with ⟨o, os, -, -, hb, -⟩ | ⟨m, -, hm, -⟩
      · have hb' : t.coreBackend o.sizeofStorage = .linuxArm := by simp [Target.coreBackend, hc]
        rw [hb'] at hb; subst hb
        exact guilty_op (by simp [Target.cpu, ha, hc, Backend.cpu]) h0 h1 (.casFail h0 h1) hal hf rfl rfl
      · exact absurd ha (storage_arch hm)
  | @sparc _ o ha hs hr ho hsc =>
    have hcpu : Backend.cpu .sparc = t.cpu := by simp [Target.cpu, ha, Backend.cpu]
    have sp : ∀ {n b}, t.asm n → t.backend n = some b → b = .sparc := by
      intro n b hs hb
      obtain ⟨m, -, rfl⟩ := asm_backend hs hb
      simp [Target.archBackend, ha]
    have op : ∀ {k o' n}, t.classOf (obj 1) = some n → t.backend n = some .sparc → t.Emits obj c (.op .sparc k o' 0 1) →
        k.readOrder o' = o → (Item.op .sparc k o' 0 1).readOrder = some (k.readOrder o') → Guilty t obj c := by
      intro k o' n h0 h1 he hk hr
      refine guilty_op hcpu h0 h1 he hal (by rw [hk]; exact ho) hr ?_
      simp [acquireBroken, hk, hsc]
    cases he with
    | user => cases hr
    | fence => cases hl
    | store => cases hr
    | clear => cases hr
    | load h0 h1 =>
      cases hl; cases hr
      obtain ⟨n, hn, hs⟩ := hs
      cases h0.symm.trans hn
      rcases load_cases h1 with h2 | ⟨h, -⟩
      · cases sp hs h2
        exact op h0 h2 (.load h0 h1) rfl rfl
      · rw [ha] at h; cases h
    | exchange h0 h1 =>
      cases hl; cases hr
      obtain ⟨n, hn, hs⟩ := hs
      cases h0.symm.trans hn
      cases sp hs h1
      have := spoils_exchange .sparc o (by simp [Item.broken, ho, acquireBroken, Kind.readOrder, hsc, Backend.isSync])
      rw [hcpu] at this
      exact guilty this (.store h0 h1) (.exchange h0 h1) rfl rfl ho (by simp [Call.Allowed]) hal not_weak_store
    | testAndSet h1 =>
      cases hl; cases hr
      cases sp hs h1
      have := spoils_flag o ho hsc
      rw [show Cpu.sparc = t.cpu from hcpu] at this
      exact guilty this (.clear h1) (.testAndSet h1) rfl rfl ho (by simp [Call.Allowed]) hal not_weak_clear
    | casOk h0 h1 =>
      cases hl; cases hr
      obtain ⟨n, hn, hs⟩ := hs
      cases h0.symm.trans hn
      cases sp hs h1
      exact op h0 h1 (.casOk h0 h1) rfl rfl
    | casFail h0 h1 =>
      cases hl; cases hr
      obtain ⟨n, hn, hs⟩ := hs
      cases h0.symm.trans hn
      cases sp hs h1
      exact op h0 h1 (.casFail h0 h1) rfl rfl
    | arith h0 h1 h2 =>
      cases hl; cases hr
      obtain ⟨n, hn, hs⟩ := hs
      cases h0.symm.trans hn
      cases sp hs h1
      exact op h0 h1 (.arith h0 h1 h2) rfl rfl
    | arithWide h0 h1 h2 =>
      cases hl; cases hr
      obtain ⟨n, hn, hs⟩ := hs
      cases h0.symm.trans hn
      cases sp hs h1
      exact op h0 h1 (.arithWide h0 h1 h2) rfl rfl
    | extraArch h0 h1 h2 =>
      rw [ha] at h2; cases h2
    | extraCore h0 h1 =>
      cases hl; cases hr
      obtain ⟨n, hn, hs⟩ := hs
      cases h0.symm.trans hn
      cases sp hs h1
      exact op h0 h1 (.extraCore h0 h1) rfl rfl
    | extraLoop h0 h1 =>
      cases hl; cases hr
      obtain ⟨n, hn, hs⟩ := hs
      cases h0.symm.trans hn
      cases sp hs h1
      exact op h0 h1 (.extraLoop h0 h1) rfl rfl
    | fp h0 h1 =>
      cases hl; cases hr
      obtain ⟨n, hn, hs⟩ := hs
      cases h0.symm.trans hn
      cases sp hs h1
      exact op h0 h1 (.fp h0 h1) rfl rfl

/-- The same for the consume fence of x86 without intrinsics, if there is an object of one machine word or less. -/
theorem C53_exact_consume_fence {n : Nat} {d : Bool} (hc : t.core = .none) (ha : t.arch = .gcc_x86_32 d ∨ t.arch = .gcc_x86_64 d)
    (h0 : t.classOf (obj 1) = some n) (h1 : t.backend n = some .gccX86) :
    t.Weak obj (.fence .consume) ∧ Guilty t obj (.fence .consume) := by
  refine ⟨.x86Fence hc ha, ?_⟩
  have hcpu : t.cpu = .x86 := by rcases ha with ha | ha <;> simp [Target.cpu, ha]
  have hf : t.fenceBackend = some .gccX86 := by
    rcases ha with ha | ha <;> simp [Target.fenceBackend, hc, ha, Target.archBackend]
  have hld : t.loadBackend n = some .gccX86 := by
    rcases ha with ha | ha <;> simp [Target.loadBackend, hc, h1]
  have h := C50_exact_consume_fence
  rw [← hcpu] at h
  obtain ⟨R, hv, p0, p1, p2, hco⟩ := h
  have calls : ∀ {Q : Call → Prop}, Q (.user userStore 0) → Q (.store .release 1) → Q (.load .relaxed 1) → Q (.fence .consume) →
      Q (.user userLoad 0) → ∀ i, ∀ c ∈ twoThreads [.user userStore 0, .store .release 1]
        [.load .relaxed 1, .fence .consume, .user userLoad 0] i, Q c := by
    intro Q h1 h2 h3 h4 h5 i c h
    match i with
    | 0 => simp [twoThreads] at h; rcases h with rfl | rfl <;> assumption
    | 1 => simp [twoThreads] at h; rcases h with rfl | rfl | rfl <;> assumption
    | i + 2 => simp [twoThreads] at h
  have nu : ∀ x l, ¬ t.Weak obj (.user x l) := by intro x l h; cases h with | sparc _ _ h => cases h
  have nl : ¬ t.Weak obj (.load .relaxed 1) := by
    intro h
    cases h with
    | sparc _ _ h h' => cases h; cases h'
    | armLoad _ _ _ _ h => cases h
  refine ⟨twoThreads [.user userStore 0, .store .release 1] [.load .relaxed 1, .fence .consume, .user userLoad 0], R, fun i => ?_,
    calls trivial (by simp [Call.Allowed]) (by simp [Call.Allowed]) trivial trivial, ⟨1, by simp [twoThreads]⟩,
    calls (Q := fun c => t.Weak obj c → c = .fence .consume) (fun h => absurd h (nu _ _)) (fun h => absurd h not_weak_store)
      (fun h => absurd h nl) (fun _ => rfl) (fun h => absurd h (nu _ _)), hv, hco⟩
  match i with
  | 0 => rw [p0]; exact compiled_cons (.user _ _) (compiled_cons (.store h0 h1) compiled_nil)
  | 1 => rw [p1]; exact compiled_cons (.load h0 hld) (compiled_cons (.fence hf) (compiled_cons (.user _ _) compiled_nil))
  | i + 2 => rw [p2 _ (by omega)]; exact compiled_nil

example : let t : Target := ⟨⟨⟨2, 4, 8, 16⟩, .gcc_x86_64 true, .none⟩, 8, false, false, false, false, false, false⟩
    t.classOf ⟨4, false⟩ = some 4 ∧ t.backend 4 = some .gccX86 := by decide

/-- A call in the table: on SPARC, a flag that is set with acquire order. -/
example : let t : Target := ⟨⟨⟨2, 4, 8, 16⟩, .gcc_sparc, .none⟩, 8, false, false, false, false, false, false⟩
    t.Ok ∧ t.Weak (fun _ => ⟨4, false⟩) (.testAndSet .acquire 1) ∧
      ∃ it, t.Emits (fun _ => ⟨4, false⟩) (.testAndSet .acquire 1) it := by
  refine ⟨⟨trivial, trivial⟩, .sparc rfl rfl rfl rfl (by decide), _, .testAndSet (n := 0) (b := .sparc) (by decide)⟩

/-- C53 for the targets on which fences are left out by `Target.Weak.windowsFence`: programs of calls with any orders,
fences included, have the happens-before of the standard, in which the write and the read beside a fence are atomic
operations; there is no exception. -/
theorem C53_happens_before_windows (t : Target) (harch : t.arch = .none) (hcore : t.core = .windows)
    (hx : t.x86 = false) (R : Mca.Run t.cpu) (hR : R.Valid) : R.atomicActions.Coherent := by
  have hcpu : t.cpu = .interlocked := by simp [Target.cpu, harch, hcore, hx]
  revert R
  rw [hcpu]
  exact fun R hR => Mca.C50_happens_before_windows R hR

example : let t : Target := ⟨⟨⟨2, 4, 8, 16⟩, .none, .windows⟩, 8, false, false, false, false, false, false⟩
    t.cpu = .interlocked ∧ t.fenceBackend = some (.windows false) := by decide

end Verif.Target
