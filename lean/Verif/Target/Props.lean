import Verif.Target.Lemmas
import Verif.Mca.MixedProps
import Verif.Mca.Props
import Verif.Mca.ScProps
import Verif.Pow.MixedProps
import Verif.Pow.Props

/-
C53: programs as they are written, with calls of the API on objects of different sizes, compiled for a target: whatever
the library selects for the target, the whole program has the order the C++ standard promises.
-/

namespace Verif.Target

open Verif.Order Verif.Mca

/-! ### The selected code -/

/-- A class has lock-free code for exactly the targets for which `Verif.Select` says that its operations are not made by
the lock pool. -/
theorem C53_selected_iff (t : Target) (n : Nat) : (t.backend n).isSome = true ↔ (t.toPlatform.ops n).kind ≠ .locked := by
  unfold Target.backend Select.Platform.ops
  cases hs : t.toPlatform.specsFor n with
  | nil =>
    cases hm : t.arch.storage n <;> simp [Select.Platform.archOps, hm, Select.emulated, Select.nativeOps]
  | cons o os =>
    have hk : o.kind ≠ .locked := (native_specs (t := t) (n := n) (o := o) (by rw [hs]; simp)).1
    simpa using hk

/-- Every call on an object that does not use the lock pool has code. -/
theorem C53_every_call_has_code (t : Target) (obj : Nat → Obj) (c : Call)
    (hobj : ∀ l, c.loc = some l → (∀ x, c ≠ .user x l) → ∃ n, t.classOf (obj l) = some n ∧ (t.toPlatform.ops n).kind ≠ .locked)
    (hflag : ∀ o l, c = .testAndSet o l ∨ c = .clear o l → (t.toPlatform.ops 4).kind ≠ .locked)
    (hfence : ∀ o, c = .fence o → t.core ≠ .none ∨ t.arch ≠ .none) : ∃ it, t.Emits obj c it := by
  have sel : ∀ l, c.loc = some l → (∀ x, c ≠ .user x l) → ∃ n b, t.classOf (obj l) = some n ∧ t.backend n = some b := by
    intro l h1 h2
    obtain ⟨n, hn, hk⟩ := hobj l h1 h2
    obtain ⟨b, hb⟩ := Option.isSome_iff_exists.1 ((C53_selected_iff t n).2 hk)
    exact ⟨n, b, hn, hb⟩
  cases c with
  | user x l => exact ⟨_, .user x l⟩
  | load o l =>
    obtain ⟨n, b, hn, hb⟩ := sel l rfl (by simp)
    obtain ⟨b', hb'⟩ := load_selected hb
    exact ⟨_, .load (n := 0) hn hb'⟩
  | store o l => obtain ⟨n, b, hn, hb⟩ := sel l rfl (by simp); exact ⟨_, .store (n := 0) hn hb⟩
  | exchange o l => obtain ⟨n, b, hn, hb⟩ := sel l rfl (by simp); exact ⟨_, .exchange (n := 0) hn hb⟩
  | cas ok s f l =>
    obtain ⟨n, b, hn, hb⟩ := sel l rfl (by simp)
    cases ok
    · exact ⟨_, .casFail (n := 0) hn hb⟩
    · exact ⟨_, .casOk (n := 0) hn hb⟩
  | arith o l =>
    obtain ⟨n, b, hn, hb⟩ := sel l rfl (by simp)
    by_cases h : (t.toPlatform.ops n).sizeofStorage = n
    · exact ⟨_, .arith (n := 0) hn hb h⟩
    · exact ⟨_, .arithWide (n := 0) hn hb h⟩
  | extra o l => obtain ⟨n, b, hn, hb⟩ := sel l rfl (by simp); exact ⟨_, .extraCore (n := 0) hn hb⟩
  | fp o l => obtain ⟨n, b, hn, hb⟩ := sel l rfl (by simp); exact ⟨_, .fp (n := 0) hn hb⟩
  | testAndSet o l =>
    obtain ⟨b, hb⟩ := Option.isSome_iff_exists.1 ((C53_selected_iff t 4).2 (hflag o l (Or.inl rfl)))
    exact ⟨_, .testAndSet (n := 0) hb⟩
  | clear o l =>
    obtain ⟨b, hb⟩ := Option.isSome_iff_exists.1 ((C53_selected_iff t 4).2 (hflag o l (Or.inr rfl)))
    exact ⟨_, .clear hb⟩
  | fence o =>
    have : ∃ b, t.fenceBackend = some b := by
      unfold Target.fenceBackend
      split
      case h_1 hc ha => rcases hfence o rfl with h | h <;> contradiction
      case h_2 => exact ⟨_, rfl⟩
      case h_3 => exact ⟨_, rfl⟩
    obtain ⟨b, hb⟩ := this
    exact ⟨_, .fence hb⟩

/-- The code of a call is code for the target's processor, is on the call's object, and has the orders of the call. -/
theorem C53_code_of_call {t : Target} (h : t.Ok) {obj : Nat → Obj} {c : Call} {it : Item} (he : t.Emits obj c it) :
    it.Fits t.cpu ∧ (∀ l, c.loc = some l → it.loc = l) ∧ (∀ o, c.readOrder = some o → it.readOrder = some o) ∧
      (∀ o, c.writeOrder = some o → it.writeOrder = some o) ∧
      (it.isRmw = true ↔ (c.readOrder.isSome = true ∧ c.writeOrder.isSome = true)) ∧
      (∀ b o, it = .fence b o → c = .fence o) := by
  refine ⟨fits h he, fun l hl => item_loc he hl, ?_⟩
  cases he <;>
    simp [Call.readOrder, Call.writeOrder, Item.readOrder, Item.writeOrder, Item.isRmw, Kind.readOrder]

/-! ### Whole programs -/

variable {t : Target} {obj : Nat → Obj} {prog : Nat → List Call}

/-- Happens-before has the meaning the C++ standard gives to it, in every execution of every program compiled for a
target, if no call is in the table `Target.Weak`.  (Targets with POWER processors: see the next theorem.) -/
theorem C53_happens_before_partial (R : Mca.Run t.cpu) (hR : R.Valid)
    (hprog : ∀ i, t.Compiled obj (prog i) (R.prog i)) (hal : ∀ i, ∀ c ∈ prog i, c.Allowed)
    (hw : ∀ i, ∀ c ∈ prog i, ¬ t.Weak obj c) : R.actions.Coherent := by
  refine C50_happens_before_partial R hR (fun i it h => ?_) fun i it h => ?_ <;>
    obtain ⟨c, hc, he⟩ := compiled_mem (hprog i) h
  · exact accepts he (hal i c hc)
  · exact not_broken he (hal i c hc) (hw i c hc)

/-- The same on processors on which writes become visible to one thread after another. -/
theorem C53_happens_before_cumulative_partial (hcpu : t.cpu ∈ [.power, .arm, .alpha])
    (R : Pow.Run t.cpu) (hR : R.Valid) (hprog : ∀ i, t.Compiled obj (prog i) (R.prog i))
    (hal : ∀ i, ∀ c ∈ prog i, c.Allowed) (hw : ∀ i, ∀ c ∈ prog i, ¬ t.Weak obj c) : R.actions.Coherent := by
  refine hR.coherent ⟨hcpu, hR.inThread.fits⟩ fun i it h => ?_
  obtain ⟨c, hc, he⟩ := compiled_mem (hprog i) h
  exact ⟨accepts he (hal i c hc), not_broken he (hal i c hc) (hw i c hc)⟩

/-- Objects that are used with seq_cst operations only: there is one order of these operations, which contains the order
of each thread, such that every operation finds the value the last one before it left. -/
theorem C53_seq_cst_objects_partial (R : Mca.Run t.cpu) (hR : R.Valid) (V : Run.Values) (hV : R.Copies V)
    (hprog : ∀ i, t.Compiled obj (prog i) (R.prog i)) (hal : ∀ i, ∀ c ∈ prog i, c.Allowed) (A : Nat → Prop)
    (hA : ∀ i, ∀ c ∈ prog i, ∀ l, c.loc = some l → A l → c.SeqCst)
    (hw : ∀ i, ∀ c ∈ prog i, ¬ t.WeakSeqCst obj c) : (R.observations V A).SequentiallyConsistent := by
  refine C51_seq_cst_total_order_partial R hR V hV A fun i it h hl => ?_
  obtain ⟨c, hc, he⟩ := compiled_mem (hprog i) h
  exact seq_cst_or_fence he (hal i c hc) (hA i c hc) (hw i c hc) hl

/-- The same on processors on which writes become visible to one thread after another. -/
theorem C53_seq_cst_objects_cumulative_partial (hcpu : t.cpu ∈ [.power, .arm, .alpha]) (R : Pow.Run t.cpu) (hR : R.Valid)
    (V : Run.Values) (hprog : ∀ i, t.Compiled obj (prog i) (R.prog i)) (hal : ∀ i, ∀ c ∈ prog i, c.Allowed)
    (A : Nat → Prop) (hA : ∀ i, ∀ c ∈ prog i, ∀ l, c.loc = some l → A l → c.SeqCst)
    (hw : ∀ i, ∀ c ∈ prog i, ¬ t.WeakSeqCst obj c) : (R.observations V A).SequentiallyConsistent := by
  refine hR.total_order ⟨hcpu, hR.inThread.fits⟩ (fun i it h hl => ?_) V
  obtain ⟨c, hc, he⟩ := compiled_mem (hprog i) h
  exact seq_cst_or_fence he (hal i c hc) (hA i c hc) (hw i c hc) hl

/-- Programs that mix seq_cst operations and fences with others: the seq_cst ones have one order as C++ demands. -/
theorem C53_seq_cst_mixed_partial (R : Mca.Run t.cpu) (hR : R.Valid)
    (hprog : ∀ i, t.Compiled obj (prog i) (R.prog i)) (hal : ∀ i, ∀ c ∈ prog i, c.Allowed)
    (hw : ∀ i, ∀ c ∈ prog i, ¬ t.Weak obj c ∧ ¬ t.WeakSeqCst obj c) : ∃ before, R.mixed.ScOrder before := by
  obtain ⟨before, h, -⟩ := C52_seq_cst_mixed_partial R hR
    (fun i it h => by
      obtain ⟨c, hc, he⟩ := compiled_mem (hprog i) h
      exact accepts he (hal i c hc))
    (fun i it h => by
      obtain ⟨c, hc, he⟩ := compiled_mem (hprog i) h
      exact not_broken he (hal i c hc) (hw i c hc).1)
    (fun i it h hs => by
      obtain ⟨c, hc, he⟩ := compiled_mem (hprog i) h
      exact is_seq_cst he (hal i c hc) ((asked he).1 hs) (hw i c hc).2)
  exact ⟨before, h⟩

/-- The same on processors on which writes become visible to one thread after another, with the rule about coherence
order as the C++20 standard has it. -/
theorem C53_seq_cst_mixed_cumulative_partial (hcpu : t.cpu ∈ [.power, .arm, .alpha]) (R : Pow.Run t.cpu) (hR : R.Valid)
    (hprog : ∀ i, t.Compiled obj (prog i) (R.prog i)) (hal : ∀ i, ∀ c ∈ prog i, c.Allowed)
    (hw : ∀ i, ∀ c ∈ prog i, ¬ t.Weak obj c ∧ ¬ t.WeakSeqCst obj c) :
    ∃ before, R.mixed.ScOrder before ∧ R.mixed.Literal before := by
  refine hR.mixed_order ⟨hcpu, hR.inThread.fits⟩ (fun i it h => ?_) fun i it h hs => ?_ <;>
    obtain ⟨c, hc, he⟩ := compiled_mem (hprog i) h
  · exact ⟨accepts he (hal i c hc), not_broken he (hal i c hc) (hw i c hc).1⟩
  · exact is_seq_cst he (hal i c hc) ((asked he).1 hs) (hw i c hc).2

/-! ### Targets without exceptions -/

/-- On these targets no call is in the tables: Microsoft's compilers; GCC and compatible compilers on ARM before version 8,
POWER and Alpha; on x86 with intrinsics; on all others, if the compiler has lock-free intrinsics for the object. -/
theorem C53_no_exceptions (ht : t.Ok) (c : Call)
    (h : (∃ d, t.arch = .msvc_x86_32 d) ∨ (∃ a b d, t.arch = .msvc_x86_64 a b d) ∨ t.arch = .msvc_arm ∨
      (∃ a b d, t.arch = .gcc_arm a b d) ∨ (∃ a b d, t.arch = .gcc_ppc a b d) ∨ t.arch = .gcc_alpha ∨
      ((∃ d, t.arch = .gcc_x86_32 d ∨ t.arch = .gcc_x86_64 d) ∧ ∃ g, t.core = .gcc_atomic g) ∨
      t.Intrinsic obj c) :
    ¬ t.Weak obj c ∧ ¬ t.WeakSeqCst obj c := by
  obtain ⟨hp, ho⟩ := ht
  unfold Select.Platform.Ok at hp
  constructor <;> intro hw
  · cases hw with
    | sparc ha h1 =>
      rcases h with ⟨d, h⟩ | ⟨a, b, d, h⟩ | h | ⟨a, b, d, h⟩ | ⟨a, b, d, h⟩ | h | ⟨⟨d, h | h⟩, -⟩ | h <;>
        first | (rw [ha] at h; cases h) | exact h.2 h1
    | armCas ha h1 =>
      rcases h with ⟨d, h⟩ | ⟨a, b, d, h⟩ | h | ⟨a, b, d, h⟩ | ⟨a, b, d, h⟩ | h | ⟨⟨d, h | h⟩, -⟩ | h <;>
        first | exact h.2 h1 | (rcases ha with ha | ha <;> (rw [ha] at h; cases h))
    | armLoad ha h0 _ h1 =>
      rcases h with ⟨d, h⟩ | ⟨a, b, d, h⟩ | h | ⟨a, b, d, h⟩ | ⟨a, b, d, h⟩ | h | ⟨⟨d, h | h⟩, -⟩ | h <;>
        first | (rw [ha] at h; cases h) | exact h.2 ⟨_, h0, h1⟩
    | linuxArm hc _ =>
      rw [hc] at hp
      rcases h with ⟨d, h⟩ | ⟨a, b, d, h⟩ | h | ⟨a, b, d, h⟩ | ⟨a, b, d, h⟩ | h | ⟨⟨d, h | h⟩, -⟩ | ⟨⟨g, h⟩, -⟩ <;>
        first | (rw [hc] at h; cases h) | (rw [hp] at h; cases h)
    | x86Fence hc ha =>
      rcases h with ⟨d, h⟩ | ⟨a, b, d, h⟩ | h | ⟨a, b, d, h⟩ | ⟨a, b, d, h⟩ | h | ⟨-, g, h⟩ | ⟨⟨g, h⟩, -⟩ <;>
        first | (rw [hc] at h; cases h) | (rcases ha with ha | ha <;> (rw [ha] at h; cases h))
    | windowsFence hc =>
      rw [hc] at hp
      rcases h with ⟨d, h⟩ | ⟨a, b, d, h⟩ | h | ⟨a, b, d, h⟩ | ⟨a, b, d, h⟩ | h | ⟨⟨d, h | h⟩, -⟩ | ⟨⟨g, h⟩, -⟩ <;>
        first | (rw [hc] at h; cases h) | (rw [hp] at h; cases h)
  · have sync : ∀ g, t.core ≠ .gcc_sync g := by
      intro g hc
      rw [hc] at hp
      have hp := hp.1
      rcases h with ⟨d, h⟩ | ⟨a, b, d, h⟩ | h | ⟨a, b, d, h⟩ | ⟨a, b, d, h⟩ | h | ⟨⟨d, h | h⟩, -⟩ | ⟨⟨g, h⟩, -⟩ <;>
        first | (rw [hc] at h; cases h) | (rw [hp] at h; cases h)
    cases hw with
    | exchange hc => exact sync _ hc
    | testAndSet hc => exact sync _ hc
    | store hc => exact sync _ hc
    | linuxArm hc =>
      rw [hc] at hp
      rcases h with ⟨d, h⟩ | ⟨a, b, d, h⟩ | h | ⟨a, b, d, h⟩ | ⟨a, b, d, h⟩ | h | ⟨⟨d, h | h⟩, -⟩ | ⟨⟨g, h⟩, -⟩ <;>
        first | (rw [hc] at h; cases h) | (rw [hp] at h; cases h)

/-- The compilers in use today: every program whose objects and fences have lock-free intrinsics of the compiler, and
every program of x86 or Microsoft's compilers, has all that C++ promises: happens-before, and one order of the seq_cst
operations and fences. -/
theorem C53_intrinsics (ht : t.Ok) (R : Mca.Run t.cpu) (hR : R.Valid)
    (hprog : ∀ i, t.Compiled obj (prog i) (R.prog i)) (hal : ∀ i, ∀ c ∈ prog i, c.Allowed)
    (h : (∃ d, t.arch = .msvc_x86_32 d) ∨ (∃ a b d, t.arch = .msvc_x86_64 a b d) ∨ t.arch = .msvc_arm ∨
      ((∃ d, t.arch = .gcc_x86_32 d ∨ t.arch = .gcc_x86_64 d) ∧ ∃ g, t.core = .gcc_atomic g) ∨
      ∀ i, ∀ c ∈ prog i, t.Intrinsic obj c) :
    R.actions.Coherent ∧ ∃ before, R.mixed.ScOrder before := by
  have hw : ∀ i, ∀ c ∈ prog i, ¬ t.Weak obj c ∧ ¬ t.WeakSeqCst obj c := by
    intro i c hc
    refine C53_no_exceptions ht c ?_
    rcases h with h | h | h | h | h
    · exact Or.inl h
    · exact Or.inr (Or.inl h)
    · exact Or.inr (Or.inr (Or.inl h))
    · exact Or.inr (Or.inr (Or.inr (Or.inr (Or.inr (Or.inr (Or.inl h))))))
    · exact Or.inr (Or.inr (Or.inr (Or.inr (Or.inr (Or.inr (Or.inr (h i c hc)))))))
  exact ⟨C53_happens_before_partial R hR hprog hal fun i c hc => (hw i c hc).1,
    C53_seq_cst_mixed_partial R hR hprog hal hw⟩

/-- ARM before version 8, POWER and Alpha with GCC or a compatible compiler, with or without intrinsics: every program has
all that C++ promises, on processors on which writes become visible to one thread after another. -/
theorem C53_arm_power_alpha (ht : t.Ok) (h : (∃ a b d, t.arch = .gcc_arm a b d) ∨ (∃ a b d, t.arch = .gcc_ppc a b d) ∨
      t.arch = .gcc_alpha) (R : Pow.Run t.cpu) (hR : R.Valid)
    (hprog : ∀ i, t.Compiled obj (prog i) (R.prog i)) (hal : ∀ i, ∀ c ∈ prog i, c.Allowed) :
    R.actions.Coherent ∧ ∃ before, R.mixed.ScOrder before ∧ R.mixed.Literal before := by
  have hcpu : t.cpu ∈ [.power, .arm, .alpha] := by
    unfold Target.cpu
    rcases h with ⟨a, b, d, h⟩ | ⟨a, b, d, h⟩ | h <;> rw [h] <;> simp
  have hw : ∀ i, ∀ c ∈ prog i, ¬ t.Weak obj c ∧ ¬ t.WeakSeqCst obj c := by
    intro i c hc
    refine C53_no_exceptions ht c (Or.inr (Or.inr (Or.inr ?_)))
    rcases h with h | h | h
    · exact Or.inl h
    · exact Or.inr (Or.inl h)
    · exact Or.inr (Or.inr (Or.inl h))
  exact ⟨C53_happens_before_cumulative_partial hcpu R hR hprog hal fun i c hc => (hw i c hc).1,
    C53_seq_cst_mixed_cumulative_partial hcpu R hR hprog hal hw⟩

/-! ### Executions -/

/-- A program of two threads. -/
def twoThreads (a b : List Call) (i : Nat) : List Call := [a, b].getD i []

/-- GCC on x86-64 with `cmpxchg16b`: the intrinsics are lock-free up to 8 bytes, objects of 16 bytes use inline assembly. -/
def gccX64 : Target :=
  { abi := ⟨2, 4, 8, 16⟩, arch := .gcc_x86_64 true, core := .gcc_atomic ⟨2, 2, 2, 2, 0⟩
    pointer := 8, lse := false, rcpc := false, oldLoads := false, vec := false, ppc64 := false, x86 := true }

/-- GCC 12 on AArch64 with the RCPC extension: loads use inline assembly, 16-byte objects too. -/
def gccArm64 : Target :=
  { abi := ⟨2, 4, 8, 16⟩, arch := .gcc_aarch64, core := .gcc_atomic ⟨2, 2, 2, 2, 0⟩
    pointer := 8, lse := true, rcpc := true, oldLoads := true, vec := false, ppc64 := false, x86 := false }

/-- GCC on 64-bit POWER without intrinsics. -/
def gccPower : Target :=
  { abi := ⟨2, 4, 8, 16⟩, arch := .gcc_ppc true true true, core := .none
    pointer := 8, lse := false, rcpc := false, oldLoads := false, vec := false, ppc64 := true, x86 := false }

example : gccX64.Ok ∧ gccArm64.Ok ∧ gccPower.Ok ∧ gccX64.backend 4 = some .gccAtomicX86 ∧
    gccX64.backend 16 = some (.x86Wide false false) ∧ gccArm64.backend 4 = some .gccAtomic ∧
    gccArm64.loadBackend 4 = some (.aarch64 true true) ∧ gccArm64.backend 16 = some .aarch64Wide ∧
    gccPower.backend 4 = some .ppc64 ∧ gccPower.backend 16 = none :=
  ⟨⟨trivial, trivial⟩, ⟨trivial, trivial⟩, ⟨trivial, trivial⟩, by decide, by decide, by decide, by decide, by decide,
    by decide, by decide⟩

/-- Variable 1 has 16 bytes, the others have 4. -/
def wideFlag (l : Nat) : Obj := ⟨if l = 1 then 16 else 4, false⟩

/-- x86-64: a thread writes data, and sets a flag of 16 bytes after a counter of 4 bytes; another thread sees both.  Code
of the intrinsics and inline assembly are mixed; all calls are allowed, and none is in the tables. -/
example : ∃ R : Mca.Run gccX64.cpu, R.Valid ∧
    (∀ i, gccX64.Compiled wideFlag (twoThreads
      [.user userStore 0, .arith .relaxed 2, .store .release 1] [.load .acquire 1, .load .seqCst 2, .user userLoad 0] i)
      (R.prog i)) ∧
    (∀ i, ∀ c ∈ twoThreads
      [.user userStore 0, .arith .relaxed 2, .store .release 1] [.load .acquire 1, .load .seqCst 2, .user userLoad 0] i,
      c.Allowed ∧ ¬ gccX64.Weak wideFlag c ∧ ¬ gccX64.WeakSeqCst wideFlag c) ∧
    R.ReadsFrom (1, 0) (some (0, 3)) ∧ R.ReadsFrom (1, 1) (some (0, 1)) := by
  let R : Mca.Run .x86 := two .x86
    [.user userStore 0, .op .gccAtomicX86 .rmw .relaxed 0 2, .op (.x86Wide false false) .store .release 0 1]
    [.op (.x86Wide false false) .load .acquire 0 1, .op .gccAtomicX86 .load .seqCst 0 2, .user userLoad 0]
    [[(0, 1), (2, 3), (4, 0), (5, 6)], [(7, 8), (9, 0), (0, 0), (10, 0)]]
  have hv : R.Valid := Run.Check.valid (n := 2) two_end (by decide +kernel)
  have h1 : R.ReadsFrom (1, 0) (some (0, 3)) :=
    Run.readsFrom_some (n := 2) two_end rfl rfl rfl rfl (by decide) (by decide +kernel)
  have h2 : R.ReadsFrom (1, 1) (some (0, 1)) :=
    Run.readsFrom_some (n := 2) two_end rfl rfl rfl rfl (by decide) (by decide +kernel)
  refine ⟨R, hv, fun i => ?_, fun i c hc => ⟨?_, ?_⟩, h1, h2⟩
  · match i with
    | 0 =>
      exact compiled_cons (.user _ _) (compiled_cons (.arith (c := 4) (by decide) (by decide) (by decide))
        (compiled_cons (.store (c := 16) (by decide) (by decide)) compiled_nil))
    | 1 =>
      exact compiled_cons (.load (c := 16) (by decide) (by decide)) (compiled_cons (.load (c := 4) (by decide) (by decide))
        (compiled_cons (.user _ _) compiled_nil))
    | i + 2 => exact compiled_nil
  · match i with
    | 0 | 1 =>
      simp [twoThreads] at hc
      rcases hc with rfl | rfl | rfl <;> simp [Call.Allowed]
    | i + 2 => simp [twoThreads] at hc
  · exact C53_no_exceptions (t := gccX64) ⟨trivial, trivial⟩ c
      (Or.inr (Or.inr (Or.inr (Or.inr (Or.inr (Or.inr (Or.inl ⟨⟨true, Or.inr rfl⟩, _, rfl⟩)))))))

/-- POWER: data is passed on over two flags, and arrives at the third thread after the second one has read it
(`Pow.chain`). -/
example : ∃ R : Pow.Run gccPower.cpu, R.Valid ∧
    (∀ i, gccPower.Compiled (fun _ => ⟨4, false⟩) ([[.user userStore 0, .store .release 1],
      [.load .acquire 1, .store .release 2], [.load .acquire 2, .user userLoad 0]].getD i []) (R.prog i)) ∧
    R.ReadsFrom (2, 2) (some (0, 0)) := by
  have hv : Pow.chain.Valid := Pow.Run.Check.valid (n := 3) Pow.chain_end Pow.Run.of_simple (by decide +kernel)
  have hr : Pow.chain.ReadsFrom (2, 2) (some (0, 0)) :=
    Pow.Run.readsFrom_only (n := 3) Pow.chain_end rfl rfl rfl rfl (by decide) (by decide +kernel)
  refine ⟨Pow.chain, hv, fun i => ?_, hr⟩
  match i with
  | 0 => exact compiled_cons (.user _ _) (compiled_cons (.store (c := 4) (by decide) (by decide)) compiled_nil)
  | 1 =>
    exact compiled_cons (.load (c := 4) (by decide) (by decide))
      (compiled_cons (.store (c := 4) (by decide) (by decide)) compiled_nil)
  | 2 => exact compiled_cons (.load (c := 4) (by decide) (by decide)) (compiled_cons (.user _ _) compiled_nil)
  | i + 3 => exact compiled_nil

/-- The exceptions of the table are real for compilers in use: GCC on AArch64, where objects of 16 bytes use inline
assembly although there are intrinsics.  A thread writes data and stores into a 16-byte object with release; another
thread sees the value by a `compare_exchange` with orders release and acquire, which fails, and does not see the data. -/
theorem C53_publication_violated :
    ∃ (t : Target) (obj : Nat → Obj) (prog : Nat → List Call) (R : Mca.Run t.cpu), t.Ok ∧ t.arch = .gcc_aarch64 ∧
      t.core = .gcc_atomic ⟨2, 2, 2, 2, 0⟩ ∧ (∀ i, t.Compiled obj (prog i) (R.prog i)) ∧
      (∀ i, ∀ c ∈ prog i, c.Allowed) ∧ R.Valid ∧ ¬ R.actions.Coherent := by
  let R : Mca.Run .aarch64 := publication .aarch64 [[(0, 2), (3, 0), (0, 4)], [(5, 0), (1, 0)]]
    (.op .aarch64Wide .store .release 0 1) (.op .aarch64Wide (.casFail .acquire) .release 0 1)
  have hv : R.Valid := Run.Check.valid (n := 2) publication_end (by decide +kernel)
  have hc : ¬ R.actions.Coherent := by
    refine not_coherent (w := 2) (r := 0) rfl rfl rfl (by decide) rfl rfl rfl rfl rfl (by decide) rfl rfl ?_ ?_
    · exact Run.readsFrom_some (n := 2) publication_end rfl rfl rfl rfl (by decide) (by decide +kernel)
    · exact Run.readsFrom_none (n := 2) publication_end rfl (by decide +kernel)
  refine ⟨gccArm64, wideFlag, twoThreads [.user userStore 0, .store .release 1]
    [.cas false .release .acquire 1, .user userLoad 0], R, ⟨trivial, trivial⟩, rfl, rfl, fun i => ?_, fun i c hc => ?_, hv, hc⟩
  · match i with
    | 0 => exact compiled_cons (.user _ _) (compiled_cons (.store (c := 16) (by decide) (by decide)) compiled_nil)
    | 1 => exact compiled_cons (.casFail (c := 16) (by decide) (by decide)) (compiled_cons (.user _ _) compiled_nil)
    | i + 2 => exact compiled_nil
  · match i with
    | 0 | 1 =>
      simp [twoThreads] at hc
      rcases hc with rfl | rfl <;> simp [Call.Allowed] <;> decide
    | i + 2 => simp [twoThreads] at hc

end Verif.Target
