import Verif.Asm.InterlockedLemmas
import Verif.Asm.X86DcasProps

/-
The macros that the functions for Windows use are defined, call the right interlocked functions, and pass them the
right arguments; so the functions do what their operations prescribe.
-/

set_option linter.unusedSimpArgs false
set_option linter.unusedVariables false

namespace Verif.Asm

namespace Interlocked

/-- Whether an interlocked function guarantees what a memory order of the given value demands: acquire (values 1 and 2),
release (4), sequential consistency (8). -/
def Strength.covers (s : Strength) (o : Nat) : Bool :=
  (o &&& 3 == 0 || s == .acquire || s == .full) && (o &&& 4 == 0 || s == .release || s == .full) &&
    (o &&& 8 == 0 || s == .full)

/-- The right function is called with the right arguments and guarantees the order. -/
def right (p : Prim) (N : Nat) (args : List Arg) (vars : List Slot) (o : Nat) (c : Option (Call × List Slot)) : Bool :=
  match c with
  | some (c, vs) => c.fn.prim == p && c.fn.width == N && c.args == args && vs == vars && c.fn.order.covers o
  | none => false

theorem of_right {p : Prim} {N : Nat} {args : List Arg} {vars : List Slot} {o : Nat} {c : Option (Call × List Slot)}
    (h : right p N args vars o c = true) : ∃ s : Strength, c = some (⟨⟨p, N, s⟩, args⟩, vars) ∧ s.covers o = true := by
  match c with
  | none => simp [right] at h
  | some (⟨⟨p', N', s⟩, args'⟩, vs) =>
    simp only [right, Bool.and_eq_true, beq_iff_eq] at h
    obtain ⟨⟨⟨⟨rfl, rfl⟩, rfl⟩, rfl⟩, h⟩ := h
    exact ⟨s, rfl, h⟩

/-- All memory orders. -/
def orders : List Order.MO := [.relaxed, .consume, .acquire, .release, .acqRel, .seqCst]

theorem mem_orders (o : Order.MO) : o ∈ orders := by cases o <;> decide

/-- Microsoft's compilers for ARM from Visual Studio 2012 on (`_M_ARM`, `_M_ARM64`, `_M_ARM64EC`). -/
def OnArm (cc : Compiler) : Prop :=
  ∃ arch ver, cc = .msvc arch ver ∧ (arch = .arm ∨ arch = .arm64 ∨ arch = .arm64ec) ∧ 1700 ≤ ver

/-- One compiler for each set of macros. -/
def armCompilers : List Compiler :=
  [Arch.arm, .arm64, .arm64ec].flatMap fun a => [1700, 1800, 1900].map (.msvc a)

theorem OnArm.table {cc : Compiler} (h : OnArm cc) : ∃ cc' ∈ armCompilers, cc.table = cc'.table := by
  obtain ⟨arch, ver, rfl, ha, hv⟩ := h
  have he : era ver = era 1700 ∨ era ver = era 1800 ∨ era ver = era 1900 := by
    unfold era
    simp only [show ¬ ver < 1400 by omega, show ¬ ver < 1500 by omega, show ¬ ver < 1600 by omega,
      show ¬ ver < 1700 by omega, if_false]
    split
    · exact .inl rfl
    · split
      · exact .inr (.inl rfl)
      · exact .inr (.inr rfl)
  rcases he with he | he | he
  · exact ⟨.msvc arch 1700, by rcases ha with rfl | rfl | rfl <;> decide, by simp only [Compiler.table, he]⟩
  · exact ⟨.msvc arch 1800, by rcases ha with rfl | rfl | rfl <;> decide, by simp only [Compiler.table, he]⟩
  · exact ⟨.msvc arch 1900, by rcases ha with rfl | rfl | rfl <;> decide, by simp only [Compiler.table, he]⟩

theorem resolve_congr {cc cc' : Compiler} (h : cc.table = cc'.table) (u : Option Use) : resolve cc u = resolve cc' u := by
  simp only [resolve, Compiler.call, h]

/-- The widths of the types of 1, 2, 4 and 8 bytes. -/
def widths : List Nat := [8, 16, 32, 64]

/-- What is found out by looking at all uses of macros by the functions for ARM. -/
theorem arm_table :
    (armCompilers.all fun cc => widths.all fun N => orders.all fun o =>
      right .exchangeAdd N [.param 0 N, .param 1 N] [0, 1] o.val (resolve cc (Arm.fetchAdd N o.val)) &&
      right .exchange N [.param 0 N, .param 1 N] [0, 1] o.val (resolve cc (Arm.exchange N o.val)) &&
      right .and N [.param 0 N, .param 1 N] [0, 1] o.val (resolve cc (Arm.fetchAnd N o.val)) &&
      right .or N [.param 0 N, .param 1 N] [0, 1] o.val (resolve cc (Arm.fetchOr N o.val)) &&
      right .xor N [.param 0 N, .param 1 N] [0, 1] o.val (resolve cc (Arm.fetchXor N o.val))) = true := by
  decide +kernel

theorem arm_cas_table :
    (armCompilers.all fun cc => widths.all fun N => orders.all fun o => orders.all fun f =>
      right .compareExchange N [.param 0 N, .param 1 N, .param 2 N] [0, 2, 3] (Order.casCommonVal o f)
        (resolve cc (Arm.compareExchangeStrong N (Order.casCommonVal o f)))) = true := by
  decide +kernel

theorem arm_bit_table :
    (armCompilers.all fun cc => orders.all fun o =>
      right .bts 32 [.param 0 32, .param 1 32] [0, 1] o.val (resolve cc (ArmExtra.bitTestAndSet 32 o.val)) &&
      right .btr 32 [.param 0 32, .param 1 32] [0, 1] o.val (resolve cc (ArmExtra.bitTestAndReset 32 o.val))) = true := by
  decide +kernel

/-- For each of the operations that return the old value: the macro used. -/
def Arm.use (N : Nat) (o : Nat) : Fetch → Option Use
  | .add => Arm.fetchAdd N o
  | .exchange => Arm.exchange N o
  | .and => Arm.fetchAnd N o
  | .or => Arm.fetchOr N o
  | .xor => Arm.fetchXor N o

theorem Arm.fetch_right {cc : Compiler} (h : OnArm cc) {N : Nat} (hN : N ∈ widths) (o : Order.MO) (f : Fetch) :
    ∃ s : Strength, resolve cc (Arm.use N o.val f) = some (⟨⟨f.prim, N, s⟩, [.param 0 N, .param 1 N]⟩, [0, 1]) ∧
      s.covers o.val = true := by
  obtain ⟨cc', hcc, ht⟩ := h.table
  rw [resolve_congr ht]
  have := arm_table
  simp only [List.all_eq_true] at this
  have := this cc' hcc N hN o (mem_orders o)
  simp only [Bool.and_eq_true] at this
  cases f
  · exact of_right this.1.1.1.1
  · exact of_right this.1.1.1.2
  · exact of_right this.1.1.2
  · exact of_right this.1.2
  · exact of_right this.2

theorem Arm.cas_right {cc : Compiler} (h : OnArm cc) {N : Nat} (hN : N ∈ widths) (o f : Order.MO) :
    ∃ s : Strength, resolve cc (Arm.compareExchangeStrong N (Order.casCommonVal o f)) =
      some (⟨⟨.compareExchange, N, s⟩, [.param 0 N, .param 1 N, .param 2 N]⟩, [0, 2, 3]) ∧
      s.covers (Order.casCommonVal o f) = true := by
  obtain ⟨cc', hcc, ht⟩ := h.table
  rw [resolve_congr ht]
  have := arm_cas_table
  simp only [List.all_eq_true] at this
  exact of_right (this cc' hcc N hN o (mem_orders o) f (mem_orders f))

theorem Arm.bit_right {cc : Compiler} (h : OnArm cc) (o : Order.MO) :
    (∃ s : Strength, resolve cc (ArmExtra.bitTestAndSet 32 o.val) =
      some (⟨⟨.bts, 32, s⟩, [.param 0 32, .param 1 32]⟩, [0, 1]) ∧ s.covers o.val = true) ∧
    ∃ s : Strength, resolve cc (ArmExtra.bitTestAndReset 32 o.val) =
      some (⟨⟨.btr, 32, s⟩, [.param 0 32, .param 1 32]⟩, [0, 1]) ∧ s.covers o.val = true := by
  obtain ⟨cc', hcc, ht⟩ := h.table
  rw [resolve_congr ht, resolve_congr ht]
  have := arm_bit_table
  simp only [List.all_eq_true] at this
  have := this cc' hcc o (mem_orders o)
  simp only [Bool.and_eq_true] at this
  exact ⟨of_right this.1, of_right this.2⟩

/-! ### x86 -/

/-- One version for each set of macros. -/
def versions : List Nat := [1310, 1400, 1500, 1600, 1700, 1800, 1900]

theorem era_version (ver : Nat) : ∃ v ∈ versions, era ver = era v ∧ ∀ n ∈ versions, n ≤ ver → n ≤ v := by
  by_cases h1 : ver < 1400
  · exact ⟨1310, by decide, by simp [era, h1], by simp only [versions, List.forall_mem_cons]; simp; omega⟩
  by_cases h2 : ver < 1500
  · exact ⟨1400, by decide, by simp [era, h1, h2], by simp only [versions, List.forall_mem_cons]; simp; omega⟩
  by_cases h3 : ver < 1600
  · exact ⟨1500, by decide, by simp [era, h1, h2, h3], by simp only [versions, List.forall_mem_cons]; simp; omega⟩
  by_cases h4 : ver < 1700
  · exact ⟨1600, by decide, by simp [era, h1, h2, h3, h4], by simp only [versions, List.forall_mem_cons]; simp; omega⟩
  by_cases h5 : ver < 1800
  · exact ⟨1700, by decide, by simp [era, h1, h2, h3, h4, h5],
      by simp only [versions, List.forall_mem_cons]; simp; omega⟩
  by_cases h6 : ver < 1900
  · exact ⟨1800, by decide, by simp [era, h1, h2, h3, h4, h5, h6],
      by simp only [versions, List.forall_mem_cons]; simp; omega⟩
  · exact ⟨1900, by decide, by simp [era, h1, h2, h3, h4, h5, h6], by simp only [versions, List.forall_mem_cons]; simp⟩

/-- The three macros that every compiler has, and three that may be missing (`some` means that they are not). -/
def fullSet (N : Nat) (missing : Bool) (cc : Compiler) (add xchg cas and or xor : Option Use) : Bool :=
  right .exchangeAdd N [.param 0 N, .param 1 N] [0, 1] 14 (resolve cc add) &&
  right .exchange N [.param 0 N, .param 1 N] [0, 1] 14 (resolve cc xchg) &&
  right .compareExchange N [.param 0 N, .param 1 N, .param 2 N] [0, 2, 3] 14 (resolve cc cas) &&
  (right .and N [.param 0 N, .param 1 N] [0, 1] 14 (resolve cc and) || missing && (resolve cc and).isNone) &&
  (right .or N [.param 0 N, .param 1 N] [0, 1] 14 (resolve cc or) || missing && (resolve cc or).isNone) &&
  (right .xor N [.param 0 N, .param 1 N] [0, 1] 14 (resolve cc xor) || missing && (resolve cc xor).isNone)

def X86.full (N : Nat) (cc : Compiler) : Bool :=
  fullSet N true cc (X86.fetchAdd N) (X86.exchange N) (X86.compareExchangeStrong N) (X86.fetchAnd N) (X86.fetchOr N)
    (X86.fetchXor N)

theorem X86.full_congr {cc cc' : Compiler} (h : cc.table = cc'.table) (N : Nat) : X86.full N cc = X86.full N cc' := by
  simp only [X86.full, fullSet, resolve_congr h]

theorem x86_table :
    (versions.all fun v => X86.full 32 (.msvc .x86 v) &&
      (v < 1600 || X86.full 8 (.msvc .x86 v) && X86.full 16 (.msvc .x86 v))) = true := by
  decide +kernel

theorem x86_narrow_table :
    (versions.all fun v => (1600 ≤ v) ==
      (((Compiler.msvc .x86 v).call ⟨.compareExchange, 8, .full⟩).isSome) &&
      ((1600 ≤ v) == ((Compiler.msvc .x86 v).call ⟨.compareExchange, 16, .full⟩).isSome)) = true := by
  decide +kernel

theorem amd64_table :
    (versions.all fun v => v < 1400 || X86.full 32 (.msvc .amd64 v) && X86.full 64 (.msvc .amd64 v) &&
      (v < 1600 || X86.full 8 (.msvc .amd64 v) && X86.full 16 (.msvc .amd64 v))) = true := by
  decide +kernel

theorem amd64_bit_table :
    (versions.all fun v => v < 1400 || [32, 64].all fun N =>
      right .bts N [.param 0 N, .param 1 N] [0, 1] 14 (resolve (.msvc .amd64 v) (X86Extra.bitTestAndSet N)) &&
      right .btr N [.param 0 N, .param 1 N] [0, 1] 14 (resolve (.msvc .amd64 v) (X86Extra.bitTestAndReset N))) = true := by
  decide +kernel

theorem amd64_16_table :
    (versions.all fun v => v < 1500 ||
      right .compareExchange 128 [.param 0 64, .part 1 1, .part 1 0, .param 2 64] [0, 2, 1] 14
        (resolve (.msvc .amd64 v) (X86.compareExchangeStrong 128)) &&
      right .compareExchange 128 [.param 0 64, .part 1 1, .part 1 0, .param 2 64] [0, 2, 1] 14
        (resolve (.msvc .amd64 v) (X86.store_ 128)) &&
      right .compareExchange 128 [.param 0 64, .part 1 1, .part 1 0, .param 2 64] [0, 1, 1] 14
        (resolve (.msvc .amd64 v) (X86.load_ 128))) = true := by
  decide +kernel

theorem x86_bit_table :
    (versions.all fun v =>
      (right .bts 32 [.param 0 32, .param 1 32] [0, 1] 14 (resolve (.msvc .x86 v) (X86Extra.bitTestAndSet 32)) ||
        (resolve (.msvc .x86 v) (X86Extra.bitTestAndSet 32)).isNone) &&
      (right .btr 32 [.param 0 32, .param 1 32] [0, 1] 14 (resolve (.msvc .x86 v) (X86Extra.bitTestAndReset 32)) ||
        (resolve (.msvc .x86 v) (X86Extra.bitTestAndReset 32)).isNone)) = true := by
  decide +kernel

theorem x86_cas_table :
    (versions.all fun v =>
      right .compareExchange 64 [.param 0 64, .param 1 64, .param 2 64] [0, 2, 1] 14
        (resolve (.msvc .x86 v) (some Msvc8.casUse)) || (resolve (.msvc .x86 v) (some Msvc8.casUse)).isNone) = true := by
  decide +kernel

/-! ### The functions -/

variable {R N : Nat}

theorem once_fetch (h : N ≤ R) (f : Fetch) {c : Option (Call × List Slot)} {o : Nat}
    (hc : right f.prim N [.param 0 N, .param 1 N] [0, 1] o c = true) (v : BitVec N) :
    ((fetch R N c).code v).Does (f.op v) := by
  obtain ⟨s, hs, _⟩ := of_right hc
  exact fetch_ok h f hs v

theorem cas_does (h : N ≤ R) (h0 : N ≠ 0) {c : Option (Call × List Slot)} {o : Nat}
    (hc : right .compareExchange N [.param 0 N, .param 1 N, .param 2 N] [0, 2, 3] o c = true) (e d : BitVec N) :
    ((Interlocked.compareExchange R N c).code (e, d)).Does (.casStrong e d) := by
  obtain ⟨s, hs, _⟩ := of_right hc
  exact compareExchange_ok h h0 hs (e, d)

theorem bts_does (h : N ≤ R) {c : Option (Call × List Slot)} {k : Nat} {s : Strength}
    (hc : c = some (⟨⟨.bts, N, s⟩, [.param 0 k, .param 1 N]⟩, [0, 1])) (b : Fin N) :
    ((bitTestAnd R N c).code b).Does (.bitTestAndSet b) := bts_ok h hc b

theorem btr_does (h : N ≤ R) {c : Option (Call × List Slot)} {k : Nat} {s : Strength}
    (hc : c = some (⟨⟨.btr, N, s⟩, [.param 0 k, .param 1 N]⟩, [0, 1])) (b : Fin N) :
    ((bitTestAnd R N c).code b).Does (.bitTestAndReset b) := btr_ok h hc b

theorem fetchOrLoop_does (h : N ≤ R) (f : Fetch) {c : Option (Call × List Slot)} {o : Nat}
    {cas : BitVec N → BitVec N → Code R N (Integral.Ret N)} (hcas : ∀ e d, (cas e d).Does (.casStrong e d))
    (hc : (right f.prim N [.param 0 N, .param 1 N] [0, 1] o c || true && c.isNone) = true) (g : BitVec N → BitVec N)
    (v : BitVec N) (hg : ∀ m, Integral.spec m (f.op v) (g m) (.val m)) :
    (X86.fetchOrLoop cas c g v).Does Integral.spec (f.op v) := by
  unfold X86.fetchOrLoop
  rw [Bool.or_eq_true] at hc
  rcases hc with hc | hc
  · rw [if_pos (by obtain ⟨s, rfl, _⟩ := of_right hc; rfl)]
    exact (once_fetch h f hc v).once
  · rw [if_neg (by cases c <;> simp_all)]
    exact does_loop g (fun e => (hcas e (g e)).weak) hg

theorem X86.core_ok (h : N ≤ R) (h0 : N ≠ 0) {cc : Compiler} (hf : X86.full N cc = true) (seqCst : Bool) :
    (X86.core R N cc seqCst).Ok := by
  simp only [X86.full, fullSet, Bool.and_eq_true] at hf
  obtain ⟨⟨⟨⟨⟨ha, hx⟩, hc⟩, hand⟩, hor⟩, hxor⟩ := hf
  have add v := once_fetch h .add ha v
  have xchg v := once_fetch h .exchange hx v
  have cas e d := cas_does h h0 hc e d
  exact {
    load := (Code.Does.once (show ((plainLoad R N).code ()).Does .load from plainLoad_ok h ()))
    store := fun v => Code.Does.once (by
      cases seqCst
      · exact plainStore_ok v
      · exact (xchg v).map fun _ _ _ hs => ⟨hs.1, rfl⟩)
    exchange := fun v => (xchg v).once
    casWeak := fun e d => (cas e d).weak
    casStrong := cas
    fetchAdd := fun v => (add v).once
    fetchSub := fun v => (add (-v)).minus.once
    fetchAnd := fun v => fetchOrLoop_does h .and cas hand _ v fun _ => ⟨rfl, rfl⟩
    fetchOr := fun v => fetchOrLoop_does h .or cas hor _ v fun _ => ⟨rfl, rfl⟩
    fetchXor := fun v => fetchOrLoop_does h .xor cas hxor _ v fun _ => ⟨rfl, rfl⟩ }

theorem withBits_ok {core : Core R N} (h : core.Ok) {bts btr : Fin N → Code R N (Integral.Ret N)}
    (hs : ∀ b, (bts b).Does (.bitTestAndSet b)) (hr : ∀ b, (btr b).Does (.bitTestAndReset b)) (op : Integral.Op N) :
    (withBits core bts btr op).Does Integral.spec op := by
  unfold withBits
  split
  · exact (hs _).once
  · exact (hr _).once
  · exact h.routine false _

theorem Arm.core_ok {cc : Compiler} (hcc : OnArm cc) (hN : N ∈ widths) (h : N ≤ R) (o f : Order.MO) :
    (Arm.core R N cc o f).Ok := by
  have h0 : N ≠ 0 := by rintro rfl; revert hN; decide
  have fetch (g : Fetch) v : ((fetch R N (resolve cc (Arm.use N o.val g))).code v).Does (g.op v) := by
    obtain ⟨s, hs, _⟩ := Arm.fetch_right hcc hN o g
    exact fetch_ok h g hs v
  have cas e d : ((Interlocked.compareExchange R N
      (resolve cc (Arm.compareExchangeStrong N (Order.casCommonVal o f)))).code (e, d)).Does (.casStrong e d) := by
    obtain ⟨s, hs, _⟩ := Arm.cas_right hcc hN o f
    exact compareExchange_ok h h0 hs (e, d)
  exact {
    load := (Code.Does.once (show ((plainLoad R N).code ()).Does .load from plainLoad_ok h ()))
    store := fun v => Code.Does.once (show ((plainStore R N).code v).Does (.store v) from plainStore_ok v)
    exchange := fun v => (fetch .exchange v).once
    casWeak := fun e d => (cas e d).weak
    casStrong := cas
    fetchAdd := fun v => (fetch .add v).once
    fetchSub := fun v => (Code.Does.minus (fetch .add (-v))).once
    fetchAnd := fun v => (fetch .and v).once
    fetchOr := fun v => (fetch .or v).once
    fetchXor := fun v => (fetch .xor v).once }

theorem Arm.routine_ok {cc : Compiler} (hcc : OnArm cc) (hN : N ∈ widths) (h : N ≤ R) (c : OrderedCall N) :
    (Arm.routine R N cc c).Does Integral.spec c.op := by
  unfold Arm.routine
  split
  · next hw =>
    subst hw
    obtain ⟨⟨s, hs, _⟩, ⟨t, ht, _⟩⟩ := Arm.bit_right hcc c.order
    exact withBits_ok (Arm.core_ok hcc hN h _ _) (bts_does h hs) (btr_does h ht) _
  · exact (Arm.core_ok hcc hN h _ _).routine false _

theorem msvc_version (arch : Arch) (ver : Nat) : ∃ v ∈ versions,
    (Compiler.msvc arch ver).table = (Compiler.msvc arch v).table ∧ ∀ n ∈ versions, n ≤ ver → n ≤ v := by
  obtain ⟨v, hv, he, hn⟩ := era_version ver
  exact ⟨v, hv, by simp only [Compiler.table, he], hn⟩

/-- 64-bit mode: the version from which on objects of `N` bits are implemented by interlocked functions. -/
def since64 : Nat → Nat
  | 32 | 64 => 1400
  | 128 => 1500
  | _ => 1600

theorem X86.routine64_ok {ver : Nat} (hN : N ∈ widths) (hver : since64 N ≤ ver) (h : N ≤ R) (c : OrderedCall N) :
    (X86.routine64 R N (.msvc .amd64 ver) c).Does Integral.spec c.op := by
  obtain ⟨v, hv, ht, hn⟩ := msvc_version .amd64 ver
  have tab := amd64_table
  have bits := amd64_bit_table
  simp only [List.all_eq_true] at tab bits
  have tab := tab v hv
  have bits := bits v hv
  have h0 : N ≠ 0 := by rintro rfl; revert hN; decide
  have low : ¬ v < 1400 := by
    have : 1400 ≤ ver := by
      simp only [widths, List.mem_cons, List.not_mem_nil, or_false] at hN
      rcases hN with rfl | rfl | rfl | rfl <;> simp only [since64] at hver <;> omega
    have := hn 1400 (by decide) this
    omega
  simp only [low, decide_false, Bool.false_or, Bool.and_eq_true, List.all_eq_true] at tab bits
  have full : X86.full N (.msvc .amd64 ver) = true := by
    rw [X86.full_congr ht]
    simp only [widths, List.mem_cons, List.not_mem_nil, or_false] at hN
    rcases hN with rfl | rfl | rfl | rfl
    · have : ¬ v < 1600 := by have := hn 1600 (by decide) hver; omega
      simp only [this, decide_false, Bool.false_or, Bool.and_eq_true] at tab
      exact tab.2.1
    · have : ¬ v < 1600 := by have := hn 1600 (by decide) hver; omega
      simp only [this, decide_false, Bool.false_or, Bool.and_eq_true] at tab
      exact tab.2.2
    · exact tab.1.1
    · exact tab.1.2
  unfold X86.routine64
  split
  · next hw =>
    have : ∃ s t : Strength, resolve (.msvc .amd64 ver) (X86Extra.bitTestAndSet N) =
          some (⟨⟨.bts, N, s⟩, [.param 0 N, .param 1 N]⟩, [0, 1]) ∧
        resolve (.msvc .amd64 ver) (X86Extra.bitTestAndReset N) =
          some (⟨⟨.btr, N, t⟩, [.param 0 N, .param 1 N]⟩, [0, 1]) := by
      rw [resolve_congr ht, resolve_congr ht]
      have bits := bits N (by rcases hw with rfl | rfl <;> decide)
      obtain ⟨s, hs, _⟩ := of_right bits.1
      obtain ⟨t, ht, _⟩ := of_right bits.2
      exact ⟨s, t, hs, ht⟩
    obtain ⟨s, t, hs, ht⟩ := this
    exact withBits_ok (X86.core_ok h h0 full _) (bts_does h hs) (btr_does h ht) _
  · exact (X86.core_ok h h0 full _).routine false _

theorem aligned128 {base : BitVec 128} (h : (base &&& 15 == 0) = true) : base.toNat % 16 = 0 := by
  have h := congrArg BitVec.toNat (eq_of_beq h)
  rw [BitVec.toNat_and] at h
  change base.toNat &&& (2 ^ 4 - 1) = 0 at h
  rwa [Nat.and_two_pow_sub_one_eq_mod] at h

theorem X86.core16_ok {ver : Nat} (hver : 1500 ≤ ver) (avx : Bool) (base : BitVec 128) (seqCst : Bool) :
    (X86.core16 128 (.msvc .amd64 ver) avx base seqCst).Ok := by
  obtain ⟨v, hv, ht, hn⟩ := msvc_version .amd64 ver
  have tab := amd64_16_table
  simp only [List.all_eq_true] at tab
  have tab := tab v hv
  have : ¬ v < 1500 := by have := hn 1500 (by decide) hver; omega
  simp only [this, decide_false, Bool.false_or, Bool.and_eq_true] at tab
  rw [← resolve_congr ht, ← resolve_congr ht, ← resolve_congr ht] at tab
  obtain ⟨s, hs, _⟩ := of_right tab.1.1
  obtain ⟨t, ht, _⟩ := of_right tab.1.2
  obtain ⟨u, hu, _⟩ := of_right tab.2
  have cas e d : ((compareExchange16 128 128 (resolve (.msvc .amd64 ver) (X86.compareExchangeStrong 128))).code
      (e, d)).Does (.casStrong e d) := compareExchange16_ok hs (e, d)
  refine casBased_ok (Code.Does.once ?_) (fun v => ?_) (casExchange_ok cas) cas
  · split
    · next h =>
      simp only [Bool.and_eq_true] at h
      simp only [Asm.X86.vector, aligned128 h.2, if_true]
      exact plainLoad_ok (Nat.le_refl _) ()
    · exact load16_ok hu ()
  · split
    · next h =>
      simp only [Bool.and_eq_true] at h
      simp only [Asm.X86.vector, aligned128 h.2, if_true]
      exact Code.Does.once (show ((plainStore 128 128).code v).Does (.store v) from plainStore_ok v)
    · refine does_loop (fun _ => v) (fun e => Code.Does.weak ?_) fun _ => ⟨rfl, rfl⟩
      exact compareExchange16_ok ht (e, v)

/-! ### Others -/

/-- One compiler for each set of macros. -/
def compilers : List Compiler :=
  [.wce 0, .windowsH false, .windowsH true] ++
    [Arch.x86, .amd64, .arm, .arm64, .arm64ec].flatMap fun a => versions.map (.msvc a)

theorem all_compilers (cc : Compiler) : ∃ cc' ∈ compilers, cc.table = cc'.table := by
  cases cc with
  | wce ver => exact ⟨.wce 0, by decide, by simp [Compiler.table]⟩
  | msvc arch ver =>
    obtain ⟨v, hv, ht, _⟩ := msvc_version arch ver
    refine ⟨.msvc arch v, ?_, ht⟩
    simp only [compilers, List.mem_append, List.mem_flatMap, List.mem_map]
    exact .inr ⟨arch, by cases arch <;> decide, v, hv, rfl⟩
  | windowsH b => exact ⟨.windowsH b, by cases b <;> decide, rfl⟩
  | declared b => exact ⟨.windowsH b, by cases b <;> decide, rfl⟩

theorem windows_table :
    (compilers.all fun cc => fullSet 32 true cc (Windows.fetchAdd 32) (Windows.exchange 32)
      (Windows.compareExchangeStrong 32) (Windows.fetchAnd 32) (Windows.fetchOr 32) (Windows.fetchXor 32)) = true := by
  decide +kernel

theorem Windows.core_ok (h : 32 ≤ R) (cc : Compiler) : (Windows.core R cc).Ok := by
  obtain ⟨cc', hcc, ht⟩ := all_compilers cc
  have tab := windows_table
  simp only [List.all_eq_true] at tab
  have tab := tab cc' hcc
  simp only [fullSet, Bool.and_eq_true] at tab
  simp only [← resolve_congr ht] at tab
  obtain ⟨⟨⟨⟨⟨ha, hx⟩, hc⟩, hand⟩, hor⟩, hxor⟩ := tab
  have add v := once_fetch h .add ha v
  have xchg v := once_fetch h .exchange hx v
  have cas e d := cas_does h (by decide) hc e d
  exact {
    load := Code.Does.once (show Code.Does _ _ from Correct.weaken' (add 0) fun _ _ _ hs => ⟨by simpa using hs.1, hs.2⟩)
    store := fun v => Code.Does.once ((xchg v).map fun _ _ _ hs => ⟨hs.1, rfl⟩)
    exchange := fun v => (xchg v).once
    casWeak := fun e d => (cas e d).weak
    casStrong := cas
    fetchAdd := fun v => (add v).once
    fetchSub := fun v => (add (-v)).minus.once
    fetchAnd := fun v => fetchOrLoop_does h .and cas hand _ v fun _ => ⟨rfl, rfl⟩
    fetchOr := fun v => fetchOrLoop_does h .or cas hor _ v fun _ => ⟨rfl, rfl⟩
    fetchXor := fun v => fetchOrLoop_does h .xor cas hxor _ v fun _ => ⟨rfl, rfl⟩ }

end Interlocked

/-! ### 32-bit x86 -/

open Interlocked

theorem Msvc1.core_ok (seqCst : Bool) : (Msvc1.core seqCst).Ok := by
  have add v : (Msvc1.fetchAdd.code v).Does (.fetchAdd v) := Msvc1.fetchAdd_ok v
  have xchg v : (Msvc1.exchange.code v).Does (.exchange v) := Msvc1.exchange_ok v
  have cas e d : (Msvc1.compareExchangeStrong.code (e, d)).Does (.casStrong e d) := Msvc1.compareExchangeStrong_ok (e, d)
  exact {
    load := Code.Does.once (show ((plainLoad 32 8).code ()).Does .load from plainLoad_ok (by decide) ())
    store := fun v => Code.Does.once (by
      cases seqCst
      · exact plainStore_ok v
      · exact (xchg v).map fun _ _ _ hs => ⟨hs.1, rfl⟩)
    exchange := fun v => (xchg v).once
    casWeak := fun e d => (cas e d).weak
    casStrong := cas
    fetchAdd := fun v => (add v).once
    fetchSub := fun v => (add (-v)).minus.once
    fetchAnd := fun v => Code.Does.once (show (Msvc1.fetchAnd.code v).Does (.fetchAnd v) from Msvc1.fetchAnd_ok v)
    fetchOr := fun v => Code.Does.once (show (Msvc1.fetchOr.code v).Does (.fetchOr v) from Msvc1.fetchOr_ok v)
    fetchXor := fun v => Code.Does.once (show (Msvc1.fetchXor.code v).Does (.fetchXor v) from Msvc1.fetchXor_ok v) }

theorem Msvc1.select_ok (ver : Nat) (seqCst : Bool) : (Msvc1.select (.msvc .x86 ver) seqCst).Ok := by
  obtain ⟨v, hv, ht, _⟩ := msvc_version .x86 ver
  have tab := x86_table
  have nar := x86_narrow_table
  simp only [List.all_eq_true] at tab nar
  have tab := tab v hv
  have nar := nar v hv
  simp only [Bool.and_eq_true, Bool.or_eq_true, beq_iff_eq, decide_eq_true_eq] at tab nar
  unfold Msvc1.select
  split
  · next h =>
    have hc : ((Compiler.msvc .x86 v).call ⟨.compareExchange, 8, .full⟩).isSome = true := by
      rw [← h, Compiler.call, Compiler.call, ht]
    rw [hc] at nar
    have : ¬ v < 1600 := by
      have := of_decide_eq_true nar.1
      omega
    exact X86.core_ok (by decide) (by decide) (by rw [X86.full_congr ht]; exact (tab.2.resolve_left this).1) seqCst
  · exact Msvc1.core_ok seqCst

theorem Msvc2.core_ok (seqCst : Bool) : (Msvc2.core seqCst).Ok := by
  have add v : (Msvc2.fetchAdd.code v).Does (.fetchAdd v) := Msvc2.fetchAdd_ok v
  have xchg v : (Msvc2.exchange.code v).Does (.exchange v) := Msvc2.exchange_ok v
  have cas e d : (Msvc2.compareExchangeStrong.code (e, d)).Does (.casStrong e d) := Msvc2.compareExchangeStrong_ok (e, d)
  exact {
    load := Code.Does.once (show ((plainLoad 32 16).code ()).Does .load from plainLoad_ok (by decide) ())
    store := fun v => Code.Does.once (by
      cases seqCst
      · exact plainStore_ok v
      · exact (xchg v).map fun _ _ _ hs => ⟨hs.1, rfl⟩)
    exchange := fun v => (xchg v).once
    casWeak := fun e d => (cas e d).weak
    casStrong := cas
    fetchAdd := fun v => (add v).once
    fetchSub := fun v => (add (-v)).minus.once
    fetchAnd := fun v => Code.Does.once (show (Msvc2.fetchAnd.code v).Does (.fetchAnd v) from Msvc2.fetchAnd_ok v)
    fetchOr := fun v => Code.Does.once (show (Msvc2.fetchOr.code v).Does (.fetchOr v) from Msvc2.fetchOr_ok v)
    fetchXor := fun v => Code.Does.once (show (Msvc2.fetchXor.code v).Does (.fetchXor v) from Msvc2.fetchXor_ok v) }

theorem Msvc2.select_ok (ver : Nat) (seqCst : Bool) : (Msvc2.select (.msvc .x86 ver) seqCst).Ok := by
  obtain ⟨v, hv, ht, _⟩ := msvc_version .x86 ver
  have tab := x86_table
  have nar := x86_narrow_table
  simp only [List.all_eq_true] at tab nar
  have tab := tab v hv
  have nar := nar v hv
  simp only [Bool.and_eq_true, Bool.or_eq_true, beq_iff_eq, decide_eq_true_eq] at tab nar
  unfold Msvc2.select
  split
  · next h =>
    have hc : ((Compiler.msvc .x86 v).call ⟨.compareExchange, 16, .full⟩).isSome = true := by
      rw [← h, Compiler.call, Compiler.call, ht]
    rw [hc] at nar
    have : ¬ v < 1600 := by
      have := of_decide_eq_true nar.2
      omega
    exact X86.core_ok (by decide) (by decide) (by rw [X86.full_congr ht]; exact (tab.2.resolve_left this).2) seqCst
  · exact Msvc2.core_ok seqCst

theorem Msvc4.core_ok (ver : Nat) (seqCst : Bool) : (X86.core 32 32 (.msvc .x86 ver) seqCst).Ok := by
  obtain ⟨v, hv, ht, _⟩ := msvc_version .x86 ver
  have tab := x86_table
  simp only [List.all_eq_true] at tab
  have tab := tab v hv
  simp only [Bool.and_eq_true] at tab
  exact X86.core_ok (by decide) (by decide) (by rw [X86.full_congr ht]; exact tab.1) seqCst

theorem Msvc4.bits (ver : Nat) :
    ((∃ s : Strength, resolve (.msvc .x86 ver) (X86Extra.bitTestAndSet 32) =
        some (⟨⟨.bts, 32, s⟩, [.param 0 32, .param 1 32]⟩, [0, 1])) ∨
      (resolve (.msvc .x86 ver) (X86Extra.bitTestAndSet 32)).isSome = false) ∧
    ((∃ s : Strength, resolve (.msvc .x86 ver) (X86Extra.bitTestAndReset 32) =
        some (⟨⟨.btr, 32, s⟩, [.param 0 32, .param 1 32]⟩, [0, 1])) ∨
      (resolve (.msvc .x86 ver) (X86Extra.bitTestAndReset 32)).isSome = false) := by
  obtain ⟨v, hv, ht, _⟩ := msvc_version .x86 ver
  have tab := x86_bit_table
  simp only [List.all_eq_true] at tab
  have tab := tab v hv
  simp only [Bool.and_eq_true, Bool.or_eq_true, ← resolve_congr ht] at tab
  refine ⟨tab.1.imp (fun h => ?_) (fun h => ?_), tab.2.imp (fun h => ?_) (fun h => ?_)⟩
  · obtain ⟨s, hs, _⟩ := of_right h
    exact ⟨s, hs⟩
  · simpa using h
  · obtain ⟨s, hs, _⟩ := of_right h
    exact ⟨s, hs⟩
  · simpa using h

theorem Msvc4.setBit_ok (ver : Nat) (b : Fin 32) : (Msvc4.setBit (.msvc .x86 ver) b).Does (.bitTestAndSet b) := by
  unfold Msvc4.setBit
  rcases (Msvc4.bits ver).1 with ⟨s, hs⟩ | h
  · rw [if_pos (by rw [hs]; rfl)]
    exact bts_does (by decide) hs b
  · rw [if_neg (by simp [h])]
    exact Msvc4.bitTestAndSet_ok b

theorem Msvc4.resetBit_ok (ver : Nat) (b : Fin 32) : (Msvc4.resetBit (.msvc .x86 ver) b).Does (.bitTestAndReset b) := by
  unfold Msvc4.resetBit
  rcases (Msvc4.bits ver).2 with ⟨s, hs⟩ | h
  · rw [if_pos (by rw [hs]; rfl)]
    exact btr_does (by decide) hs b
  · rw [if_neg (by simp [h])]
    exact Msvc4.bitTestAndReset_ok b

theorem Msvc1.routine_ok (o : MsvcCfg) {core : Core 32 8} (h : core.Ok) (op : Integral.Op 8) :
    (Msvc1.routine o core op).Does Integral.spec op := by
  unfold Msvc1.routine
  split
  · exact Code.Does.once (show (Msvc1.fetchNegate.code ()).Does .fetchNegate from Msvc1.fetchNegate_ok ())
  · exact Code.Does.once (show (Msvc1.fetchComplement.code ()).Does .fetchComplement from Msvc1.fetchComplement_ok ())
  · exact Code.Does.once (show (Msvc1.negate.code ()).Does .negate from Msvc1.negate_ok ())
  · exact Code.Does.once (show (Msvc1.bitwiseComplement.code ()).Does .bitwiseComplement from Msvc1.bitwiseComplement_ok ())
  · exact Code.Does.once (show (Msvc1.negateAndTest.code ()).Does .negateAndTest from Msvc1.negateAndTest_ok ())
  · exact Code.Does.once (show (Msvc1.complementAndTest.code ()).Does .complementAndTest from Msvc1.complementAndTest_ok ())
  · next v => exact Code.Does.once (show (Msvc1.bitwiseAnd.code v).Does (.bitwiseAnd v) from Msvc1.bitwiseAnd_ok v)
  · next v => exact Code.Does.once (show (Msvc1.bitwiseOr.code v).Does (.bitwiseOr v) from Msvc1.bitwiseOr_ok v)
  · next v => exact Code.Does.once (show (Msvc1.bitwiseXor.code v).Does (.bitwiseXor v) from Msvc1.bitwiseXor_ok v)
  · next v => exact Code.Does.once (show (Msvc1.opaqueAdd.code v).Does (.opaqueAdd v) from Msvc1.opaqueAdd_ok v)
  · next v => exact Code.Does.once (show (Msvc1.opaqueSub.code v).Does (.opaqueSub v) from Msvc1.opaqueSub_ok v)
  · next v => exact Code.Does.once (show (Msvc1.opaqueAnd.code v).Does (.opaqueAnd v) from Msvc1.opaqueAnd_ok v)
  · next v => exact Code.Does.once (show (Msvc1.opaqueOr.code v).Does (.opaqueOr v) from Msvc1.opaqueOr_ok v)
  · next v => exact Code.Does.once (show (Msvc1.opaqueXor.code v).Does (.opaqueXor v) from Msvc1.opaqueXor_ok v)
  · next v => exact Code.Does.once (show (Msvc1.addAndTest.code v).Does (.addAndTest v) from Msvc1.addAndTest_ok v)
  · next v => exact Code.Does.once (show (Msvc1.subAndTest.code v).Does (.subAndTest v) from Msvc1.subAndTest_ok v)
  · next v => exact Code.Does.once (show (Msvc1.andAndTest.code v).Does (.andAndTest v) from Msvc1.andAndTest_ok v)
  · next v => exact Code.Does.once (show (Msvc1.orAndTest.code v).Does (.orAndTest v) from Msvc1.orAndTest_ok v)
  · next v => exact Code.Does.once (show (Msvc1.xorAndTest.code v).Does (.xorAndTest v) from Msvc1.xorAndTest_ok v)
  · exact Code.Does.once (show ((if o.second then Msvc1.opaqueNegateLock else Msvc1.opaqueNegate).code ()).Does .opaqueNegate by
      split
      · exact Msvc1.opaqueNegateLock_ok ()
      · exact Msvc1.opaqueNegate_ok ())
  · exact Code.Does.once (show ((if o.second then Msvc1.opaqueComplementLock else Msvc1.opaqueComplement).code ()).Does .opaqueComplement by
      split
      · exact Msvc1.opaqueComplementLock_ok ()
      · exact Msvc1.opaqueComplement_ok ())
  · exact h.routine false _

theorem Msvc2.routine_ok (o : MsvcCfg) {core : Core 32 16} (h : core.Ok) (op : Integral.Op 16) :
    (Msvc2.routine o core op).Does Integral.spec op := by
  unfold Msvc2.routine
  split
  · exact Code.Does.once (show (Msvc2.fetchNegate.code ()).Does .fetchNegate from Msvc2.fetchNegate_ok ())
  · exact Code.Does.once (show (Msvc2.fetchComplement.code ()).Does .fetchComplement from Msvc2.fetchComplement_ok ())
  · exact Code.Does.once (show (Msvc2.negate.code ()).Does .negate from Msvc2.negate_ok ())
  · exact Code.Does.once (show (Msvc2.bitwiseComplement.code ()).Does .bitwiseComplement from Msvc2.bitwiseComplement_ok ())
  · exact Code.Does.once (show (Msvc2.negateAndTest.code ()).Does .negateAndTest from Msvc2.negateAndTest_ok ())
  · exact Code.Does.once (show (Msvc2.complementAndTest.code ()).Does .complementAndTest from Msvc2.complementAndTest_ok ())
  · next v => exact Code.Does.once (show (Msvc2.bitwiseAnd.code v).Does (.bitwiseAnd v) from Msvc2.bitwiseAnd_ok v)
  · next v => exact Code.Does.once (show (Msvc2.bitwiseOr.code v).Does (.bitwiseOr v) from Msvc2.bitwiseOr_ok v)
  · next v => exact Code.Does.once (show (Msvc2.bitwiseXor.code v).Does (.bitwiseXor v) from Msvc2.bitwiseXor_ok v)
  · next v => exact Code.Does.once (show (Msvc2.opaqueAdd.code v).Does (.opaqueAdd v) from Msvc2.opaqueAdd_ok v)
  · next v => exact Code.Does.once (show (Msvc2.opaqueSub.code v).Does (.opaqueSub v) from Msvc2.opaqueSub_ok v)
  · next v => exact Code.Does.once (show (Msvc2.opaqueAnd.code v).Does (.opaqueAnd v) from Msvc2.opaqueAnd_ok v)
  · next v => exact Code.Does.once (show (Msvc2.opaqueOr.code v).Does (.opaqueOr v) from Msvc2.opaqueOr_ok v)
  · next v => exact Code.Does.once (show (Msvc2.opaqueXor.code v).Does (.opaqueXor v) from Msvc2.opaqueXor_ok v)
  · next v => exact Code.Does.once (show (Msvc2.addAndTest.code v).Does (.addAndTest v) from Msvc2.addAndTest_ok v)
  · next v => exact Code.Does.once (show (Msvc2.subAndTest.code v).Does (.subAndTest v) from Msvc2.subAndTest_ok v)
  · next v => exact Code.Does.once (show (Msvc2.andAndTest.code v).Does (.andAndTest v) from Msvc2.andAndTest_ok v)
  · next v => exact Code.Does.once (show (Msvc2.orAndTest.code v).Does (.orAndTest v) from Msvc2.orAndTest_ok v)
  · next v => exact Code.Does.once (show (Msvc2.xorAndTest.code v).Does (.xorAndTest v) from Msvc2.xorAndTest_ok v)
  · exact Code.Does.once (show ((if o.second then Msvc2.opaqueNegateLock else Msvc2.opaqueNegate).code ()).Does .opaqueNegate by
      split
      · exact Msvc2.opaqueNegateLock_ok ()
      · exact Msvc2.opaqueNegate_ok ())
  · exact Code.Does.once (show ((if o.second then Msvc2.opaqueComplementLock else Msvc2.opaqueComplement).code ()).Does .opaqueComplement by
      split
      · exact Msvc2.opaqueComplementLock_ok ()
      · exact Msvc2.opaqueComplement_ok ())
  · next b => exact Code.Does.once (show (Msvc2.bitTestAndSet.code b).Does (.bitTestAndSet b) from Msvc2.bitTestAndSet_ok b)
  · next b => exact Code.Does.once (show (Msvc2.bitTestAndReset.code b).Does (.bitTestAndReset b) from Msvc2.bitTestAndReset_ok b)
  · next b => exact Code.Does.once (show (Msvc2.bitTestAndComplement.code b).Does (.bitTestAndComplement b) from Msvc2.bitTestAndComplement_ok b)
  · exact h.routine false _

theorem Msvc4.routine_ok (o : MsvcCfg) {ver : Nat} {core : Core 32 32} (h : core.Ok) (op : Integral.Op 32) :
    (Msvc4.routine o (.msvc .x86 ver) core op).Does Integral.spec op := by
  unfold Msvc4.routine
  split
  · exact Code.Does.once (show (Msvc4.fetchNegate.code ()).Does .fetchNegate from Msvc4.fetchNegate_ok ())
  · exact Code.Does.once (show (Msvc4.fetchComplement.code ()).Does .fetchComplement from Msvc4.fetchComplement_ok ())
  · exact Code.Does.once (show (Msvc4.negate.code ()).Does .negate from Msvc4.negate_ok ())
  · exact Code.Does.once (show (Msvc4.bitwiseComplement.code ()).Does .bitwiseComplement from Msvc4.bitwiseComplement_ok ())
  · exact Code.Does.once (show (Msvc4.negateAndTest.code ()).Does .negateAndTest from Msvc4.negateAndTest_ok ())
  · exact Code.Does.once (show (Msvc4.complementAndTest.code ()).Does .complementAndTest from Msvc4.complementAndTest_ok ())
  · next v => exact Code.Does.once (show (Msvc4.bitwiseAnd.code v).Does (.bitwiseAnd v) from Msvc4.bitwiseAnd_ok v)
  · next v => exact Code.Does.once (show (Msvc4.bitwiseOr.code v).Does (.bitwiseOr v) from Msvc4.bitwiseOr_ok v)
  · next v => exact Code.Does.once (show (Msvc4.bitwiseXor.code v).Does (.bitwiseXor v) from Msvc4.bitwiseXor_ok v)
  · next v => exact Code.Does.once (show (Msvc4.opaqueAdd.code v).Does (.opaqueAdd v) from Msvc4.opaqueAdd_ok v)
  · next v => exact Code.Does.once (show (Msvc4.opaqueSub.code v).Does (.opaqueSub v) from Msvc4.opaqueSub_ok v)
  · next v => exact Code.Does.once (show (Msvc4.opaqueAnd.code v).Does (.opaqueAnd v) from Msvc4.opaqueAnd_ok v)
  · next v => exact Code.Does.once (show (Msvc4.opaqueOr.code v).Does (.opaqueOr v) from Msvc4.opaqueOr_ok v)
  · next v => exact Code.Does.once (show (Msvc4.opaqueXor.code v).Does (.opaqueXor v) from Msvc4.opaqueXor_ok v)
  · next v => exact Code.Does.once (show (Msvc4.addAndTest.code v).Does (.addAndTest v) from Msvc4.addAndTest_ok v)
  · next v => exact Code.Does.once (show (Msvc4.subAndTest.code v).Does (.subAndTest v) from Msvc4.subAndTest_ok v)
  · next v => exact Code.Does.once (show (Msvc4.andAndTest.code v).Does (.andAndTest v) from Msvc4.andAndTest_ok v)
  · next v => exact Code.Does.once (show (Msvc4.orAndTest.code v).Does (.orAndTest v) from Msvc4.orAndTest_ok v)
  · next v => exact Code.Does.once (show (Msvc4.xorAndTest.code v).Does (.xorAndTest v) from Msvc4.xorAndTest_ok v)
  · exact Code.Does.once (show ((if o.second then Msvc4.opaqueNegateLock else Msvc4.opaqueNegate).code ()).Does .opaqueNegate by
      split
      · exact Msvc4.opaqueNegateLock_ok ()
      · exact Msvc4.opaqueNegate_ok ())
  · exact Code.Does.once (show ((if o.second then Msvc4.opaqueComplementLock else Msvc4.opaqueComplement).code ()).Does .opaqueComplement by
      split
      · exact Msvc4.opaqueComplementLock_ok ()
      · exact Msvc4.opaqueComplement_ok ())
  · next b => exact (Msvc4.setBit_ok ver b).once
  · next b => exact (Msvc4.resetBit_ok ver b).once
  · next b => exact Code.Does.once (show (Msvc4.bitTestAndComplement.code b).Does (.bitTestAndComplement b) from Msvc4.bitTestAndComplement_ok b)
  · exact h.routine false _

theorem Msvc8.compareExchange_ok (ver : Nat) (e d : BitVec 64) :
    (Msvc8.compareExchange (.msvc .x86 ver) e d).Does (.casStrong e d) := by
  obtain ⟨v, hv, ht, _⟩ := msvc_version .x86 ver
  have tab := x86_cas_table
  simp only [List.all_eq_true] at tab
  have tab := tab v hv
  simp only [Bool.or_eq_true, ← resolve_congr ht] at tab
  unfold Msvc8.compareExchange
  rcases tab with h | h
  · obtain ⟨s, hs, _⟩ := of_right h
    rw [hs]
    exact Msvc8.casCall_ok rfl rfl (e, d)
  · rw [Option.isNone_iff_eq_none.mp h]
    exact Msvc8.cas_ok (e, d)

theorem Msvc8.core_ok (ver : Nat) (u : Msvc8.Unit8) (base : BitVec 32) (seqCst : Bool) :
    (Msvc8.core (.msvc .x86 ver) u base seqCst).Ok := by
  refine casBased_ok (Code.Does.once ?_) (fun v => Code.Does.once ?_) (fun v => Code.Does.once ?_)
    (Msvc8.compareExchange_ok ver)
  · unfold Msvc8.load_
    split
    · next h =>
      simp only [Asm.X86.vector, Asm.X86.aligned8 h, if_true]
      cases u
      · exact Msvc8.loadAvx_ok ()
      · exact Msvc8.loadSse2_ok ()
      · exact Msvc8.loadX87_ok ()
    · exact Msvc8.loadCas_ok ()
  · unfold Msvc8.store_
    split
    · next h =>
      simp only [Bool.and_eq_true] at h
      simp only [Asm.X86.vector, Asm.X86.aligned8 h.2, if_true]
      cases u
      · exact Msvc8.storeAvx_ok v
      · exact Msvc8.storeSse2_ok v
      · exact Msvc8.storeX87_ok v
    · exact Msvc8.storeLoop_ok v
  · exact Msvc8.exchange_ok v

end Verif.Asm
