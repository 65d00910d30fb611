import Verif.Integral.Props
import Verif.Concurrent.Lemmas

/-
C01  operations of lock-free back ends built on CAS (or single instructions) are linearizable
C02  the same for LL/SC back ends
C03  the same for lock-based objects, all objects of a process together
C04  compare_exchange_strong never fails spuriously
C05  compare_exchange_weak succeeds only on equality, a failure has no effect and reports the value
C12  a load implemented with a read-modify-write instruction does not change the object
The specification is `Verif.Integral.spec`; linearizability is defined in `Verif.Common.Lin`.
-/

namespace Verif.Concurrent

open Verif.Integral (Op Ret spec native construct Backend emulated EmulSafe ext trunc Canon)

/-! ### The integer tables satisfy `Correct` -/

theorem native_correct (b : Backend) (sgn : Bool) {N : Nat} (hN : 0 < N) (hb : b.Fits N) :
    Correct (native b sgn N) (fun _ => True) (fun w => w) spec := by
  intro op w w' r _ hr
  have := (Integral.native_implements b sgn hN hb op w w' r trivial (Integral.canon_self _) hr).2
  simp only [Integral.trunc_self] at this
  exact ⟨trivial, this⟩

/-- The operations of an emulated integer that keep its representation right
(`Verif.Integral.EmulSafe`). -/
abbrev SafeOp (cb sgn : Bool) (N : Nat) := {op : Op N // EmulSafe cb sgn op}

/-- The emulated table restricted to those operations. -/
def emulatedSafe (cb sgn : Bool) (N W : Nat) (op : SafeOp cb sgn N) : Code (BitVec W) (Ret N) :=
  emulated cb sgn N W op.1

/-- The specification for those operations. -/
def specSafe (cb sgn : Bool) (N : Nat) : SeqSpec (BitVec N) (SafeOp cb sgn N) (Ret N) :=
  fun s op s' r => spec s op.1 s' r

theorem emulated_correct (cb sgn : Bool) {N W : Nat} (hN : 0 < N) (h : N ≤ W) :
    Correct (emulatedSafe cb sgn N W) (Canon sgn N) (trunc N) (specSafe cb sgn N) :=
  fun op w w' r hc hr => Integral.emulated_implements cb sgn hN h op.1 w w' r op.2 hc hr

/-! ### C12 -/

/-- C12: a load done by compare-exchanging any value with itself, or by a read-modify-write that
writes back what it read, is indistinguishable from a plain load, and a store done by an exchange
loop from a plain store, whatever the object holds: in particular the load never changes it. -/
theorem C12_load_keeps_value {W R : Type} (j : W) (k : W → R) (w w' : W) (r : R) :
    ((viaCas j (.load k)).Run w w' r ↔ w' = w ∧ r = k w) ∧
    ((viaRmw (.load k)).Run w w' r ↔ w' = w ∧ r = k w) := by
  constructor
  · rw [viaCas, Integral.run_strong]
    constructor
    · rintro (⟨rfl, rfl, rfl⟩ | ⟨_, rfl, rfl⟩) <;> exact ⟨rfl, rfl⟩
    · rintro ⟨rfl, rfl⟩
      by_cases h : w' = j
      · exact .inl ⟨h, h, rfl⟩
      · exact .inr ⟨h, rfl, rfl⟩
  · rw [viaRmw, Integral.run_rmw]

example : (viaCas (0#64) (.load fun w => w)).Run 0 0 0 ∧ (viaCas (0#64) (.load fun w => w)).Run 7 7 7 :=
  ⟨.strongOk, .strongFail (by decide)⟩

theorem viaCas_run {W R : Type} (j : W) (c : Code W R) (w w' : W) (r : R) :
    (viaCas j c).Run w w' r ↔ c.Run w w' r := by
  cases c with
  | load k => rw [(C12_load_keeps_value j k w w' r).1, Integral.run_load]
  | store v r' => simp only [viaCas, Integral.run_rmw, Integral.run_store]
  | casWeak | casStrong | rmw => exact Iff.rfl

theorem viaRmw_run {W R : Type} (c : Code W R) (w w' : W) (r : R) :
    (viaRmw c).Run w w' r ↔ c.Run w w' r := by
  cases c with
  | load k => simp only [viaRmw, Integral.run_rmw, Integral.run_load]
  | store v r' => simp only [viaRmw, Integral.run_rmw, Integral.run_store]
  | casWeak | casStrong | rmw => exact Iff.rfl

theorem viaCas_correct {W Op Ret σ : Type} (j : W) {code : Op → Code W Ret} {I : W → Prop} {abs : W → σ}
    {spec : SeqSpec σ Op Ret} (hc : Correct code I abs spec) :
    Correct (fun op => viaCas j (code op)) I abs spec :=
  fun op w w' r hI hr => hc op w w' r hI ((viaCas_run j _ _ _ _).1 hr)

theorem viaRmw_correct {W Op Ret σ : Type} {code : Op → Code W Ret} {I : W → Prop} {abs : W → σ}
    {spec : SeqSpec σ Op Ret} (hc : Correct code I abs spec) :
    Correct (fun op => viaRmw (code op)) I abs spec :=
  fun op w w' r hI hr => hc op w w' r hI ((viaRmw_run _ _ _ _).1 hr)

/-- C12, concurrently: with loads performed as compare-exchanges, executions are linearizable with
respect to the specification in which a load changes nothing (in every schedule, next to every other
operation). -/
theorem C12_concurrent_loads (b : Backend) (sgn : Bool) {N : Nat} (hN : 0 < N) (hb : b.Fits N)
    (j v₀ : BitVec N) :
    (casMachine fun op => viaCas j (native b sgn N op)).IsLinearizable spec (construct sgn N v₀) v₀ ∧
    (llMachine fun op => viaRmw (native b sgn N op)).IsLinearizable spec ⟨construct sgn N v₀, 0⟩ v₀ := by
  have e : construct sgn N v₀ = v₀ := Integral.ext_self _
  rw [e]
  exact ⟨cas_linearizable (viaCas_correct j (native_correct b sgn hN hb)) trivial,
    ll_linearizable (m₀ := ⟨v₀, 0⟩) (viaRmw_correct (native_correct b sgn hN hb)) trivial⟩

/-! ### C01 -/

/-- C01: every history of the CAS-loop back end — any number of calls of any of the API's operations,
in any interleaving, with torn initial snapshots and spurious CAS failures — is linearizable. -/
theorem C01_cas_loops_linearizable (b : Backend) (sgn : Bool) {N : Nat} (hN : 0 < N) (hb : b.Fits N)
    (v₀ : BitVec N) :
    (casMachine (native b sgn N)).IsLinearizable spec (construct sgn N v₀) v₀ := by
  have e : construct sgn N v₀ = v₀ := Integral.ext_self _
  rw [e]
  exact cas_linearizable (native_correct b sgn hN hb) trivial

/-- C01 for values emulated in a wider word, partial: only for the operations whose emulation is right
(see C07). -/
theorem C01_emulated_linearizable_partial (cb sgn : Bool) {N W : Nat} (hN : 0 < N) (h : N ≤ W)
    (v₀ : BitVec N) :
    (casMachine (emulatedSafe cb sgn N W)).IsLinearizable (specSafe cb sgn N) (construct sgn W v₀) v₀ := by
  have := cas_linearizable (emulated_correct cb sgn hN h) (w₀ := ext sgn W v₀) (Integral.canon_ext h v₀)
  rw [Integral.trunc_ext h] at this
  exact this

/-- C01: the same when the hardware does every operation in one instruction. -/
theorem C01_instructions_linearizable (b : Backend) (sgn : Bool) {N : Nat} (hN : 0 < N) (hb : b.Fits N)
    (v₀ : BitVec N) :
    (oneMachine (native b sgn N)).IsLinearizable spec (construct sgn N v₀) v₀ := by
  have e : construct sgn N v₀ = v₀ := Integral.ext_self _
  rw [e]
  exact one_linearizable (native_correct b sgn hN hb) trivial

/-- C01: the same on the Linux/ARM kernel-helper back end. -/
theorem C01_kernel_helper_linearizable (sgn : Bool) {N : Nat} (hN : 0 < N) (v₀ : BitVec N) :
    (khMachine (native .casOnly sgn N)).IsLinearizable spec (construct sgn N v₀) v₀ := by
  have e : construct sgn N v₀ = v₀ := Integral.ext_self _
  rw [e]
  exact kh_linearizable (native_correct .casOnly sgn hN trivial) trivial

/-- C01: the same when single instructions, CAS loops, LL/SC loops and CAS loops around LL/SC
compare-exchanges are mixed on one object. -/
theorem C01_mixed_linearizable (b : Backend) (sgn : Bool) {N : Nat} (hN : 0 < N) (hb : b.Fits N)
    (v₀ : BitVec N) :
    (mixMachine (native b sgn N)).IsLinearizable spec ⟨construct sgn N v₀, 0⟩ v₀ := by
  have e : construct sgn N v₀ = v₀ := Integral.ext_self _
  rw [e]
  exact mix_linearizable (m₀ := ⟨v₀, 0⟩) (native_correct b sgn hN hb) trivial

/-- Non-vacuity: two overlapping `fetch_add(1)` on an `atomic<int8_t>` holding 127, where the second call
starts with a torn snapshot, the first one commits in between, and the second fails, retries and
succeeds; both have returned. -/
example : ∃ sys : Sys Nat (casMachine (native .casOnly true 8)),
    Exec (casMachine (native .casOnly true 8)) (construct true 8 (127 : BitVec 8)) sys
      [.inv 0 (.fetchAdd 1), .inv 1 (.fetchAdd 1), .res 0 (.val 127), .res 1 (.val (-128))] ∧
    sys.sh = -127 := by
  have h0 := Exec.init (Id := Nat) (M := casMachine (native .casOnly true 8))
    (sh₀ := construct true 8 (127 : BitVec 8))
  have h1 := h0.invoke 0 (.fetchAdd 1) rfl
  have h2 := h1.invoke 1 (.fetchAdd 1) rfl
  have h3 := h2.step 1 (.fetchAdd 1) _ _ _ rfl (CasStep.snapshot (99 : BitVec 8) rfl)
  have h4 := h3.step 0 (.fetchAdd 1) _ _ _ rfl (CasStep.snapshot (construct true 8 (127 : BitVec 8)) rfl)
  have h5 := h4.step 0 (.fetchAdd 1) _ _ _ rfl (CasStep.loopOk rfl)
  have h6 := h5.step 1 (.fetchAdd 1) _ _ _ rfl (CasStep.loopFail rfl)
  have h7 := h6.step 1 (.fetchAdd 1) _ _ _ rfl (CasStep.loopOk rfl)
  have h8 := h7.ret 0 (.fetchAdd 1) _ _ rfl rfl
  have h9 := h8.ret 1 (.fetchAdd 1) _ _ rfl rfl
  exact ⟨_, h9, by decide⟩

/-! ### C02 -/

/-- C02: every history of the LL/SC back end is linearizable, whatever store-conditionals fail. -/
theorem C02_llsc_linearizable (b : Backend) (sgn : Bool) {N : Nat} (hN : 0 < N) (hb : b.Fits N)
    (v₀ : BitVec N) (ver : Nat) :
    (llMachine (native b sgn N)).IsLinearizable spec ⟨construct sgn N v₀, ver⟩ v₀ := by
  have e : construct sgn N v₀ = v₀ := Integral.ext_self _
  rw [e]
  exact ll_linearizable (m₀ := ⟨v₀, ver⟩) (native_correct b sgn hN hb) trivial

/-- C02 for values emulated in a wider word (ARM before v6K, PowerPC without `lbarx`, Alpha), partial: only
for the operations whose emulation is right (see C07). -/
theorem C02_emulated_linearizable_partial (sgn : Bool) {N W : Nat} (hN : 0 < N) (h : N ≤ W)
    (v₀ : BitVec N) (ver : Nat) :
    (llMachine (emulatedSafe false sgn N W)).IsLinearizable (specSafe false sgn N)
      ⟨construct sgn W v₀, ver⟩ v₀ := by
  have := ll_linearizable (emulated_correct false sgn hN h) (m₀ := ⟨ext sgn W v₀, ver⟩)
    (Integral.canon_ext h v₀)
  simp only [Integral.trunc_ext h] at this
  exact this

/-- Non-vacuity: a weak compare-exchange links, another call stores, and the store-conditional fails. -/
example : ∃ sys : Sys Nat (llMachine (native (.llsc 32 0) false 8)),
    Exec (llMachine (native (.llsc 32 0) false 8)) ⟨construct false 8 (5 : BitVec 8), 0⟩ sys
      [.inv 0 (.casWeak 5 6), .inv 1 (.store 9), .res 1 .unit, .res 0 (.cas false 5)] ∧
    sys.sh.word = 9 := by
  have h0 := Exec.init (Id := Nat) (M := llMachine (native (.llsc 32 0) false 8))
    (sh₀ := ⟨construct false 8 (5 : BitVec 8), 0⟩)
  have h1 := h0.invoke 0 (.casWeak 5 6) rfl
  have h2 := h1.step 0 (.casWeak 5 6) _ _ _ rfl (LlStep.weakLink rfl)
  have h3 := h2.invoke 1 (.store 9) rfl
  have h4 := h3.step 1 (.store 9) _ _ _ rfl (LlStep.store rfl)
  have h5 := h4.ret 1 (.store 9) _ _ rfl rfl
  have h6 := h5.step 0 (.casWeak 5 6) _ _ _ rfl (LlStep.weakScFail rfl)
  have h7 := h6.ret 0 (.casWeak 5 6) _ _ rfl rfl
  exact ⟨_, h7, by decide⟩

/-! ### C03 -/

/-- Memory in which every address holds a freshly constructed atomic and every lock is free. -/
def freshMem {Addr : Type} (sgn : Bool) (N : Nat) (v₀ : Addr → BitVec N) : LkMem Addr (BitVec N) :=
  ⟨fun a => .whole (construct sgn N (v₀ a)), fun _ => false⟩

/-- C03: every history of calls on any set of lock-based objects is linearizable with respect to
independent objects (an operation changes only the object it is applied to), for every assignment of
objects to locks, including assignments that make unrelated objects share a lock; and no call ever
touches a storage that another call is in the middle of writing. -/
theorem C03_lock_based_linearizable {Addr : Type} [DecidableEq Addr] (idx : Addr → Nat) (sgn : Bool)
    {N : Nat} (hN : 0 < N) (v₀ : Addr → BitVec N) :
    (lkMachine idx (native .locked sgn N)).IsLinearizable (specAll spec) (freshMem sgn N v₀) v₀ ∧
    ∀ (Id : Type) [DecidableEq Id] (sys : Sys Id (lkMachine idx (native .locked sgn N))) H,
      Exec (lkMachine idx (native .locked sgn N)) (freshMem sgn N v₀) sys H →
      ∀ i op, sys.calls i ≠ .run op .race := by
  have h₀ : ∀ a, ∃ w, (freshMem sgn N v₀).cell a = .whole w ∧ True := fun a => ⟨_, rfl, trivial⟩
  constructor
  · have := lk_linearizable (idx := idx) (native_correct .locked sgn hN trivial) h₀
    have e : cellAbs (fun w => w) (freshMem sgn N v₀) = v₀ := by
      funext a; exact Integral.ext_self _
    rw [e] at this
    exact this
  · intro Id _ sys H h i op hi
    exact (lk_inv (native_correct .locked sgn hN trivial) h₀ h).2.1 i op _ hi

/-- Mutual exclusion of critical sections that share a lock. -/
theorem C03_critical_sections_exclusive {Addr : Type} [DecidableEq Addr] (idx : Addr → Nat) (sgn : Bool)
    {N : Nat} (hN : 0 < N) (v₀ : Addr → BitVec N) (Id : Type) [DecidableEq Id]
    (sys : Sys Id (lkMachine idx (native .locked sgn N))) (H)
    (h : Exec (lkMachine idx (native .locked sgn N)) (freshMem sgn N v₀) sys H)
    (i j : Id) (hij : i ≠ j) (a b : Addr) (op o : Op N) (l k : LkLoc (BitVec N) (Ret N))
    (hi : sys.calls i = .run (a, op) l) (hj : sys.calls j = .run (b, o) k)
    (hl : l.crit) (hk : k.crit) : idx a ≠ idx b := by
  have h₀ : ∀ a, ∃ w, (freshMem sgn N v₀).cell a = .whole w ∧ True := fun a => ⟨_, rfl, trivial⟩
  exact (lk_inv (native_correct .locked sgn hN trivial) h₀ h).2.2 i j _ _ _ _ hij hi hj hl hk

/-- Non-vacuity: two objects sharing lock 0; the operation on the second waits until the first has
released the lock, having been in the middle of its write. -/
example : ∃ sys : Sys Nat (lkMachine (fun _ : Bool => 0) (native .locked false 16)),
    Exec (lkMachine (fun _ : Bool => 0) (native .locked false 16)) (freshMem false 16 fun _ => 1) sys
      [.inv 0 (true, .fetchAdd 4), .inv 1 (false, .load), .res 0 (.val 1), .res 1 (.val 1)] := by
  have hb : (native .locked false 16 (.fetchAdd 4)).Run 1 5 (.val 1) :=
    Integral.run_rmw.2 ⟨by decide, by rw [Ret.val.injEq]; decide⟩
  have hb' : (native .locked false 16 .load).Run 1 1 (.val 1) :=
    Integral.run_load.2 ⟨rfl, by rw [Ret.val.injEq]; decide⟩
  have h0 := Exec.init (Id := Nat) (M := lkMachine (fun _ : Bool => 0) (native .locked false 16))
    (sh₀ := freshMem false 16 fun _ => 1)
  have h1 := h0.invoke 0 (true, .fetchAdd 4) rfl
  have h2 := h1.step 0 (true, .fetchAdd 4) _ _ _ rfl (LkStep.acquire rfl)
  have h3 := h2.step 0 (true, .fetchAdd 4) _ _ _ rfl (LkStep.body rfl hb)
  have h4 := h3.step 0 (true, .fetchAdd 4) _ _ _ rfl (LkStep.writeBegin rfl)
  have h5 := h4.invoke 1 (false, .load) rfl
  have h6 := h5.step 0 (true, .fetchAdd 4) _ _ _ rfl LkStep.writeEnd
  have h7 := h6.step 0 (true, .fetchAdd 4) _ _ _ rfl LkStep.release
  have h8 := h7.step 1 (false, .load) _ _ _ rfl (LkStep.acquire rfl)
  have h9 := h8.step 1 (false, .load) _ _ _ rfl (LkStep.bodyNoWrite rfl hb')
  have h10 := h9.step 1 (false, .load) _ _ _ rfl LkStep.release
  have h11 := h10.ret 0 (true, .fetchAdd 4) _ _ rfl rfl
  have h12 := h11.ret 1 (false, .load) _ _ rfl rfl
  exact ⟨_, h12⟩

/-! ### C04, C05 -/

/-- What a compare-exchange result tells, read off a linearizable history: a successful one found
`expected`, and a failed *strong* one found a different value, which it reports. -/
theorem cas_results {σ Id Op' Ret' : Type} {sp : SeqSpec σ Op' Ret'} {s₀ : σ}
    {H : List (Event Id Op' Ret')} (h : Linearizable sp s₀ H) {i : Id} {r : Ret'}
    (hr : Event.res i r ∈ H) : ∃ op s s', Event.inv i op ∈ H ∧ sp s op s' r := by
  obtain ⟨L, s, hl, _, hinv, hres, _⟩ := h
  obtain ⟨op, hop⟩ := hres i r hr
  refine ⟨op, ?_⟩
  have : ∀ {s₁ L' s₂}, Legal sp s₁ L' s₂ → Entry.mk i op r ∈ L' → ∃ s s', sp s op s' r := by
    intro s₁ L' s₂ hl
    induction hl with
    | nil => intro h; cases h
    | cons h1 _ ih =>
      intro h
      rcases List.mem_cons.1 h with rfl | h
      · exact ⟨_, _, h1⟩
      · exact ih h
  obtain ⟨a, b, hab⟩ := this hl hop
  exact ⟨a, b, hinv _ hop, hab⟩

/-- In an execution a call is invoked with one operation only. -/
theorem inv_unique {Sh Op' Ret' Id : Type} [DecidableEq Id] {M : Machine Sh Op' Ret'} {sh₀ : Sh}
    {sys : Sys Id M} {H} (h : Exec M sh₀ sys H) {i : Id} {op op' : Op'}
    (h1 : Event.inv i op ∈ H) (h2 : Event.inv i op' ∈ H) : op = op' := by
  have hh := h.hist
  rcases (hh.inv_iff i op).1 h1 with ⟨l, e1⟩ | ⟨r, e1⟩ <;>
    rcases (hh.inv_iff i op').1 h2 with ⟨l', e2⟩ | ⟨r', e2⟩ <;> rw [e1] at e2 <;> cases e2 <;> rfl

/-- The machines that implement a lock-free atomic integer. -/
inductive LockFree where
  | instructions | casLoop | casLoopWideLoad | llsc | llscWideLoad | mixed | kernelHelper

/-- `C` is the outcome of `compare_exchange_{strong,weak}(e, d)` in some execution of machine `M` started
from a freshly constructed object. -/
def Outcome {Sh : Type} {N : Nat} (M : Machine Sh (Op N) (Ret N)) (sh₀ : Sh) (op : Op N) (r : Ret N) :
    Prop :=
  ∃ (Id : Type) (_ : DecidableEq Id) (sys : Sys Id M) (H : List (Event Id (Op N) (Ret N))) (i : Id),
    Exec M sh₀ sys H ∧ Event.inv i op ∈ H ∧ Event.res i r ∈ H

theorem outcome_spec {Sh : Type} {N : Nat} {M : Machine Sh (Op N) (Ret N)} {sh₀ : Sh} {v₀ : BitVec N}
    (hM : M.IsLinearizable spec sh₀ v₀) {op : Op N} {r : Ret N} (h : Outcome M sh₀ op r) :
    ∃ s s', spec s op s' r := by
  obtain ⟨Id, _, sys, H, i, hex, hi, hr⟩ := h
  obtain ⟨op', s, s', hi', hs⟩ := cas_results (hM Id sys H hex) hr
  rw [inv_unique hex hi hi']
  exact ⟨s, s', hs⟩

/-- The shared memory and machine of each lock-free implementation of table `b`, and its outcomes. -/
def LockFree.Outcome (k : LockFree) (b : Backend) (sgn : Bool) {N : Nat} (j v₀ : BitVec N) (op : Op N)
    (r : Ret N) : Prop :=
  match k with
  | .instructions => Concurrent.Outcome (oneMachine (native b sgn N)) (construct sgn N v₀) op r
  | .casLoop => Concurrent.Outcome (casMachine (native b sgn N)) (construct sgn N v₀) op r
  | .casLoopWideLoad =>
    Concurrent.Outcome (casMachine fun op => viaCas j (native b sgn N op)) (construct sgn N v₀) op r
  | .llsc => Concurrent.Outcome (llMachine (native b sgn N)) ⟨construct sgn N v₀, 0⟩ op r
  | .llscWideLoad =>
    Concurrent.Outcome (llMachine fun op => viaRmw (native b sgn N op)) ⟨construct sgn N v₀, 0⟩ op r
  | .mixed => Concurrent.Outcome (mixMachine (native b sgn N)) ⟨construct sgn N v₀, 0⟩ op r
  | .kernelHelper => Concurrent.Outcome (khMachine (native b sgn N)) (construct sgn N v₀) op r

theorem lockFree_spec (k : LockFree) (b : Backend) (sgn : Bool) {N : Nat} (hN : 0 < N) (hb : b.Fits N)
    (j v₀ : BitVec N) (op : Op N) (r : Ret N) (h : k.Outcome b sgn j v₀ op r) :
    ∃ s s', spec s op s' r := by
  cases k with
  | instructions => exact outcome_spec (C01_instructions_linearizable b sgn hN hb v₀) h
  | casLoop => exact outcome_spec (C01_cas_loops_linearizable b sgn hN hb v₀) h
  | casLoopWideLoad => exact outcome_spec (C12_concurrent_loads b sgn hN hb j v₀).1 h
  | llsc => exact outcome_spec (C02_llsc_linearizable b sgn hN hb v₀ 0) h
  | llscWideLoad => exact outcome_spec (C12_concurrent_loads b sgn hN hb j v₀).2 h
  | mixed => exact outcome_spec (C01_mixed_linearizable b sgn hN hb v₀) h
  | kernelHelper =>
    have e : construct sgn N v₀ = v₀ := Integral.ext_self _
    exact outcome_spec (v₀ := v₀) (by rw [e]; exact kh_linearizable (native_correct b sgn hN hb) trivial) h

/-- C04: in every execution of every lock-free implementation, a `compare_exchange_strong(e, d)` that
returns `false` reports in `expected` a value different from `e` — it found the object holding
something else, it did not fail spuriously — and one that returns `true` leaves `expected == e`. (That the
reported value was held, unchanged by the call, at an instant during the call is part of C01/C02.) -/
theorem C04_strong_not_spurious (k : LockFree) (b : Backend) (sgn : Bool) {N : Nat} (hN : 0 < N)
    (hb : b.Fits N) (j v₀ e d x : BitVec N) (ok : Bool)
    (h : k.Outcome b sgn j v₀ (.casStrong e d) (.cas ok x)) : ok = true ↔ x = e := by
  obtain ⟨s, s', hs⟩ := lockFree_spec k b sgn hN hb j v₀ _ _ h
  rcases hs with ⟨_, _, h⟩ | ⟨hne, _, h⟩
  · cases h; simp
  · cases h; simp [hne]

/-- Non-vacuity: on LL/SC, a strong compare-exchange whose store-conditional fails although the value is
as expected does not return but tries again, and succeeds. -/
example : LockFree.llsc.Outcome (.llsc 32 0) false (N := 8) 0 5 (.casStrong 5 6) (.cas true 5) := by
  have h0 := Exec.init (Id := Nat) (M := llMachine (native (.llsc 32 0) false 8))
    (sh₀ := ⟨construct false 8 (5 : BitVec 8), 0⟩)
  have h1 := h0.invoke 0 (.casStrong 5 6) rfl
  have h2 := h1.step 0 (.casStrong 5 6) _ _ _ rfl (LlStep.strongLink rfl)
  have h3 := h2.step 0 (.casStrong 5 6) _ _ _ rfl (LlStep.strongScFail rfl)
  have h4 := h3.step 0 (.casStrong 5 6) _ _ _ rfl (LlStep.strongLink rfl)
  have h5 := h4.step 0 (.casStrong 5 6) _ _ _ rfl (LlStep.strongSc rfl)
  have h6 := h5.ret 0 (.casStrong 5 6) _ _ rfl rfl
  exact ⟨Nat, inferInstance, _, _, 0, h6, by simp, by simp; rfl⟩

/-- C05: a `compare_exchange_weak(e, d)` that returns `true` found `e`; hence if it reports in `expected`
anything else it returned `false`. -/
theorem C05_weak_success_exact (k : LockFree) (b : Backend) (sgn : Bool) {N : Nat} (hN : 0 < N)
    (hb : b.Fits N) (j v₀ e d x : BitVec N) (ok : Bool)
    (h : k.Outcome b sgn j v₀ (.casWeak e d) (.cas ok x)) : x ≠ e → ok = false := by
  obtain ⟨s, s', hs⟩ := lockFree_spec k b sgn hN hb j v₀ _ _ h
  rcases hs with ⟨_, _, h⟩ | ⟨_, h⟩
  · cases h; simp
  · cases h; simp

/-- C05: the effect of one weak compare-exchange: either it stores `desired` over a value equal to
`expected`, or it changes nothing and `expected` receives the value held. -/
theorem C05_weak_effect (b : Backend) (sgn : Bool) {N : Nat} (hN : 0 < N) (hb : b.Fits N)
    (e d w w' : BitVec N) (r : Ret N) (h : (native b sgn N (.casWeak e d)).Run w w' r) :
    (w = e ∧ w' = d ∧ r = .cas true e) ∨ (w' = w ∧ r = .cas false w) :=
  (native_correct b sgn hN hb _ _ _ _ trivial h).2

/-- Losers lose: starting from `e`, of any number of concurrent `compare_exchange` (weak or strong)
calls from `e` to values different from `e`, with no other operation but loads around, at most one
succeeds. -/
theorem C05_at_most_one_winner {N : Nat} {Id : Type} (e : BitVec N) (H : List (Event Id (Op N) (Ret N)))
    (hlin : Linearizable spec e H)
    (hops : ∀ i op, Event.inv i op ∈ H →
      op = .load ∨ ∃ d, d ≠ e ∧ (op = .casWeak e d ∨ op = .casStrong e d))
    (i₁ i₂ : Id) (x₁ x₂ : BitVec N) (h₁ : Event.res i₁ (.cas true x₁) ∈ H)
    (h₂ : Event.res i₂ (.cas true x₂) ∈ H) : i₁ = i₂ := by
  obtain ⟨L, s, hl, hnd, hinv, hres, _⟩ := hlin
  obtain ⟨o₁, m₁⟩ := hres _ _ h₁
  obtain ⟨o₂, m₂⟩ := hres _ _ h₂
  have hops' : ∀ en ∈ L, en.op = .load ∨ ∃ d, d ≠ e ∧ (en.op = .casWeak e d ∨ en.op = .casStrong e d) :=
    fun en hen => hops _ _ (hinv en hen)
  clear hres h₁ h₂ hinv hops
  -- after the first success the value never equals `e` again, so there is no further success
  have dead : ∀ {s₁ s₂} {L' : List (Entry Id (Op N) (Ret N))}, Legal spec s₁ L' s₂ → s₁ ≠ e →
      (∀ en ∈ L', en.op = .load ∨ ∃ d, d ≠ e ∧ (en.op = .casWeak e d ∨ en.op = .casStrong e d)) →
      ∀ i o x, Entry.mk i o (.cas true x) ∉ L' := by
    intro s₁ s₂ L' hl
    induction hl with
    | nil => intros; simp
    | @cons a b c en L'' h1 _ ih =>
      intro hne hop i o x hm
      have hb : b = a ∧ en.ret ≠ .cas true x := by
        rcases hop en (by simp) with h | ⟨d, hd, h | h⟩
        · rw [h] at h1; obtain ⟨rfl, h⟩ := h1; exact ⟨rfl, by rw [h]; simp⟩
        · rw [h] at h1
          rcases h1 with ⟨h, _⟩ | ⟨rfl, h⟩
          · exact absurd h hne
          · exact ⟨rfl, by rw [h]; simp⟩
        · rw [h] at h1
          rcases h1 with ⟨h, _⟩ | ⟨_, rfl, h⟩
          · exact absurd h hne
          · exact ⟨rfl, by rw [h]; simp⟩
      rcases List.mem_cons.1 hm with rfl | hm
      · exact hb.2 rfl
      · exact ih (hb.1 ▸ hne) (fun en hen => hop en (List.mem_cons_of_mem _ hen)) i o x hm
  have main : ∀ {s₁ L' s₂}, Legal spec s₁ L' s₂ → s₁ = e → (L'.map Entry.id).Nodup →
      (∀ en ∈ L', en.op = .load ∨ ∃ d, d ≠ e ∧ (en.op = .casWeak e d ∨ en.op = .casStrong e d)) →
      Entry.mk i₁ o₁ (.cas true x₁) ∈ L' → Entry.mk i₂ o₂ (.cas true x₂) ∈ L' → i₁ = i₂ := by
    intro s₁ L' s₂ hl
    induction hl with
    | nil => intro _ _ _ h; cases h
    | @cons a b c en L'' h1 hrest ih =>
      intro ha hnd hop n₁ n₂
      have hop' := fun en hen => hop en (List.mem_cons_of_mem _ hen)
      rcases List.mem_cons.1 n₁ with h₁ | m₁
      · rcases List.mem_cons.1 n₂ with h₂ | m₂
        · rw [← h₁] at h₂; cases h₂; rfl
        · exfalso
          subst h₁
          have hb : b ≠ e := by
            rcases hop _ (List.mem_cons_self ..) with h | ⟨d, hd, h | h⟩ <;> rw [h] at h1
            · obtain ⟨_, h⟩ := h1; cases h
            · rcases h1 with ⟨_, rfl, _⟩ | ⟨_, h⟩
              · exact hd
              · cases h
            · rcases h1 with ⟨_, rfl, _⟩ | ⟨_, _, h⟩
              · exact hd
              · cases h
          exact dead hrest hb hop' _ _ _ m₂
      · by_cases hb : b = e
        · rcases List.mem_cons.1 n₂ with h₂ | m₂
          · subst h₂
            exfalso
            rcases hop _ (List.mem_cons_self ..) with h | ⟨d, hd, h | h⟩ <;> rw [h] at h1
            · obtain ⟨_, h⟩ := h1; cases h
            · rcases h1 with ⟨_, rfl, _⟩ | ⟨_, h⟩
              · exact hd hb
              · cases h
            · rcases h1 with ⟨_, rfl, _⟩ | ⟨_, _, h⟩
              · exact hd hb
              · cases h
          · exact ih hb (List.nodup_cons.1 (by simpa using hnd)).2 hop' m₁ m₂
        · exact absurd m₁ (dead hrest hb hop' _ _ _)
  exact main hl rfl hnd hops' m₁ m₂

/-- Non-vacuity of `C05_at_most_one_winner`: a history with one winner and one loser is linearizable. -/
example : Linearizable (Id := Nat) spec (0 : BitVec 8)
    [.inv 0 (.casStrong 0 1), .inv 1 (.casStrong 0 2), .res 1 (.cas true 0), .res 0 (.cas false 2)] := by
  have w1 : (native .intrinsics false 8 (.casStrong 0 2)).Run 0 2 (.cas true 0) :=
    Integral.run_strong.2 (.inl ⟨by decide, by decide, by rw [Ret.cas.injEq]; decide⟩)
  have w2 : (native .intrinsics false 8 (.casStrong 0 1)).Run 2 2 (.cas false 2) :=
    Integral.run_strong.2 (.inr ⟨by decide, rfl, by rw [Ret.cas.injEq]; decide⟩)
  have h0 := Exec.init (Id := Nat) (M := oneMachine (native .intrinsics false 8)) (sh₀ := (0 : BitVec 8))
  have h1 := h0.invoke 0 (.casStrong 0 1) rfl
  have h2 := h1.invoke 1 (.casStrong 0 2) rfl
  have h3 := h2.step 1 (.casStrong 0 2) _ _ _ rfl ⟨rfl, _, w1, rfl⟩
  have h4 := h3.step 0 (.casStrong 0 1) _ _ _ rfl ⟨rfl, _, w2, rfl⟩
  have h5 := h4.ret 1 (.casStrong 0 2) _ _ rfl rfl
  have h6 := h5.ret 0 (.casStrong 0 1) _ _ rfl rfl
  exact C01_instructions_linearizable .intrinsics false (N := 8) (by decide) trivial 0 Nat _ _ h6

/-- C04 and C05 for lock-based objects (there the weak form is the strong form,
core_operations_emulated.hpp:139–152). -/
theorem C04_lock_based {Addr : Type} [DecidableEq Addr] (idx : Addr → Nat) (sgn : Bool) {N : Nat}
    (hN : 0 < N) (v₀ : Addr → BitVec N) {Id : Type} [DecidableEq Id]
    (sys : Sys Id (lkMachine idx (native .locked sgn N))) (H)
    (h : Exec (lkMachine idx (native .locked sgn N)) (freshMem sgn N v₀) sys H)
    (i : Id) (a : Addr) (e d x : BitVec N) (ok : Bool) (hr : Event.res i (.cas ok x) ∈ H) :
    (Event.inv i (a, .casStrong e d) ∈ H → (ok = true ↔ x = e)) ∧
    (Event.inv i (a, .casWeak e d) ∈ H → x ≠ e → ok = false) := by
  obtain ⟨op, s, s', hi, hs⟩ :=
    cas_results ((C03_lock_based_linearizable idx sgn hN v₀).1 Id sys H h) hr
  constructor
  · intro hinv
    have := inv_unique h hi hinv
    subst this
    rcases hs.1 with ⟨_, _, h⟩ | ⟨hne, _, h⟩
    · cases h; simp
    · cases h; simp [hne]
  · intro hinv
    have := inv_unique h hi hinv
    subst this
    rcases hs.1 with ⟨_, _, h⟩ | ⟨_, h⟩
    · cases h; simp
    · cases h; simp

/-! ### Narrow operands in wide registers -/

/-- The comparison of a 1- or 2-byte compare-exchange on a machine with `R`-bit registers: the loaded
value is zero-extended; `expected` sits in a register whose upper bits `up` are unspecified by the ABI. -/
def regOf (R : Nat) {W : Nat} (up : BitVec R) (e : BitVec W) : BitVec R := (up <<< W) ||| e.setWidth R

/-- ARM (core_arch_ops_gcc_arm.hpp:392–450: `zero_extend(expected)` before the loop) and AArch64/AArch32
(`uxtb`/`uxth` in the asm, core_arch_ops_gcc_aarch64.hpp:150–215): the register is zero-extended first. -/
def armNarrowEq (R : Nat) {W : Nat} (up : BitVec R) (w e : BitVec W) : Bool :=
  w.setWidth R == ((regOf R up e).setWidth W).setWidth R

/-- PowerPC (core_arch_ops_gcc_ppc.hpp:419–480, `cmpw %0,%2`): the whole registers are compared. -/
def ppcNarrowEq (R : Nat) {W : Nat} (up : BitVec R) (w e : BitVec W) : Bool :=
  w.setWidth R == regOf R up e

/-- C04/C05 for narrow operands: the comparison made by the ARM family is equality of the values,
whatever the upper register bits. -/
theorem C04_narrow_compare_arm {R W : Nat} (h : W ≤ R) (up : BitVec R) (w e : BitVec W) :
    armNarrowEq R up w e = true ↔ w = e := by
  unfold armNarrowEq regOf
  rw [Integral.lo_reg h, beq_iff_eq]
  constructor
  · intro h'
    have := congrArg (fun x => x.setWidth W) h'
    simpa [Integral.lo_zx h] using this
  · rintro rfl; rfl

/-- On PowerPC it is equality provided the compiler keeps the argument register zero-extended … -/
theorem C04_narrow_compare_ppc_partial {R W : Nat} (h : W ≤ R) (w e : BitVec W) :
    ppcNarrowEq R (0#R) w e = true ↔ w = e := by
  unfold ppcNarrowEq regOf
  simp only [BitVec.zero_shiftLeft, BitVec.zero_or, beq_iff_eq]
  constructor
  · intro h'
    have := congrArg (fun x => x.setWidth W) h'
    simpa [Integral.lo_zx h] using this
  · rintro rfl; rfl

/-- … which nothing in the asm guarantees: with other upper bits an equal value compares different, so a
strong compare-exchange would fail spuriously. -/
theorem C04_narrow_compare_ppc_violated :
    ¬ ∀ (up : BitVec 32) (w e : BitVec 8), ppcNarrowEq 32 up w e = true ↔ w = e := by
  intro h
  have := (h 1 5 5).2 rfl
  revert this; decide

end Verif.Concurrent
