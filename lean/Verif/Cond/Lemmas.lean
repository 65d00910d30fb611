import Verif.Registry.Props
import Verif.Cond.Spec
import Mathlib.Data.List.Nodup

/-
The invariant of the lock pool on system mutexes and condition variables, and its preservation.
-/

namespace Verif.Cond

open Verif (upd upd_same upd_other)
open Verif.Registry (Cfg Pool Waiter Id WaitsOn)

variable {w : Nat} {V : Type} {c : Cfg w}

structure Inv (c : Cfg w) (s : State w V) : Prop where
  own : ∀ k t, s.owner k = some t ↔ holds c (s.pc t) = some k
  reg : Registry.Reach c s.pool
  wt : ∀ x, x ∈ s.pool.waiters ↔ waiting (s.pc x.tid) = some x
  wtid : ∀ t x, waiting (s.pc t) = some x → x.tid = t
  nd : s.pool.waiters.Nodup
  sl : ∀ t x old m, s.pc t = .asleep x old m → x.handle ≠ none
  sig : ∀ t all a id, s.pc t = .nSig all a id → WaitsOn s.pool a id

/-- Positions that the invariant does not tell apart. -/
structure Alike (c : Cfg w) (q q' : PC w V) : Prop where
  holds : holds c q' = holds c q
  waiting : waiting q' = waiting q
  sl : ∀ x old m, q' = .asleep x old m → q = .asleep x old m
  sig : ∀ all a id, q' = .nSig all a id → q = .nSig all a id

theorem Alike.refl (q : PC w V) : Alike c q q := ⟨rfl, rfl, fun _ _ _ h => h, fun _ _ _ h => h⟩

theorem wake_alike (P : Nat → Prop) [DecidablePred P] (pc : Nat → PC w V) (t : Nat) : Alike c (pc t) (wake P pc t) := by
  unfold wake
  cases h : pc t <;> try exact Alike.refl _
  rename_i x old m
  by_cases hp : P t
  · simp only [hp, if_true]
    exact ⟨rfl, rfl, fun _ _ _ h => by simp at h, fun _ _ _ h => by simp at h⟩
  · simp only [hp, if_false]; exact Alike.refl _

theorem own_same {s : State w V} (h : Inv c s) {t : Nat} {pc' : Nat → PC w V}
    (ho : ∀ u, u ≠ t → Alike c (s.pc u) (pc' u)) (ht : holds c (pc' t) = holds c (s.pc t)) (k u : Nat) :
    s.owner k = some u ↔ holds c (pc' u) = some k := by
  rw [h.own]
  by_cases hu : u = t
  · subst hu; rw [ht]
  · rw [(ho u hu).holds]

theorem own_acq {s : State w V} (h : Inv c s) {t k : Nat} {pc' : Nat → PC w V}
    (ho : ∀ u, u ≠ t → Alike c (s.pc u) (pc' u)) (hf : s.owner k = none) (h0 : holds c (s.pc t) = none)
    (ht : holds c (pc' t) = some k) (j u : Nat) :
    upd s.owner k (some t) j = some u ↔ holds c (pc' u) = some j := by
  by_cases hj : j = k
  · subst hj
    rw [upd_same]
    by_cases hu : u = t
    · subst hu; simp [ht]
    · rw [(ho u hu).holds, ← h.own, hf]; simp; exact fun e => hu e.symm
  · rw [upd_other _ _ hj]
    by_cases hu : u = t
    · subst hu; rw [h.own, h0, ht]; simp; exact fun e => hj e.symm
    · rw [(ho u hu).holds, h.own]

theorem own_rel {s : State w V} (h : Inv c s) {t k : Nat} {pc' : Nat → PC w V}
    (ho : ∀ u, u ≠ t → Alike c (s.pc u) (pc' u)) (h0 : holds c (s.pc t) = some k)
    (ht : holds c (pc' t) = none) (j u : Nat) :
    upd s.owner k none j = some u ↔ holds c (pc' u) = some j := by
  have hk := (h.own k t).2 h0
  by_cases hj : j = k
  · subst hj
    rw [upd_same]
    by_cases hu : u = t
    · subst hu; simp [ht]
    · rw [(ho u hu).holds, ← h.own, hk]; simp; exact fun e => hu e.symm
  · rw [upd_other _ _ hj]
    by_cases hu : u = t
    · subst hu; rw [h.own, h0, ht]; simp; exact fun e => hj e.symm
    · rw [(ho u hu).holds, h.own]

/-- The registry's part of the invariant. -/
structure RegInv (c : Cfg w) (pool : Pool w) (pc : Nat → PC w V) : Prop where
  reg : Registry.Reach c pool
  wt : ∀ x, x ∈ pool.waiters ↔ waiting (pc x.tid) = some x
  wtid : ∀ t x, waiting (pc t) = some x → x.tid = t
  nd : pool.waiters.Nodup
  sl : ∀ t x old m, pc t = .asleep x old m → x.handle ≠ none
  sig : ∀ t all a id, pc t = .nSig all a id → WaitsOn pool a id

theorem Inv.regInv {s : State w V} (h : Inv c s) : RegInv c s.pool s.pc := ⟨h.reg, h.wt, h.wtid, h.nd, h.sl, h.sig⟩

theorem RegInv.inv {owner : Nat → Option Nat} {pool : Pool w} {val : BitVec w → V} {pc : Nat → PC w V}
    (h : RegInv c pool pc) (ho : ∀ k t, owner k = some t ↔ holds c (pc t) = some k) : Inv c ⟨owner, pool, val, pc⟩ :=
  ⟨ho, h.reg, h.wt, h.wtid, h.nd, h.sl, h.sig⟩

/-- The waiters do not change. -/
theorem reg_same {pool pool' : Pool w} {pc pc' : Nat → PC w V} (h : RegInv c pool pc) {t : Nat}
    (ho : ∀ u, u ≠ t → Alike c (pc u) (pc' u)) (ht : waiting (pc' t) = waiting (pc t))
    (hsl : ∀ x old m, pc' t = .asleep x old m → x.handle ≠ none)
    (hsig : ∀ all a id, pc' t = .nSig all a id → WaitsOn pool a id)
    (hr : Registry.Reach c pool') (hw : pool'.waiters = pool.waiters) : RegInv c pool' pc' := by
  have hwt : ∀ u, waiting (pc' u) = waiting (pc u) := by
    intro u
    by_cases hu : u = t
    · subst hu; exact ht
    · exact (ho u hu).waiting
  refine ⟨hr, fun x => by rw [hw, h.wt, hwt], fun u x hx => h.wtid u x (by rw [← hwt]; exact hx), by rw [hw]; exact h.nd, ?_, ?_⟩
  · intro u x old m e
    by_cases hu : u = t
    · subst hu; exact hsl _ _ _ e
    · exact h.sl u x old m ((ho u hu).sl _ _ _ e)
  · intro u all a id e
    by_cases hu : u = t
    · subst hu
      obtain ⟨x, h1, h2⟩ := hsig _ _ _ e
      exact ⟨x, by rw [hw]; exact h1, h2⟩
    · obtain ⟨x, h1, h2⟩ := h.sig u all a id ((ho u hu).sig _ _ _ e)
      exact ⟨x, by rw [hw]; exact h1, h2⟩

/-- A thread registers. -/
theorem reg_add (hg : c.Good) {pool pool' : Pool w} {pc : Nat → PC w V} (h : RegInv c pool pc) {t : Nat} {a : BitVec w}
    {bufOk : Bool} {ws : Option Id} {r : Option Id} {q : PC w V}
    (ha : (Registry.Op.register t a bufOk ws).Allowed pool)
    (he : Registry.step c pool (.register t a bufOk ws) = some (pool', .handle r))
    (h0 : waiting (pc t) = none) (hq : waiting q = some ⟨t, a, r⟩) (hsl : ∀ x old m, q ≠ .asleep x old m)
    (hsig : ∀ all a id, q ≠ .nSig all a id) : RegInv c pool' (upd pc t q) := by
  obtain ⟨r', e1, e2, _⟩ := Registry.C28_register hg h.reg ha he
  cases e1
  refine ⟨.step h.reg ha he, ?_, ?_, ?_, ?_, ?_⟩
  · intro x
    rw [e2, List.mem_cons, h.wt]
    by_cases hx : x.tid = t
    · rw [hx, upd_same, hq, h0]; simp; exact eq_comm
    · rw [upd_other _ _ hx]
      constructor
      · rintro (e | e)
        · subst e; exact absurd rfl hx
        · exact e
      · exact .inr
  · intro u x e
    by_cases hu : u = t
    · subst hu; rw [upd_same, hq] at e; cases e; rfl
    · rw [upd_other _ _ hu] at e; exact h.wtid u x e
  · rw [e2, List.nodup_cons]
    refine ⟨fun hm => ?_, h.nd⟩
    have := (h.wt _).1 hm
    rw [h0] at this; cases this
  · intro u x old m e
    by_cases hu : u = t
    · subst hu; rw [upd_same] at e; exact absurd e (hsl _ _ _)
    · rw [upd_other _ _ hu] at e; exact h.sl u x old m e
  · intro u all b id e
    by_cases hu : u = t
    · subst hu; rw [upd_same] at e; exact absurd e (hsig _ _ _)
    · rw [upd_other _ _ hu] at e
      obtain ⟨x, h1, h2⟩ := h.sig u all b id e
      exact ⟨x, by rw [e2]; exact List.mem_cons_of_mem _ h1, h2⟩

/-- A thread releases its registration. -/
theorem reg_remove (hg : c.Good) {pool pool' : Pool w} {pc : Nat → PC w V} (h : RegInv c pool pc) {t : Nat}
    {x : Waiter w} {o : Registry.Obs} {q : PC w V} (h0 : waiting (pc t) = some x)
    (he : Registry.step c pool (.unregister x) = some (pool', o)) (hq : waiting q = none)
    (hsl : ∀ x old m, q ≠ .asleep x old m) (hsig : ∀ all a id, q ≠ .nSig all a id)
    (hx : ∀ u, u ≠ t → ∀ all a id, pc u = .nSig all a id → x.addr ≠ a) : RegInv c pool' (upd pc t q) := by
  have hxt := h.wtid t x h0
  have hm : x ∈ pool.waiters := (h.wt x).2 (by rw [hxt]; exact h0)
  have e2 := (Registry.C28_unregister hg h.reg hm he 0 0).1
  refine ⟨.step (op := .unregister x) h.reg hm he, ?_, ?_, ?_, ?_, ?_⟩
  · intro y
    rw [e2, h.nd.mem_erase_iff, h.wt]
    by_cases hy : y.tid = t
    · rw [hy, upd_same, hq, h0]; simp; exact fun h1 h2 => h1 h2.symm
    · rw [upd_other _ _ hy]
      constructor
      · exact fun e => e.2
      · exact fun e => ⟨fun e' => hy (by rw [e', hxt]), e⟩
  · intro u y e
    by_cases hu : u = t
    · subst hu; rw [upd_same, hq] at e; cases e
    · rw [upd_other _ _ hu] at e; exact h.wtid u y e
  · rw [e2]; exact h.nd.erase _
  · intro u y old m e
    by_cases hu : u = t
    · subst hu; rw [upd_same] at e; exact absurd e (hsl _ _ _)
    · rw [upd_other _ _ hu] at e; exact h.sl u y old m e
  · intro u all b id e
    by_cases hu : u = t
    · subst hu; rw [upd_same] at e; exact absurd e (hsig _ _ _)
    · rw [upd_other _ _ hu] at e
      obtain ⟨y, h1, h2, h3⟩ := h.sig u all b id e
      refine ⟨y, ?_, h2, h3⟩
      rw [e2, h.nd.mem_erase_iff]
      exact ⟨fun e' => hx u hu all b id e (by rw [← e', h2]), h1⟩

theorem alike_upd (pc : Nat → PC w V) (t : Nat) (q : PC w V) (u : Nat) (hu : u ≠ t) : Alike c (pc u) (upd pc t q u) := by
  rw [upd_other _ _ hu]; exact Alike.refl _

theorem alike_wake_upd (P : Nat → Prop) [DecidablePred P] (pc : Nat → PC w V) (t : Nat) (q : PC w V) (u : Nat)
    (hu : u ≠ t) : Alike c (pc u) (upd (wake P pc) t q u) := by
  rw [upd_other _ _ hu]; exact wake_alike _ _ _

/-- A move of one thread that changes neither locks nor registry. -/
theorem inv_goto {s : State w V} (h : Inv c s) {t : Nat} {q : PC w V} {val : BitVec w → V}
    (h1 : holds c q = holds c (s.pc t)) (h2 : waiting q = waiting (s.pc t)) (h3 : ∀ x old m, q ≠ .asleep x old m)
    (h4 : ∀ all a id, q ≠ .nSig all a id) : Inv c ⟨s.owner, s.pool, val, upd s.pc t q⟩ :=
  RegInv.inv (reg_same h.regInv (alike_upd _ _ _) (by rw [upd_same]; exact h2)
    (fun _ _ _ e => by rw [upd_same] at e; exact absurd e (h3 _ _ _))
    (fun _ _ _ e => by rw [upd_same] at e; exact absurd e (h4 _ _ _)) h.reg rfl)
    (own_same h (alike_upd _ _ _) (by rw [upd_same]; exact h1))

theorem inv_acq {s : State w V} (h : Inv c s) {t k : Nat} {q : PC w V} (hf : s.owner k = none)
    (h0 : holds c (s.pc t) = none)
    (h1 : holds c q = some k) (h2 : waiting q = waiting (s.pc t)) (h3 : ∀ x old m, q ≠ .asleep x old m)
    (h4 : ∀ all a id, q ≠ .nSig all a id) : Inv c ⟨upd s.owner k (some t), s.pool, s.val, upd s.pc t q⟩ :=
  RegInv.inv (reg_same h.regInv (alike_upd _ _ _) (by rw [upd_same]; exact h2)
    (fun _ _ _ e => by rw [upd_same] at e; exact absurd e (h3 _ _ _))
    (fun _ _ _ e => by rw [upd_same] at e; exact absurd e (h4 _ _ _)) h.reg rfl)
    (own_acq h (alike_upd _ _ _) hf h0 (by rw [upd_same]; exact h1))

theorem inv_rel {s : State w V} (h : Inv c s) {t k : Nat} {q : PC w V} (h0 : holds c (s.pc t) = some k)
    (h1 : holds c q = none) (h2 : waiting q = waiting (s.pc t)) (h3 : ∀ x old m, q = .asleep x old m → x.handle ≠ none)
    (h4 : ∀ all a id, q ≠ .nSig all a id) : Inv c ⟨upd s.owner k none, s.pool, s.val, upd s.pc t q⟩ :=
  RegInv.inv (reg_same h.regInv (alike_upd _ _ _) (by rw [upd_same]; exact h2)
    (fun _ _ _ e => by rw [upd_same] at e; exact h3 _ _ _ e)
    (fun _ _ _ e => by rw [upd_same] at e; exact absurd e (h4 _ _ _)) h.reg rfl)
    (own_rel h (alike_upd _ _ _) h0 (by rw [upd_same]; exact h1))

theorem use_pool {pool pool' : Pool w} {x : Waiter w} {o : Registry.Obs}
    (h : Registry.step c pool (.use x) = some (pool', o)) : pool' = pool := by
  simp only [Registry.step] at h
  split at h
  · cases h; rfl
  · split at h
    · cases h
    · cases h; rfl

theorem notify_pool {pool pool' : Pool w} {a : BitVec w} {o : Registry.Obs}
    (h : Registry.step c pool (.notify a) = some (pool', o)) : pool' = pool := by
  simp only [Registry.step] at h
  split at h
  · cases h
  · cases h; rfl
  · split at h
    · cases h
    · cases h; rfl

theorem cleanup_waiters {pool pool' : Pool w} {k : Nat} {o : Registry.Obs}
    (h : Registry.step c pool (.cleanup k) = some (pool', o)) : pool'.waiters = pool.waiters := by
  simp only [Registry.step] at h
  split at h
  · cases h
  · cases h; rfl

/-- Two threads do not hold the same lock. -/
theorem Inv.excl {s : State w V} (h : Inv c s) {t u k : Nat} (ht : holds c (s.pc t) = some k)
    (hu : holds c (s.pc u) = some k) : t = u := by
  have h1 := (h.own k t).2 ht
  rw [(h.own k u).2 hu] at h1
  cases h1; rfl

theorem inv_start (val : BitVec w → V) : Inv c (State.start val) := by
  refine ⟨?_, .init, ?_, ?_, List.nodup_nil, ?_, ?_⟩ <;> intros <;> simp_all [State.start, holds, waiting, Registry.Pool.init]

theorem inv_step (hg : c.Good) {s s' : State w V} {t : Nat} (h : Inv c s) (hs : Step c s t s') : Inv c s' := by
  cases hs with
  | wBegin a old m hp hm => exact inv_goto h (by simp [hp, holds]) (by simp [hp, waiting]) (by simp) (by simp)
  | wBeginStale a l hp => exact inv_goto h (by simp [hp, holds]) (by simp [hp, waiting]) (by simp) (by simp)
  | wLock hp hf =>
    exact inv_acq h hf (by simp [hp, holds]) (by simp [holds]) (by simp [hp, waiting]) (by simp) (by simp)
  | wReg bufOk ws pool r hp ha he =>
    rename_i a old m
    by_cases hm : m.isStale = true
    · simp only [hm, if_true]
      exact RegInv.inv (reg_add hg h.regInv ha he (by simp [hp, waiting]) (by simp [waiting]) (by simp) (by simp))
        (own_same h (alike_upd _ _ _) (by rw [upd_same]; simp [hp, holds]))
    · simp only [hm]
      exact RegInv.inv (reg_add hg h.regInv ha he (by simp [hp, waiting]) (by simp [waiting]) (by simp) (by simp))
        (own_same h (alike_upd _ _ _) (by rw [upd_same]; simp [hp, holds]))
  | wSame hp hv => exact inv_goto h (by simp [hp, holds]) (by simp [hp, waiting]) (by simp) (by simp)
  | wDiff hp hv => exact inv_goto h (by simp [hp, holds]) (by simp [hp, waiting]) (by simp) (by simp)
  | wGiveUp hp hv => exact inv_goto h (by simp [hp, holds]) (by simp [hp, waiting]) (by simp) (by simp)
  | wGiveUpStale hp => exact inv_goto h (by simp [hp, holds]) (by simp [hp, waiting]) (by simp) (by simp)
  | wSleep pool o hp hh he =>
    cases use_pool he
    refine inv_rel h (by simp [hp, holds]) (by simp [holds]) (by simp [hp, waiting]) ?_ (by simp)
    intro x old m e; cases e; simp [hh]
  | wYield hp hh =>
    exact inv_rel h (by simp [hp, holds]) (by simp [holds]) (by simp [hp, waiting]) (by simp) (by simp)
  | wWake timeout hp => exact inv_goto h (by simp [hp, holds]) (by simp [hp, waiting]) (by simp) (by simp)
  | wRelock hp hf =>
    rcases hp with ⟨_, hp⟩ | hp <;>
      exact inv_acq h hf (by simp [hp, holds]) (by simp [holds]) (by simp [hp, waiting]) (by simp) (by simp)
  | wAgain hp hl hf =>
    exact inv_acq h hf (by simp [hp, holds]) (by simp [holds]) (by simp [hp, waiting]) (by simp) (by simp)
  | wFree pool o hp he =>
    rename_i x
    refine RegInv.inv (reg_remove hg h.regInv (by simp [hp, waiting]) he (by simp [waiting]) (by simp) (by simp) ?_)
      (own_same h (alike_upd _ _ _) (by rw [upd_same]; simp [hp, holds]))
    intro u hu all a id e ea
    exact hu (h.excl (k := c.lockOf a) (by simp [e, holds]) (by simp [hp, holds, ea]))
  | unl hp => exact inv_rel h (by simp [hp, holds]) (by simp [holds]) (by simp [hp, waiting]) (by simp) (by simp)
  | nBegin all a hp => exact inv_goto h (by simp [hp, holds]) (by simp [hp, waiting]) (by simp) (by simp)
  | nLock hp hf =>
    exact inv_acq h hf (by simp [hp, holds]) (by simp [holds]) (by simp [hp, waiting]) (by simp) (by simp)
  | nNone pool hp he =>
    cases notify_pool he
    exact inv_goto h (by simp [hp, holds]) (by simp [hp, waiting]) (by simp) (by simp)
  | nFind pool id hp he =>
    rename_i all a
    cases notify_pool he
    obtain ⟨r, e, hr⟩ := Registry.C28_notify_exact hg h.reg a
    rw [he] at e
    cases e
    refine RegInv.inv (reg_same h.regInv (alike_upd _ _ _) (by rw [upd_same]; simp [hp, waiting]) ?_ ?_ h.reg rfl)
      (own_same h (alike_upd _ _ _) (by rw [upd_same]; simp [hp, holds]))
    · intro x old m e; rw [upd_same] at e; cases e
    · intro all' a' id' e; rw [upd_same] at e; cases e; exact (hr id).1 rfl
  | nAll P hp h1 h2 =>
    refine RegInv.inv (reg_same h.regInv (alike_wake_upd _ _ _ _) (by rw [upd_same]; simp [hp, waiting]) ?_ ?_ h.reg rfl)
      (own_same h (alike_wake_upd _ _ _ _) (by rw [upd_same]; simp [hp, holds])) <;>
      (intro _ _ _ e; rw [upd_same] at e; cases e)
  | nOne P hp h1 h2 =>
    refine RegInv.inv (reg_same h.regInv (alike_wake_upd _ _ _ _) (by rw [upd_same]; simp [hp, waiting]) ?_ ?_ h.reg rfl)
      (own_same h (alike_wake_upd _ _ _ _) (by rw [upd_same]; simp [hp, holds])) <;>
      (intro _ _ _ e; rw [upd_same] at e; cases e)
  | store a v hp => exact ⟨h.own, h.reg, h.wt, h.wtid, h.nd, h.sl, h.sig⟩
  | sBegin a v hp => exact inv_goto h (by simp [hp, holds]) (by simp [hp, waiting]) (by simp) (by simp)
  | sLock hp hf =>
    exact inv_acq h hf (by simp [hp, holds]) (by simp [holds]) (by simp [hp, waiting]) (by simp) (by simp)
  | sWrite hp => exact inv_goto h (by simp [hp, holds]) (by simp [hp, waiting]) (by simp) (by simp)
  | cBegin k hp => exact inv_goto h (by simp [hp, holds]) (by simp [hp, waiting]) (by simp) (by simp)
  | cLock hp hf =>
    exact inv_acq h hf (by simp [hp, holds]) (by simp [holds]) (by simp [hp, waiting]) (by simp) (by simp)
  | cHold pool o hp he =>
    rename_i k
    refine RegInv.inv (reg_same h.regInv (alike_upd _ _ _) (by rw [upd_same]; simp [hp, waiting]) ?_ ?_
      (.step (op := .cleanup k) h.reg trivial he) (cleanup_waiters he))
      (own_same h (alike_upd _ _ _) (by rw [upd_same]; simp [hp, holds])) <;>
      (intro _ _ _ e; rw [upd_same] at e; cases e)

theorem inv_reach (hg : c.Good) {s : State w V} (h : Reach c s) : Inv c s := by
  induction h with
  | start val => exact inv_start val
  | step _ hs ih => exact inv_step hg ih hs

theorem Exec.reach {n : Nat} (E : Exec w V c n) (i : Nat) (hi : i ≤ n) : Reach c (E.st i) := by
  induction i with
  | zero => rw [E.start]; exact .start _
  | succ i ih =>
    obtain ⟨t, ht⟩ := E.step i (by omega)
    exact .step (ih (by omega)) ht

/-- A step of another thread leaves a thread where it is, except that it may wake it. -/
theorem pc_other {s s' : State w V} {t u : Nat} (hs : Step c s t s') (hu : u ≠ t) :
    s'.pc u = s.pc u ∨ ∃ x old m id all a, s.pc u = .asleep x old m ∧ s'.pc u = .relock x old m false ∧
      x.handle = some id ∧ s.pc t = .nSig all a id := by
  have key : ∀ q, upd s.pc t q u = s.pc u := fun q => upd_other _ _ hu
  have kw : ∀ (P : Nat → Prop) [DecidablePred P] q id all a, s.pc t = .nSig all a id →
      (∀ v, P v → SleepsOn s id v) →
      upd (wake P s.pc) t q u = s.pc u ∨ ∃ x old m id all a, s.pc u = .asleep x old m ∧
        upd (wake P s.pc) t q u = .relock x old m false ∧ x.handle = some id ∧ s.pc t = .nSig all a id := by
    intro P _ q id all a hp h2
    rw [upd_other _ _ hu]
    by_cases hP : P u
    · obtain ⟨x, old, m, e, hx⟩ := h2 u hP
      exact .inr ⟨x, old, m, id, all, a, e, by simp [wake, e, hP], hx, hp⟩
    · left
      unfold wake
      cases s.pc u <;> simp [hP]
  cases hs with
  | nAll P hp h1 h2 => exact kw P _ _ _ _ hp h2
  | nOne P hp h1 h2 => exact kw P _ _ _ _ hp h2
  | store a v hp => exact .inl rfl
  | _ => exact .inl (key _)

/-- The effect of the notifying step: what was found, and who is woken. -/
theorem notify_effect (hg : c.Good) {s s' : State w V} (h : Reach c s) {t : Nat} (hs : Step c s t s') {all : Bool}
    {a : BitVec w} (hp : s.pc t = .nFind all a ∨ ∃ id, s.pc t = .nSig all a id) :
    (∃ id, s'.pc t = .nSig all a id) ∨
    (s'.pc t = .unl (c.lockOf a) ∧ ((∀ u, ¬ BlockedOn a (s.pc u)) ∨
      (∃ id, s.pc t = .nSig all a id) ∧ (all = true → ∀ u, ¬ BlockedOn a (s'.pc u)) ∧
        ∃ u, BlockedOn a (s.pc u) ∧ ¬ BlockedOn a (s'.pc u))) := by
  have hi := inv_reach hg h
  have blk : ∀ u, BlockedOn a (s.pc u) → ∃ id, SleepsOn s id u ∧ WaitsOn s.pool a id := by
    rintro u ⟨x, old, m, e, hx⟩
    have hm : x ∈ s.pool.waiters := (hi.wt x).2 (by rw [hi.wtid u x (by simp [e, waiting])]; simp [e, waiting])
    cases hh : x.handle with
    | none => exact absurd hh (hi.sl u x old m e)
    | some id => exact ⟨id, ⟨x, old, m, e, hh⟩, x, hm, hx, hh⟩
  have same : ∀ i j, WaitsOn s.pool a i → WaitsOn s.pool a j → i = j := by
    rintro i j ⟨x, hx, hxa, hxi⟩ ⟨y, hy, hya, hyj⟩
    exact (Registry.C28_same_state_iff_same_object hg hi.reg hx hy hxi hyj).2 (by rw [hxa, hya])
  have sleeps : ∀ id u, s.pc t = .nSig all a id → SleepsOn s id u → BlockedOn a (s.pc u) := by
    rintro id u e ⟨x, old, m, ex, hx⟩
    obtain ⟨y, hy, hya, hyi⟩ := hi.sig t all a id e
    have hm : x ∈ s.pool.waiters := (hi.wt x).2 (by rw [hi.wtid u x (by simp [ex, waiting])]; simp [ex, waiting])
    exact ⟨x, old, m, ex, ((Registry.C28_same_state_iff_same_object hg hi.reg hm hy hx hyi).1 rfl).trans hya⟩
  have woken : ∀ (P : Nat → Prop) [DecidablePred P] q u, u ≠ t → P u → ¬ BlockedOn a (upd (wake P s.pc) t q u) := by
    intro P _ q u hu hP
    rw [upd_other _ _ hu]
    rintro ⟨x, old, m, e, _⟩
    unfold wake at e
    cases hpu : s.pc u <;> simp [hpu, hP] at e
  have hne : ∀ u, BlockedOn a (s.pc u) → u ≠ t := by
    rintro u ⟨x, old, m, e, _⟩ rfl
    rcases hp with hp | ⟨id, hp⟩ <;> rw [hp] at e <;> cases e
  rcases hp with hp | ⟨id, hp⟩
  · cases hs <;> simp_all
    case nNone pool hp' he =>
      obtain ⟨r, e, hr⟩ := Registry.C28_notify_exact hg hi.reg a
      rw [he] at e
      cases e
      obtain ⟨e1, e2⟩ := hp
      subst e1 e2
      refine .inr ⟨upd_same _ _ _, fun u hb => ?_⟩
      obtain ⟨i, _, hw⟩ := blk u hb
      exact absurd ((hr i).2 hw) (by simp)
    case nFind pool id hp' he =>
      obtain ⟨e1, e2⟩ := hp
      subst e1 e2
      exact .inl ⟨id, upd_same _ _ _⟩
  · have hsig := hi.sig t all a id hp
    have fin : ∀ (P : Nat → Prop) [DecidablePred P], (∀ v, P v → SleepsOn s id v) → ((∃ u, SleepsOn s id u) → ∃ u, P u) →
        (∀ u, ¬ BlockedOn a (s.pc u)) ∨
        ∃ u, BlockedOn a (s.pc u) ∧ ¬ BlockedOn a (upd (wake P s.pc) t (.unl (c.lockOf a)) u) := by
      intro P _ h2 h1
      by_cases hex : ∃ u, SleepsOn s id u
      · obtain ⟨u, hu⟩ := h1 hex
        have hb := sleeps id u hp (h2 u hu)
        exact .inr ⟨u, hb, woken P _ u (hne u hb) hu⟩
      · left
        intro u hb
        obtain ⟨i, hsl, hw⟩ := blk u hb
        exact hex ⟨u, same i id hw hsig ▸ hsl⟩
    cases hs with
    | nAll P hp' h1 h2 =>
      rename_i a' id'
      rw [hp] at hp'; cases hp'
      refine .inr ⟨upd_same _ _ _, ?_⟩
      rcases fin P h2 (fun ⟨u, hu⟩ => ⟨u, h1 u hu⟩) with h3 | h3
      · exact .inl h3
      · refine .inr ⟨⟨id, hp⟩, fun _ u hb => ?_, h3⟩
        by_cases hu : u = t
        · subst hu
          obtain ⟨x, old, m, e, _⟩ := hb
          simp only [State.goto, upd_same] at e; cases e
        · have hb' : BlockedOn a (s.pc u) := by
            obtain ⟨x, old, m, e, ha⟩ := hb
            simp only [State.goto, upd_other _ _ hu] at e
            exact ⟨x, old, m, (wake_alike (c := c) P s.pc u).sl _ _ _ e, ha⟩
          obtain ⟨i, hsl, hw⟩ := blk u hb'
          exact woken P _ u hu (h1 u (same i id hw hsig ▸ hsl)) hb
    | nOne P hp' h1 h2 =>
      rename_i a' id'
      rw [hp] at hp'; cases hp'
      refine .inr ⟨upd_same _ _ _, ?_⟩
      rcases fin P h2 h1 with h3 | h3
      · exact .inl h3
      · exact .inr ⟨⟨id, hp⟩, by simp, h3⟩
    | store a v hp' => rw [hp] at hp'; cases hp'
    | wRelock hp' _ => rcases hp' with ⟨_, hp'⟩ | hp' <;> rw [hp] at hp' <;> cases hp'
    | _ => simp_all


theorem nLock_step {s s' : State w V} {t : Nat} (hs : Step c s t s') {all : Bool} {a : BitVec w}
    (h : s.pc t = .nLock all a) : s'.pc t = .nFind all a := by
  cases hs with
  | nLock hp hf => rw [h] at hp; cases hp; exact upd_same _ _ _
  | wRelock hp _ => rcases hp with ⟨_, hp⟩ | hp <;> rw [h] at hp <;> cases hp
  | _ => simp_all

/-- A thread blocks only from `wWait`. -/
theorem asleep_step {s s' : State w V} {t : Nat} (hs : Step c s t s') {x : Waiter w} {old : V} {m : Mode}
    (h : s'.pc t = .asleep x old m) : s.pc t = .wWait x old m := by
  cases hs with
  | wSleep pool o hp hh he => simp only [State.goto, upd_same] at h; cases h; exact hp
  | wReg bufOk ws pool r hp ha he => simp only [State.goto, upd_same] at h; split at h <;> cases h
  | store a v hp => simp_all
  | _ => simp [State.goto, upd_same] at h

/-- What a thread that runs `notify` does, and what it leaves behind. -/
theorem notify_trace (hg : c.Good) {n : Nat} (E : Exec w V c n) {i : Nat} {N : Nat} {all : Bool} {a : BitVec w}
    (hs : (E.st i).pc N = .nLock all a) (j : Nat) (hij : i ≤ j) (hj : j ≤ n) :
    ((E.st j).pc N = .nLock all a ∨ (E.st j).pc N = .nFind all a ∨ ∃ id, (E.st j).pc N = .nSig all a id) ∨
    ∃ l, i ≤ l ∧ l < j ∧ holds c ((E.st l).pc N) = some (c.lockOf a) ∧ (E.st (l + 1)).pc N = .unl (c.lockOf a) ∧
      ((∀ u, ¬ BlockedOn a ((E.st l).pc u)) ∨
      ((all = true → ∀ u, ¬ BlockedOn a ((E.st (l + 1)).pc u)) ∧
        ∃ u, BlockedOn a ((E.st l).pc u) ∧ ¬ BlockedOn a ((E.st (l + 1)).pc u))) := by
  induction j with
  | zero => obtain rfl : i = 0 := by omega
            exact .inl (.inl hs)
  | succ j ih =>
    by_cases hi : i = j + 1
    · subst hi; exact .inl (.inl hs)
    · rcases ih (by omega) (by omega) with h | ⟨l, h1, h2, h3⟩
      · obtain ⟨t, ht⟩ := E.step j (by omega)
        by_cases hN : N = t
        · subst hN
          rcases h with h | h
          · left; right; left
            exact nLock_step ht h
          · rcases notify_effect hg (E.reach j (by omega)) ht h with h' | ⟨h1, h2⟩
            · exact .inl (.inr (.inr h'))
            · refine .inr ⟨j, by omega, by omega, ?_, h1, ?_⟩
              · rcases h with h | ⟨id, h⟩ <;> simp [h, holds]
              · rcases h2 with h2 | ⟨_, h2⟩
                · exact .inl h2
                · exact .inr h2
        · left
          rcases pc_other ht hN with e | ⟨x, old, m, id, al, b, e, _⟩
          · rw [e]; exact h
          · rcases h with h | h | ⟨_, h⟩ <;> rw [h] at e <;> cases e
      · exact .inr ⟨l, h1, by omega, h3⟩

/-- A checked wait does not block when the value has gone. -/
theorem settled_step {s s' : State w V} {t u : Nat} (hs : Step c s t s') {a : BitVec w} {old : V}
    (hv : s.val a ≠ old) (hu : ¬ Unchecked (s.pc u))
    (hq : ¬ BlockedFor a old (s.pc u) ∧ ∀ x m, s.pc u = .wWait x old m → x.addr ≠ a) :
    ¬ BlockedFor a old (s'.pc u) ∧ ∀ x m, s'.pc u = .wWait x old m → x.addr ≠ a := by
  by_cases hut : u = t
  · subst hut
    have key : ∀ (f : Nat → PC w V) q, (∀ x m, q = .asleep x old m → x.addr ≠ a) →
        (∀ x m, q = .wWait x old m → x.addr ≠ a) → ¬ BlockedFor a old (upd f u q u) ∧
        ∀ x m, upd f u q u = .wWait x old m → x.addr ≠ a := by
      intro f q h1 h2
      rw [upd_same]
      exact ⟨fun ⟨x, m, e, ha⟩ => h1 x m e ha, h2⟩
    cases hs with
    | store b v hp => exact hq
    | wReg bufOk ws pool r hp ha he =>
      rename_i b old' m
      refine key _ _ ?_ ?_
      · intro x m' e; split at e <;> cases e
      · intro x m' e
        cases m with
        | stale l => rw [hp] at hu; exact absurd trivial hu
        | _ => simp [Mode.isStale] at e
    | wSame hp hv' =>
      refine key _ _ (by simp) ?_
      intro x m e ha
      cases e
      rw [ha] at hv'; exact hv hv'
    | wAgain hp hl hf => rw [hp] at hu; exact absurd hl hu
    | wSleep pool o hp hh he =>
      refine key _ _ ?_ (by simp)
      intro x m e
      cases e
      exact hq.2 _ _ hp
    | _ => exact key _ _ (by simp) (by simp)
  · rcases pc_other hs hut with e | ⟨x, old', m, id, al, b, e, e', _⟩
    · rw [e]; exact hq
    · rw [e']
      refine ⟨?_, fun _ _ h => by cases h⟩
      rintro ⟨_, _, h, _⟩
      cases h

end Verif.Cond
