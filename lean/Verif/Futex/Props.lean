import Verif.Futex.NotifyLemmas

/-!
Property theorems C23, C24, C25, C27 for the futex implementation of the lock pool.

`Exec T C V cfg n` is an execution of `n` steps with states `x.st 0 … x.st n` of any number of threads `T`
and condition variables `C` under arbitrary interleaving.
-/

set_option linter.unusedSectionVars false

namespace Verif.Futex

open Verif (upd upd_same upd_other)

variable {T C V : Type} [DecidableEq T] [DecidableEq C] {cfg : Cfg}

/-- C23: at most one thread owns the lock at any time; no assumption on counters. -/
theorem C23_mutual_exclusion {n} (x : Exec T C V cfg n) {i : Nat} (hi : i ≤ n) {t u : T}
    (ht : Owns ((x.st i).pc t)) (hu : Owns ((x.st i).pc u)) : t = u :=
  (x.basic hi).mutex.unique t u ht hu

/-- C23: the locked bit is set exactly while some thread owns the lock. -/
theorem C23_locked_iff_owned {n} (x : Exec T C V cfg n) {i : Nat} (hi : i ≤ n) :
    (x.st i).m.locked = true ↔ ∃ t, Owns ((x.st i).pc t) :=
  (x.basic hi).mutex.locked

/-- C24: while some thread is blocked waiting for the lock, the lock is owned or some thread is committed to
waking a sleeper or to taking the lock; and the contended bit is set, or its owner is about to set it
(it has just moved waiters to the lock).  Partial: as long as the counter in the lock word does not make a full
turn between two steps of one thread (`Fresh`); see `C24_wraparound_violated`. -/
theorem C24_no_lost_wakeup_partial {n} (x : Exec T C V cfg n) (hf : ∀ j < n, Fresh cfg (x.st j))
    {i : Nat} (hi : i ≤ n) {u : T} (hu : BlockedOnLock ((x.st i).pc u)) :
    ((∃ t, Owns ((x.st i).pc t)) ∨ ∃ t, Committed (x.st i) t) ∧
    ((x.st i).m.contended = true ∨ ∃ t all c, (x.st i).pc t = .ntOr all c) := by
  obtain ⟨h1, h2⟩ := x.noLost hi (fun j hj => hf j (by omega)) ⟨u, hu⟩
  exact ⟨h2.imp_left (x.basic hi).mutex.locked.1, h1⟩

/-- C24, consequence: if every thread is either outside or blocked in the kernel, nobody is blocked waiting for the
lock. -/
theorem C24_no_deadlock_partial {n} (x : Exec T C V cfg n) (hf : ∀ j < n, Fresh cfg (x.st j))
    {i : Nat} (hi : i ≤ n)
    (hq : ∀ t, (x.st i).pc t = .idle ∨ BlockedOnLock ((x.st i).pc t) ∨ ∃ c, BlockedOnCond c ((x.st i).pc t))
    (u : T) : ¬ BlockedOnLock ((x.st i).pc u) := by
  intro hu
  obtain ⟨h, -⟩ := C24_no_lost_wakeup_partial x hf hi hu
  rcases h with ⟨t, ht⟩ | ⟨t, ht⟩
  · rcases hq t with e | ⟨_, e⟩ | ⟨_, _, e, _⟩ <;> rw [e] at ht <;> exact ht
  · rcases hq t with e | ⟨_, e⟩ | ⟨_, _, e, _⟩ <;> rcases ht with ⟨_, _, h⟩ | h | ⟨_, _, h, _⟩ <;>
      rw [e] at h <;> cases h

/-- C24: when the owner releases the lock while a thread is blocked on it, the owner goes on to wake a
sleeper. -/
theorem C24_release_wakes_partial {n} (x : Exec T C V cfg n) (hf : ∀ j < n, Fresh cfg (x.st j))
    {i : Nat} (hi : i < n) {t u : T} (ht : Owns ((x.st i).pc t)) (ht' : ¬ Owns ((x.st (i + 1)).pc t))
    (hu : BlockedOnLock ((x.st i).pc u)) :
    ∃ w k, (x.st (i + 1)).pc t = .ulWake w k := by
  obtain ⟨v, h⟩ := x.step i hi
  have hb := x.basic (i := i) (by omega)
  have hv : v = t := by
    by_cases hv : t = v
    · exact hv.symm
    · exact absurd ((owns_other h hv).2 ht) ht'
  subst hv
  cases wordStep h (hb.rem v) with
  | same h => exact absurd (h.2 ht) ht'
  | acq h => exact absurd ht h
  | contend h => exact absurd (h.2 ht) ht'
  | clear w k q => rw [q] at ht; exact ht.elim
  | rel h1 h2 e k w q0 q =>
    rcases q with ⟨q, -⟩ | ⟨-, q⟩
    · exact ⟨_, _, q⟩
    · exfalso
      obtain ⟨-, h⟩ := C24_no_lost_wakeup_partial x hf (i := i) (by omega) hu
      rw [q] at h
      rcases h with h | ⟨t', all, c, hn⟩
      · cases h
      · have := hb.mutex.unique t' v (by rw [hn]; exact trivial) ht
        subst this; rw [hn] at q0; cases q0

/-- A thread about to wake a sleeper does wake one if there is one. -/
theorem C24_wake_wakes {n} (x : Exec T C V cfg n) {i : Nat} (hi : i < n) {t : T} {w k}
    (ht : (x.st i).pc t = .ulWake w k) (ht' : (x.st (i + 1)).pc t ≠ (x.st i).pc t)
    (hu : ∃ u, BlockedOnLock ((x.st i).pc u)) :
    ∃ u, BlockedOnLock ((x.st i).pc u) ∧ ¬ BlockedOnLock ((x.st (i + 1)).pc u) := by
  obtain ⟨v, h⟩ := x.step i hi
  generalize x.st i = s at *
  generalize x.st (i + 1) = s' at *
  by_cases hv : t = v
  · subst hv
    obtain ⟨u, y, hu⟩ := hu
    cases h with
    | store _ _ h => exact absurd rfl ht'
    | @ulWakeOne _ _ u' x' h1 h2 =>
      have hne : u' ≠ t := by rintro rfl; rw [h1] at h2; cases h2
      refine ⟨u', ⟨x', h2⟩, ?_⟩
      rintro ⟨z, hz⟩
      simp [State.goto, upd, hne] at hz
      cases x' <;> simp [Sleep.woken] at hz
    | ulWakeNone h1 h2 => exact absurd hu (h2 u y)
    | _ => simp_all
  · exfalso
    rcases step_other h hv with e | ⟨_, _, _, e, _⟩ | ⟨_, _, e, _⟩
    · exact ht' e
    · rw [ht] at e; cases e
    · rw [ht] at e; cases e

/-- Once a waiter's remembered counter value is old and it is not asleep on the condition variable, it does not
fall asleep on it again during this call. -/
theorem stays_awake {n} (x : Exec T C V cfg n) (hf : ∀ j < n, Fresh cfg (x.st j)) {t : T} {w} {l k : Nat}
    (hlk : l ≤ k) (hk : k ≤ n) (hw : ∀ j, l ≤ j → j ≤ k → waitOf ((x.st j).pc t) = some w)
    (hp : w.p < (x.st l).cond w.c) (hns : (x.st l).pc t ≠ .asleepC w) :
    w.p < (x.st k).cond w.c ∧ (x.st k).pc t ≠ .asleepC w := by
  obtain ⟨d, rfl⟩ := Nat.exists_eq_add_of_le hlk
  clear hlk
  induction d with
  | zero => exact ⟨hp, hns⟩
  | succ d ih =>
    obtain ⟨h1, h2⟩ := ih (by omega) (fun j h h' => hw j h (by omega))
    obtain ⟨v, h⟩ := x.step (l + d) (by omega)
    exact ⟨Nat.lt_of_lt_of_le h1 (cond_mono h w.c).1,
      never_sleep (hf _ (by omega)) h (hw (l + d) (by omega) (by omega)) h1 h2⟩

/-- C25: thread `N` executes `notify_all` on `c` from time `i` (before it increments the counter) to time `j`
(it has returned).  A thread `t` that is inside a waiting function on `c` since before the notification is not
blocked on `c` at time `j` or later during that call.  (It may be blocked on the lock then, which C24 is about.)
Partial: `Fresh`. -/
theorem C25_notify_all_partial {n} (x : Exec T C V cfg n) (hf : ∀ j < n, Fresh cfg (x.st j)) {i j k : Nat}
    {N t : T} {c : C} {w : Wait C V}
    (hN : (x.st i).pc N = .ntInc true c) (hij : i < j) (hj : (x.st j).pc N = .hold) (hjk : j ≤ k) (hk : k ≤ n)
    (hc : w.c = c) (hw : ∀ l, i ≤ l → l ≤ k → waitOf ((x.st l).pc t) = some w) :
    ¬ BlockedOnCond c ((x.st k).pc t) := by
  suffices h : w.p < (x.st j).cond w.c ∧ (x.st j).pc t ≠ .asleepC w by
    have := (stays_awake x hf hjk hk (fun l h h' => hw l (by omega) h') h.1 h.2).2
    rintro ⟨w', h1, h2⟩
    have h3 := hw k (by omega) (Nat.le_refl _)
    rw [h1] at h3; cases h3
    exact this h1
  have main : ∀ d, i + d ≤ j →
      ((x.st (i + d)).pc N = .ntInc true c ∨ (x.st (i + d)).pc N = .ntTest true c ∨
        (x.st (i + d)).pc N = .ntRequeue true c) ∨
      (w.p < (x.st (i + d)).cond w.c ∧ (x.st (i + d)).pc t ≠ .asleepC w) := by
    intro d
    induction d with
    | zero => intro _; exact .inl (.inl hN)
    | succ d ih =>
      intro hd
      have hb := x.basic (i := i + d) (by omega)
      obtain ⟨v, h⟩ := x.step (i + d) (by omega)
      have hwd := hw (i + d) (by omega) (by omega)
      have hwd' := hw (i + d + 1) (by omega) (by omega)
      rw [← Nat.add_assoc]
      rcases ih (by omega) with hn | ⟨h1, h2⟩
      · rcases nt_step h hn with ⟨-, e⟩ | ⟨-, -, e, -⟩ | ⟨-, -, e, -⟩ | ⟨-, e, -, e0, -⟩ | ⟨-, e, -, ec, e2⟩
        · rw [e]; exact .inl hn
        · exact .inl (.inr (.inl e))
        · exact .inl (.inr (.inr e))
        · have := waiter_counted hb (N := N) (by rw [e]; exact trivial) (by rw [e]; rfl) hwd
          rw [hc] at this; omega
        · right
          refine ⟨?_, fun hs => ?_⟩
          · have := hb.conds.nt N true c (.inr e) t w hwd hc
            rw [ec, hc]; exact this
          · have := (e2 t w hs hc).1; cases this
      · exact .inr ⟨Nat.lt_of_lt_of_le h1 (cond_mono h w.c).1, never_sleep (hf _ (by omega)) h hwd h1 h2⟩
  obtain ⟨d, rfl⟩ := Nat.exists_eq_add_of_le (Nat.le_of_lt hij)
  rcases main d (Nat.le_refl _) with h | h
  · rw [hj] at h; simp at h
  · exact h

/-- C25: `notify_one` on `c` by `N` from time `i` to time `j`.  If some thread is inside a waiting function on
`c` when it starts, then one such thread is not blocked on `c` at time `j` or later during that call.
Partial: `Fresh`. -/
theorem C25_notify_one_partial {n} (x : Exec T C V cfg n) (hf : ∀ j < n, Fresh cfg (x.st j)) {i j : Nat}
    {N : T} {c : C} (hN : (x.st i).pc N = .ntInc false c) (hij : i < j) (hj : (x.st j).pc N = .hold)
    (hjn : j ≤ n) (hw : ∃ t w, waitOf ((x.st i).pc t) = some w ∧ w.c = c) :
    ∃ t w, waitOf ((x.st i).pc t) = some w ∧ w.c = c ∧
      ∀ k, j ≤ k → k ≤ n → (∀ l, i ≤ l → l ≤ k → waitOf ((x.st l).pc t) = some w) →
        ¬ BlockedOnCond c ((x.st k).pc t) := by
  obtain ⟨t₀, w₀, hw₀, hc₀⟩ := hw
  -- from a time at which `t` is awake with an old value
  have fin : ∀ l t w, i ≤ l → l ≤ j → w.c = c →
      ((∀ l', i ≤ l' → l' ≤ l → waitOf ((x.st l').pc t) = some w) →
        w.p < (x.st l).cond w.c ∧ (x.st l).pc t ≠ .asleepC w) →
      ∀ k, j ≤ k → k ≤ n → (∀ l, i ≤ l → l ≤ k → waitOf ((x.st l).pc t) = some w) →
        ¬ BlockedOnCond c ((x.st k).pc t) := by
    intro l t w hil hl hc h k hjk hk hwk
    obtain ⟨h1, h2⟩ := h (fun l' a b => hwk l' a (by omega))
    have := (stays_awake x hf (show l ≤ k by omega) hk (fun l' h h' => hwk l' (by omega) h') h1 h2).2
    rintro ⟨w', h3, h4⟩
    have h5 := hwk k (by omega) (Nat.le_refl _)
    rw [h3] at h5; cases h5
    exact this h3
  generalize hG : (∃ t w, waitOf ((x.st i).pc t) = some w ∧ w.c = c ∧
      ∀ k, j ≤ k → k ≤ n → (∀ l, i ≤ l → l ≤ k → waitOf ((x.st l).pc t) = some w) →
        ¬ BlockedOnCond c ((x.st k).pc t)) = G
  have mk : ∀ t w, waitOf ((x.st i).pc t) = some w → w.c = c → (∀ k, j ≤ k → k ≤ n →
      (∀ l, i ≤ l → l ≤ k → waitOf ((x.st l).pc t) = some w) → ¬ BlockedOnCond c ((x.st k).pc t)) → G :=
    fun t w h1 h2 h3 => hG ▸ ⟨t, w, h1, h2, h3⟩
  have main : ∀ d, i + d ≤ j →
      (((x.st (i + d)).pc N = .ntInc false c ∨ (x.st (i + d)).pc N = .ntTest false c ∨
        (x.st (i + d)).pc N = .ntRequeue false c) ∧
        ∀ u w, waitOf ((x.st (i + d)).pc u) = some w → waitOf ((x.st i).pc u) = some w) ∨ G := by
    intro d
    induction d with
    | zero => intro _; exact .inl ⟨.inl hN, fun u w h => h⟩
    | succ d ih =>
      intro hd
      have hb := x.basic (i := i + d) (by omega)
      obtain ⟨v, h⟩ := x.step (i + d) (by omega)
      rw [← Nat.add_assoc]
      rcases ih (by omega) with ⟨hn, hA⟩ | hg
      · have how : Owns ((x.st (i + d)).pc N) := by rcases hn with e | e | e <;> rw [e] <;> exact trivial
        have hA' : ∀ u w, waitOf ((x.st (i + d + 1)).pc u) = some w → waitOf ((x.st i).pc u) = some w := by
          intro u w hu
          by_cases huv : u = v
          · subst huv
            rcases waitOf_self h with e | e | ⟨c', old, m, e, -⟩
            · exact hA u w (e ▸ hu)
            · rw [e] at hu; cases hu
            · have := hb.mutex.unique u N (by rw [e]; exact trivial) how
              subst this
              rw [e] at hn; simp at hn
          · rw [waitOf_other h huv] at hu; exact hA u w hu
        rcases nt_step h hn with ⟨-, e⟩ | ⟨-, -, e, -⟩ | ⟨-, -, e, -⟩ | ⟨-, e, -, e0, -⟩ | ⟨-, e, -, ec, e2⟩
        · rw [e]; exact .inl ⟨hn, hA'⟩
        · exact .inl ⟨.inr (.inl e), hA'⟩
        · exact .inl ⟨.inr (.inr e), hA'⟩
        · refine .inr (mk t₀ w₀ hw₀ hc₀ (fin (i + d) t₀ w₀ (by omega) (by omega) hc₀ fun hl => ?_))
          have := waiter_counted hb (N := N) (by rw [e]; exact trivial) (by rw [e]; rfl)
            (hl (i + d) (by omega) (Nat.le_refl _))
          rw [hc₀] at this; omega
        · right
          by_cases hs : (x.st (i + d + 1)).pc t₀ = .asleepC w₀
          · obtain ⟨-, v', w', h1, h2, h3, h4⟩ := e2 t₀ w₀ hs hc₀
            have hwv : waitOf ((x.st (i + d)).pc v') = some w' := by rw [h1]; rfl
            refine mk v' w' (hA v' w' hwv) h2 (fin (i + d + 1) v' w' (by omega) (by omega) h2 fun hl => ⟨?_, ?_⟩)
            · rw [ec, h2]; exact hb.conds.nt N false c (.inr e) v' w' hwv h2
            · rw [h4]; simp
          · refine mk t₀ w₀ hw₀ hc₀ (fin (i + d + 1) t₀ w₀ (by omega) (by omega) hc₀ fun hl => ⟨?_, hs⟩)
            rw [ec, hc₀]
            exact hb.conds.nt N false c (.inr e) t₀ w₀ (hl (i + d) (by omega) (by omega)) hc₀
      · exact .inr hg
  obtain ⟨d, rfl⟩ := Nat.exists_eq_add_of_le (Nat.le_of_lt hij)
  rcases main d (Nat.le_refl _) with h | h
  · rw [hj] at h; simp at h
  · exact h

/-- No thread waits for the object of `c` to differ from `old` any more in the sense that it could stay blocked:
those that wait remember an old counter value and are not asleep, and none is about to start. -/
def Settled (s : State T C V) (c : C) (old : V) : Prop :=
  (∀ t w, waitOf (s.pc t) = some w → w.c = c → w.old = old → w.p < s.cond w.c ∧ s.pc t ≠ .asleepC w) ∧
  ∀ t m, s.pc t ≠ .waitRead c old m

theorem Settled.step {s s' : State T C V} {v : T} {c : C} {old : V} (hs : Settled s c old)
    (hf : Fresh cfg s) (hst : ∀ u, ¬ HasStale (s.pc u)) (hval : s.val c ≠ old) (h : Step cfg s v s') :
    Settled s' c old := by
  obtain ⟨h1, h2⟩ := hs
  refine ⟨fun u w hu hc ho => ?_, fun u m hu => ?_⟩
  · have hold : waitOf (s.pc u) = some w := by
      by_cases huv : u = v
      · subst huv
        rcases waitOf_self h with e | e | ⟨c', old', m, e, e', -⟩
        · exact e ▸ hu
        · rw [e] at hu; cases hu
        · rw [e'] at hu; cases hu
          subst hc; subst ho
          exact absurd e (h2 u m)
      · rw [waitOf_other h huv] at hu; exact hu
    obtain ⟨h3, h4⟩ := h1 u w hold hc ho
    exact ⟨Nat.lt_of_lt_of_le h3 (cond_mono h w.c).1, never_sleep hf h hold h3 h4⟩
  · rcases new_waitRead h (hst u) hu with h3 | h3
    · exact h2 u m h3
    · exact hval h3

/-- C27 for objects whose waiting operations use the lock pool and compare under the lock (all emulated
operations, and the untimed generic `wait`).  From time `i` on the object of `c` does not hold `old` (a store
happened before), thread `N` executes `notify_all` (or `notify_one`, when at most one thread waits on `c`) on `c`
from time `i` to time `j`.  Then at no time from `j` on is a thread blocked on `c` waiting for the object to
differ from `old`.  Partial: `Fresh`, and the timed generic waits (`staleCheck`) are excluded, see
`C27_generic_timed_wait_violated`. -/
theorem C27_store_notify_partial {n} (x : Exec T C V cfg n) (hf : ∀ j < n, Fresh cfg (x.st j))
    (hcfg : cfg.staleCheck = false) {i j k : Nat} {N : T} {all : Bool} {c : C} {old : V}
    (hN : (x.st i).pc N = .ntInc all c) (hij : i < j) (hj : (x.st j).pc N = .hold) (hjk : j ≤ k) (hk : k ≤ n)
    (hval : ∀ l, i ≤ l → l ≤ k → (x.st l).val c ≠ old)
    (hone : all = true ∨ ∀ l, i ≤ l → l ≤ k → ∀ t t' w w', waitOf ((x.st l).pc t) = some w → w.c = c →
      waitOf ((x.st l).pc t') = some w' → w'.c = c → t = t')
    (t : T) (w : Wait C V) (hc : w.c = c) (ho : w.old = old) : (x.st k).pc t ≠ .asleepC w := by
  have main : ∀ d, i + d ≤ j →
      ((x.st (i + d)).pc N = .ntInc all c ∨ (x.st (i + d)).pc N = .ntTest all c ∨
        (x.st (i + d)).pc N = .ntRequeue all c) ∨ Settled (x.st (i + d)) c old := by
    intro d
    induction d with
    | zero => intro _; exact .inl (.inl hN)
    | succ d ih =>
      intro hd
      have hb := x.basic (i := i + d) (by omega)
      have hb' := x.basic (i := i + d + 1) (by omega)
      obtain ⟨v, h⟩ := x.step (i + d) (by omega)
      rw [← Nat.add_assoc]
      rcases ih (by omega) with hn | hset
      · rcases nt_step h hn with ⟨-, e⟩ | ⟨-, -, e, -⟩ | ⟨-, -, e, -⟩ | ⟨hv, e, e', e0, -⟩ | ⟨hv, e, e', ec, e2⟩
        · rw [e]; exact .inl hn
        · exact .inl (.inr (.inl e))
        · exact .inl (.inr (.inr e))
        · right
          refine ⟨fun u w hu hc _ => ?_, fun u m hu => ?_⟩
          · exfalso
            have hne : u ≠ v := by
              rintro rfl; rw [← hv, e'] at hu; cases hu
            rw [waitOf_other h hne] at hu
            have := waiter_counted hb (N := N) (by rw [e]; exact trivial) (by rw [e]; rfl) hu
            rw [hc] at this; omega
          · have := hb'.mutex.unique u N (by rw [hu]; exact trivial) (by rw [e']; exact trivial)
            subst this; rw [e'] at hu; cases hu
        · right
          refine ⟨fun u w hu hc _ => ?_, fun u m hu => ?_⟩
          · have hne : u ≠ v := by
              rintro rfl; rw [← hv, e'] at hu; cases hu
            have hu0 := hu
            rw [waitOf_other h hne] at hu
            refine ⟨?_, fun hs => ?_⟩
            · rw [ec, hc]; exact hb.conds.nt N all c (.inr e) u w hu hc
            · obtain ⟨ha, v', w', h3, h4, h5, h6⟩ := e2 u w hs hc
              rcases hone with hone | hone
              · rw [hone] at ha; cases ha
              · exact h5 (hone (i + d + 1) (by omega) (by omega) v' u w' w (by rw [h6]; rfl) h4 hu0 hc)
          · have := hb'.mutex.unique u N (by rw [hu]; exact trivial) (by rw [e']; exact trivial)
            subst this; rw [e'] at hu; cases hu
      · exact .inr (hset.step (hf _ (by omega)) (x.noStale hcfg (by omega)) (hval _ (by omega) (by omega)) h)
  have atK : ∀ d, j + d ≤ k → Settled (x.st (j + d)) c old := by
    intro d
    induction d with
    | zero =>
      intro _
      obtain ⟨e, rfl⟩ := Nat.exists_eq_add_of_le (Nat.le_of_lt hij)
      rcases main e (by omega) with h | h
      · rw [hj] at h; simp at h
      · exact h
    | succ d ih =>
      intro hd
      obtain ⟨v, h⟩ := x.step (j + d) (by omega)
      exact (ih (by omega)).step (hf _ (by omega)) (x.noStale hcfg (by omega))
        (hval _ (by omega) (by omega)) h
  obtain ⟨d, rfl⟩ := Nat.exists_eq_add_of_le hjk
  intro hs
  exact ((atK d (Nat.le_refl _)).1 t w (by rw [hs]; rfl) hc ho).2 hs

end Verif.Futex
