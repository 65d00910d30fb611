import Verif.Common.Lin

/-!
Blocking and notification of the native implementations: the kernel compares the object with the expected value and
blocks the thread in one step (FUTEX_WAIT, WaitOnAddress, ulock_wait, UMTX_OP_WAIT, umtx_sleep), and a notification wakes
the threads blocked on the address.

Modelled: wait_ops_futex.hpp:115–125, 337–345 with futex.hpp:170–223, wait_ops_windows.hpp:61–71, 139–147,
wait_ops_darwin_ulock.hpp:82–96, 170–188, wait_ops_freebsd_umtx.hpp:84–94, 351–359, wait_ops_dragonfly_umtx.hpp:51–61,
127–135.  Timed waits have the same steps; a timeout is a wake-up of the kernel's own.

Simplified: loads and stores are sequentially consistent; the contract of the kernel is the one in its documentation;
`notify_all` of FreeBSD and Linux wakes at most 2^31 - 1 threads, here all.
-/

set_option linter.unusedSectionVars false

namespace Verif.Wait.Native

variable {A T V : Type} [DecidableEq A] [DecidableEq T] [DecidableEq V]

/-- What a thread is doing: nothing, about to load in `wait(a, old)`, having loaded `old` and about to call the kernel,
blocked in the kernel. -/
inductive Pc (A V : Type) where
  | idle
  | toLoad (a : A) (old : V)
  | toBlock (a : A) (old : V)
  | asleep (a : A) (old : V)
deriving DecidableEq

structure State (A T V : Type) where
  val : A → V
  pc : T → Pc A V

/-- What happens. -/
inductive Label (A T V : Type) where
  | call (t : T) (a : A) (old : V)
  | load (t : T)
  | block (t : T)
  /-- the kernel lets a thread return for a reason of its own: signal, timeout, spurious wake-up -/
  | wake (t : T)
  | store (a : A) (v : V)
  | notifyOne (a : A)
  | notifyAll (a : A)

/-- Is the thread blocked on the address? -/
def Pc.on (a : A) : Pc A V → Bool
  | .asleep a' _ => decide (a' = a)
  | _ => false

/-- A blocked thread that is woken goes on to load the object. -/
def Pc.woken : Pc A V → Pc A V
  | .asleep a old => .toLoad a old
  | pc => pc

inductive Step : State A T V → Label A T V → State A T V → Prop where
  | call {s t a old} : s.pc t = .idle → Step s (.call t a old) { s with pc := upd s.pc t (.toLoad a old) }
  /-- the loop ends if the value differs -/
  | loadNe {s t a old} : s.pc t = .toLoad a old → s.val a ≠ old → Step s (.load t) { s with pc := upd s.pc t .idle }
  | loadEq {s t a old} : s.pc t = .toLoad a old → s.val a = old →
      Step s (.load t) { s with pc := upd s.pc t (.toBlock a old) }
  /-- the kernel compares and blocks -/
  | blockEq {s t a old} : s.pc t = .toBlock a old → s.val a = old →
      Step s (.block t) { s with pc := upd s.pc t (.asleep a old) }
  /-- the kernel finds another value (EAGAIN) -/
  | blockNe {s t a old} : s.pc t = .toBlock a old → s.val a ≠ old →
      Step s (.block t) { s with pc := upd s.pc t (.toLoad a old) }
  | wake {s t a old} : s.pc t = .asleep a old → Step s (.wake t) { s with pc := upd s.pc t (.toLoad a old) }
  | store {s a v} : Step s (.store a v) { s with val := upd s.val a v }
  /-- one blocked thread, chosen by the kernel -/
  | notifyOne {s a t} : (s.pc t).on a = true → Step s (.notifyOne a) { s with pc := upd s.pc t (s.pc t).woken }
  | notifyNone {s a} : (∀ t, (s.pc t).on a = false) → Step s (.notifyOne a) s
  | notifyAll {s a} : Step s (.notifyAll a) { s with pc := fun t => if (s.pc t).on a then (s.pc t).woken else s.pc t }

/-- An execution of `n` steps. -/
structure Exec (A T V : Type) [DecidableEq A] [DecidableEq T] [DecidableEq V] (n : Nat) where
  st : Nat → State A T V
  lab : Nat → Label A T V
  step : ∀ i, i < n → Step (st i) (lab i) (st (i + 1))

omit [DecidableEq V] in
/-- Only a blocking call that finds the expected value puts a thread to sleep. -/
theorem asleep_step {s s' : State A T V} {l : Label A T V} {t : T} {a : A} {old : V} (h : Step s l s')
    (hs : s'.pc t = .asleep a old) : s.pc t = .asleep a old ∨ s.val a = old := by
  cases h with
  | store => exact .inl hs
  | notifyNone => exact .inl hs
  | notifyAll =>
    simp only at hs
    split at hs
    · cases hp : s.pc t with
      | asleep => rw [hp] at hs; cases hs
      | _ => rw [hp] at hs; cases hs
    · exact .inl hs
  | @notifyOne _ t' h1 =>
    by_cases ht : t = t'
    · subst ht
      simp only [upd_same] at hs
      cases hp : s.pc t with
      | asleep => rw [hp] at hs; cases hs
      | _ => rw [hp] at hs; cases hs
    · simp only [upd_other _ _ ht] at hs; exact .inl hs
  | @blockEq t' a' old' h1 h2 =>
    by_cases ht : t = t'
    · subst ht
      simp only [upd_same] at hs
      cases hs; exact .inr h2
    · simp only [upd_other _ _ ht] at hs; exact .inl hs
  | @call t' _ _ _ =>
    by_cases ht : t = t'
    · subst ht; simp only [upd_same] at hs; cases hs
    · simp only [upd_other _ _ ht] at hs; exact .inl hs
  | @loadNe t' _ _ _ _ =>
    by_cases ht : t = t'
    · subst ht; simp only [upd_same] at hs; cases hs
    · simp only [upd_other _ _ ht] at hs; exact .inl hs
  | @loadEq t' _ _ _ _ =>
    by_cases ht : t = t'
    · subst ht; simp only [upd_same] at hs; cases hs
    · simp only [upd_other _ _ ht] at hs; exact .inl hs
  | @blockNe t' _ _ _ _ =>
    by_cases ht : t = t'
    · subst ht; simp only [upd_same] at hs; cases hs
    · simp only [upd_other _ _ ht] at hs; exact .inl hs
  | @wake t' _ _ _ =>
    by_cases ht : t = t'
    · subst ht; simp only [upd_same] at hs; cases hs
    · simp only [upd_other _ _ ht] at hs; exact .inl hs

omit [DecidableEq V] in
/-- The value changes only by stores. -/
theorem val_step {s s' : State A T V} {l : Label A T V} {a : A} {old : V} (h : Step s l s')
    (hv : s.val a ≠ old) (hl : l ≠ .store a old) : s'.val a ≠ old := by
  cases h with
  | @store a' v =>
    by_cases ha : a = a'
    · subst ha; simp only [upd_same]; intro e; subst e; exact hl rfl
    · simp only [upd_other _ _ ha]; exact hv
  | _ => exact hv

variable {n : Nat} (x : Exec A T V n)

theorem val_stays {a : A} {v old : V} {i : Nat} (h1 : x.lab i = .store a v) (h2 : v ≠ old) {k : Nat} (hk : k ≤ n)
    (h3 : ∀ m, i < m → m < k → x.lab m ≠ .store a old) : ∀ m, i < m → m ≤ k → (x.st m).val a ≠ old := by
  intro m him hmk
  induction m with
  | zero => omega
  | succ m ih =>
    have hst := x.step m (by omega)
    rcases Nat.lt_or_ge i m with h | h
    · exact val_step hst (ih h (by omega)) (h3 m h (by omega))
    · have : m = i := by omega
      subst this
      rw [h1] at hst
      generalize x.st m = s at hst
      generalize x.st (m + 1) = s' at hst
      cases hst
      simp only [upd_same]; exact h2

theorem stays_awake {a : A} {old : V} {j k : Nat} (hk : k ≤ n) (hv : ∀ m, j ≤ m → m ≤ k → (x.st m).val a ≠ old)
    {t : T} (h0 : (x.st j).pc t ≠ .asleep a old) : ∀ m, j ≤ m → m ≤ k → (x.st m).pc t ≠ .asleep a old := by
  intro m hjm hmk
  induction m with
  | zero => have : j = 0 := by omega
            subst this; exact h0
  | succ m ih =>
    rcases Nat.lt_or_ge m j with h | h
    · have : j = m + 1 := by omega
      subst this; exact h0
    · intro hs
      rcases asleep_step (x.step m (by omega)) hs with h4 | h4
      · exact ih h (by omega) h4
      · exact hv m h (by omega) h4

/-- C27 (native): a store of a value different from `old` followed by `notify_all` leaves no thread blocked in `wait(old)`
on the object, for as long as `old` is not stored again: not at any later time `k`. -/
theorem C27_native_notify_all {a : A} {v old : V} {i j k : Nat} (hij : i < j) (hjk : j < k) (hk : k ≤ n)
    (hstore : x.lab i = .store a v) (hv : v ≠ old) (hnotify : x.lab j = .notifyAll a)
    (hno : ∀ m, i < m → m < k → x.lab m ≠ .store a old) (t : T) : (x.st k).pc t ≠ .asleep a old := by
  have hval := val_stays x hstore hv hk hno
  apply stays_awake x hk (j := j + 1) (fun m h1 h2 => hval m (by omega) h2) _ k (by omega) (Nat.le_refl _)
  have hst := x.step j (by omega)
  rw [hnotify] at hst
  generalize x.st j = s at hst
  generalize x.st (j + 1) = s' at hst
  cases hst
  intro hs
  simp only at hs
  cases hp : s.pc t with
  | asleep a' old' =>
    rw [hp] at hs
    by_cases ha : a' = a
    · simp [Pc.on, Pc.woken, ha] at hs
    · simp [Pc.on, ha] at hs
  | _ => rw [hp] at hs; simp [Pc.on] at hs

/-- C27 (native): the same for `notify_one` with a single waiter. -/
theorem C27_native_notify_one {a : A} {v old : V} {i j k : Nat} (hij : i < j) (hjk : j < k) (hk : k ≤ n)
    (hstore : x.lab i = .store a v) (hv : v ≠ old) (hnotify : x.lab j = .notifyOne a)
    (hno : ∀ m, i < m → m < k → x.lab m ≠ .store a old)
    (t : T) (hsingle : ∀ t' o, t' ≠ t → (x.st j).pc t' ≠ .asleep a o) : (x.st k).pc t ≠ .asleep a old := by
  have hval := val_stays x hstore hv hk hno
  apply stays_awake x hk (j := j + 1) (fun m h1 h2 => hval m (by omega) h2) _ k (by omega) (Nat.le_refl _)
  have hst := x.step j (by omega)
  rw [hnotify] at hst
  generalize x.st j = s at hst hsingle
  generalize x.st (j + 1) = s' at hst
  cases hst with
  | @notifyOne _ t' h1 =>
    have : t' = t := by
      rcases Decidable.em (t' = t) with h | h
      · exact h
      · cases hp : s.pc t' with
        | asleep a' o =>
          rw [hp] at h1
          simp only [Pc.on, decide_eq_true_eq] at h1
          subst h1
          exact absurd hp (hsingle t' o h)
        | _ => rw [hp] at h1; cases h1
    subst this
    intro hs
    simp only [upd_same] at hs
    cases hp : s.pc t' with
    | asleep => rw [hp] at hs; cases hs
    | _ => rw [hp] at hs; cases hs
  | notifyNone h1 =>
    intro hs
    have := h1 t
    rw [hs] at this
    simp [Pc.on] at this

/-- C25 (native): `notify_one` makes a blocked thread runnable if there is one. -/
theorem C25_native_notify_one {s s' : State A T V} {a : A} (h : Step s (.notifyOne a) s')
    (t : T) (old : V) (ht : s.pc t = .asleep a old) : ∃ t' old', s.pc t' = .asleep a old' ∧ s'.pc t' = .toLoad a old' := by
  cases h with
  | @notifyOne _ t' h1 =>
    cases hp : s.pc t' with
    | asleep a' o =>
      rw [hp] at h1
      simp only [Pc.on, decide_eq_true_eq] at h1
      subst h1
      exact ⟨t', o, hp, by simp only [upd_same]; rfl⟩
    | _ => rw [hp] at h1; cases h1
  | notifyNone h1 =>
    have := h1 t
    rw [ht] at this
    simp [Pc.on] at this

/-- C25 (native): `notify_all` makes every blocked thread runnable, and touches no thread blocked on another object. -/
theorem C25_native_notify_all {s s' : State A T V} {a : A} (h : Step s (.notifyAll a) s') (t : T) (a' : A) (old : V)
    (ht : s.pc t = .asleep a' old) : s'.pc t = if a' = a then .toLoad a' old else .asleep a' old := by
  cases h
  simp only [ht, Pc.on, Pc.woken, decide_eq_true_eq]

/-- The hypotheses can be met: a thread goes to sleep waiting for 0, another thread stores 1 and notifies. -/
example : ∃ x : Exec Nat Nat Nat 5, x.lab 3 = .store 7 1 ∧ x.lab 4 = .notifyAll 7 ∧
    (x.st 4).pc 0 = .asleep 7 0 ∧ (x.st 5).pc 0 = .toLoad 7 0 := by
  let st : Nat → State Nat Nat Nat := fun i => match i with
    | 0 => ⟨fun _ => 0, fun _ => .idle⟩
    | 1 => ⟨fun _ => 0, upd (fun _ => .idle) 0 (.toLoad 7 0)⟩
    | 2 => ⟨fun _ => 0, upd (upd (fun _ => .idle) 0 (.toLoad 7 0)) 0 (.toBlock 7 0)⟩
    | 3 => ⟨fun _ => 0, upd (upd (upd (fun _ => .idle) 0 (.toLoad 7 0)) 0 (.toBlock 7 0)) 0 (.asleep 7 0)⟩
    | 4 => ⟨upd (fun _ => 0) 7 1, upd (upd (upd (fun _ => .idle) 0 (.toLoad 7 0)) 0 (.toBlock 7 0)) 0 (.asleep 7 0)⟩
    | _ => ⟨upd (fun _ => 0) 7 1, fun t =>
        let p : Nat → Pc Nat Nat := upd (upd (upd (fun _ => .idle) 0 (.toLoad 7 0)) 0 (.toBlock 7 0)) 0 (.asleep 7 0)
        if (p t).on 7 then (p t).woken else p t⟩
  refine ⟨⟨st, fun i => match i with
    | 0 => .call 0 7 0
    | 1 => .load 0
    | 2 => .block 0
    | 3 => .store 7 1
    | _ => .notifyAll 7, ?_⟩, rfl, rfl, rfl, rfl⟩
  intro i hi
  match i, hi with
  | 0, _ => exact .call rfl
  | 1, _ => exact .loadEq rfl rfl
  | 2, _ => exact .blockEq rfl rfl
  | 3, _ => exact .store
  | 4, _ => exact .notifyAll

end Verif.Wait.Native
