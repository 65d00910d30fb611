import Verif.Weak.Lemmas
import Verif.Weak.Run

/-
C44: the lock pool synchronises its users on every machine C++ allows.

The memory machine (`Verif.Weak.Spec`) lets threads read stale values and reorder freely unless the memory
orders forbid it.  The lock is the code of src/lock_pool.cpp with its memory orders.
-/

namespace Verif.Weak

variable {T L A V : Type} [DecidableEq T] [DecidableEq L] [DecidableEq A]
variable (guard : A → Option L) (v₀ : A → V)

/-- C44, exclusion: also with stale reads of the mutex word, at most one thread owns a lock. -/
theorem C44_exclusive (s : Sys T (Loc L A) (Val V) (Pc L)) (h : Reachable guard v₀ s) (l : L) (t u : T)
    (ht : (s.pc t).Owns l) (hu : (s.pc u).Owns l) : t = u :=
  (inv_of_reach h).uniq l t u ht hu

/-- C44, hand-over: if thread `u` owns lock `l` at some time and thread `t` owns it at a later time, then
everything that happened before the first time from the point of view of `u` — in particular all actions of
`u` — happens before whatever `t` does next. -/
theorem C44_handover (s s' : Sys T (Loc L A) (Val V) (Pc L)) (h : Reachable guard v₀ s) (hs : Steps (Prog guard) s s')
    (l : L) (u t : T) (hu : (s.pc u).Owns l) (ht : (s'.pc t).Owns l) :
    (∀ e ∈ s.log, HappensBefore s e u → HappensBefore s' e t) ∧ ∀ e ∈ s.log, e.thr = u → HappensBefore s' e t := by
  have key : (s.m.cur u).Le (s'.m.cur t) :=
    (((inv_of_reach h).carried_of_owns hu .rfl).steps h hs).1 t ht
  have first : ∀ e ∈ s.log, HappensBefore s e u → HappensBefore s' e t := fun e _ hb => Nat.le_trans hb (key.2 _)
  refine ⟨first, fun e he hthr => first e he ?_⟩
  have := (own_past h e he).1
  rw [hthr] at this
  unfold HappensBefore
  rw [hthr]
  exact this

/-- C44, visibility: if thread `u` accessed `x` (say, stored to an atomic object with any memory order) while
or before it owned lock `l`, then a thread that owned the lock later never gets to see an older value of `x`:
every later access of that thread is at the same or a later place in the modification order of `x`. -/
theorem C44_visible (s s' s'' s''' : Sys T (Loc L A) (Val V) (Pc L)) (h : Reachable guard v₀ s)
    (hs : Steps (Prog guard) s s') (hs' : Steps (Prog guard) s' s'')
    (l : L) (u t : T) (hu : (s.pc u).Owns l) (ht : (s'.pc t).Owns l)
    (x : Loc L A) (e e' : Ev T (Loc L A) (Val V)) (he : e ∈ s.log) (hthr : e.thr = u) (hx : e.act.loc = some x)
    (hstep : Step (Prog guard) s'' e' s''') (hthr' : e'.thr = t) (hx' : e'.act.loc = some x) : e.pos ≤ e'.pos := by
  have key : (s.m.cur u).Le (s'.m.cur t) :=
    (((inv_of_reach h).carried_of_owns hu .rfl).steps h hs).1 t ht
  have h1 := (own_past h e he).2 x hx
  rw [hthr] at h1
  have h2 := Nat.le_trans h1 ((key.trans (hs'.mono t)).1 x)
  cases hstep with
  | mk hp hm =>
    cases hthr'
    exact Nat.le_trans h2 (hm.not_older hx')

/-- C44, no data race: whenever a thread is about to access an ordinary variable protected by a lock, every
conflicting access made earlier by another thread happens before it. -/
theorem C44_no_data_race (s s' : Sys T (Loc L A) (Val V) (Pc L)) (h : Reachable guard v₀ s) (e : Ev T (Loc L A) (Val V))
    (hs : Step (Prog guard) s e s') (e₀ : Ev T (Loc L A) (Val V)) (he₀ : e₀ ∈ s.log) (hc : Conflict e₀.act e.act) :
    HappensBefore s e₀ e.thr := by
  obtain ⟨x, h1, h2, _, hpl⟩ := hc
  cases hs with
  | mk hp hm =>
    have : ∃ a l, x = .obj a ∧ guard a = some l := by
      rcases hpl with hpl | hpl
      · obtain ⟨a, l, ha, hl⟩ := plain_past h e₀ he₀ hpl
        rw [h1] at ha; injection ha with ha; exact ⟨a, l, ha, hl⟩
      · obtain ⟨a, l, ha, hl⟩ := hp.plain hpl
        exact ⟨a, l, by rw [h2] at ha; injection ha, hl⟩
    obtain ⟨a, l, rfl, hl⟩ := this
    rcases hp.guarded h2 with ⟨_, l', hl', hown⟩ | ⟨_, hnone⟩
    · rw [hl] at hl'; injection hl' with hl'; subst hl'
      exact View.le_ofNo (((data_of_reach h hl).past e₀ he₀ h1).1 _ hown)
    · rw [hl] at hnone; cases hnone

/-- C44, values: an ordinary variable protected by a lock behaves like a variable of a single-threaded
program: every read returns the value written last, by whichever thread. -/
theorem C44_reads_latest (s s' : Sys T (Loc L A) (Val V) (Pc L)) (h : Reachable guard v₀ s) (e : Ev T (Loc L A) (Val V))
    (hs : Step (Prog guard) s e s') (a : A) (v : Val V) (he : e.act = .naRead (.obj a) v) :
    v = lastWritten (.obj a) (.val (v₀ a)) s.log := by
  cases hs with
  | mk hp hm =>
    rename_i t b i p' M'
    simp only at he
    subst he
    rcases hp.guarded (x := a) rfl with ⟨_, l, hl, hown⟩ | ⟨hn, _⟩
    · obtain ⟨k, m, hk, hmax, hval, hcar⟩ := (data_of_reach h hl).latest
      have hk' := View.le_at (hcar.1 t hown)
      generalize hb : Act.naRead (Loc.obj a) v = b at hm
      cases hm with
      | naRead hr hsn =>
        rename_i x m'
        injection hb with e1 e2
        subst e1
        rcases Nat.lt_or_ge k i with hlt | hle
        · rw [hmax i hlt] at hr; cases hr
        · obtain rfl : k = i := by omega
          rw [hk] at hr; injection hr with hr; subst hr
          rw [e2, hval]
      | _ => cases hb
    · exact absurd trivial hn

/-! #### A concrete run

Thread 0 takes the lock, writes 7 to an ordinary variable and releases the lock; thread 1 takes the lock and
reads the variable.  In between thread 2 still reads the initial mutex word, long overwritten: the machine is
not sequentially consistent. -/

/-- one lock, one ordinary variable protected by it -/
abbrev exGuard : Unit → Option Unit := fun _ => some ()

/-- a state of the example -/
abbrev ExSys := Sys Nat (Loc Unit Unit) (Val Nat) (Pc Unit)

def ex0 : ExSys := ⟨.init (init fun _ => 0), fun _ => .out, []⟩
def ex1 : ExSys := ex0.after 0 .tau 0 (.spin () 10)
def ex2 : ExSys := ex1.after 0 (.read (.mutex ()) loadOrder (.word 0)) 0 (.spinCas () 9 0)
def ex3 : ExSys := ex2.after 0 (.rmw (.mutex ()) lockOrder (.word 0) (.word 1)) 1 (.hold ())
def ex4 : ExSys := ex3.after 0 (.naWrite (.obj ()) (.val 7)) 1 (.hold ())
def ex5 : ExSys := ex4.after 0 .tau 0 (.ulLoad ())
def ex6 : ExSys := ex5.after 0 (.read (.mutex ()) loadOrder (.word 1)) 1 (.ulCas () 1)
def ex7 : ExSys := ex6.after 0 (.rmw (.mutex ()) unlockOrder (.word 1) (.word 4)) 2 .out
def ex8 : ExSys := ex7.after 2 .tau 0 (.spin () 10)
def ex9 : ExSys := ex8.after 2 (.read (.mutex ()) loadOrder (.word 0)) 0 (.spinCas () 9 0)
def ex10 : ExSys := ex9.after 1 .tau 0 (.spin () 10)
def ex11 : ExSys := ex10.after 1 (.read (.mutex ()) loadOrder (.word 4)) 2 (.spinCas () 9 4)
def ex12 : ExSys := ex11.after 1 (.rmw (.mutex ()) lockOrder (.word 4) (.word 5)) 3 (.hold ())
def ex13 : ExSys := ex12.after 1 (.naRead (.obj ()) (.val 7)) 1 (.hold ())

theorem ex4_reach : Reachable exGuard (fun _ => 0) ex4 :=
  (((Reach.init.step (after_step ex0 (t := 0) .enter rfl)).step
    (after_step ex1 (t := 0) (.spinFree (by decide)) rfl)).step
    (after_step ex2 (t := 0) .spinOk rfl)).step
    (after_step ex3 (t := 0) (.naWrite rfl) rfl)

theorem ex_steps : Steps (Prog exGuard) ex4 ex12 :=
  (((((((Steps.refl.step (after_step ex4 (t := 0) .release rfl)).step
    (after_step ex5 (t := 0) .ulLoad rfl)).step
    (after_step ex6 (t := 0) (.ulOk (by decide)) rfl)).step
    (after_step ex7 (t := 2) .enter rfl)).step
    (after_step ex8 (t := 2) (.spinFree (by decide)) rfl)).step
    (after_step ex9 (t := 1) .enter rfl)).step
    (after_step ex10 (t := 1) (.spinFree (by decide)) rfl)).step
    (after_step ex11 (t := 1) .spinOk rfl)

theorem ex_last : Step (Prog exGuard) ex12 ⟨1, 5, .naRead (.obj ()) (.val 7), 1⟩ ex13 :=
  after_step (prog := Prog exGuard) ex12 (t := 1) (a := .naRead (.obj ()) (.val 7)) (i := 1) (p := .hold ()) (.naRead rfl) rfl

/-- C44_exclusive, C44_handover: thread 0 owns the lock at `ex4`, thread 1 at `ex12`. -/
example : Reachable exGuard (fun _ => 0) ex4 ∧ Steps (Prog exGuard) ex4 ex12 ∧ (ex4.pc 0).Owns () ∧ (ex12.pc 1).Owns () ∧
    ex4.log.length = 4 := ⟨ex4_reach, ex_steps, rfl, rfl, rfl⟩

/-- C44_no_data_race, C44_visible: the write by thread 0 and the read by thread 1 conflict. -/
example : ∃ e ∈ ex4.log, e.thr = 0 ∧ e.act = .naWrite (.obj ()) (.val 7) ∧
    Conflict e.act (.naRead (.obj ()) (.val 7) : Act (Loc Unit Unit) (Val Nat)) ∧
    HappensBefore ex12 e 1 :=
  ⟨⟨0, _, _, _⟩, List.mem_append_right _ (List.mem_singleton.2 rfl), rfl, rfl, ⟨_, rfl, rfl, .inl trivial, .inl trivial⟩,
    (C44_handover exGuard (fun _ => 0) _ _ ex4_reach ex_steps () 0 1 rfl rfl).2 _
      (List.mem_append_right _ (List.mem_singleton.2 rfl)) rfl⟩

/-- C44_reads_latest: the value read is the one written, not the initial one. -/
example : lastWritten (.obj ()) (.val 0) ex12.log = (.val 7 : Val Nat) :=
  (C44_reads_latest exGuard (fun _ => 0) _ _ (ex_steps.reach ex4_reach) _ ex_last () _ rfl).symm

end Verif.Weak
