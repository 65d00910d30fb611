import Verif.Await.Model
import Verif.Wait.Lemmas

/-
The result of a waiting function is the value it loaded last.
-/

namespace Verif.Await

open Verif.Wait Verif.Chrono

variable {W : World Nat} {i : Nat} {h : List (Wait.Ev Nat)}

theorem loaded_append {V : Type} (a b : List (Wait.Ev V)) : loaded (a ++ b) = loaded a ++ loaded b := List.filterMap_append

/-- The last load found `v`. -/
def Last (h : List (Wait.Ev Nat)) (v : Nat) : Prop := (loaded h).getLast? = some v

theorem last_load {t v : Nat} : Last (h ++ [.load t v]) v := by
  simp [Last, loaded]

theorem Last.snoc {v : Nat} (hl : Last h v) {e : Wait.Ev Nat} (he : loaded [e] = []) : Last (h ++ [e]) v := by
  simpa [Last, loaded_append, he] using hl

/-- Without regard to incomplete runs. -/
abbrev Ends (W : World Nat) {α : Type} (p : Prog Nat α) (i : Nat) (h : List (Wait.Ev Nat))
    (Q : List (Wait.Ev Nat) → α → Prop) : Prop := Good W (fun _ => True) p i h fun _ => Q

variable {α β : Type}

theorem ends_ret {a : α} {Q : List (Wait.Ev Nat) → α → Prop} (hq : Q h a) : Ends W (.ret a) i h Q := good_ret trivial hq

theorem ends_bind {p : Prog Nat α} {f : α → Prog Nat β} {Q : List (Wait.Ev Nat) → β → Prop}
    (hg : ∀ j tr a, Runs W p i j tr a → Ends W (f a) j (h ++ tr) Q) : Ends W (.bind p f) i h Q :=
  good_bind ⟨fun j tr a hr => hg j tr a hr, fun _ _ => trivial⟩

theorem ends_load {f : Nat → Prog Nat β} {Q : List (Wait.Ev Nat) → β → Prop}
    (hg : ∀ j h' v, Last h' v → Ends W (f v) j h' Q) : Ends W (.bind .load f) i h Q := by
  refine ends_bind fun j tr a hr => ?_
  obtain ⟨-, rfl, rfl⟩ := hr
  exact hg _ _ _ last_load

/-- Steps that load nothing. -/
def Quiet (W : World Nat) (p : Prog Nat α) : Prop := ∀ i j tr a, Runs W p i j tr a → loaded tr = []

theorem Quiet.then {p : Prog Nat α} (hp : Quiet W p) {f : α → Prog Nat β} {Q : List (Wait.Ev Nat) → β → Prop} {v : Nat}
    (hl : Last h v) (hg : ∀ j h' a, Last h' v → Ends W (f a) j h' Q) : Ends W (.bind p f) i h Q := by
  refine ends_bind fun j tr a hr => hg _ _ _ ?_
  simpa [Last, loaded_append, hp _ _ _ _ hr] using hl

/-- Steps that load nothing, before anything was loaded. -/
theorem ends_skip {p : Prog Nat α} {f : α → Prog Nat β} {Q : List (Wait.Ev Nat) → β → Prop}
    (hg : ∀ j h' a, Ends W (f a) j h' Q) : Ends W (.bind p f) i h Q := ends_bind fun _ _ _ _ => hg _ _ _

theorem quiet_ret {a : α} : Quiet W (.ret a) := by rintro _ _ _ _ ⟨-, rfl, -⟩; rfl
theorem quiet_now {c : Clk} : Quiet W (.now c) := by rintro _ _ _ _ ⟨-, rfl, -⟩; rfl
theorem quiet_gettime {c : Nat} : Quiet W (.gettime c) := by rintro _ _ _ _ ⟨-, rfl, -⟩; rfl
theorem quiet_kwait {l : Limit} : Quiet W (.kwait l) := by rintro _ _ _ _ ⟨-, rfl, -⟩; rfl
theorem quiet_pause : Quiet W .pause := by rintro _ _ _ _ ⟨-, rfl⟩; rfl
theorem quiet_env : Quiet W .env := by rintro _ _ _ _ ⟨-, rfl⟩; rfl
theorem quiet_bind {p : Prog Nat α} {f : α → Prog Nat β} (hp : Quiet W p) (hf : ∀ a, Quiet W (f a)) : Quiet W (.bind p f) := by
  rintro _ _ _ _ ⟨a, j, t1, t2, h1, h2, rfl⟩
  rw [loaded_append, hp _ _ _ _ h1, hf a _ _ _ _ h2]; rfl
theorem quiet_loop {σ : Type} {body : σ → Prog Nat (σ ⊕ α)} {s : σ} (hb : ∀ s, Quiet W (body s)) : Quiet W (.loop body s) := by
  intro _ _ _ _ hr
  simp only [Runs] at hr
  induction hr with
  | done h1 => exact hb _ _ _ _ _ h1
  | next h1 _ ih => rw [loaded_append, hb _ _ _ _ _ h1, ih]; rfl
theorem quiet_ite {c : Prop} [Decidable c] {p q : Prog Nat α} (hp : Quiet W p) (hq : Quiet W q) : Quiet W (if c then p else q) := by
  split <;> assumption

theorem quiet_wait (p : Pool) : Quiet W p.wait := by
  cases p <;> simp only [Pool.wait, bind_def, pure_def]
  · refine quiet_loop fun _ => quiet_bind quiet_kwait fun r => ?_
    exact quiet_ite (quiet_bind quiet_env fun _ => quiet_ite quiet_ret quiet_ret) quiet_ret
  · exact quiet_bind quiet_kwait fun _ => quiet_ret
  · exact quiet_bind quiet_kwait fun _ => quiet_ret
  · exact quiet_pause

theorem quiet_waitFor (p : Pool) (n : Int) : Quiet W (p.waitFor n) := by
  cases p <;> simp only [Pool.waitFor, bind_def, pure_def]
  · exact quiet_bind quiet_kwait fun _ => quiet_ret
  · exact quiet_bind quiet_kwait fun _ => quiet_ret
  · exact quiet_bind quiet_kwait fun _ => quiet_ret
  · exact quiet_bind quiet_now fun _ => quiet_bind quiet_pause fun _ => quiet_bind quiet_now fun _ => quiet_ret

theorem quiet_waitUntil (p : Pool) (c : Nat) (ts : Timespec) : Quiet W (p.waitUntil c ts) := by
  cases p <;> simp only [Pool.waitUntil, bind_def, pure_def]
  · refine quiet_ite (quiet_loop fun _ => quiet_bind quiet_kwait fun r => ?_) (quiet_bind quiet_gettime fun r => ?_)
    · exact quiet_ite (quiet_bind quiet_env fun _ => quiet_ite quiet_ret quiet_ret) quiet_ret
    · cases r with
      | none => exact quiet_ret
      | some r =>
        refine quiet_loop fun _ => quiet_ite quiet_ret (quiet_bind quiet_kwait fun _ => quiet_bind quiet_gettime fun _ =>
          quiet_bind quiet_env fun _ => quiet_ite quiet_ret quiet_ret)
  · refine quiet_ite (quiet_bind quiet_kwait fun _ => quiet_ret) (quiet_loop fun _ => quiet_bind quiet_gettime fun _ => ?_)
    exact quiet_ite quiet_ret (quiet_bind (quiet_waitFor _ _) fun _ => quiet_ite quiet_ret quiet_ret)
  · exact quiet_ret
  · refine quiet_bind quiet_pause fun _ => quiet_bind quiet_gettime fun r => ?_
    cases r <;> exact quiet_ret

/-! ### The functions -/

/-- The result of `wait`. -/
def Plain (old : Nat) (h : List (Wait.Ev Nat)) (v : Nat) : Prop := Last h v ∧ v ≠ old

/-- The result of a timed wait. -/
def Both (old : Nat) (h : List (Wait.Ev Nat)) (r : Timed Nat) : Prop := Last h r.1 ∧ (r.2 = true ↔ r.1 = old)

theorem ends_loop {σ : Type} (Inv : σ → List (Wait.Ev Nat) → Prop) {body : σ → Prog Nat (σ ⊕ α)} {s : σ}
    {Q : List (Wait.Ev Nat) → α → Prop} (h0 : Inv s h)
    (hb : ∀ s i h, Inv s h → Ends W (body s) i h fun h' r => match r with | .inl s => Inv s h' | .inr a => Q h' a) :
    Ends W (.loop body s) i h Q := by
  refine good_loop (fun s _ h => Inv s h) h0 fun s i h hi => (hb s i h hi).mono ?_
  intro j h' r _ hr
  cases r <;> exact hr

variable {old : Nat}

theorem nativeWait_ends : Ends W (nativeWait old) i h (Plain old) := by
  simp only [nativeWait, bind_def, pure_def]
  refine ends_load fun j h v hl => ends_loop (fun v h => Last h v) hl fun v i h hl => ?_
  split
  · exact quiet_kwait.then hl fun j h' a _ => ends_load fun j h v hl => ends_ret hl
  · exact ends_ret ⟨hl, ‹_›⟩

theorem emulatedWait_ends (p : Pool) : Ends W (emulatedWait p old) i h (Plain old) := by
  simp only [emulatedWait, bind_def, pure_def]
  refine ends_load fun j h v hl => ends_loop (fun v h => Last h v) hl fun v i h hl => ?_
  split
  · exact (quiet_wait p).then hl fun j h' a _ => ends_load fun j h v hl => ends_ret hl
  · exact ends_ret ⟨hl, ‹_›⟩

theorem genericWait_ends (p : Pool) : Ends W (genericWait p old) i h (Plain old) := by
  simp only [genericWait, bind_def, pure_def]
  refine ends_load fun j h v hl => ?_
  split
  · exact emulatedWait_ends p
  · exact ends_ret ⟨hl, ‹_›⟩

theorem relUntil_ends {c : Clk} {u : Conv} {lim : Int → Int} {timeout now : Int} :
    Ends W (relUntil c u lim old timeout now) i h (Both old) := by
  simp only [relUntil, bind_def, pure_def]
  refine ends_load fun j h v hl => ends_loop (fun s h => Last h s.1) hl fun ⟨v, now⟩ i h hl => ?_
  dsimp only
  split
  · split
    · exact ends_ret ⟨hl, iff_of_true rfl ‹_›⟩
    · exact quiet_kwait.then hl fun j h' a hl => quiet_now.then hl fun j h' a hl => ends_load fun j h v hl => ends_ret hl
  · exact ends_ret ⟨hl, iff_of_false nofun ‹_›⟩

theorem absLoop_ends {c : Nat} {ts : Timespec} {nosys : Option (Prog Nat (Timed Nat))} {v : Nat} (hl : Last h v)
    (hn : ∀ p, nosys = some p → ∀ i h, Ends W p i h (Both old)) : Ends W (absLoop c ts nosys old v) i h (Both old) := by
  simp only [absLoop, bind_def, pure_def]
  refine ends_loop (fun v h => Last h v) hl fun v i h hl => ?_
  split
  · refine quiet_kwait.then hl fun j h' r hl => ?_
    split
    · exact ends_load fun j h v hl => ends_ret ⟨hl, by simp⟩
    · exact ends_bind fun j tr x hr => ends_ret ((hn _ rfl _ _).1 _ _ _ hr)
    · exact ends_load fun j h v hl => ends_ret hl
  · exact ends_ret ⟨hl, iff_of_false nofun ‹_›⟩

theorem futexAbs_ends {c : Nat} {ts : Timespec} {u : Conv} {lim : Int → Int} {timeout : Int} :
    Ends W (futexAbs c ts u lim old timeout) i h (Both old) := by
  simp only [futexAbs, bind_def, pure_def]
  refine ends_load fun j h v hl => ?_
  split
  · refine absLoop_ends hl fun p hp i h => ?_
    cases hp
    exact ends_skip fun _ _ _ => relUntil_ends
  · exact ends_ret ⟨hl, by simp⟩

theorem freebsdAbs_ends {c : Nat} {ts : Timespec} : Ends W (freebsdAbs c ts old) i h (Both old) := by
  simp only [freebsdAbs, bind_def, pure_def]
  refine ends_load fun j h v hl => ?_
  split
  · exact absLoop_ends hl nofun
  · exact ends_ret ⟨hl, by simp⟩

theorem relWaitFor_ends {u : Conv} {lim : Int → Int} {timeout : Int} :
    Ends W (relWaitFor u lim old timeout) i h (Both old) := by
  simp only [relWaitFor, bind_def]
  exact ends_skip fun _ _ _ => relUntil_ends

theorem absWaitFor_ends {nosys : Bool} {w : Nat} {ut u : Conv} {mult c : Int} {lim : Int → Int} :
    Ends W (absWaitFor nosys w ut mult u lim old c) i h (Both old) := by
  simp only [absWaitFor, bind_def]
  split
  · refine ends_skip fun _ _ now => ?_
    split
    · split
      · refine ends_load fun j h v hl => absLoop_ends hl fun p hp i h => ?_
        cases nosys <;> cases hp
        exact relWaitFor_ends
      · exact relWaitFor_ends
    · exact relWaitFor_ends
  · exact relWaitFor_ends

theorem poolRelUntil_ends {p : Pool} {c : Clk} {u : Conv} {timeout now : Int} :
    Ends W (poolRelUntil p c u old timeout now) i h (Both old) := by
  simp only [poolRelUntil, poolRelLoop, bind_def, pure_def]
  refine ends_load fun j h v hl => ends_loop (fun s h => Last h s.1) hl fun ⟨v, now⟩ i h hl => ?_
  dsimp only
  split
  · split
    · exact ends_ret ⟨hl, iff_of_true rfl ‹_›⟩
    · exact (quiet_waitFor p _).then hl fun j h' a hl => quiet_now.then hl fun j h' a hl =>
        ends_load fun j h v hl => ends_ret hl
  · exact ends_ret ⟨hl, iff_of_false nofun ‹_›⟩

theorem poolAbsUntil_ends {p : Pool} {c : Nat} {ts : Timespec} : Ends W (poolAbsUntil p c ts old) i h (Both old) := by
  simp only [poolAbsUntil, poolAbsLoop, bind_def, pure_def]
  refine ends_load fun j h v hl => ?_
  split
  · refine ends_loop (fun v h => Last h v) hl fun v i h hl => ?_
    split
    · refine (quiet_waitUntil p c ts).then hl fun j h' a hl => ends_load fun j h v hl => ?_
      split
      · exact ends_ret ⟨hl, by simp⟩
      · exact ends_ret hl
    · exact ends_ret ⟨hl, iff_of_false nofun ‹_›⟩
  · exact ends_ret ⟨hl, by simp⟩

theorem pollStep_ends {v : Nat} (hl : Last h v) : Ends W (pollStep old) i h fun h' r =>
    match r with | .inl _ => Last h' old | .inr v => Plain old h' v := by
  simp only [pollStep, bind_def, pure_def]
  refine quiet_pause.then hl fun j h' a hl => ends_load fun j h v hl => ?_
  split
  · exact ends_ret ⟨hl, ‹_›⟩
  · rename_i hv
    exact ends_ret (Decidable.not_not.1 hv ▸ hl)

theorem pollFrom_ends : ∀ {n i h} {v : Nat}, Last h v → Ends W (pollFrom old n) i h (Plain old)
  | 0, i, h, v, hl => by
    simp only [pollFrom]
    refine ends_loop (fun _ h => ∃ v, Last h v) ⟨v, hl⟩ fun _ i h ⟨v, hl⟩ => (pollStep_ends hl).mono ?_
    intro j h' r _ hr
    cases r with
    | inl => exact ⟨_, hr⟩
    | inr => exact hr
  | n + 1, i, h, v, hl => by
    simp only [pollFrom, bind_def, pure_def]
    refine ends_bind fun j tr r hr => ?_
    have hr := (pollStep_ends hl).1 _ _ _ hr
    cases r with
    | inl => exact pollFrom_ends hr
    | inr => exact ends_ret hr

theorem ipcWait_ends {n : Nat} : Ends W (ipcWait n old) i h (Plain old) := by
  simp only [ipcWait, bind_def, pure_def]
  refine ends_load fun j h v hl => ?_
  split
  · exact pollFrom_ends hl
  · exact ends_ret ⟨hl, ‹_›⟩

theorem pollTimedStep_ends {c : Clk} {timeout now : Int} (hl : Last h old) :
    Ends W (pollTimedStep c old timeout now) i h fun h' r =>
      match r with | .inl _ => Last h' old | .inr v => Both old h' v := by
  simp only [pollTimedStep, bind_def, pure_def]
  split
  · exact ends_ret ⟨hl, iff_of_true rfl rfl⟩
  · refine quiet_pause.then hl fun j h' a hl => quiet_now.then hl fun j h' a hl => ends_load fun j h v hl => ?_
    split
    · exact ends_ret ⟨hl, iff_of_false nofun ‹_›⟩
    · rename_i hv
      exact ends_ret (Decidable.not_not.1 hv ▸ hl)

theorem pollTimedFrom_ends {c : Clk} {timeout : Int} : ∀ {n i h} {now : Int}, Last h old →
    Ends W (pollTimedFrom c old timeout n now) i h (Both old)
  | 0, i, h, now, hl => by
    simp only [pollTimedFrom]
    refine ends_loop (fun _ h => Last h old) hl fun _ i h hl => (pollTimedStep_ends hl).mono ?_
    intro j h' r _ hr
    cases r <;> exact hr
  | n + 1, i, h, now, hl => by
    simp only [pollTimedFrom, bind_def, pure_def]
    refine ends_bind fun j tr r hr => ?_
    have hr := (pollTimedStep_ends hl).1 _ _ _ hr
    cases r with
    | inl => exact pollTimedFrom_ends hr
    | inr => exact ends_ret hr

theorem ipcUntil_ends {n : Nat} {c : Clk} {timeout now : Int} : Ends W (ipcUntil n c old timeout now) i h (Both old) := by
  simp only [ipcUntil, bind_def, pure_def]
  refine ends_load fun j h v hl => ?_
  split
  · rename_i hv
    exact pollTimedFrom_ends (hv ▸ hl)
  · exact ends_ret ⟨hl, iff_of_false nofun ‹_›⟩

theorem ends_plain {p : Prog Nat Nat} (hp : Ends W p i h (Plain old)) :
    Ends W (.bind p fun v => .ret (v, false)) i h (Both old) :=
  ends_bind fun _ _ _ hr => ends_ret ⟨(hp.1 _ _ _ hr).1, iff_of_false nofun (hp.1 _ _ _ hr).2⟩

theorem func_ends (f : Func) : Ends W (f.prog old) i h (Both old) := by
  cases f <;> simp only [Func.prog, relWaitUntil, relWaitFor, poolWaitUntil, poolWaitFor, ipcWaitUntil, ipcWaitFor, bind_def,
    pure_def]
  · exact ends_plain nativeWait_ends
  · exact ends_skip fun _ _ _ => relUntil_ends
  · exact ends_skip fun _ _ _ => relUntil_ends
  · exact futexAbs_ends
  · exact freebsdAbs_ends
  · exact absWaitFor_ends
  · exact ends_plain (genericWait_ends _)
  · exact ends_skip fun _ _ _ => poolRelUntil_ends
  · exact poolAbsUntil_ends
  · exact ends_skip fun _ _ _ => poolRelUntil_ends
  · exact ends_plain ipcWait_ends
  · exact ends_skip fun _ _ _ => ipcUntil_ends
  · exact ends_skip fun _ _ _ => ipcUntil_ends

theorem poolFunc_ends (f : PoolFunc) : Ends W (f.prog old) i h (Both old) := by
  cases f <;> simp only [PoolFunc.prog, poolWaitUntil, poolWaitFor, bind_def, pure_def]
  · exact ends_plain (emulatedWait_ends _)
  · exact ends_skip fun _ _ _ => poolRelUntil_ends
  · exact poolAbsUntil_ends
  · exact ends_skip fun _ _ _ => poolRelUntil_ends

end Verif.Await
