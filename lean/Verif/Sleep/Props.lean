import Verif.Sleep.Cond
import Verif.Sleep.DemoFacts
import Verif.Sleep.Solo

/-
C57: no thread is left blocked in the mutex of the lock pool, on processors that reorder accesses.
C58: a notification reaches the threads that wait for an object through the condition of its wait state, on processors that
reorder accesses.
-/

namespace Verif.Sleep

open Verif.Order Verif.Mca Verif.Mca.Run Verif.Locked

/-! ### The mutex -/

/-- A wait that is added to the queue of the mutex `m`, by the thread itself in `lock` or by a notification, is taken from
it again: by a thread that gives the mutex back, or it ends by itself.  The program is any, with any number of threads and
sections, as long as the counter in the word does not make a full turn.  In every execution on every back end whose processor
has one shared memory.  Excluded are programs with an operation or fence that the back end makes too weak (findings of C19 and
C22). -/
theorem C57_woken_partial {cpu : Cpu} (R : Mca.Run cpu) (hR : R.Valid) (V : Values) (guard : Nat → Option Nat)
    (Z : Sections) (hL : Z.Lawful R.prog guard) (hH : Z.Holds R R.ReadsFrom V)
    (hacc : ∀ t, ∀ it ∈ R.prog t, it.accepts = true) (hok : ∀ t, ∀ it ∈ R.prog t, it.broken = false)
    (n : Nat) (hn : ∀ t, n ≤ t → R.prog t = [])
    (m bucket queue : Nat) (hm : ∃ S, Z.mutex S = m) (does : Z.Sec → Option (Syscall Z.Sec))
    (hW : Waits R R.ReadsFrom R.HappensBefore V guard Z m bucket queue does)
    (hT : NoTurn R V (fun w w' => R.time w .wr < R.time w' .wr) Z m)
    (E : Z.Sec) (k : Nat) (hA : Adds R R.ReadsFrom V guard Z E queue k) :
    ∃ K, ((∃ S, does K = some (.signal S)) ∨ does K = some (.quit k)) ∧ Removes R R.ReadsFrom V guard Z K queue k :=
  added_removed (M := mca R hR fun t it h => ⟨hacc t it h, hok t it h⟩) (hL := hL) (hH := hH)
    (hcr := fun _ _ h => h.reads) hW hT hn hm hA

/-- The counter does not make a full turn if the mutex is taken less than 2^30 times. -/
theorem C57_few_partial {cpu : Cpu} (R : Mca.Run cpu) (hR : R.Valid) (V : Values) (guard : Nat → Option Nat)
    (Z : Sections) (hL : Z.Lawful R.prog guard) (hH : Z.Holds R R.ReadsFrom V)
    (hacc : ∀ t, ∀ it ∈ R.prog t, it.accepts = true) (hok : ∀ t, ∀ it ∈ R.prog t, it.broken = false)
    (n : Nat) (hn : ∀ t, n ≤ t → R.prog t = [])
    (m bucket queue : Nat) (hm : ∃ S, Z.mutex S = m) (does : Z.Sec → Option (Syscall Z.Sec))
    (hW : Waits R R.ReadsFrom R.HappensBefore V guard Z m bucket queue does)
    (l : List Z.Sec) (hl : l.length < 2 ^ 30) (hall : ∀ S, Z.mutex S = m → S ∈ l)
    (E : Z.Sec) (k : Nat) (hA : Adds R R.ReadsFrom V guard Z E queue k) :
    ∃ K, ((∃ S, does K = some (.signal S)) ∨ does K = some (.quit k)) ∧ Removes R R.ReadsFrom V guard Z K queue k :=
  C57_woken_partial R hR V guard Z hL hH hacc hok n hn m bucket queue hm does hW
    (noTurn_of_few (M := mca R hR fun t it h => ⟨hacc t it h, hok t it h⟩) (hL := hL) (hH := hH)
      (hcr := fun _ _ h => h.reads) hW hl hall) E k hA

/-- Without exceptions for programs made of the following back ends. -/
theorem C57_woken {cpu : Cpu} (R : Mca.Run cpu) (hR : R.Valid) (V : Values) (guard : Nat → Option Nat)
    (Z : Sections) (hL : Z.Lawful R.prog guard) (hH : Z.Holds R R.ReadsFrom V)
    (hacc : ∀ t, ∀ it ∈ R.prog t, it.accepts = true)
    (hbe : ∀ t, ∀ it ∈ R.prog t, ∀ b, it.backend = some b →
      b ∈ [.msvcX86, .x86Wide true true, .x86Wide true false, .msvcArm, .gccArm, .gccArmWide, .alpha, .gccAtomic,
        .gccAtomicX86, .windows true])
    (n : Nat) (hn : ∀ t, n ≤ t → R.prog t = [])
    (m bucket queue : Nat) (hm : ∃ S, Z.mutex S = m) (does : Z.Sec → Option (Syscall Z.Sec))
    (hW : Waits R R.ReadsFrom R.HappensBefore V guard Z m bucket queue does)
    (hT : NoTurn R V (fun w w' => R.time w .wr < R.time w' .wr) Z m)
    (E : Z.Sec) (k : Nat) (hA : Adds R R.ReadsFrom V guard Z E queue k) :
    ∃ K, ((∃ S, does K = some (.signal S)) ∨ does K = some (.quit k)) ∧ Removes R R.ReadsFrom V guard Z K queue k :=
  C57_woken_partial R hR V guard Z hL hH hacc (fun t it h => Notify.fine (hbe t it h)) n hn m bucket queue hm does hW hT E k hA

/-- The same where a write becomes visible to one thread after another. -/
theorem C57_woken_cumulative_partial {cpu : Cpu} (hcpu : cpu ∈ [.power, .arm, .alpha]) (R : Pow.Run cpu) (hR : R.Valid)
    (V : Values) (guard : Nat → Option Nat)
    (Z : Sections) (hL : Z.Lawful R.prog guard) (hH : Z.Holds R.toRun R.ReadsFrom V)
    (hacc : ∀ t, ∀ it ∈ R.prog t, it.accepts = true)
    (hok : ∀ t f o n l, Item.op .linuxArm (.casFail f) o n l ∉ R.prog t)
    (n : Nat) (hn : ∀ t, n ≤ t → R.prog t = [])
    (m bucket queue : Nat) (hm : ∃ S, Z.mutex S = m) (does : Z.Sec → Option (Syscall Z.Sec))
    (hW : Waits R.toRun R.ReadsFrom R.HappensBefore V guard Z m bucket queue does) (hT : NoTurn R.toRun V R.Co Z m)
    (E : Z.Sec) (k : Nat) (hA : Adds R.toRun R.ReadsFrom V guard Z E queue k) :
    ∃ K, ((∃ S, does K = some (.signal S)) ∨ does K = some (.quit k)) ∧ Removes R.toRun R.ReadsFrom V guard Z K queue k :=
  added_removed (M := pow R hR ⟨hcpu, hR.inThread.fits⟩ (sound_cumulative hcpu R hR hacc hok)) (hL := hL) (hH := hH)
    (hcr := fun _ _ h => h.reads) hW hT hn hm hA

theorem C57_few_cumulative_partial {cpu : Cpu} (hcpu : cpu ∈ [.power, .arm, .alpha]) (R : Pow.Run cpu) (hR : R.Valid)
    (V : Values) (guard : Nat → Option Nat)
    (Z : Sections) (hL : Z.Lawful R.prog guard) (hH : Z.Holds R.toRun R.ReadsFrom V)
    (hacc : ∀ t, ∀ it ∈ R.prog t, it.accepts = true)
    (hok : ∀ t f o n l, Item.op .linuxArm (.casFail f) o n l ∉ R.prog t)
    (n : Nat) (hn : ∀ t, n ≤ t → R.prog t = [])
    (m bucket queue : Nat) (hm : ∃ S, Z.mutex S = m) (does : Z.Sec → Option (Syscall Z.Sec))
    (hW : Waits R.toRun R.ReadsFrom R.HappensBefore V guard Z m bucket queue does)
    (l : List Z.Sec) (hl : l.length < 2 ^ 30) (hall : ∀ S, Z.mutex S = m → S ∈ l)
    (E : Z.Sec) (k : Nat) (hA : Adds R.toRun R.ReadsFrom V guard Z E queue k) :
    ∃ K, ((∃ S, does K = some (.signal S)) ∨ does K = some (.quit k)) ∧ Removes R.toRun R.ReadsFrom V guard Z K queue k :=
  C57_woken_cumulative_partial hcpu R hR V guard Z hL hH hacc hok n hn m bucket queue hm does hW
    (noTurn_of_few (M := pow R hR ⟨hcpu, hR.inThread.fits⟩ (sound_cumulative hcpu R hR hacc hok)) (hL := hL) (hH := hH)
      (hcr := fun _ _ h => h.reads) hW hl hall) E k hA

/-! ### The condition -/

/-- A thread modifies the object `x`, with any memory order, and then calls `notify_all` (or the modification happens
before something the thread does before the call).  Another thread has compared `x` with `old`, has entered the wait state
with the condition `c`, and blocks in the kernel.  If the object does not get the value `old` again, and the condition not
the value `p` that the thread has read, the thread does not stay blocked: it is taken from the queue of the condition, and
from the queue of the mutex if it was moved there. -/
theorem C58_notify_all_partial {cpu : Cpu} (R : Mca.Run cpu) (hR : R.Valid) (V : Values) (guard : Nat → Option Nat)
    (Z : Sections) (hL : Z.Lawful R.prog guard) (hH : Z.Holds R R.ReadsFrom V)
    (hacc : ∀ t, ∀ it ∈ R.prog t, it.accepts = true) (hok : ∀ t, ∀ it ∈ R.prog t, it.broken = false)
    (n : Nat) (hn : ∀ t, n ≤ t → R.prog t = [])
    (m bucket target : Nat) (hm : ∃ S, Z.mutex S = m) (calls : Z.Sec → Option (Syscall Z.Sec))
    (hW : Waits R R.ReadsFrom R.HappensBefore V guard Z m bucket target calls)
    (hT : NoTurn R V (fun w w' => R.time w .wr < R.time w' .wr) Z m)
    (entry users cond queue : Nat → Nat) (uses : Z.Sec → Nat → Option Use) (does : Z.Sec → Nat → Option Notify.Call)
    (hC : Conditions R R.ReadsFrom V guard Z entry users cond uses does)
    (hK : Notify.Records R R.ReadsFrom V guard Z.mutex Z.take Z.give queue does)
    (N : Z.Sec) (x old : Nat) (hN : uses N x = some .notifyAll)
    (w : Pos) (hw : Notify.Precedes R R.HappensBefore w (Z.take N))
    (hset : Notify.Settles R V (fun w w' => R.time w .wr < R.time w' .wr) x old w)
    (c p : Nat) (hpass : Passes R R.ReadsFrom V (fun w w' => R.time w .wr < R.time w' .wr) c p)
    (S K : Z.Sec) (k : Nat) : ¬ NeverWoken R R.ReadsFrom V guard Z queue target uses does S K x k old c p :=
  not_never (M := mca R hR fun t it h => ⟨hacc t it h, hok t it h⟩) (hL := hL) (hH := hH)
    (hcr := fun _ _ h => h.reads) hW hT hn hm hC hK hN hw hset hpass

/-- The part of it that is about the condition, for mutexes of any kind. -/
theorem C58_condition_partial {cpu : Cpu} (R : Mca.Run cpu) (hR : R.Valid) (V : Values) (guard : Nat → Option Nat)
    (Z : Sections) (hL : Z.Lawful R.prog guard) (hH : Z.Holds R R.ReadsFrom V)
    (hacc : ∀ t, ∀ it ∈ R.prog t, it.accepts = true) (hok : ∀ t, ∀ it ∈ R.prog t, it.broken = false)
    (entry users cond queue : Nat → Nat) (uses : Z.Sec → Nat → Option Use) (does : Z.Sec → Nat → Option Notify.Call)
    (hC : Conditions R R.ReadsFrom V guard Z entry users cond uses does)
    (hK : Notify.Records R R.ReadsFrom V guard Z.mutex Z.take Z.give queue does)
    (N : Z.Sec) (x old : Nat) (hN : uses N x = some .notifyAll)
    (w : Pos) (hw : Notify.Precedes R R.HappensBefore w (Z.take N))
    (hset : Notify.Settles R V (fun w w' => R.time w .wr < R.time w' .wr) x old w)
    (c p : Nat) (hpass : Passes R R.ReadsFrom V (fun w w' => R.time w .wr < R.time w' .wr) c p)
    (S K : Z.Sec) (k : Nat) : ¬ LeftBlocked R R.ReadsFrom V guard Z queue uses does S K x k old c p :=
  not_left (M := mca R hR fun t it h => ⟨hacc t it h, hok t it h⟩) (hL := hL) (hH := hH)
    (hcr := fun _ _ h => h.reads) hC hK hN hw hset hpass

/-- `notify_one`: if a thread is left in the queue of the condition, the notification took another one from it. -/
theorem C58_notify_one_partial {cpu : Cpu} (R : Mca.Run cpu) (hR : R.Valid) (V : Values) (guard : Nat → Option Nat)
    (Z : Sections) (hL : Z.Lawful R.prog guard) (hH : Z.Holds R R.ReadsFrom V)
    (hacc : ∀ t, ∀ it ∈ R.prog t, it.accepts = true) (hok : ∀ t, ∀ it ∈ R.prog t, it.broken = false)
    (entry users cond queue : Nat → Nat) (uses : Z.Sec → Nat → Option Use) (does : Z.Sec → Nat → Option Notify.Call)
    (hC : Conditions R R.ReadsFrom V guard Z entry users cond uses does)
    (hK : Notify.Records R R.ReadsFrom V guard Z.mutex Z.take Z.give queue does)
    (N : Z.Sec) (x old : Nat) (hN : uses N x = some .notifyOne)
    (w : Pos) (hw : Notify.Precedes R R.HappensBefore w (Z.take N))
    (hset : Notify.Settles R V (fun w w' => R.time w .wr < R.time w' .wr) x old w)
    (c p : Nat) (hpass : Passes R R.ReadsFrom V (fun w w' => R.time w .wr < R.time w' .wr) c p)
    (S K : Z.Sec) (k : Nat) (hb : LeftBlocked R R.ReadsFrom V guard Z queue uses does S K x k old c p) :
    ∃ B j, does B c = some .notifyOne ∧ Z.Contains N (Z.give B) ∧ j ≠ k ∧ Removes R R.ReadsFrom V guard Z B (queue c) j :=
  not_left_one (M := mca R hR fun t it h => ⟨hacc t it h, hok t it h⟩) (hL := hL) (hH := hH)
    (hcr := fun _ _ h => h.reads) hC hK hN hw hset hpass hb

/-- `notify_all` without exceptions for programs made of the following back ends. -/
theorem C58_notify_all {cpu : Cpu} (R : Mca.Run cpu) (hR : R.Valid) (V : Values) (guard : Nat → Option Nat)
    (Z : Sections) (hL : Z.Lawful R.prog guard) (hH : Z.Holds R R.ReadsFrom V)
    (hacc : ∀ t, ∀ it ∈ R.prog t, it.accepts = true)
    (hbe : ∀ t, ∀ it ∈ R.prog t, ∀ b, it.backend = some b →
      b ∈ [.msvcX86, .x86Wide true true, .x86Wide true false, .msvcArm, .gccArm, .gccArmWide, .alpha, .gccAtomic,
        .gccAtomicX86, .windows true])
    (n : Nat) (hn : ∀ t, n ≤ t → R.prog t = [])
    (m bucket target : Nat) (hm : ∃ S, Z.mutex S = m) (calls : Z.Sec → Option (Syscall Z.Sec))
    (hW : Waits R R.ReadsFrom R.HappensBefore V guard Z m bucket target calls)
    (hT : NoTurn R V (fun w w' => R.time w .wr < R.time w' .wr) Z m)
    (entry users cond queue : Nat → Nat) (uses : Z.Sec → Nat → Option Use) (does : Z.Sec → Nat → Option Notify.Call)
    (hC : Conditions R R.ReadsFrom V guard Z entry users cond uses does)
    (hK : Notify.Records R R.ReadsFrom V guard Z.mutex Z.take Z.give queue does)
    (N : Z.Sec) (x old : Nat) (hN : uses N x = some .notifyAll)
    (w : Pos) (hw : Notify.Precedes R R.HappensBefore w (Z.take N))
    (hset : Notify.Settles R V (fun w w' => R.time w .wr < R.time w' .wr) x old w)
    (c p : Nat) (hpass : Passes R R.ReadsFrom V (fun w w' => R.time w .wr < R.time w' .wr) c p)
    (S K : Z.Sec) (k : Nat) : ¬ NeverWoken R R.ReadsFrom V guard Z queue target uses does S K x k old c p :=
  C58_notify_all_partial R hR V guard Z hL hH hacc (fun t it h => Notify.fine (hbe t it h)) n hn m bucket target hm calls hW hT
    entry users cond queue uses does hC hK N x old hN w hw hset c p hpass S K k

/-- The same where a write becomes visible to one thread after another. -/
theorem C58_notify_all_cumulative_partial {cpu : Cpu} (hcpu : cpu ∈ [.power, .arm, .alpha]) (R : Pow.Run cpu) (hR : R.Valid)
    (V : Values) (guard : Nat → Option Nat)
    (Z : Sections) (hL : Z.Lawful R.prog guard) (hH : Z.Holds R.toRun R.ReadsFrom V)
    (hacc : ∀ t, ∀ it ∈ R.prog t, it.accepts = true)
    (hok : ∀ t f o n l, Item.op .linuxArm (.casFail f) o n l ∉ R.prog t)
    (n : Nat) (hn : ∀ t, n ≤ t → R.prog t = [])
    (m bucket target : Nat) (hm : ∃ S, Z.mutex S = m) (calls : Z.Sec → Option (Syscall Z.Sec))
    (hW : Waits R.toRun R.ReadsFrom R.HappensBefore V guard Z m bucket target calls) (hT : NoTurn R.toRun V R.Co Z m)
    (entry users cond queue : Nat → Nat) (uses : Z.Sec → Nat → Option Use) (does : Z.Sec → Nat → Option Notify.Call)
    (hC : Conditions R.toRun R.ReadsFrom V guard Z entry users cond uses does)
    (hK : Notify.Records R.toRun R.ReadsFrom V guard Z.mutex Z.take Z.give queue does)
    (N : Z.Sec) (x old : Nat) (hN : uses N x = some .notifyAll)
    (w : Pos) (hw : Notify.Precedes R.toRun R.HappensBefore w (Z.take N))
    (hset : Notify.Settles R.toRun V R.Co x old w)
    (c p : Nat) (hpass : Passes R.toRun R.ReadsFrom V R.Co c p)
    (S K : Z.Sec) (k : Nat) : ¬ NeverWoken R.toRun R.ReadsFrom V guard Z queue target uses does S K x k old c p :=
  not_never (M := pow R hR ⟨hcpu, hR.inThread.fits⟩ (sound_cumulative hcpu R hR hacc hok)) (hL := hL) (hH := hH)
    (hcr := fun _ _ h => h.reads) hW hT hn hm hC hK hN hw hset hpass

theorem C58_notify_one_cumulative_partial {cpu : Cpu} (hcpu : cpu ∈ [.power, .arm, .alpha]) (R : Pow.Run cpu) (hR : R.Valid)
    (V : Values) (guard : Nat → Option Nat)
    (Z : Sections) (hL : Z.Lawful R.prog guard) (hH : Z.Holds R.toRun R.ReadsFrom V)
    (hacc : ∀ t, ∀ it ∈ R.prog t, it.accepts = true)
    (hok : ∀ t f o n l, Item.op .linuxArm (.casFail f) o n l ∉ R.prog t)
    (entry users cond queue : Nat → Nat) (uses : Z.Sec → Nat → Option Use) (does : Z.Sec → Nat → Option Notify.Call)
    (hC : Conditions R.toRun R.ReadsFrom V guard Z entry users cond uses does)
    (hK : Notify.Records R.toRun R.ReadsFrom V guard Z.mutex Z.take Z.give queue does)
    (N : Z.Sec) (x old : Nat) (hN : uses N x = some .notifyOne)
    (w : Pos) (hw : Notify.Precedes R.toRun R.HappensBefore w (Z.take N))
    (hset : Notify.Settles R.toRun V R.Co x old w)
    (c p : Nat) (hpass : Passes R.toRun R.ReadsFrom V R.Co c p)
    (S K : Z.Sec) (k : Nat) (hb : LeftBlocked R.toRun R.ReadsFrom V guard Z queue uses does S K x k old c p) :
    ∃ B j, does B c = some .notifyOne ∧ Z.Contains N (Z.give B) ∧ j ≠ k ∧ Removes R.toRun R.ReadsFrom V guard Z B (queue c) j :=
  not_left_one (M := pow R hR ⟨hcpu, hR.inThread.fits⟩ (sound_cumulative hcpu R hR hacc hok)) (hL := hL) (hH := hH)
    (hcr := fun _ _ h => h.reads) hC hK hN hw hset hpass hb

/-! ### An execution -/

/-- The hypotheses hold for the execution of `Verif.Sleep.Demo`, in which the mutex is taken four times. -/
example : demo.Valid ∧ demoSections.Lawful demo.prog demoGuard ∧ demoSections.Holds demo demo.ReadsFrom demoValues ∧
    (∀ t, ∀ it ∈ demo.prog t, it.accepts = true) ∧ (∀ t, ∀ it ∈ demo.prog t, ∀ b, it.backend = some b → b = .gccArm) ∧
    (∀ t, 3 ≤ t → demo.prog t = []) ∧
    Waits demo demo.ReadsFrom demo.HappensBefore demoValues demoGuard demoSections 0 5 7 demoCalls ∧
    (∀ S : Fin 12, demoMutex S = 0 → S ∈ ([0, 3, 5, 10] : List (Fin 12))) :=
  ⟨demo_valid, demo_lawful, demo_holds, demo_code (by decide), demo_code (by decide), demo_end, demo_waits, by decide⟩

theorem demo_noTurn : NoTurn demo demoValues (fun w w' => demo.time w .wr < demo.time w' .wr) demoSections 0 :=
  noTurn_of_few (l := ([0, 3, 5, 10] : List (Fin 12)))
    (M := mca demo demo_valid fun t it h => ⟨demo_code (P := fun it => it.accepts = true) (by decide) t it h, Notify.fine (demo_code (P := fun it => ∀ b, it.backend = some b →
      b ∈ [.msvcX86, .x86Wide true true, .x86Wide true false, .msvcArm, .gccArm, .gccArmWide, .alpha, .gccAtomic,
        .gccAtomicX86, .windows true]) (by decide) t it h)⟩)
    (hL := demo_lawful) (hH := demo_holds) (hcr := fun _ _ h => h.reads) demo_waits (by decide)
    (by decide : ∀ S : Fin 12, demoMutex S = 0 → S ∈ ([0, 3, 5, 10] : List (Fin 12)))

/-- The wait 1 is added to the queue of the mutex by the thread itself, and the wait 0 by the notification.  They are
removed, the first one by the thread that notifies and the other one by the thread that was woken. -/
example : Adds demo demo.ReadsFrom demoValues demoGuard demoSections (8 : Fin 12) 7 1 ∧
    Adds demo demo.ReadsFrom demoValues demoGuard demoSections (6 : Fin 12) 7 0 ∧
    demoCalls 7 = some (.signal 5) ∧ Removes demo demo.ReadsFrom demoValues demoGuard demoSections (7 : Fin 12) 7 1 ∧
    demoCalls 11 = some (.signal 10) ∧ Removes demo demo.ReadsFrom demoValues demoGuard demoSections (11 : Fin 12) 7 0 := by
  obtain ⟨-, f8, l8, f6, l6, f7, l7, f11, l11, -⟩ := demo_queue
  exact ⟨⟨rfl, 0, 2, (demo_found f8).2 (by simp), (demo_left l8).2 (by simp), rfl, rfl⟩,
    ⟨rfl, 2, 3, (demo_found f6).2 (by simp), (demo_left l6).2 (by simp), rfl, rfl⟩,
    rfl, ⟨rfl, 3, 1, (demo_found f7).2 (by simp), (demo_left l7).2 (by simp), rfl, rfl⟩,
    rfl, ⟨rfl, 1, 0, (demo_found f11).2 (by simp), (demo_left l11).2 (by simp), rfl, rfl⟩⟩

/-- The hypotheses of the theorems about `notify_all`.  The thread that waits has entered and blocks, it is moved to the queue
of the mutex, and it ends. -/
example : Conditions demo demo.ReadsFrom demoValues demoGuard demoSections demoEntry (fun v => v % 16) (fun v => v / 16)
      demoUses demoDoes ∧
    Notify.Records demo demo.ReadsFrom demoValues demoGuard demoSections.mutex demoSections.take demoSections.give demoQueue
      demoDoes ∧
    demoUses 5 1 = some .notifyAll ∧ Notify.Precedes demo demo.HappensBefore (0, 0) (demoTake 5) ∧
    Notify.Settles demo demoValues (fun w w' => demo.time w .wr < demo.time w' .wr) 1 0 (0, 0) ∧
    Passes demo demo.ReadsFrom demoValues (fun w w' => demo.time w .wr < demo.time w' .wr) 4 0 ∧
    demoUses 0 1 = some (.enter none 0 0 4 0) ∧ demoDoes 1 4 = some (.wait 0 0) ∧ demoSections.Follows (0 : Fin 12) (demoTake 1) ∧
    Removes demo demo.ReadsFrom demoValues demoGuard demoSections (6 : Fin 12) 6 0 ∧ Use.Ends (demoUses 3 1) 0 := by
  obtain ⟨-, -, -, -, -, -, -, f1, l1, f6, l6, -⟩ := demo_entry
  exact ⟨demo_conditions, demo_records, rfl, demo_precedes, demo_settles, demo_passes, rfl, rfl, ⟨by decide, by decide⟩,
    ⟨rfl, 1, 0, (demo_found f6).2 (by simp), (demo_left l6).2 (by simp), rfl, rfl⟩, rfl⟩

/-- The theorem about it. -/
example : ¬ NeverWoken demo demo.ReadsFrom demoValues demoGuard demoSections demoQueue 7 demoUses demoDoes (0 : Fin 12)
    (1 : Fin 12) 1 0 0 4 0 :=
  C58_notify_all demo demo_valid demoValues demoGuard demoSections demo_lawful demo_holds (demo_code (by decide))
    (demo_code (by decide)) 3 demo_end 0 5 7 ⟨(0 : Fin 12), rfl⟩ demoCalls demo_waits demo_noTurn demoEntry _ _ demoQueue demoUses
    demoDoes demo_conditions demo_records (5 : Fin 12) 1 0 rfl (0, 0) demo_precedes demo_settles 4 0 demo_passes _ _ _

theorem Waits.mono {cpu : Cpu} {R : Mca.Run cpu} {rf : Pos → Option Pos → Prop} {hb hb' : Pos → Pos → Prop} {V : Values}
    {guard : Nat → Option Nat} {Z : Sections} {m bucket queue : Nat} {does : Z.Sec → Option (Syscall Z.Sec)}
    (h : Waits R rf hb V guard Z m bucket queue does) (hhb : ∀ e f, hb e f → hb' e f) :
    Waits R rf hb' V guard Z m bucket queue does :=
  { h with resumed := fun K S j h1 h2 =>
      have ⟨id, h3, h4⟩ := h.resumed K S j h1 h2
      ⟨id, fun e f it h5 h6 => hhb e f (h3 e f it h5 h6), h4⟩ }

theorem atOnce_happens {cpu : Cpu} {R : Mca.Run cpu} (hR : R.Valid) {e f : Pos} (h : R.HappensBefore e f) :
    (Pow.Run.atOnce R).HappensBefore e f := by
  induction h with
  | before h => exact .before h
  | trans _ _ i j => exact .trans i j
  | sync h =>
    obtain ⟨w, v, r, h1, h2, h3, h4, h5, h6, h7⟩ := h
    refine .sync ⟨w, v, r, h1, h2, ?_, (Pow.Run.atOnce_reads hR).2 h4, h5, h6, h7⟩
    clear h4
    induction h3 with
    | head => exact .head
    | rmw _ j1 j2 j3 j4 ih => exact .rmw ih ((Pow.Run.atOnce_reads hR).2 j1) j2 j3 j4

/-- The same execution, on the machine on which writes become visible to one thread after another. -/
example : (Pow.Run.atOnce demo).Valid ∧
    Waits (Pow.Run.atOnce demo).toRun (Pow.Run.atOnce demo).ReadsFrom (Pow.Run.atOnce demo).HappensBefore demoValues demoGuard
      demoSections 0 5 7 demoCalls ∧
    demoSections.Holds (Pow.Run.atOnce demo).toRun (Pow.Run.atOnce demo).ReadsFrom demoValues ∧
    Conditions (Pow.Run.atOnce demo).toRun (Pow.Run.atOnce demo).ReadsFrom demoValues demoGuard demoSections demoEntry
      (fun v => v % 16) (fun v => v / 16) demoUses demoDoes ∧
    Notify.Records (Pow.Run.atOnce demo).toRun (Pow.Run.atOnce demo).ReadsFrom demoValues demoGuard demoSections.mutex
      demoSections.take demoSections.give demoQueue demoDoes := by
  have e : (Pow.Run.atOnce demo).ReadsFrom = demo.ReadsFrom :=
    funext fun r => funext fun s => propext (Pow.Run.atOnce_reads demo_valid)
  rw [e]
  exact ⟨Pow.Run.atOnce_valid demo_valid, demo_waits.mono fun _ _ h => atOnce_happens demo_valid h, demo_holds, demo_conditions, demo_records⟩

/-- An execution with `notify_one`: one of two threads is taken from the queue and the other one is left. -/
example : solo.Valid ∧ soloSections.Lawful solo.prog soloGuard ∧ soloSections.Holds solo solo.ReadsFrom soloValues ∧
    (∀ t, ∀ it ∈ solo.prog t, it.accepts = true) ∧ (∀ t, ∀ it ∈ solo.prog t, ∀ b, it.backend = some b → b = .gccArm) ∧
    Conditions solo solo.ReadsFrom soloValues soloGuard soloSections soloEntry (fun v => v % 16) (fun v => v / 16)
      soloUses soloDoes ∧
    Notify.Records solo solo.ReadsFrom soloValues soloGuard soloSections.mutex soloSections.take soloSections.give soloQueue
      soloDoes ∧
    soloUses 4 1 = some .notifyOne ∧ Notify.Precedes solo solo.HappensBefore (0, 0) (soloTake 4) ∧
    Notify.Settles solo soloValues (fun w w' => solo.time w .wr < solo.time w' .wr) 1 0 (0, 0) ∧
    Passes solo solo.ReadsFrom soloValues (fun w w' => solo.time w .wr < solo.time w' .wr) 4 0 ∧
    LeftBlocked solo solo.ReadsFrom soloValues soloGuard soloSections soloQueue soloUses soloDoes (2 : Fin 6) (3 : Fin 6)
      1 1 0 4 0 ∧
    Removes solo solo.ReadsFrom soloValues soloGuard soloSections (5 : Fin 6) 6 0 := by
  obtain ⟨-, -, -, -, -, -, -, -, -, f5, l5, -⟩ := solo_tables
  exact ⟨solo_valid, solo_lawful, solo_holds, solo_code (by decide), solo_code (by decide), solo_conditions, solo_records, rfl,
    solo_precedes, solo_settles, solo_passes, solo_left,
    ⟨rfl, 3, 2, (found_iff solo_table f5).2 (by simp), (left_iff solo_table l5).2 (by simp), rfl, rfl⟩⟩

end Verif.Sleep
