import Verif.Idiom.Spec
import Verif.Idiom.Stack
import Verif.Idiom.Spin
import Verif.Idiom.Once
import Verif.Locked.Props
import Verif.Notify.Props
import Verif.Target.Props

/-
C60–C64: what the documentation promises about its examples.
-/

namespace Verif.Idiom

open Verif.Order Verif.Mca Verif.Mca.Run Verif.Locked

/-! ### DeletedOnce -/

/-- The reference counter of the documentation: whoever finds that it has dropped the last reference comes, after its acquire fence,
after everything that was done with the references; it is one thread only; and it is one if all references are dropped.  In every execution of every program, on every back end whose
processor has one shared memory.  Excluded are programs with an operation or fence that the back end makes too weak (findings
of C19 and C22). -/
theorem C60_deleted_partial {cpu : Cpu} (R : Mca.Run cpu) (hR : R.Valid) (V : Values) (hV : R.Copies V)
    (hacc : ∀ t, ∀ it ∈ R.prog t, it.accepts = true) (hok : ∀ t, ∀ it ∈ R.prog t, it.broken = false)
    {x bits : Nat} {P : Refs} (h : RefCount R R.ReadsFrom R.HappensBefore V x bits P) :
    DeletedOnce R R.ReadsFrom R.HappensBefore V x P := by
  have hS : R.Sound := fun t it h => ⟨hacc t it h, hok t it h⟩
  let M := mca R hR hS
  exact ⟨fun p d k hd => h.deletes (M := M) hV hd, fun p q d d' hp hq hf hf' => (h.once (M := M) hV hp hq hf hf').1,
    fun refs h1 h2 => h.deleted (M := M) hV refs h1 h2⟩

/-- Without exceptions for programs made of the following back ends. -/
theorem C60_deleted {cpu : Cpu} (R : Mca.Run cpu) (hR : R.Valid) (V : Values) (hV : R.Copies V)
    (hacc : ∀ t, ∀ it ∈ R.prog t, it.accepts = true)
    (hbe : ∀ t, ∀ it ∈ R.prog t, ∀ b, it.backend = some b →
      b ∈ [.msvcX86, .x86Wide true true, .x86Wide true false, .msvcArm, .gccArm, .gccArmWide, .alpha, .gccAtomic,
        .gccAtomicX86, .windows true])
    {x bits : Nat} {P : Refs} (h : RefCount R R.ReadsFrom R.HappensBefore V x bits P) :
    DeletedOnce R R.ReadsFrom R.HappensBefore V x P :=
  C60_deleted_partial R hR V hV hacc (fun t it h => Notify.fine (hbe t it h)) h

/-- Where a write becomes visible to one thread after another. -/
theorem C60_deleted_cumulative_partial {cpu : Cpu} (hcpu : cpu ∈ [.power, .arm, .alpha]) (R : Pow.Run cpu) (hR : R.Valid)
    (V : Values) (hV : ∀ r c y, R.CopyOf r c → R.Is c y → ∃ s, R.ReadsFrom r s ∧ V.val c = V.of y.loc s)
    (hacc : ∀ t, ∀ it ∈ R.prog t, it.accepts = true)
    (hok : ∀ t f o n l, Item.op .linuxArm (.casFail f) o n l ∉ R.prog t)
    {x bits : Nat} {P : Refs} (h : RefCount R.toRun R.ReadsFrom R.HappensBefore V x bits P) :
    DeletedOnce R.toRun R.ReadsFrom R.HappensBefore V x P := by
  have hS := sound_cumulative hcpu R hR hacc hok
  let M := pow R hR ⟨hcpu, hR.inThread.fits⟩ hS
  exact ⟨fun p d k hd => h.deletes (M := M) hV hd, fun p q d d' hp hq hf hf' => (h.once (M := M) hV hp hq hf hf').1,
    fun refs h1 h2 => h.deleted (M := M) hV refs h1 h2⟩

/-- PowerPC, ARM and Alpha with inline assembly: without exception. -/
theorem C60_deleted_cumulative {cpu : Cpu} (hcpu : cpu ∈ [.power, .arm, .alpha]) (R : Pow.Run cpu) (hR : R.Valid)
    (V : Values) (hV : ∀ r c y, R.CopyOf r c → R.Is c y → ∃ s, R.ReadsFrom r s ∧ V.val c = V.of y.loc s)
    (hacc : ∀ t, ∀ it ∈ R.prog t, it.accepts = true)
    (hbe : ∀ t, ∀ it ∈ R.prog t, it.backend ≠ some .linuxArm)
    {x bits : Nat} {P : Refs} (h : RefCount R.toRun R.ReadsFrom R.HappensBefore V x bits P) :
    DeletedOnce R.toRun R.ReadsFrom R.HappensBefore V x P :=
  C60_deleted_cumulative_partial hcpu R hR V hV hacc (fun t _ _ _ _ h => hbe t _ h rfl) h

/-- Whatever the library selects for a target: programs none of whose calls is in the table `Target.Weak`. -/
theorem C60_deleted_target_partial {t : Target.Target} {obj : Nat → Target.Obj} {prog : Nat → List Target.Call}
    (R : Mca.Run t.cpu) (hR : R.Valid) (V : Values) (hV : R.Copies V)
    (hprog : ∀ i, t.Compiled obj (prog i) (R.prog i)) (hal : ∀ i, ∀ c ∈ prog i, c.Allowed)
    (hw : ∀ i, ∀ c ∈ prog i, ¬ t.Weak obj c)
    {x bits : Nat} {P : Refs} (h : RefCount R R.ReadsFrom R.HappensBefore V x bits P) :
    DeletedOnce R R.ReadsFrom R.HappensBefore V x P := by
  refine C60_deleted_partial R hR V hV (fun i it h => ?_) (fun i it h => ?_) h <;>
    obtain ⟨c, hc, he⟩ := Target.compiled_mem (hprog i) h
  · exact Target.accepts he (hal i c hc)
  · exact Target.not_broken he (hal i c hc) (hw i c hc)

/-! ### OneAtATime -/

/-- The spinlock of the documentation, with an acquire exchange or with a relaxed one and a fence: of any two sections one has been
left, and everything its thread did up to then happens before everything the thread of the other one does in it.  In every execution of every program, on every back end whose
processor has one shared memory.  Excluded are programs with an operation or fence that the back end makes too weak (findings
of C19 and C22). -/
theorem C61_spinlock_partial {cpu : Cpu} (R : Mca.Run cpu) (hR : R.Valid) (V : Values) (hV : R.Copies V)
    (hacc : ∀ t, ∀ it ∈ R.prog t, it.accepts = true) (hok : ∀ t, ∀ it ∈ R.prog t, it.broken = false)
    {x : Nat} {Secs : Holding → Prop} (h : Spinlock R R.ReadsFrom V x Secs) :
    OneAtATime R R.HappensBefore Secs := by
  have hS : R.Sound := fun t it h => ⟨hacc t it h, hok t it h⟩
  let M := mca R hR hS
  exact fun A B hA hB hne => h.ordered (M := M) hV hA hB hne

/-- Without exceptions for programs made of the following back ends. -/
theorem C61_spinlock {cpu : Cpu} (R : Mca.Run cpu) (hR : R.Valid) (V : Values) (hV : R.Copies V)
    (hacc : ∀ t, ∀ it ∈ R.prog t, it.accepts = true)
    (hbe : ∀ t, ∀ it ∈ R.prog t, ∀ b, it.backend = some b →
      b ∈ [.msvcX86, .x86Wide true true, .x86Wide true false, .msvcArm, .gccArm, .gccArmWide, .alpha, .gccAtomic,
        .gccAtomicX86, .windows true])
    {x : Nat} {Secs : Holding → Prop} (h : Spinlock R R.ReadsFrom V x Secs) :
    OneAtATime R R.HappensBefore Secs :=
  C61_spinlock_partial R hR V hV hacc (fun t it h => Notify.fine (hbe t it h)) h

/-- Where a write becomes visible to one thread after another. -/
theorem C61_spinlock_cumulative_partial {cpu : Cpu} (hcpu : cpu ∈ [.power, .arm, .alpha]) (R : Pow.Run cpu) (hR : R.Valid)
    (V : Values) (hV : ∀ r c y, R.CopyOf r c → R.Is c y → ∃ s, R.ReadsFrom r s ∧ V.val c = V.of y.loc s)
    (hacc : ∀ t, ∀ it ∈ R.prog t, it.accepts = true)
    (hok : ∀ t f o n l, Item.op .linuxArm (.casFail f) o n l ∉ R.prog t)
    {x : Nat} {Secs : Holding → Prop} (h : Spinlock R.toRun R.ReadsFrom V x Secs) :
    OneAtATime R.toRun R.HappensBefore Secs := by
  have hS := sound_cumulative hcpu R hR hacc hok
  let M := pow R hR ⟨hcpu, hR.inThread.fits⟩ hS
  exact fun A B hA hB hne => h.ordered (M := M) hV hA hB hne

/-- PowerPC, ARM and Alpha with inline assembly: without exception. -/
theorem C61_spinlock_cumulative {cpu : Cpu} (hcpu : cpu ∈ [.power, .arm, .alpha]) (R : Pow.Run cpu) (hR : R.Valid)
    (V : Values) (hV : ∀ r c y, R.CopyOf r c → R.Is c y → ∃ s, R.ReadsFrom r s ∧ V.val c = V.of y.loc s)
    (hacc : ∀ t, ∀ it ∈ R.prog t, it.accepts = true)
    (hbe : ∀ t, ∀ it ∈ R.prog t, it.backend ≠ some .linuxArm)
    {x : Nat} {Secs : Holding → Prop} (h : Spinlock R.toRun R.ReadsFrom V x Secs) :
    OneAtATime R.toRun R.HappensBefore Secs :=
  C61_spinlock_cumulative_partial hcpu R hR V hV hacc (fun t _ _ _ _ h => hbe t _ h rfl) h

/-- Whatever the library selects for a target: programs none of whose calls is in the table `Target.Weak`. -/
theorem C61_spinlock_target_partial {t : Target.Target} {obj : Nat → Target.Obj} {prog : Nat → List Target.Call}
    (R : Mca.Run t.cpu) (hR : R.Valid) (V : Values) (hV : R.Copies V)
    (hprog : ∀ i, t.Compiled obj (prog i) (R.prog i)) (hal : ∀ i, ∀ c ∈ prog i, c.Allowed)
    (hw : ∀ i, ∀ c ∈ prog i, ¬ t.Weak obj c)
    {x : Nat} {Secs : Holding → Prop} (h : Spinlock R R.ReadsFrom V x Secs) :
    OneAtATime R R.HappensBefore Secs := by
  refine C61_spinlock_partial R hR V hV (fun i it h => ?_) (fun i it h => ?_) h <;>
    obtain ⟨c, hc, he⟩ := Target.compiled_mem (hprog i) h
  · exact Target.accepts he (hal i c hc)
  · exact Target.not_broken he (hal i c hc) (hw i c hc)

/-! ### Transfers -/

/-- The ring buffer of the documentation, of any size: the elements are taken out in the order in which they were put in, each once;
it is written before it is read, and read before it is written again.  In every execution of every program, on every back end whose
processor has one shared memory.  Excluded are programs with an operation or fence that the back end makes too weak (findings
of C19 and C22). -/
theorem C62_transfers_partial {cpu : Cpu} (R : Mca.Run cpu) (hR : R.Valid) (V : Values) (hV : R.Copies V)
    (hacc : ∀ t, ∀ it ∈ R.prog t, it.accepts = true) (hok : ∀ t, ∀ it ∈ R.prog t, it.broken = false)
    {size head tail producer consumer pushes pops : Nat} {cell : Nat → Nat}
    {push pop : Nat → RingCall} (h : Ring R R.ReadsFrom V size head tail cell producer consumer pushes pops push pop) :
    Transfers R R.ReadsFrom R.HappensBefore size producer consumer pushes pops push pop := by
  have hS : R.Sound := fun t it h => ⟨hacc t it h, hok t it h⟩
  let M := mca R hR hS
  exact ⟨fun j hj => (h.push_pop (M := M) hV hj (Nat.le_refl j)).1, fun j hj f it s hf hs => h.fifo (M := M) hV hj hf hs,
    fun i j hij hj => (h.push_pop (M := M) hV hj hij).2, fun i j hi hj hij he => h.pop_push (M := M) hV hi hj (Ring.gap hij he)⟩

/-- Without exceptions for programs made of the following back ends. -/
theorem C62_transfers {cpu : Cpu} (R : Mca.Run cpu) (hR : R.Valid) (V : Values) (hV : R.Copies V)
    (hacc : ∀ t, ∀ it ∈ R.prog t, it.accepts = true)
    (hbe : ∀ t, ∀ it ∈ R.prog t, ∀ b, it.backend = some b →
      b ∈ [.msvcX86, .x86Wide true true, .x86Wide true false, .msvcArm, .gccArm, .gccArmWide, .alpha, .gccAtomic,
        .gccAtomicX86, .windows true])
    {size head tail producer consumer pushes pops : Nat} {cell : Nat → Nat}
    {push pop : Nat → RingCall} (h : Ring R R.ReadsFrom V size head tail cell producer consumer pushes pops push pop) :
    Transfers R R.ReadsFrom R.HappensBefore size producer consumer pushes pops push pop :=
  C62_transfers_partial R hR V hV hacc (fun t it h => Notify.fine (hbe t it h)) h

/-- Where a write becomes visible to one thread after another. -/
theorem C62_transfers_cumulative_partial {cpu : Cpu} (hcpu : cpu ∈ [.power, .arm, .alpha]) (R : Pow.Run cpu) (hR : R.Valid)
    (V : Values) (hV : ∀ r c y, R.CopyOf r c → R.Is c y → ∃ s, R.ReadsFrom r s ∧ V.val c = V.of y.loc s)
    (hacc : ∀ t, ∀ it ∈ R.prog t, it.accepts = true)
    (hok : ∀ t f o n l, Item.op .linuxArm (.casFail f) o n l ∉ R.prog t)
    {size head tail producer consumer pushes pops : Nat} {cell : Nat → Nat}
    {push pop : Nat → RingCall} (h : Ring R.toRun R.ReadsFrom V size head tail cell producer consumer pushes pops push pop) :
    Transfers R.toRun R.ReadsFrom R.HappensBefore size producer consumer pushes pops push pop := by
  have hS := sound_cumulative hcpu R hR hacc hok
  let M := pow R hR ⟨hcpu, hR.inThread.fits⟩ hS
  exact ⟨fun j hj => (h.push_pop (M := M) hV hj (Nat.le_refl j)).1, fun j hj f it s hf hs => h.fifo (M := M) hV hj hf hs,
    fun i j hij hj => (h.push_pop (M := M) hV hj hij).2, fun i j hi hj hij he => h.pop_push (M := M) hV hi hj (Ring.gap hij he)⟩

/-- PowerPC, ARM and Alpha with inline assembly: without exception. -/
theorem C62_transfers_cumulative {cpu : Cpu} (hcpu : cpu ∈ [.power, .arm, .alpha]) (R : Pow.Run cpu) (hR : R.Valid)
    (V : Values) (hV : ∀ r c y, R.CopyOf r c → R.Is c y → ∃ s, R.ReadsFrom r s ∧ V.val c = V.of y.loc s)
    (hacc : ∀ t, ∀ it ∈ R.prog t, it.accepts = true)
    (hbe : ∀ t, ∀ it ∈ R.prog t, it.backend ≠ some .linuxArm)
    {size head tail producer consumer pushes pops : Nat} {cell : Nat → Nat}
    {push pop : Nat → RingCall} (h : Ring R.toRun R.ReadsFrom V size head tail cell producer consumer pushes pops push pop) :
    Transfers R.toRun R.ReadsFrom R.HappensBefore size producer consumer pushes pops push pop :=
  C62_transfers_cumulative_partial hcpu R hR V hV hacc (fun t _ _ _ _ h => hbe t _ h rfl) h

/-- Whatever the library selects for a target: programs none of whose calls is in the table `Target.Weak`. -/
theorem C62_transfers_target_partial {t : Target.Target} {obj : Nat → Target.Obj} {prog : Nat → List Target.Call}
    (R : Mca.Run t.cpu) (hR : R.Valid) (V : Values) (hV : R.Copies V)
    (hprog : ∀ i, t.Compiled obj (prog i) (R.prog i)) (hal : ∀ i, ∀ c ∈ prog i, c.Allowed)
    (hw : ∀ i, ∀ c ∈ prog i, ¬ t.Weak obj c)
    {size head tail producer consumer pushes pops : Nat} {cell : Nat → Nat}
    {push pop : Nat → RingCall} (h : Ring R R.ReadsFrom V size head tail cell producer consumer pushes pops push pop) :
    Transfers R R.ReadsFrom R.HappensBefore size producer consumer pushes pops push pop := by
  refine C62_transfers_partial R hR V hV (fun i it h => ?_) (fun i it h => ?_) h <;>
    obtain ⟨c, hc, he⟩ := Target.compiled_mem (hprog i) h
  · exact Target.accepts he (hal i c hc)
  · exact Target.not_broken he (hal i c hc) (hw i c hc)

/-! ### Refuses -/

/-- When a call of `push` fails the buffer is full, when a call of `pop` fails it is empty, as far as the thread can know: what
happens before the call counts.  In every execution of every program, on every back end whose
processor has one shared memory.  Excluded are programs with an operation or fence that the back end makes too weak (findings
of C19 and C22). -/
theorem C62_refuses_partial {cpu : Cpu} (R : Mca.Run cpu) (hR : R.Valid) (V : Values) (hV : R.Copies V)
    (hacc : ∀ t, ∀ it ∈ R.prog t, it.accepts = true) (hok : ∀ t, ∀ it ∈ R.prog t, it.broken = false)
    {size head tail producer consumer pushes pops : Nat} {cell : Nat → Nat}
    {push pop : Nat → RingCall} (h : Ring R R.ReadsFrom V size head tail cell producer consumer pushes pops push pop) :
    Refuses R R.ReadsFrom R.HappensBefore V size head tail producer consumer pushes pops push pop := by
  have hS : R.Sound := fun t it h => ⟨hacc t it h, hok t it h⟩
  let M := mca R hR hS
  exact ⟨fun i own other hf => h.full (M := M) hV hf, fun j own other hf => h.empty (M := M) hV hf⟩

/-- Without exceptions for programs made of the following back ends. -/
theorem C62_refuses {cpu : Cpu} (R : Mca.Run cpu) (hR : R.Valid) (V : Values) (hV : R.Copies V)
    (hacc : ∀ t, ∀ it ∈ R.prog t, it.accepts = true)
    (hbe : ∀ t, ∀ it ∈ R.prog t, ∀ b, it.backend = some b →
      b ∈ [.msvcX86, .x86Wide true true, .x86Wide true false, .msvcArm, .gccArm, .gccArmWide, .alpha, .gccAtomic,
        .gccAtomicX86, .windows true])
    {size head tail producer consumer pushes pops : Nat} {cell : Nat → Nat}
    {push pop : Nat → RingCall} (h : Ring R R.ReadsFrom V size head tail cell producer consumer pushes pops push pop) :
    Refuses R R.ReadsFrom R.HappensBefore V size head tail producer consumer pushes pops push pop :=
  C62_refuses_partial R hR V hV hacc (fun t it h => Notify.fine (hbe t it h)) h

/-- Where a write becomes visible to one thread after another. -/
theorem C62_refuses_cumulative_partial {cpu : Cpu} (hcpu : cpu ∈ [.power, .arm, .alpha]) (R : Pow.Run cpu) (hR : R.Valid)
    (V : Values) (hV : ∀ r c y, R.CopyOf r c → R.Is c y → ∃ s, R.ReadsFrom r s ∧ V.val c = V.of y.loc s)
    (hacc : ∀ t, ∀ it ∈ R.prog t, it.accepts = true)
    (hok : ∀ t f o n l, Item.op .linuxArm (.casFail f) o n l ∉ R.prog t)
    {size head tail producer consumer pushes pops : Nat} {cell : Nat → Nat}
    {push pop : Nat → RingCall} (h : Ring R.toRun R.ReadsFrom V size head tail cell producer consumer pushes pops push pop) :
    Refuses R.toRun R.ReadsFrom R.HappensBefore V size head tail producer consumer pushes pops push pop := by
  have hS := sound_cumulative hcpu R hR hacc hok
  let M := pow R hR ⟨hcpu, hR.inThread.fits⟩ hS
  exact ⟨fun i own other hf => h.full (M := M) hV hf, fun j own other hf => h.empty (M := M) hV hf⟩

/-- PowerPC, ARM and Alpha with inline assembly: without exception. -/
theorem C62_refuses_cumulative {cpu : Cpu} (hcpu : cpu ∈ [.power, .arm, .alpha]) (R : Pow.Run cpu) (hR : R.Valid)
    (V : Values) (hV : ∀ r c y, R.CopyOf r c → R.Is c y → ∃ s, R.ReadsFrom r s ∧ V.val c = V.of y.loc s)
    (hacc : ∀ t, ∀ it ∈ R.prog t, it.accepts = true)
    (hbe : ∀ t, ∀ it ∈ R.prog t, it.backend ≠ some .linuxArm)
    {size head tail producer consumer pushes pops : Nat} {cell : Nat → Nat}
    {push pop : Nat → RingCall} (h : Ring R.toRun R.ReadsFrom V size head tail cell producer consumer pushes pops push pop) :
    Refuses R.toRun R.ReadsFrom R.HappensBefore V size head tail producer consumer pushes pops push pop :=
  C62_refuses_cumulative_partial hcpu R hR V hV hacc (fun t _ _ _ _ h => hbe t _ h rfl) h

/-- Whatever the library selects for a target: programs none of whose calls is in the table `Target.Weak`. -/
theorem C62_refuses_target_partial {t : Target.Target} {obj : Nat → Target.Obj} {prog : Nat → List Target.Call}
    (R : Mca.Run t.cpu) (hR : R.Valid) (V : Values) (hV : R.Copies V)
    (hprog : ∀ i, t.Compiled obj (prog i) (R.prog i)) (hal : ∀ i, ∀ c ∈ prog i, c.Allowed)
    (hw : ∀ i, ∀ c ∈ prog i, ¬ t.Weak obj c)
    {size head tail producer consumer pushes pops : Nat} {cell : Nat → Nat}
    {push pop : Nat → RingCall} (h : Ring R R.ReadsFrom V size head tail cell producer consumer pushes pops push pop) :
    Refuses R R.ReadsFrom R.HappensBefore V size head tail producer consumer pushes pops push pop := by
  refine C62_refuses_partial R hR V hV (fun i it h => ?_) (fun i it h => ?_) h <;>
    obtain ⟨c, hc, he⟩ := Target.compiled_mem (hprog i) h
  · exact Target.accepts he (hal i c hc)
  · exact Target.not_broken he (hal i c hc) (hw i c hc)

/-! ### Delivers -/

/-- The queue of the documentation, with any number of producers: a call of `pop_all` takes out the objects that were put in since the
last one, and returns them in the order in which they were put in, `pop_all_reverse` in the opposite one; what a producer did to an
object happens before what the consumer does to it.  In every execution of every program, on every back end whose
processor has one shared memory.  Excluded are programs with an operation or fence that the back end makes too weak (findings
of C19 and C22). -/
theorem C63_delivers_partial {cpu : Cpu} (R : Mca.Run cpu) (hR : R.Valid) (V : Values) (hV : R.Copies V)
    (hacc : ∀ t, ∀ it ∈ R.prog t, it.accepts = true) (hok : ∀ t, ∀ it ∈ R.prog t, it.broken = false)
    {head t : Nat} {next : Nat → Nat} {Pushes : PushCall → Prop}
    {Pops : PopCall → Prop} (h : Queue R R.ReadsFrom V head next t Pushes Pops) :
    Delivers R R.ReadsFrom R.HappensBefore (fun a b => R.time a .wr < R.time b .wr) V next t Pushes Pops := by
  have hS : R.Sound := fun t it h => ⟨hacc t it h, hok t it h⟩
  let M := mca R hR hS
  exact fun c hc => h.delivers (M := M) hV hc

/-- Without exceptions for programs made of the following back ends. -/
theorem C63_delivers {cpu : Cpu} (R : Mca.Run cpu) (hR : R.Valid) (V : Values) (hV : R.Copies V)
    (hacc : ∀ t, ∀ it ∈ R.prog t, it.accepts = true)
    (hbe : ∀ t, ∀ it ∈ R.prog t, ∀ b, it.backend = some b →
      b ∈ [.msvcX86, .x86Wide true true, .x86Wide true false, .msvcArm, .gccArm, .gccArmWide, .alpha, .gccAtomic,
        .gccAtomicX86, .windows true])
    {head t : Nat} {next : Nat → Nat} {Pushes : PushCall → Prop}
    {Pops : PopCall → Prop} (h : Queue R R.ReadsFrom V head next t Pushes Pops) :
    Delivers R R.ReadsFrom R.HappensBefore (fun a b => R.time a .wr < R.time b .wr) V next t Pushes Pops :=
  C63_delivers_partial R hR V hV hacc (fun t it h => Notify.fine (hbe t it h)) h

/-- Where a write becomes visible to one thread after another. -/
theorem C63_delivers_cumulative_partial {cpu : Cpu} (hcpu : cpu ∈ [.power, .arm, .alpha]) (R : Pow.Run cpu) (hR : R.Valid)
    (V : Values) (hV : ∀ r c y, R.CopyOf r c → R.Is c y → ∃ s, R.ReadsFrom r s ∧ V.val c = V.of y.loc s)
    (hacc : ∀ t, ∀ it ∈ R.prog t, it.accepts = true)
    (hok : ∀ t f o n l, Item.op .linuxArm (.casFail f) o n l ∉ R.prog t)
    {head t : Nat} {next : Nat → Nat} {Pushes : PushCall → Prop}
    {Pops : PopCall → Prop} (h : Queue R.toRun R.ReadsFrom V head next t Pushes Pops) :
    Delivers R.toRun R.ReadsFrom R.HappensBefore R.Co V next t Pushes Pops := by
  have hS := sound_cumulative hcpu R hR hacc hok
  let M := pow R hR ⟨hcpu, hR.inThread.fits⟩ hS
  exact fun c hc => h.delivers (M := M) hV hc

/-- PowerPC, ARM and Alpha with inline assembly: without exception. -/
theorem C63_delivers_cumulative {cpu : Cpu} (hcpu : cpu ∈ [.power, .arm, .alpha]) (R : Pow.Run cpu) (hR : R.Valid)
    (V : Values) (hV : ∀ r c y, R.CopyOf r c → R.Is c y → ∃ s, R.ReadsFrom r s ∧ V.val c = V.of y.loc s)
    (hacc : ∀ t, ∀ it ∈ R.prog t, it.accepts = true)
    (hbe : ∀ t, ∀ it ∈ R.prog t, it.backend ≠ some .linuxArm)
    {head t : Nat} {next : Nat → Nat} {Pushes : PushCall → Prop}
    {Pops : PopCall → Prop} (h : Queue R.toRun R.ReadsFrom V head next t Pushes Pops) :
    Delivers R.toRun R.ReadsFrom R.HappensBefore R.Co V next t Pushes Pops :=
  C63_delivers_cumulative_partial hcpu R hR V hV hacc (fun t _ _ _ _ h => hbe t _ h rfl) h

/-- Whatever the library selects for a target: programs none of whose calls is in the table `Target.Weak`. -/
theorem C63_delivers_target_partial {t : Target.Target} {obj : Nat → Target.Obj} {prog : Nat → List Target.Call}
    (R : Mca.Run t.cpu) (hR : R.Valid) (V : Values) (hV : R.Copies V)
    (hprog : ∀ i, t.Compiled obj (prog i) (R.prog i)) (hal : ∀ i, ∀ c ∈ prog i, c.Allowed)
    (hw : ∀ i, ∀ c ∈ prog i, ¬ t.Weak obj c)
    {head k : Nat} {next : Nat → Nat} {Pushes : PushCall → Prop}
    {Pops : PopCall → Prop} (h : Queue R R.ReadsFrom V head next k Pushes Pops) :
    Delivers R R.ReadsFrom R.HappensBefore (fun a b => R.time a .wr < R.time b .wr) V next k Pushes Pops := by
  refine C63_delivers_partial R hR V hV (fun i it h => ?_) (fun i it h => ?_) h <;>
    obtain ⟨c, hc, he⟩ := Target.compiled_mem (hprog i) h
  · exact Target.accepts he (hal i c hc)
  · exact Target.not_broken he (hal i c hc) (hw i c hc)

/-! ### OneInstance -/

/-- The singleton of the documentation: one object is created, all calls return its address, and what was done to make it happens
before what is done after any of the calls.  In every execution of every program, on every back end whose
processor has one shared memory.  Excluded are programs with an operation or fence that the back end makes too weak (findings
of C19 and C22). -/
theorem C64_instance_partial {cpu : Cpu} (R : Mca.Run cpu) (hR : R.Valid) (V : Values) (hV : R.Copies V)
    (hacc : ∀ t, ∀ it ∈ R.prog t, it.accepts = true) (hok : ∀ t, ∀ it ∈ R.prog t, it.broken = false)
    {x : Nat} {Calls : InstanceCall → Prop} (h : Singleton R R.ReadsFrom R.HappensBefore V x Calls) :
    OneInstance R R.HappensBefore Calls := by
  have hS : R.Sound := fun t it h => ⟨hacc t it h, hok t it h⟩
  let M := mca R hR hS
  exact fun c hc => h.instance_ (M := M) hV hc

/-- Without exceptions for programs made of the following back ends. -/
theorem C64_instance {cpu : Cpu} (R : Mca.Run cpu) (hR : R.Valid) (V : Values) (hV : R.Copies V)
    (hacc : ∀ t, ∀ it ∈ R.prog t, it.accepts = true)
    (hbe : ∀ t, ∀ it ∈ R.prog t, ∀ b, it.backend = some b →
      b ∈ [.msvcX86, .x86Wide true true, .x86Wide true false, .msvcArm, .gccArm, .gccArmWide, .alpha, .gccAtomic,
        .gccAtomicX86, .windows true])
    {x : Nat} {Calls : InstanceCall → Prop} (h : Singleton R R.ReadsFrom R.HappensBefore V x Calls) :
    OneInstance R R.HappensBefore Calls :=
  C64_instance_partial R hR V hV hacc (fun t it h => Notify.fine (hbe t it h)) h

/-- Where a write becomes visible to one thread after another. -/
theorem C64_instance_cumulative_partial {cpu : Cpu} (hcpu : cpu ∈ [.power, .arm, .alpha]) (R : Pow.Run cpu) (hR : R.Valid)
    (V : Values) (hV : ∀ r c y, R.CopyOf r c → R.Is c y → ∃ s, R.ReadsFrom r s ∧ V.val c = V.of y.loc s)
    (hacc : ∀ t, ∀ it ∈ R.prog t, it.accepts = true)
    (hok : ∀ t f o n l, Item.op .linuxArm (.casFail f) o n l ∉ R.prog t)
    {x : Nat} {Calls : InstanceCall → Prop} (h : Singleton R.toRun R.ReadsFrom R.HappensBefore V x Calls) :
    OneInstance R.toRun R.HappensBefore Calls := by
  have hS := sound_cumulative hcpu R hR hacc hok
  let M := pow R hR ⟨hcpu, hR.inThread.fits⟩ hS
  exact fun c hc => h.instance_ (M := M) hV hc

/-- PowerPC, ARM and Alpha with inline assembly: without exception. -/
theorem C64_instance_cumulative {cpu : Cpu} (hcpu : cpu ∈ [.power, .arm, .alpha]) (R : Pow.Run cpu) (hR : R.Valid)
    (V : Values) (hV : ∀ r c y, R.CopyOf r c → R.Is c y → ∃ s, R.ReadsFrom r s ∧ V.val c = V.of y.loc s)
    (hacc : ∀ t, ∀ it ∈ R.prog t, it.accepts = true)
    (hbe : ∀ t, ∀ it ∈ R.prog t, it.backend ≠ some .linuxArm)
    {x : Nat} {Calls : InstanceCall → Prop} (h : Singleton R.toRun R.ReadsFrom R.HappensBefore V x Calls) :
    OneInstance R.toRun R.HappensBefore Calls :=
  C64_instance_cumulative_partial hcpu R hR V hV hacc (fun t _ _ _ _ h => hbe t _ h rfl) h

/-- Whatever the library selects for a target: programs none of whose calls is in the table `Target.Weak`. -/
theorem C64_instance_target_partial {t : Target.Target} {obj : Nat → Target.Obj} {prog : Nat → List Target.Call}
    (R : Mca.Run t.cpu) (hR : R.Valid) (V : Values) (hV : R.Copies V)
    (hprog : ∀ i, t.Compiled obj (prog i) (R.prog i)) (hal : ∀ i, ∀ c ∈ prog i, c.Allowed)
    (hw : ∀ i, ∀ c ∈ prog i, ¬ t.Weak obj c)
    {x : Nat} {Calls : InstanceCall → Prop} (h : Singleton R R.ReadsFrom R.HappensBefore V x Calls) :
    OneInstance R R.HappensBefore Calls := by
  refine C64_instance_partial R hR V hV (fun i it h => ?_) (fun i it h => ?_) h <;>
    obtain ⟨c, hc, he⟩ := Target.compiled_mem (hprog i) h
  · exact Target.accepts he (hal i c hc)
  · exact Target.not_broken he (hal i c hc) (hw i c hc)

/-! ### OneInstance, where the mutex is the spinlock -/

theorem Instances.guarded {cpu : Cpu} {R : Mca.Run cpu} {rf : Pos → Option Pos → Prop} {hb : Pos → Pos → Prop} {V : Values}
    {x : Nat} {Calls : InstanceCall → Prop} {Secs : Holding → Prop} {sec : InstanceCall → Holding}
    (h : Instances R rf V x Calls) (ho : OneAtATime R hb Secs) (hg : Guarded Calls Secs sec) : Singleton R rf hb V x Calls := by
  refine ⟨h, fun c c' k k' hc hc' hne hk hk' => ?_⟩
  obtain ⟨h1, h2, h3, h4⟩ := hg.1 c k hc hk
  obtain ⟨h1', h2', h3', h4'⟩ := hg.1 c' k' hc' hk'
  have hd : sec c ≠ sec c' := fun e => hne (hg.2 c c' hc hc' (by simp [hk]) (by simp [hk']) e)
  rcases ho _ _ h1 h1' hd with ⟨u, hu, k⟩ | ⟨u, hu, k⟩
  · refine .inl fun s hs e f it it' he hf => k e f ⟨_, _, he, h2.symm, (h4 u hu).2 s hs⟩ ⟨_, _, hf, h2'.symm, h3'⟩
  · refine .inr fun s hs e f it it' he hf => k e f ⟨_, _, he, h2'.symm, (h4' u hu).2 s hs⟩ ⟨_, _, hf, h2.symm, h3⟩

/-- "at most one instance of a particular object is created", and "any dereference of the object strictly happens after
creating the instance", with the spinlock as the mutex.  Programs none of whose operations is one of those that a back end
makes too weak. -/
theorem C64_spinlock_partial {cpu : Cpu} (R : Mca.Run cpu) (hR : R.Valid) (V : Values) (hV : R.Copies V)
    (hacc : ∀ t, ∀ it ∈ R.prog t, it.accepts = true) (hok : ∀ t, ∀ it ∈ R.prog t, it.broken = false)
    {x m : Nat} {Calls : InstanceCall → Prop} {Secs : Holding → Prop} {sec : InstanceCall → Holding}
    (h : Instances R R.ReadsFrom V x Calls) (hl : Spinlock R R.ReadsFrom V m Secs) (hg : Guarded Calls Secs sec) :
    OneInstance R R.HappensBefore Calls :=
  C64_instance_partial R hR V hV hacc hok (h.guarded (C61_spinlock_partial R hR V hV hacc hok hl) hg)

/-- Without exceptions for programs made of the following back ends. -/
theorem C64_spinlock {cpu : Cpu} (R : Mca.Run cpu) (hR : R.Valid) (V : Values) (hV : R.Copies V)
    (hacc : ∀ t, ∀ it ∈ R.prog t, it.accepts = true)
    (hbe : ∀ t, ∀ it ∈ R.prog t, ∀ b, it.backend = some b →
      b ∈ [.msvcX86, .x86Wide true true, .x86Wide true false, .msvcArm, .gccArm, .gccArmWide, .alpha, .gccAtomic,
        .gccAtomicX86, .windows true])
    {x m : Nat} {Calls : InstanceCall → Prop} {Secs : Holding → Prop} {sec : InstanceCall → Holding}
    (h : Instances R R.ReadsFrom V x Calls) (hl : Spinlock R R.ReadsFrom V m Secs) (hg : Guarded Calls Secs sec) :
    OneInstance R R.HappensBefore Calls :=
  C64_instance R hR V hV hacc hbe (h.guarded (C61_spinlock R hR V hV hacc hbe hl) hg)

/-- Where a write becomes visible to one thread after another. -/
theorem C64_spinlock_cumulative_partial {cpu : Cpu} (hcpu : cpu ∈ [.power, .arm, .alpha]) (R : Pow.Run cpu) (hR : R.Valid)
    (V : Values) (hV : ∀ r c y, R.CopyOf r c → R.Is c y → ∃ s, R.ReadsFrom r s ∧ V.val c = V.of y.loc s)
    (hacc : ∀ t, ∀ it ∈ R.prog t, it.accepts = true)
    (hok : ∀ t f o n l, Item.op .linuxArm (.casFail f) o n l ∉ R.prog t)
    {x m : Nat} {Calls : InstanceCall → Prop} {Secs : Holding → Prop} {sec : InstanceCall → Holding}
    (h : Instances R.toRun R.ReadsFrom V x Calls) (hl : Spinlock R.toRun R.ReadsFrom V m Secs) (hg : Guarded Calls Secs sec) :
    OneInstance R.toRun R.HappensBefore Calls :=
  C64_instance_cumulative_partial hcpu R hR V hV hacc hok
    (h.guarded (C61_spinlock_cumulative_partial hcpu R hR V hV hacc hok hl) hg)

/-- PowerPC, ARM and Alpha with inline assembly: without exception. -/
theorem C64_spinlock_cumulative {cpu : Cpu} (hcpu : cpu ∈ [.power, .arm, .alpha]) (R : Pow.Run cpu) (hR : R.Valid)
    (V : Values) (hV : ∀ r c y, R.CopyOf r c → R.Is c y → ∃ s, R.ReadsFrom r s ∧ V.val c = V.of y.loc s)
    (hacc : ∀ t, ∀ it ∈ R.prog t, it.accepts = true)
    (hbe : ∀ t, ∀ it ∈ R.prog t, it.backend ≠ some .linuxArm)
    {x m : Nat} {Calls : InstanceCall → Prop} {Secs : Holding → Prop} {sec : InstanceCall → Holding}
    (h : Instances R.toRun R.ReadsFrom V x Calls) (hl : Spinlock R.toRun R.ReadsFrom V m Secs) (hg : Guarded Calls Secs sec) :
    OneInstance R.toRun R.HappensBefore Calls :=
  C64_spinlock_cumulative_partial hcpu R hR V hV hacc (fun t _ _ _ _ h => hbe t _ h rfl) h hl hg

end Verif.Idiom
