import Verif.Whole.Link
import Verif.Locked.Props
import Verif.Target.Props

/-
C55: whole programs with every kind of object.
-/

namespace Verif.Whole

open Verif.Order Verif.Mca Verif.Mca.Run Verif.Target Verif.Locked

variable {t : Target} {pool : Pool} {L : Layout} {obj : Nat → Obj} {role : Nat → Role} {prog : Nat → List Step} {P : Nat → List Piece} {V : Values}

theorem reads_unique {cpu : Cpu} {R : Mca.Run cpu} (hR : R.Valid) (r : Pos) (s s' : Option Pos) (h : R.ReadsFrom r s)
    (h' : R.ReadsFrom r s') : s = s' := by
  match s, s', h, h' with
  | none, none, _, _ => rfl
  | none, some w, h, h' => exact absurd h'.1 (h w)
  | some w, none, h, h' => exact absurd h.1 (h' w)
  | some w, some w', h, h' =>
    have e := Nat.le_antisymm (h'.2 w h.1) (h.2 w' h'.1)
    rw [(hR.distinct _ _ _ _ h.1.1 h'.1.1 e).1]

/-- Every execution of every program compiled for a target is an interleaving of its operations on the variables the
program uses by accesses of its own, the objects that are not lock-free, and the lock-free objects on which all operations
are seq_cst: what the threads get to know is what they would get if these operations were executed one at a time, in the
order of each thread, on one memory.  Provided the program has no data race.  Lock-free objects may also be used with
weaker orders and with fences; these operations synchronise, but are not part of the sequence.
Excluded are calls in the tables `Target.Weak` and `Target.WeakSeqCst` (findings of C19 and C22), and SPARC if the mutexes
of the lock pool are those of the library and use inline assembly (`C54_sparc_violated`). -/
theorem C55_interleaving_partial (R : Mca.Run t.cpu) (hR : R.Valid)
    (hE : Executes t pool L obj role prog P R R.ReadsFrom V)
    (hrace : RaceFree R R.HappensBefore fun l => role l = .own)
    (hw : ∀ i, ∀ st ∈ prog i, (∃ it, t.Emits obj st.call it) → ¬ t.Weak obj st.call ∧ ¬ t.WeakSeqCst obj st.call)
    (hs : pool = .futex → t.arch = .gcc_sparc → ¬ t.asm 4) : (observed L role prog V).Interleaving := by
  have hacc := items_accept hE
  have hok := items_not_broken hE hw hs
  have hsc := items_as_asked hE hw
  have hS : R.Sound := fun i it h => ⟨hacc i it h, hok i it h⟩
  have hseq := seq_items hE
  obtain ⟨before, h, -⟩ := C52_seq_cst_mixed_partial R hR hacc hok hsc
  let K := locks (mca R hR hS) hE.code (lawful hE) hE.follows fun r c h => h.reads
  refine interleaving hE (reads_unique hR) (full_order (L := K) (mca_strongly hR hS h)
    (locks_guards (mca R hR hS) hE.code (lawful hE) hE.follows fun r c h => h.reads) ?_ ?_ ?_ (own_items hE) hrace ?_
    (mca_last hR hE.follows.copies hseq h))
  · intro x hx; rw [hx]; rfl
  · intro x hx; rw [hx]; rfl
  · intro x hx hx'; rw [hx] at hx'; cases hx'
  · intro a it hit hx hf
    rcases hseq a.1 it (List.mem_of_getElem? hit) hx with k | k
    · rw [hf] at k; cases k
    · exact .inl ⟨it, hit, k⟩

/-- The same on processors on which writes become visible to one thread after another. -/
theorem C55_interleaving_cumulative_partial (hcpu : t.cpu ∈ [.power, .arm, .alpha]) (R : Pow.Run t.cpu) (hR : R.Valid)
    (hE : Executes t pool L obj role prog P R.toRun R.ReadsFrom V)
    (hrace : RaceFree R.toRun R.HappensBefore fun l => role l = .own)
    (hw : ∀ i, ∀ st ∈ prog i, (∃ it, t.Emits obj st.call it) → ¬ t.Weak obj st.call ∧ ¬ t.WeakSeqCst obj st.call)
    (hs : pool = .futex → t.arch = .gcc_sparc → ¬ t.asm 4) : (observed L role prog V).Interleaving := by
  have hacc := items_accept hE
  have hok := items_not_broken hE hw hs
  have hsc := items_as_asked hE hw
  have hS : R.Sound := fun i it h => ⟨hacc i it h, hok i it h⟩
  have hbe : R.OnBarriers := ⟨hcpu, hR.inThread.fits⟩
  have hseq := seq_items hE
  obtain ⟨before, h, -⟩ := hR.mixed_order hbe hS hsc
  let K := locks (pow R hR hbe hS) hE.code (lawful hE) hE.follows fun r c h => h.reads
  refine interleaving hE (fun r s s' => hR.readsFrom_unique) (full_order (L := K) (pow_strongly hR hbe hS h)
    (locks_guards (pow R hR hbe hS) hE.code (lawful hE) hE.follows fun r c h => h.reads) ?_ ?_ ?_ (own_items hE) hrace ?_
    (pow_last hR hbe hsc hseq h))
  · intro x hx; rw [hx]; rfl
  · intro x hx; rw [hx]; rfl
  · intro x hx hx'; rw [hx] at hx'; cases hx'
  · intro a it hit hx hf
    rcases hseq a.1 it (List.mem_of_getElem? hit) hx with k | k
    · rw [hf] at k; cases k
    · exact .inl ⟨it, hit, k⟩

/-- Without exceptions: Microsoft's compilers; GCC and compatible compilers on ARM before version 8 and Alpha, and on x86
with intrinsics. -/
theorem C55_interleaving (ht : t.Ok) (R : Mca.Run t.cpu) (hR : R.Valid)
    (hE : Executes t pool L obj role prog P R R.ReadsFrom V)
    (hrace : RaceFree R R.HappensBefore fun l => role l = .own)
    (h : (∃ d, t.arch = .msvc_x86_32 d) ∨ (∃ a b d, t.arch = .msvc_x86_64 a b d) ∨ t.arch = .msvc_arm ∨
      (∃ a b d, t.arch = .gcc_arm a b d) ∨ t.arch = .gcc_alpha ∨
      ((∃ d, t.arch = .gcc_x86_32 d ∨ t.arch = .gcc_x86_64 d) ∧ ∃ g, t.core = .gcc_atomic g)) :
    (observed L role prog V).Interleaving := by
  refine C55_interleaving_partial R hR hE hrace (fun i st hst _ => ?_) ?_
  · refine C53_no_exceptions ht st.call ?_
    rcases h with h | h | h | h | h | h
    · exact .inl h
    · exact .inr (.inl h)
    · exact .inr (.inr (.inl h))
    · exact .inr (.inr (.inr (.inl h)))
    · exact .inr (.inr (.inr (.inr (.inr (.inl h)))))
    · exact .inr (.inr (.inr (.inr (.inr (.inr (.inl h))))))
  · intro _ hs
    rcases h with ⟨d, h⟩ | ⟨a, b, d, h⟩ | h | ⟨a, b, d, h⟩ | h | ⟨⟨d, h | h⟩, -⟩ <;> rw [hs] at h <;> cases h

/-- Without exceptions on the machine on which writes become visible to one thread after another: POWER, ARM before version
8 and Alpha. -/
theorem C55_interleaving_cumulative (ht : t.Ok) (hcpu : t.cpu ∈ [.power, .arm, .alpha]) (R : Pow.Run t.cpu) (hR : R.Valid)
    (hE : Executes t pool L obj role prog P R.toRun R.ReadsFrom V)
    (hrace : RaceFree R.toRun R.HappensBefore fun l => role l = .own)
    (h : (∃ a b d, t.arch = .gcc_arm a b d) ∨ (∃ a b d, t.arch = .gcc_ppc a b d) ∨ t.arch = .gcc_alpha) :
    (observed L role prog V).Interleaving := by
  refine C55_interleaving_cumulative_partial hcpu R hR hE hrace (fun i st hst _ => ?_) ?_
  · refine C53_no_exceptions ht st.call (Or.inr (Or.inr (Or.inr ?_)))
    rcases h with h | h | h
    · exact Or.inl h
    · exact Or.inr (Or.inl h)
    · exact Or.inr (Or.inr (Or.inl h))
  · intro _ hs
    rcases h with ⟨a, b, d, h⟩ | ⟨a, b, d, h⟩ | h <;> rw [hs] at h <;> cases h

/-! ### The accesses of objects in the lock pool -/

/-- The code of a call on an object of the lock pool reads the storage exactly if what the call computes depends on the
value. -/
theorem C55_reads {m : Nat} {c : Call} {l : Nat} {req : Request} (hc : (Role.pooled m).Admits c) (hl : c.loc = some l)
    (ha : Asks c req) : reads c = true ↔ ∀ reply f g, req.Computes reply f g → f ≠ none := by
  obtain ⟨h1, h2, h3⟩ := hc
  cases c with
  | user x l => exact absurd rfl (h1 x l)
  | testAndSet o l => exact absurd rfl (h2 o l)
  | clear o l => exact absurd rfl (h3 o l)
  | fence o => cases hl
  | store o l =>
    cases req <;> first | exact ha.elim | skip
    exact ⟨fun h => absurd h (by simp [reads]), fun h => absurd rfl (h .done none _ .store)⟩
  | _ =>
    cases req <;> first | exact ha.elim | skip
    all_goals exact ⟨fun _ reply f g h => by cases h <;> simp, fun _ => rfl⟩

/-- It writes the storage exactly if the call replaces the value: a `compare_exchange` if it succeeds. -/
theorem C55_writes {m : Nat} {c : Call} {l : Nat} {req : Request} (hc : (Role.pooled m).Admits c) (hl : c.loc = some l)
    (ha : Asks c req) (reply : Reply) (f g : Option Nat) (h : req.Computes reply f g)
    (hk : ∀ s o o' l, c = .cas s o o' l → (s = true ↔ reply = .swapped)) : writes c = true ↔ g ≠ none := by
  obtain ⟨h1, h2, h3⟩ := hc
  cases c with
  | user x l => exact absurd rfl (h1 x l)
  | testAndSet o l => exact absurd rfl (h2 o l)
  | clear o l => exact absurd rfl (h3 o l)
  | fence o => cases hl
  | cas s o o' l =>
    have := hk s o o' l rfl
    cases req <;> first | exact ha.elim | skip
    cases h <;> cases s <;> simp_all [writes]
  | _ =>
    cases req <;> first | exact ha.elim | skip
    all_goals cases h; simp [writes]

/-- They apply to all calls on such objects, for example to these. -/
example : (Role.pooled 0).Admits (.load .seqCst 1) ∧ Asks (.load .seqCst 1) .load ∧ reads (.load .seqCst 1) = true ∧
    (Role.pooled 0).Admits (.cas false .seqCst .relaxed 1) ∧ Asks (.cas false .seqCst .relaxed 1) (.cas false 3 4) ∧
    writes (.cas false .seqCst .relaxed 1) = false ∧ (Request.cas false 3 4).Computes (.kept 5) (some 5) none :=
  ⟨by simp [Role.Admits], trivial, rfl, by simp [Role.Admits], trivial, rfl, .kept (.inr (by decide))⟩

/-! ### An execution -/

/-- GCC on x86-64 without `cmpxchg16b`. -/
def gccX64Narrow : Target := { gccX64 with arch := .gcc_x86_64 false }

/-- Variable 0 is a mutex, 1 and 4 are the words of an object of 16 bytes, 2 is a lock-free object, 3 belongs to the
program. -/
def demoRole (l : Nat) : Role :=
  if l = 0 then .mutex else if l = 1 then .pooled 0 else if l = 2 then .seqCst else if l = 4 then .part 0 else .own

def demoLayout : Layout where
  rest l := if l = 1 then [4] else []
  join _ ws := ws.headD 0 + 2 ^ 64 * (ws.getD 1 0)

/-- One thread writes the data 5, increments the object of 16 bytes, and sets a flag; the other one increments the object,
reads the flag, and reads the data. -/
def demoProg : List (List Step) :=
  [[⟨.user userStore 3, .store 5, .done⟩, ⟨.arith .relaxed 1, .modify (· + 1), .value (2 ^ 64 - 1)⟩,
      ⟨.store .seqCst 2, .store 1, .done⟩],
    [⟨.arith .relaxed 1, .modify (· + 1), .value (2 ^ 64)⟩, ⟨.load .seqCst 2, .load, .value 1⟩,
      ⟨.user userLoad 3, .load, .value 5⟩]]

def demoSection : Section where
  mutex := 0
  spin := []
  take := .op .gccAtomicX86 (.casOk .relaxed) .acquire 0 0
  body := [.user userLoad 1, .user userLoad 4, .user userStore 1, .user userStore 4]
  leave := [.op .gccAtomicX86 .load .relaxed 0 0]
  give := .op .gccAtomicX86 (.casOk .relaxed) .release 0 0
  wake := []

def demoPieces : List (List Piece) :=
  [[.plain (.user userStore 3), .locked demoSection, .plain (.op .gccAtomicX86 .store .seqCst 0 2)],
    [.locked demoSection, .plain (.op .gccAtomicX86 .load .seqCst 0 2), .plain (.user userLoad 3)]]

def demo : Mca.Run .x86 := runOf .x86 demoPieces
  [[(0, 1), (2, 3), (4, 0), (5, 0), (0, 6), (0, 7), (8, 0), (9, 10), (11, 12)],
    [(13, 14), (15, 0), (16, 0), (0, 17), (0, 18), (19, 0), (20, 21), (22, 0), (0, 0), (23, 0)]]

/-- The first increment carries into the second word. -/
def demoValues : Values where
  val e := if e = (0, 0) then 5 else if e = (0, 4) then 0 else if e = (0, 7) then 4 else if e = (1, 0) then 5 else
    if e = (1, 6) then 8 else 1
  init l := if l = 1 then 2 ^ 64 - 1 else 0

theorem demo_end (i : Nat) (h : 2 ≤ i) : demo.prog i = [] := by
  rw [demo, runOf_prog, List.getD_eq_getElem?_getD, List.getElem?_eq_none (by simpa [demoPieces] using h)]; rfl

theorem demo_valid : demo.Valid := Check.valid (n := 2) demo_end (by decide +kernel)

theorem demo_sec (S : Sec fun i => demoPieces.getD i []) :
    (S.take = (0, 1) ∧ S.give = (0, 7) ∨ S.take = (1, 0) ∧ S.give = (1, 6)) ∧ S.sec = demoSection := by
  obtain ⟨⟨⟨i, j⟩, s⟩, hs⟩ := S
  match i, j, hs with
  | 0, 0, hs => cases hs
  | 0, 1, hs => cases hs; exact ⟨.inl ⟨rfl, rfl⟩, rfl⟩
  | 0, 2, hs => cases hs
  | 1, 0, hs => cases hs; exact ⟨.inr ⟨rfl, rfl⟩, rfl⟩
  | 1, 1, hs => cases hs
  | 1, 2, hs => cases hs
  | 0, j + 3, hs => cases hs
  | 1, j + 3, hs => cases hs
  | i + 2, j, hs => cases hs

theorem demo_mutex {m} (h : IsMutex (fun i => demoPieces.getD i []) m) : m = 0 := by
  obtain ⟨i, s, hs, rfl⟩ := h
  obtain ⟨j, hj⟩ := List.getElem?_of_mem hs
  rw [show s = demoSection from (demo_sec ⟨((i, j), s), hj⟩).2]; rfl

theorem demo_follows : Follows demo demo.ReadsFrom demoValues fun i => demoPieces.getD i [] := by
  refine ⟨?_, ?_, ?_, ?_, fun m hm => by rw [demo_mutex hm]; rfl⟩
  · intro S r w hr hw
    obtain ⟨h, h'⟩ := demo_sec S
    rw [h']
    rcases h with ⟨h, -⟩ | ⟨h, -⟩ <;> rw [h] at hr hw
    · rw [ret_only (n := 2) demo_end (r₀ := (0, 1)) (by decide +kernel) hr,
        pub_only (n := 2) demo_end (r₀ := (0, 1)) (by decide +kernel) hw]
      exact ⟨none, readsFrom_none (n := 2) demo_end rfl (by decide +kernel), by decide⟩
    · rw [ret_only (n := 2) demo_end (r₀ := (1, 0)) (by decide +kernel) hr,
        pub_only (n := 2) demo_end (r₀ := (1, 0)) (by decide +kernel) hw]
      exact ⟨some (0, 7), readsFrom_some (n := 2) demo_end rfl rfl rfl rfl (by decide) (by decide +kernel), by decide⟩
  · intro S r w hr hw
    obtain ⟨h, h'⟩ := demo_sec S
    rw [h']
    rcases h with ⟨-, h⟩ | ⟨-, h⟩ <;> rw [h] at hr hw
    · rw [ret_only (n := 2) demo_end (r₀ := (0, 7)) (by decide +kernel) hr,
        pub_only (n := 2) demo_end (r₀ := (0, 7)) (by decide +kernel) hw]
      exact ⟨some (0, 1), readsFrom_some (n := 2) demo_end rfl rfl rfl rfl (by decide) (by decide +kernel), by decide⟩
    · rw [ret_only (n := 2) demo_end (r₀ := (1, 6)) (by decide +kernel) hr,
        pub_only (n := 2) demo_end (r₀ := (1, 6)) (by decide +kernel) hw]
      exact ⟨some (1, 0), readsFrom_some (n := 2) demo_end rfl rfl rfl rfl (by decide) (by decide +kernel), by decide⟩
  · intro id it m hit hm hM r w hr hw
    cases demo_mutex hm
    obtain ⟨b, n, k, hk, rfl⟩ := hM
    obtain ⟨i, j⟩ := id
    simp only [List.mem_cons, List.not_mem_nil, or_false] at hk
    match i, j, hit with
    | 0, 0, hit | 0, 1, hit | 0, 2, hit | 0, 3, hit | 0, 4, hit | 0, 5, hit | 0, 6, hit | 0, 7, hit | 0, 8, hit
    | 1, 0, hit | 1, 1, hit | 1, 2, hit | 1, 3, hit | 1, 4, hit | 1, 5, hit | 1, 6, hit | 1, 7, hit | 1, 8, hit =>
      exfalso; rcases hk with rfl | rfl | rfl <;> cases hit
    | 0, j + 9, hit | 1, j + 9, hit => cases hit
    | i + 2, j, hit => rw [demo_end _ (by simp)] at hit; cases hit
  · exact copies_trivial demo_end _ (by decide +kernel)

theorem demo_found {a b : OpId} {r : Pos} {s : Option Pos} {w : Nat} (hin : Inside demo a b r)
    (hr : demo.Is r ⟨userLoad, w, none⟩) (hrf : demo.ReadsFrom r s)
    (hk : ∀ y ∈ demo.all 2, y.2.ins.has .wr = true → y.2.loc = w → ¬ (y.1.1 = r.1 ∧ y.1.2 < r.2)) :
    SectionFound demo demo.ReadsFrom demoValues a b w (demoValues.of w s) := by
  refine ⟨r, s, _, hin, ⟨_, hr, rfl⟩, hr, rfl, hrf, rfl, ?_⟩
  rintro e z - ⟨y, hy, hw⟩ hz hl hb
  exact hk (e, z) ((mem_all demo_end).2 hz) (hy.unique hz ▸ hw) hl hb

theorem demo_left {a b : OpId} {e : Pos} {w : Nat} (hin : Inside demo a b e) (he : demo.Is e ⟨userStore, w, none⟩)
    (hk : ∀ y ∈ demo.all 2, y.2.ins.has .wr = true → y.2.loc = w → ¬ (e.1 = y.1.1 ∧ e.2 < y.1.2)) :
    SectionLeft demo demoValues a b w (demoValues.val e) := by
  refine ⟨e, _, hin, ⟨_, he, rfl⟩, he, rfl, rfl, ?_⟩
  rintro f z - ⟨y, hy, hw⟩ hz hl hb
  exact hk (f, z) ((mem_all demo_end).2 hz) (hy.unique hz ▸ hw) hl hb

/-- What the code of the example's calls found and left. -/
theorem demo_computes : ∀ (i j : Nat) st l, (demoProg.getD i [])[j]? = some st → st.call.loc = some l →
    (demoRole l).seen = true → ∀ f g,
    (∀ v, FoundAt demoLayout demo demo.ReadsFrom demoValues (fun i => demoPieces.getD i []) (i, j) l v ↔ f = some v) →
    (∀ v, LeftAt demoLayout demo demoValues (fun i => demoPieces.getD i []) (i, j) l v ↔ g = some v) →
    st.req.Computes st.reply f g := by
  intro i j st l hst hl _ f g hf hg
  match i, j, hst with
  | 0, 0, hst =>
    cases hst; cases hl
    have : g = some 5 := (hg 5).1 (.own rfl ⟨_, (0, 0), ⟨[], rfl, rfl, ⟨_, rfl⟩, by decide, by decide⟩, rfl, ⟨_, rfl, rfl⟩, rfl⟩)
    rw [this]; exact .store
  | 0, 1, hst =>
    cases hst; cases hl
    have h1 : f = some (2 ^ 64 - 1) := by
      refine (hf _).1 (.pooled (s := demoSection) (g := fun w => if w = 1 then 2 ^ 64 - 1 else 0) rfl (fun w hw => ?_) rfl)
      rcases List.mem_cons.1 hw with rfl | hw
      · exact demo_found (r := (0, 2)) (s := none) ⟨(0, 2), .user userLoad 1, ⟨[.user userStore 3, demoSection.take],
        rfl, rfl, ⟨_, rfl⟩, by decide, by decide⟩, rfl, by decide, by decide⟩ rfl
          (readsFrom_none (n := 2) demo_end rfl (by decide +kernel)) (by decide +kernel)
      · cases List.mem_singleton.1 hw
        exact demo_found (r := (0, 3)) (s := none) ⟨(0, 3), .user userLoad 4, ⟨[.user userStore 3, demoSection.take, .user userLoad 1],
        rfl, rfl, ⟨_, rfl⟩, by decide, by decide⟩, rfl, by decide, by decide⟩ rfl
          (readsFrom_none (n := 2) demo_end rfl (by decide +kernel)) (by decide +kernel)
    have h2 : g = some (2 ^ 64) := by
      refine (hg _).1 (.pooled (s := demoSection) (g := fun w => if w = 1 then 0 else 1) rfl (fun w hw => ?_) rfl)
      rcases List.mem_cons.1 hw with rfl | hw
      · exact demo_left (e := (0, 4)) ⟨(0, 4), .user userStore 1, ⟨[.user userStore 3, demoSection.take, .user userLoad 1, .user userLoad 4],
        rfl, rfl, ⟨_, rfl⟩, by decide, by decide⟩, rfl, by decide, by decide⟩ rfl
          (by decide +kernel)
      · cases List.mem_singleton.1 hw
        exact demo_left (e := (0, 5)) ⟨(0, 5), .user userStore 4, ⟨[.user userStore 3, demoSection.take, .user userLoad 1, .user userLoad 4, .user userStore 1],
        rfl, rfl, ⟨_, rfl⟩, by decide, by decide⟩, rfl, by decide, by decide⟩ rfl
          (by decide +kernel)
    rw [h1, h2]; exact .modify (f := (· + 1))
  | 0, 2, hst =>
    cases hst; cases hl
    have : g = some 1 := by
      refine (hg 1).1 (.free rfl (fun _ _ h => by cases h) ⟨_, (0, 8), rfl, rfl, ⟨_, _, ⟨[.user userStore 3, demoSection.take,
        .user userLoad 1, .user userLoad 4, .user userStore 1,
        .user userStore 4, .op .gccAtomicX86 .load .relaxed 0 0, demoSection.give], rfl, rfl, ⟨_, rfl⟩,
        by decide, by decide⟩, rfl, rfl⟩, rfl⟩)
    rw [this]; exact .store
  | 1, 0, hst =>
    cases hst; cases hl
    have h1 : f = some (2 ^ 64) := by
      refine (hf _).1 (.pooled (s := demoSection) (g := fun w => if w = 1 then 0 else 1) rfl (fun w hw => ?_) rfl)
      rcases List.mem_cons.1 hw with rfl | hw
      · exact demo_found (r := (1, 1)) (s := some (0, 4)) ⟨(1, 1), .user userLoad 1, ⟨[demoSection.take],
        rfl, rfl, ⟨_, rfl⟩, by decide, by decide⟩, rfl, by decide, by decide⟩ rfl
          (readsFrom_some (n := 2) demo_end rfl rfl rfl rfl (by decide) (by decide +kernel)) (by decide +kernel)
      · cases List.mem_singleton.1 hw
        exact demo_found (r := (1, 2)) (s := some (0, 5)) ⟨(1, 2), .user userLoad 4, ⟨[demoSection.take, .user userLoad 1],
        rfl, rfl, ⟨_, rfl⟩, by decide, by decide⟩, rfl, by decide, by decide⟩ rfl
          (readsFrom_some (n := 2) demo_end rfl rfl rfl rfl (by decide) (by decide +kernel)) (by decide +kernel)
    have h2 : g = some (2 ^ 64 + 1) := by
      refine (hg _).1 (.pooled (s := demoSection) (g := fun w => if w = 1 then 1 else 1) rfl (fun w hw => ?_) rfl)
      rcases List.mem_cons.1 hw with rfl | hw
      · exact demo_left (e := (1, 3)) ⟨(1, 3), .user userStore 1, ⟨[demoSection.take, .user userLoad 1, .user userLoad 4],
        rfl, rfl, ⟨_, rfl⟩, by decide, by decide⟩, rfl, by decide, by decide⟩ rfl
          (by decide +kernel)
      · cases List.mem_singleton.1 hw
        exact demo_left (e := (1, 4)) ⟨(1, 4), .user userStore 4, ⟨[demoSection.take, .user userLoad 1, .user userLoad 4, .user userStore 1],
        rfl, rfl, ⟨_, rfl⟩, by decide, by decide⟩, rfl, by decide, by decide⟩ rfl
          (by decide +kernel)
    rw [h1, h2]; exact .modify (f := (· + 1))
  | 1, 1, hst =>
    cases hst; cases hl
    have h1 : f = some 1 := by
      refine (hf 1).1 (.free rfl (fun _ _ h => by cases h) ⟨_, (1, 7), some (0, 8), rfl, rfl, ⟨_, _, ⟨[demoSection.take,
        .user userLoad 1, .user userLoad 4, .user userStore 1,
        .user userStore 4, .op .gccAtomicX86 .load .relaxed 0 0, demoSection.give], rfl, rfl, ⟨_, rfl⟩,
        by decide, by decide⟩, rfl, rfl⟩, readsFrom_some (n := 2) demo_end rfl rfl rfl rfl (by decide) (by decide +kernel), rfl⟩)
    have h2 : g = none := by
      cases g with
      | none => rfl
      | some v =>
        rcases (hg v).2 rfl with ⟨h, -⟩ | ⟨-, -, it, w, -, -, hw, -⟩ | ⟨h, -⟩
        · cases h
        · have := pub_only (n := 2) demo_end (id := (1, 7)) (r₀ := (9, 9)) (by decide +kernel) hw
          obtain ⟨it, x, hin, -⟩ := hw
          have := hin.bounds.1
          subst w; cases this
        · cases h
    rw [h1, h2]; exact .load
  | 1, 2, hst =>
    cases hst; cases hl
    have h1 : f = some 5 := by
      refine (hf 5).1 (.own rfl ⟨_, (1, 9), some (0, 0), ⟨[demoSection.take,
        .user userLoad 1, .user userLoad 4, .user userStore 1,
        .user userStore 4, .op .gccAtomicX86 .load .relaxed 0 0, demoSection.give,
        .op .gccAtomicX86 .load .seqCst 0 2], rfl, rfl, ⟨_, rfl⟩, by decide, by decide⟩, rfl, ⟨_, rfl, rfl⟩,
        readsFrom_some (n := 2) demo_end rfl rfl rfl rfl (by decide) (by decide +kernel), rfl⟩)
    have h2 : g = none := by
      cases g with
      | none => rfl
      | some v =>
        rcases (hg v).2 rfl with ⟨-, it, e, hin, -, ⟨x, hx, hx'⟩, -⟩ | ⟨h, h', -⟩ | ⟨h, -⟩
        · have h3 : it = .user userLoad 3 := by
            have := hin.item
            exact (Option.some.inj this).symm
          subst h3
          have := user_one (R := demo) (e := (1, 9)) (x := userLoad) (l := 3) (a := (1, 8)) ⟨[demoSection.take,
            .user userLoad 1, .user userLoad 4, .user userStore 1,
        .user userStore 4, .op .gccAtomicX86 .load .relaxed 0 0, demoSection.give,
            .op .gccAtomicX86 .load .seqCst 0 2], rfl, rfl, ⟨_, rfl⟩, by decide, by decide⟩ hin
          subst this
          cases hx; cases hx'
        · cases h; exact absurd rfl (h' _ _)
        · cases h
    rw [h1, h2]; exact .load
  | 0, j + 3, hst | 1, j + 3, hst => cases hst
  | i + 2, j, hst => cases hst

theorem demo_executes (pool : Pool) : Executes gccX64Narrow pool demoLayout wideFlag demoRole (fun i => demoProg.getD i [])
    (fun i => demoPieces.getD i []) demo demo.ReadsFrom demoValues := by
  have hsec : pool.Code gccX64Narrow wideFlag demoSection := by
    cases pool with
    | futex =>
      refine ⟨by simp [demoSection], .casOk (c := 4) (by decide) (by decide), ?_, .casOk (c := 4) (by decide) (by decide),
        by simp [demoSection]⟩
      intro it hit
      simp only [demoSection, List.mem_singleton] at hit
      rw [hit]
      exact .inl (.load (c := 4) (by decide) (by decide))
    | system =>
      refine ⟨⟨by simp [demoSection], ⟨_, _, rfl⟩, ?_, ⟨_, _, rfl⟩, by simp [demoSection]⟩, ?_⟩
      · intro it hit
        simp only [demoSection, List.mem_singleton] at hit
        rw [hit]
        exact ⟨_, _, .inl rfl⟩
      · intro it hit
        simp only [demoSection, List.nil_append, List.mem_cons, List.not_mem_nil, or_false, List.mem_append] at hit
        rcases hit with rfl | rfl | rfl <;> exact ⟨by decide, by decide, by decide⟩
  have steps : ∀ {Q : Step → Prop}, (∀ st ∈ demoProg.getD 0 [], Q st) → (∀ st ∈ demoProg.getD 1 [], Q st) →
      ∀ i, ∀ st ∈ demoProg.getD i [], Q st := by
    intro Q h0 h1 i st hst
    match i with
    | 0 => exact h0 st hst
    | 1 => exact h1 st hst
    | i + 2 => cases hst
  refine ⟨⟨2, fun i hi => ?_⟩, ?_, ?_, ?_, ?_, ?_, fun _ => ?_, fun i => ⟨?_, ?_⟩, runOf_prog, demo_computes, demo_follows⟩
  · rw [List.getD_eq_getElem?_getD, List.getElem?_eq_none (by simpa [demoProg] using hi)]; rfl
  · refine steps ?_ ?_ <;> simp [demoProg, Call.loc, demoRole, Role.Admits, Call.SeqCst]
  · refine steps ?_ ?_ <;> simp [demoProg, Call.Allowed]
  · refine steps ?_ ?_ <;> simp [demoProg, Asks]
  · intro l m h
    unfold demoRole at h
    split at h
    · cases h
    · split at h
      · next h1 =>
        cases h
        refine ⟨rfl, fun n hn => ?_⟩
        subst h1
        have : n = 16 := by
          have e : gccX64Narrow.classOf (wideFlag 1) = some 16 := by decide
          rw [e] at hn; exact (Option.some.inj hn).symm
        subst this; decide
      · split at h
        · cases h
        · split at h <;> cases h
  · intro l m h
    have h1 : l = 1 ∧ m = 0 := by
      unfold demoRole at h
      split at h
      · cases h
      · split at h
        · next h1 => cases h; exact ⟨h1, rfl⟩
        · split at h
          · cases h
          · split at h <;> cases h
    obtain ⟨rfl, rfl⟩ := h1
    refine ⟨by decide, fun w hw => ?_⟩
    cases List.mem_singleton.1 hw
    refine ⟨rfl, fun l' m' _ hl => ?_⟩
    simp only [demoLayout] at hl
    split at hl
    · assumption
    · cases hl
  · intro m h
    unfold demoRole at h
    split at h
    · next h1 => subst h1; rfl
    · split at h
      · cases h
      · split at h
        · cases h
        · split at h <;> cases h
  · match i with
    | 0 | 1 => rfl
    | i + 2 => rfl
  · intro j st q hst hq
    match i, j, hst, hq with
    | 0, 0, hst, hq => cases hst; cases hq; exact .free (.user _ _)
    | 0, 1, hst, hq => cases hst; cases hq; exact .pooled rfl rfl hsec rfl
    | 0, 2, hst, hq => cases hst; cases hq; exact .free (.store (c := 4) (by decide) (by decide))
    | 1, 0, hst, hq => cases hst; cases hq; exact .pooled rfl rfl hsec rfl
    | 1, 1, hst, hq => cases hst; cases hq; exact .free (.load (c := 4) (by decide) (by decide))
    | 1, 2, hst, hq => cases hst; cases hq; exact .free (.user _ _)
    | 0, j + 3, hst, hq | 1, j + 3, hst, hq => cases hst
    | i + 2, j, hst, hq => cases hst

/-- The data are written before they are read: the lock of the object of 16 bytes has been passed on in between. -/
theorem demo_race_free : RaceFree demo demo.HappensBefore fun l => demoRole l = .own := by
  have hb : demo.HappensBefore (0, 0) (1, 9) := by
    refine .sync ⟨(0, 7), (0, 7), (1, 0), .inl ⟨?_, .inr ⟨rfl, by decide⟩⟩, ⟨_, rfl, rfl⟩, .head,
      readsFrom_some (n := 2) demo_end rfl rfl rfl rfl (by decide) (by decide +kernel), ⟨_, rfl, rfl⟩, by decide,
      .inl ⟨?_, .inr ⟨rfl, by decide⟩⟩⟩
    · exact ⟨[.user userStore 3, demoSection.take, .user userLoad 1, .user userLoad 4, .user userStore 1,
        .user userStore 4, .op .gccAtomicX86 .load .relaxed 0 0],
        demoSection.give, .release, _, ⟨⟨_, rfl⟩, by decide, by decide⟩, rfl, rfl, rfl, rfl⟩
    · exact ⟨[], demoSection.take, .acquire, _, ⟨⟨_, rfl⟩, by decide, by decide⟩, rfl, rfl, rfl, rfl⟩
  have key : ∀ y ∈ demo.all 2, (y.2.ins.has .rd || y.2.ins.has .wr) = true → y.2.loc ≠ 0 → y.2.loc ≠ 1 → y.2.loc ≠ 2 → y.2.loc ≠ 4 →
      y.1 = (0, 0) ∨ y.1 = (1, 9) := by decide +kernel
  have at_ : ∀ {e p x}, demo.Has e p → demo.Is e x → demoRole x.loc = .own → e = (0, 0) ∨ e = (1, 9) := by
    rintro e p x ⟨x', h', hp⟩ h hr
    rw [h'.unique h] at hp
    unfold demoRole at hr
    refine key (e, x) ((mem_all demo_end).2 h) (by cases p <;> simp only [hp, Bool.or_true, Bool.true_or]) ?_ ?_ ?_ ?_ <;>
      intro h0 <;> (simp only at h0; simp [h0] at hr)
  intro e f p q hne hloc he hf _ hown
  obtain ⟨x, y, hx, hy, hxy⟩ := hloc
  rcases at_ he hx (hown x hx) with rfl | rfl <;> rcases at_ hf hy (hxy ▸ hown x hx) with rfl | rfl
  · exact absurd rfl hne
  · exact .inl hb
  · exact .inr hb
  · exact absurd rfl hne

/-- The hypotheses hold for this execution, with either kind of mutex. -/
example (pool : Pool) : (observed demoLayout demoRole (fun i => demoProg.getD i []) demoValues).Interleaving :=
  C55_interleaving (t := gccX64Narrow) ⟨trivial, trivial⟩ demo demo_valid (demo_executes pool) demo_race_free
    (.inr (.inr (.inr (.inr (.inr ⟨⟨false, .inr rfl⟩, _, rfl⟩)))))

end Verif.Whole
