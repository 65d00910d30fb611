import Verif.Locked.Program
import Verif.Target.Lemmas
import Verif.Whole.Interleave
import Verif.Whole.Race

/-
The code of a program of calls: what `Verif.Locked` and `Verif.Whole.Race` need to know about it.
-/

namespace Verif.Whole

open Verif.Order Verif.Mca Verif.Mca.Run Verif.Target Verif.Locked

variable {cpu : Cpu} {t : Target} {pool : Pool} {L : Layout} {obj : Nat → Obj} {role : Nat → Role} {prog : Nat → List Step} {P : Nat → List Piece}
  {R : Mca.Run cpu} {rf : Pos → Option Pos → Prop} {V : Values}

/-! ### Items and calls -/

/-- The calls of the code of a mutex. -/
inductive MutexCall (m : Nat) : Call → Prop where
  | load : MutexCall m (.load .relaxed m)
  | fail {o} : o ∈ [MO.acquire, .release, .relaxed] → MutexCall m (.cas false o .relaxed m)
  | mark : MutexCall m (.cas true .relaxed .relaxed m)
  | extra : MutexCall m (.extra .relaxed m)
  | take : MutexCall m (.cas true .acquire .relaxed m)
  | give : MutexCall m (.cas true .release .relaxed m)

theorem MutexCall.loc {m c} (h : MutexCall m c) : c.loc = some m := by cases h <;> rfl

theorem MutexCall.allowed {m c} (h : MutexCall m c) : c.Allowed := by
  cases h with
  | fail ho =>
    simp only [List.mem_cons, List.not_mem_nil, or_false] at ho
    rcases ho with rfl | rfl | rfl <;> simp [Call.Allowed] <;> decide
  | mark | take | give => simp [Call.Allowed]; decide
  | load => simp [Call.Allowed]
  | extra => trivial

theorem MutexCall.not_weak {m c} (h : MutexCall m c) (hm : obj m = ⟨4, false⟩) (hs : t.arch = .gcc_sparc → ¬ t.asm 4) :
    ¬ t.Weak obj c := by
  intro hw
  cases hw with
  | sparc ha ho hr hq hn =>
    cases h with
    | take =>
      obtain ⟨n, h1, h2⟩ := ho
      rw [hm] at h1
      have : n = 4 := by simpa [Target.classOf, Select.storage_size_of] using h1.symm
      exact hs ha (this ▸ h2)
    | load | fail | mark | extra | give => cases hr; cases hq
  | armCas _ _ hq => cases h; cases hq
  | armLoad _ _ _ _ hq => cases h; cases hq
  | linuxArm _ hq => cases h; cases hq
  | x86Fence => cases h
  | windowsFence => cases h

theorem MutexCall.not_seq_cst {m c} (h : MutexCall m c) : ¬ c.SeqCst := by
  intro hs
  cases h with
  | fail ho =>
    simp only [List.mem_cons, List.not_mem_nil, or_false] at ho
    rcases ho with rfl | rfl | rfl <;> cases hs.1
  | load | extra | mark | take | give => cases hs

theorem watch_call {m it} (h : WatchCode t obj m it) : ∃ c, MutexCall m c ∧ t.Emits obj c it := by
  rcases h with h | ⟨o, ho, h⟩
  · exact ⟨_, .load, h⟩
  · exact ⟨_, .fail ho, h⟩

theorem mark_call {m it} (h : MarkCode t obj m it) : ∃ c, MutexCall m c ∧ t.Emits obj c it := by
  rcases h with h | h
  · exact ⟨_, .mark, h⟩
  · exact ⟨_, .extra, h⟩

theorem watch_code {m it} (h : WatchCode t obj m it) : Watch m it := by
  rcases h with h | ⟨o, ho, h⟩
  · cases h; exact ⟨_, _, .inl rfl⟩
  · cases h; exact ⟨_, _, .inr ⟨o, ho, rfl⟩⟩

theorem mark_code {m it} (h : MarkCode t obj m it) : Mark m it := by
  rcases h with h | h <;> cases h <;> exact ⟨_, _, _, by simp, rfl⟩

theorem cas_item {s f l it} (h : t.Emits obj (.cas true s f l) it) : ∃ b n, it = .op b (.casOk f) s n l := by
  cases h; exact ⟨_, _, rfl⟩

theorem load_backend {n b} (h : t.loadBackend n = some b) : ∃ b', t.backend n = some b' := by
  unfold Target.loadBackend at h
  split at h
  · next o os g hs hc ha => exact ⟨t.coreBackend o.sizeofStorage, by unfold Target.backend; rw [hs]⟩
  · exact ⟨b, h⟩

/-- An object without lock-free code has none. -/
theorem not_emits {c : Call} {it : Item} {l : Nat} (hl : c.loc = some l)
    (hn : ∀ n, t.classOf (obj l) = some n → t.backend n = none) (hu : ∀ x l, c ≠ .user x l)
    (ht : ∀ o l, c ≠ .testAndSet o l) (hc : ∀ o l, c ≠ .clear o l) : ¬ t.Emits obj c it := by
  intro he
  have no : ∀ {n b}, t.classOf (obj l) = some n → t.backend n = some b → False := by
    intro n b h1 h2; rw [hn n h1] at h2; cases h2
  cases he with
  | user => exact hu _ _ rfl
  | load h1 h2 => cases hl; obtain ⟨b', h⟩ := load_backend h2; exact no h1 h
  | testAndSet => exact ht _ _ rfl
  | clear => exact hc _ _ rfl
  | fence => cases hl
  | store h1 h2 | exchange h1 h2 | casOk h1 h2 | casFail h1 h2 | arith h1 h2 | arithWide h1 h2 | extraArch h1 h2
    | extraCore h1 h2 | extraLoop h1 h2 | fp h1 h2 => cases hl; exact no h1 h2

theorem fence_or_loc {c : Call} {it : Item} (he : t.Emits obj c it) : it.isFence = true ∨ c.loc = some it.loc := by
  cases he <;> first | exact .inr rfl | exact .inl rfl

theorem stored_user {c : Call} {ws : List Nat} {it : Item} (h : it ∈ stored c ws) :
    ∃ x w, it = .user x w ∧ w ∈ ws ∧ (x = userLoad ∨ x = userStore) := by
  rcases List.mem_append.1 h with h | h
  · split at h
    · obtain ⟨w, hw, rfl⟩ := List.mem_map.1 h; exact ⟨_, w, rfl, hw, .inl rfl⟩
    · cases h
  · split at h
    · obtain ⟨w, hw, rfl⟩ := List.mem_map.1 h; exact ⟨_, w, rfl, hw, .inr rfl⟩
    · cases h

theorem pool_lawful {s : Section} (h : pool.Code t obj s) : s.Lawful := by
  cases pool with
  | system => exact SystemCode.lawful h
  | futex =>
    have hc : SectionCode t obj s := h
    have wm : ∀ {m it}, WatchCode t obj m it ∨ MarkCode t obj m it → Watch m it ∨ Mark m it := by
      rintro m it (h | h)
      · exact .inl (watch_code h)
      · exact .inr (mark_code h)
    exact ⟨fun it h => wm (hc.spin it h), cas_item hc.take, fun it h => watch_code (hc.leave it h), cas_item hc.give,
      fun it h => wm (hc.wake it h)⟩

/-- The items of a mutex. -/
inductive Control (t : Target) (pool : Pool) (obj : Nat → Obj) (m : Nat) (it : Item) : Prop where
  | futex {c} : pool = .futex → MutexCall m c → t.Emits obj c it → Control t pool obj m it
  | system : pool = .system → it.accepts = true → it.broken = false → it.asksSeqCst = false → Control t pool obj m it

theorem control_loc {s : Section} (h : s.Lawful) {it : Item}
    (hit : it ∈ s.spin ++ s.take :: (s.leave ++ s.give :: s.wake)) : it.loc = s.mutex := by
  have wm : Watch s.mutex it ∨ Mark s.mutex it → it.loc = s.mutex := by
    rintro (h | h)
    · exact h.loc
    · exact h.loc
  simp only [List.mem_append, List.mem_cons] at hit
  rcases hit with hit | hit | hit | hit | hit
  · exact wm (h.spin it hit)
  · obtain ⟨b, n, h⟩ := h.take; rw [hit, h]; rfl
  · exact wm (.inl (h.leave it hit))
  · obtain ⟨b, n, h⟩ := h.give; rw [hit, h]; rfl
  · exact wm (h.wake it hit)

theorem control {s : Section} (h : pool.Code t obj s) {it : Item}
    (hit : it ∈ s.spin ++ s.take :: (s.leave ++ s.give :: s.wake)) : Control t pool obj s.mutex it := by
  cases pool with
  | system =>
    obtain ⟨h1, h2, h3⟩ := SystemCode.fine h it hit
    exact .system rfl h1 h2 h3
  | futex =>
    have hc : SectionCode t obj s := h
    have wm : WatchCode t obj s.mutex it ∨ MarkCode t obj s.mutex it → Control t .futex obj s.mutex it := by
      rintro (h | h)
      · obtain ⟨c, k1, k2⟩ := watch_call h; exact .futex rfl k1 k2
      · obtain ⟨c, k1, k2⟩ := mark_call h; exact .futex rfl k1 k2
    simp only [List.mem_append, List.mem_cons] at hit
    rcases hit with hit | hit | hit | hit | hit
    · exact wm (hc.spin it hit)
    · exact .futex rfl .take (hit ▸ hc.take)
    · exact wm (.inl (hc.leave it hit))
    · exact .futex rfl .give (hit ▸ hc.give)
    · exact wm (hc.wake it hit)

section

variable (hE : Executes t pool L obj role prog P R rf V)

include hE

theorem step_of {i j : Nat} {q : Piece} (h : (P i)[j]? = some q) :
    ∃ st, (prog i)[j]? = some st ∧ Makes t pool L obj role st.call q := by
  have hj := (List.getElem?_eq_some_iff.1 h).1
  rw [← (hE.made i).1] at hj
  exact ⟨_, List.getElem?_eq_getElem hj, (hE.made i).2 j _ q (List.getElem?_eq_getElem hj) h⟩

theorem piece_of {i j : Nat} {st : Step} (h : (prog i)[j]? = some st) :
    ∃ q, (P i)[j]? = some q ∧ Makes t pool L obj role st.call q := by
  have hj := (List.getElem?_eq_some_iff.1 h).1
  rw [(hE.made i).1] at hj
  exact ⟨_, List.getElem?_eq_getElem hj, (hE.made i).2 j st _ h (List.getElem?_eq_getElem hj)⟩

theorem section_of (S : Sec P) : ∃ st l, (prog S.1.1.1)[S.1.1.2]? = some st ∧ st.call.loc = some l ∧
    role l = .pooled S.sec.mutex ∧ pool.Code t obj S.sec ∧ S.sec.body = stored st.call (L.words l) := by
  obtain ⟨st, h1, h2⟩ := step_of hE S.2
  cases h2 with
  | pooled hl hr hs hb => exact ⟨st, _, h1, hl, hr, hs, hb⟩

theorem mutex_role {m : Nat} (h : IsMutex P m) : role m = .mutex := by
  obtain ⟨i, s, hs, rfl⟩ := h
  obtain ⟨j, hj⟩ := List.getElem?_of_mem hs
  obtain ⟨st, l, -, -, hr, -⟩ := section_of hE ⟨((i, j), s), hj⟩
  exact (hE.pooled _ _ hr).1

/-- The words of an object. -/
theorem word_role {l m w : Nat} (h : role l = .pooled m) (hw : w ∈ L.words l) : role w = .pooled m ∨ role w = .part m := by
  rcases List.mem_cons.1 hw with rfl | hw
  · exact .inl h
  · exact .inr ((hE.parts l m h).2 w hw).1

theorem word_guard {l m w : Nat} (h : role l = .pooled m) (hw : w ∈ L.words l) : (role w).guard = some m := by
  rcases word_role hE h hw with h | h <;> rw [h] <;> rfl

/-- Where the items of the program come from. -/
theorem item_cases {i : Nat} {it : Item} (h : it ∈ R.prog i) :
    (∃ st ∈ prog i, t.Emits obj st.call it) ∨
    (∃ m, role m = .mutex ∧ it.loc = m ∧ Control t pool obj m it) ∨
    (∃ x w m, it = .user x w ∧ (role w).guard = some m) := by
  obtain ⟨k, hk⟩ := List.getElem?_of_mem h
  rcases place (id := (i, k)) hE.code hk with hp | ⟨S, hS, hp⟩
  · obtain ⟨j, hj⟩ := List.getElem?_of_mem hp
    obtain ⟨st, h1, h2⟩ := step_of hE hj
    cases h2 with
    | free he => exact .inl ⟨st, List.mem_of_getElem? h1, he⟩
  · obtain ⟨st, l, h1, h2, hr, hs, hb⟩ := section_of hE S
    have hm := (hE.pooled _ _ hr).1
    have wm : it ∈ S.sec.spin ++ S.sec.take :: (S.sec.leave ++ S.sec.give :: S.sec.wake) →
        ∃ m, role m = .mutex ∧ it.loc = m ∧ Control t pool obj m it :=
      fun h => ⟨_, hm, control_loc (pool_lawful hs) h, control hs h⟩
    rcases hp with hp | ⟨-, hp⟩ | ⟨hp, -⟩ | hp | ⟨-, hp⟩ | hp
    · exact .inr (.inl (wm (by simp [hp])))
    · exact .inr (.inl (wm (by simp [hp])))
    · rw [hb] at hp
      obtain ⟨x, w, k1, k2, -⟩ := stored_user hp
      exact .inr (.inr ⟨x, w, _, k1, word_guard hE hr k2⟩)
    · exact .inr (.inl (wm (by simp [hp])))
    · exact .inr (.inl (wm (by simp [hp])))
    · exact .inr (.inl (wm (by simp [hp])))

/-- A call with lock-free code is not on an object of the lock pool. -/
theorem not_pooled {i : Nat} {st : Step} (h : st ∈ prog i) {it : Item} (he : t.Emits obj st.call it) {l : Nat}
    (hl : st.call.loc = some l) (m : Nat) : role l ≠ .pooled m := by
  intro hr
  have := hE.admits i st h l hl
  rw [hr] at this
  exact not_emits hl (hE.pooled _ _ hr).2 this.1 this.2.1 this.2.2 he

theorem role_cases {i : Nat} {st : Step} (h : st ∈ prog i) {it : Item} (he : t.Emits obj st.call it) {l : Nat}
    (hl : st.call.loc = some l) : role l = .own ∨ role l = .seqCst ∨ role l = .atomic := by
  cases hr : role l with
  | own => exact .inl rfl
  | seqCst => exact .inr (.inl rfl)
  | atomic => exact .inr (.inr rfl)
  | pooled m => exact absurd hr (not_pooled hE h he hl m)
  | part | mutex =>
    have := hE.admits i st h l hl
    rw [hr] at this; exact this.elim

theorem lawful : Lawful P fun l => (role l).guard := by
  have secs : ∀ i s, Piece.locked s ∈ P i → ∃ S : Sec P, S.sec = s := by
    intro i s hs
    obtain ⟨j, hj⟩ := List.getElem?_of_mem hs
    exact ⟨⟨((i, j), s), hj⟩, rfl⟩
  refine ⟨?_, ?_, ?_, ?_⟩
  · intro i s hs
    obtain ⟨S, rfl⟩ := secs i s hs
    obtain ⟨st, l, -, -, -, hc, -⟩ := section_of hE S
    exact pool_lawful hc
  · intro i it hit
    obtain ⟨j, hj⟩ := List.getElem?_of_mem hit
    obtain ⟨st, h1, h2⟩ := step_of hE hj
    cases h2 with
    | free he =>
      rcases fence_or_loc he with hf | hl
      · exact .inl hf
      · right
        have := role_cases hE (List.mem_of_getElem? h1) he hl
        refine ⟨fun hm => ?_, ?_⟩
        · rw [mutex_role hE hm] at this; rcases this with h | h | h <;> cases h
        · rcases this with h | h | h <;> simp only [h, Role.guard]
  · intro i s it hs hit
    obtain ⟨S, rfl⟩ := secs i s hs
    obtain ⟨st, l, -, h2, hr, -, hb⟩ := section_of hE S
    rw [hb] at hit
    obtain ⟨x, w, rfl, k2, -⟩ := stored_user hit
    have hg := word_guard hE hr k2
    refine .inr (.inr ⟨fun hm => ?_, fun m hg' => ?_⟩)
    · have := mutex_role hE hm
      simp only [Item.loc] at this
      rw [this] at hg; cases hg
    · have hg' : (role w).guard = some m := hg'
      rw [hg] at hg'
      exact (Option.some.inj hg').symm
  · intro m hm
    simp only [mutex_role hE hm, Role.guard]

theorem own_items : Own R fun l => role l = .own := by
  intro a it hit hd hf
  rcases item_cases hE (List.mem_of_getElem? hit) with ⟨st, hst, he⟩ | ⟨m, hm, hl, hc⟩ | ⟨x, l, m, rfl, -⟩
  · rcases fence_or_loc he with h | h
    · rw [hf] at h; cases h
    · have := hE.admits _ st hst _ h
      rw [hd] at this
      obtain ⟨x, l, hx⟩ := this
      rw [hx] at he
      cases he
      exact ⟨_, _, rfl⟩
  · rw [hl, hm] at hd; cases hd
  · exact ⟨_, _, rfl⟩

theorem seq_items : ∀ i, ∀ it ∈ R.prog i, role it.loc = .seqCst → it.isFence = true ∨ it.asksSeqCst = true := by
  intro i it hit hd
  rcases item_cases hE hit with ⟨st, hst, he⟩ | ⟨m, hm, hl, hc⟩ | ⟨x, l, m, rfl, hr⟩
  · rcases fence_or_loc he with h | h
    · exact .inl h
    · have := hE.admits _ st hst _ h
      rw [hd] at this
      exact .inr ((asked he).2 this)
  · rw [hl, hm] at hd; cases hd
  · simp only [Item.loc] at hd; rw [hd] at hr; cases hr

theorem items_accept : ∀ i, ∀ it ∈ R.prog i, it.accepts = true := by
  intro i it hit
  rcases item_cases hE hit with ⟨st, hst, he⟩ | ⟨m, hm, hl, hc⟩ | ⟨x, l, m, rfl, hr⟩
  · exact accepts he (hE.allowed i st hst)
  · cases hc with
    | futex _ hc he => exact accepts he hc.allowed
    | system _ h => exact h
  · rfl

variable (hw : ∀ i, ∀ st ∈ prog i, (∃ it, t.Emits obj st.call it) → ¬ t.Weak obj st.call ∧ ¬ t.WeakSeqCst obj st.call)

include hw

theorem items_not_broken (hs : pool = .futex → t.arch = .gcc_sparc → ¬ t.asm 4) : ∀ i, ∀ it ∈ R.prog i, it.broken = false := by
  intro i it hit
  rcases item_cases hE hit with ⟨st, hst, he⟩ | ⟨m, hm, hl, hc⟩ | ⟨x, l, m, rfl, hr⟩
  · exact not_broken he (hE.allowed i st hst) (hw i st hst ⟨_, he⟩).1
  · cases hc with
    | futex hp hc he => exact not_broken he hc.allowed (hc.not_weak (hE.word hp m hm) (hs hp))
    | system _ _ h => exact h
  · rfl

theorem items_as_asked : ∀ i, ∀ it ∈ R.prog i, it.asksSeqCst = true → it.isSeqCst = true := by
  intro i it hit ha
  rcases item_cases hE hit with ⟨st, hst, he⟩ | ⟨m, hm, hl, hc⟩ | ⟨x, l, m, rfl, hr⟩
  · exact is_seq_cst he (hE.allowed i st hst) ((asked he).1 ha) (hw i st hst ⟨_, he⟩).2
  · cases hc with
    | futex _ hc he => exact absurd ((asked he).1 ha) hc.not_seq_cst
    | system _ _ _ h => rw [h] at ha; cases ha
  · cases ha

end

end Verif.Whole
