import Verif.Mca.Props

/-
C50 for the Windows back end on processors that are not x86, without exceptions for fences.

`atomic_thread_fence` of that back end is only a compiler barrier unless the order is seq_cst (C22), but every operation
on an atomic object is an `_Interlocked*` function, which is a full barrier whatever the order is.  A fence takes part in
synchronisation only together with an atomic operation after or before it ([atomics.fences]); that operation does what
the fence fails to do.  `Run.Released` and `Run.Acquired` count also accesses of the program itself that race; here
happens-before is the one of the standard, for which the write and the read beside a fence are atomic operations.
-/

namespace Verif.Mca

open Verif.Order

namespace Run

variable {cpu : Cpu} (R : Run cpu)

/-- `e` is the write of an atomic operation. -/
def AtomicWrite (e : Pos) : Prop :=
  ∃ pre it o x, R.InItem e pre it ∧ R.Is e x ∧ x.ins.pub = true ∧ it.writeOrder = some o

/-- `e` is the read of an atomic operation. -/
def AtomicRead (e : Pos) : Prop :=
  ∃ pre it o x, R.InItem e pre it ∧ R.Is e x ∧ x.ins.ret = true ∧ it.readOrder = some o

/-- `e` synchronises with `f` as the standard has it: with release and acquire operations, or with fences and atomic
operations after the release fence and before the acquire fence. -/
def SynchronizesAtomic (e f : Pos) : Prop :=
  ∃ w v r, ((R.ReleaseWrite w ∧ (e = w ∨ Before e w)) ∨ (R.FenceBetween MO.isRelease e w ∧ R.AtomicWrite w)) ∧
    R.Has w .wr ∧ R.ReleaseSequence w v ∧ R.ReadsFrom r (some v) ∧ R.Has r .rd ∧ r.1 ≠ w.1 ∧
    ((R.AcquireRead r ∧ (f = r ∨ Before r f)) ∨ (R.FenceBetween MO.isAcquire r f ∧ R.AtomicRead r))

/-- Happens-before made of it. -/
inductive HappensBeforeAtomic : Pos → Pos → Prop where
  | before {e f} : Before e f → HappensBeforeAtomic e f
  | sync {e f} : R.SynchronizesAtomic e f → HappensBeforeAtomic e f
  | trans {e f g} : HappensBeforeAtomic e f → HappensBeforeAtomic f g → HappensBeforeAtomic e g

/-- The execution as the standard describes it, with this happens-before. -/
def atomicActions : Actions := { R.actions with hb := R.HappensBeforeAtomic }

end Run

/-! ### The same code with stronger orders -/

/-- The item with the strongest orders; fences that are only compiler barriers are left as such. -/
def Item.strong : Item → List Item
  | .user x l => [.user x l]
  | .op b k _ n l => [.op b (match k with | .casOk _ => .casOk .seqCst | .casFail _ => .casFail .seqCst | k => k) .seqCst n l]
  | .exchange b _ n l => [.exchange b .seqCst n l]
  | .clear b _ l => [.clear b .seqCst l]
  | .fence b o => if o = .seqCst then [.fence b o] else (threadFence b o).map fun x => .user x 0

theorem Item.strong_events {it : Item} (h : it.backend = none ∨ it.backend = some (.windows false)) :
    Mca.events it.strong = it.events := by
  cases it with
  | user x l => simp [Item.strong, Mca.events]
  | op b k o n l =>
    simp [Item.backend] at h; subst h
    cases k <;> simp [Item.strong, Mca.events, Item.events, Item.code, trace, call, Item.loc, Item.pairOf, Item.isRmw]
  | exchange b o n l =>
    simp [Item.backend] at h; subst h
    simp [Item.strong, Mca.events, Item.events, Item.code, trace, call, Item.loc, Item.pairOf, Item.isRmw, Backend.isSync]
  | clear b o l =>
    simp [Item.backend] at h; subst h
    simp [Item.strong, Mca.events, Item.events, Item.code, trace, call, Item.loc, Item.pairOf, Item.isRmw, Backend.isSync]
  | fence b o =>
    simp [Item.backend] at h; subst h
    cases o <;> simp [Item.strong, Mca.events, Item.events, Item.code, threadFence, Item.loc, Item.pairOf, cbar, when]

theorem events_strong {p : List Item} (h : ∀ it ∈ p, it.backend = none ∨ it.backend = some (.windows false)) :
    events (p.flatMap Item.strong) = events p := by
  induction p with
  | nil => rfl
  | cons it p ih =>
    rw [List.flatMap_cons, Run.events_append, Run.events_cons, Item.strong_events (h it (by simp)),
      ih fun it h' => h it (by simp [h'])]

namespace Run

/-- The program with the strongest orders, executed in the same way. -/
def strong {cpu : Cpu} (R : Run cpu) : Run cpu := ⟨fun t => (R.prog t).flatMap Item.strong, R.time⟩

variable {cpu : Cpu} {R : Run cpu}

/-- Only code of the Windows back end. -/
def Windows (R : Run cpu) : Prop := ∀ t, ∀ it ∈ R.prog t, it.backend = none ∨ it.backend = some (.windows false)

theorem strong_code (h : R.Windows) : R.strong.code = R.code := funext fun t => events_strong (h t)

theorem strong_is (h : R.Windows) : R.strong.Is = R.Is := by
  funext e x; simp only [Is, strong_code h]

theorem strong_has (h : R.Windows) : R.strong.Has = R.Has := by
  funext e p; simp only [Has, strong_is h]

theorem strong_sameLoc (h : R.Windows) : R.strong.SameLoc = R.SameLoc := by
  funext e f; simp only [SameLoc, strong_is h]

theorem strong_paired (h : R.Windows) : R.strong.Paired = R.Paired := by
  funext e f; simp only [Paired, strong_is h, strong_sameLoc h]

theorem strong_visible (h : R.Windows) : R.strong.Visible = R.Visible := by
  funext e f; simp only [Visible, strong_has h, strong_sameLoc h]; rfl

theorem strong_readsFrom (h : R.Windows) : R.strong.ReadsFrom = R.ReadsFrom := by
  funext r s; cases s <;> simp only [ReadsFrom, strong_visible h] <;> rfl

theorem strong_valid (h : R.Windows) (hR : R.Valid) : R.strong.Valid := by
  constructor
  · constructor
    · intro t it hit b hb
      obtain ⟨it₀, h₀, h₁⟩ := List.mem_flatMap.1 hit
      refine hR.fits t it₀ h₀ b ?_
      cases it₀ <;> simp [Item.strong] at h₁
      case fence o =>
        split at h₁
        · simp at h₁; subst h₁; exact hb
        · obtain ⟨x, -, rfl⟩ := List.mem_map.1 h₁; cases hb
      all_goals subst h₁; exact hb
    · rw [strong_code h]; exact hR.keeps
    · rw [strong_sameLoc h, strong_has h]; exact hR.sameLoc
    · rw [strong_has h]; exact hR.readFirst
  · rw [strong_has h]; exact hR.distinct
  · rw [strong_has h, strong_paired h, strong_sameLoc h]; exact hR.atomic

theorem strong_sound (h : R.Windows) : R.strong.Sound := by
  intro t it hit
  obtain ⟨it₀, h₀, h₁⟩ := List.mem_flatMap.1 hit
  have hb := h t it₀ h₀
  cases it₀ <;> simp [Item.strong, Item.backend] at h₁ hb
  case fence o =>
    subst hb
    split at h₁
    · next ho => simp at h₁; subst h₁; subst ho; exact ⟨rfl, rfl⟩
    · obtain ⟨x, -, rfl⟩ := List.mem_map.1 h₁; exact ⟨rfl, rfl⟩
  all_goals subst h₁
  case user => exact ⟨rfl, rfl⟩
  case op k _ _ _ => subst hb; cases k <;> exact ⟨rfl, rfl⟩
  all_goals subst hb; exact ⟨rfl, rfl⟩

/-- An operation, in the program with the strongest orders. -/
theorem strong_inItem (h : R.Windows) {e : Pos} {pre : List Item} {it : Item} (hin : R.InItem e pre it)
    {it' : Item} (hs : it.strong = [it']) : R.strong.InItem e (pre.flatMap Item.strong) it' := by
  obtain ⟨⟨post, hp⟩, h1, h2⟩ := hin
  have hw : ∀ x ∈ pre ++ it :: post, x.backend = none ∨ x.backend = some (.windows false) := by
    rw [← hp]; exact h e.1
  have hpre : events (pre.flatMap Item.strong) = events pre := events_strong fun x hx => hw x (by simp [hx])
  have hit : it'.events = it.events := by
    rw [← Item.strong_events (hw it (by simp)), hs]; simp [events]
  refine ⟨⟨post.flatMap Item.strong, ?_⟩, by rw [hpre]; exact h1, by rw [hpre, hit]; exact h2⟩
  show (R.prog e.1).flatMap Item.strong = _
  rw [hp, List.flatMap_append, List.flatMap_cons, hs]; rfl

theorem strong_release (h : R.Windows) {w : Pos} (hw : R.AtomicWrite w) : R.strong.ReleaseWrite w := by
  obtain ⟨pre, it, o, x, hin, hx, hpub, ho⟩ := hw
  cases it <;> cases ho
  all_goals exact ⟨_, _, .seqCst, x, strong_inItem h hin rfl, by rw [strong_is h]; exact hx, hpub, rfl, rfl⟩

theorem strong_acquire (h : R.Windows) {r : Pos} (hr : R.AtomicRead r) : R.strong.AcquireRead r := by
  obtain ⟨pre, it, o, x, hin, hx, hret, ho⟩ := hr
  cases it with
  | op b k o' n l =>
    refine ⟨_, _, .seqCst, x, strong_inItem h hin rfl, by rw [strong_is h]; exact hx, hret, ?_, rfl⟩
    cases k <;> rfl
  | exchange => exact ⟨_, _, .seqCst, x, strong_inItem h hin rfl, by rw [strong_is h]; exact hx, hret, rfl, rfl⟩
  | user => cases ho
  | clear => cases ho
  | fence => cases ho

theorem ReleaseWrite.atomicWrite {w : Pos} (h : R.ReleaseWrite w) : R.AtomicWrite w := by
  obtain ⟨pre, it, o, x, h1, h2, h3, h4, -⟩ := h; exact ⟨pre, it, o, x, h1, h2, h3, h4⟩

theorem AcquireRead.atomicRead {r : Pos} (h : R.AcquireRead r) : R.AtomicRead r := by
  obtain ⟨pre, it, o, x, h1, h2, h3, h4, -⟩ := h; exact ⟨pre, it, o, x, h1, h2, h3, h4⟩

theorem FenceBetween.before {kind : MO → Bool} {e f : Pos} (h : R.FenceBetween kind e f) : Before e f := by
  obtain ⟨ht, pre, b, o, post, -, -, h1, h2⟩ := h
  refine ⟨ht, ?_⟩
  rw [events_append] at h2; simp at h2; omega

theorem strong_sequence (h : R.Windows) {w v : Pos} (hs : R.ReleaseSequence w v) : R.strong.ReleaseSequence w v := by
  induction hs with
  | head => exact .head
  | rmw _ h1 h2 h3 h4 ih =>
    exact .rmw ih (by rw [strong_readsFrom h]; exact h1) (by rw [strong_has h]; exact h2)
      (by rw [strong_has h]; exact h3) (by rw [strong_paired h]; exact h4)

theorem strong_happens (h : R.Windows) {e f : Pos} (hb : R.HappensBeforeAtomic e f) : R.strong.HappensBefore e f := by
  induction hb with
  | before hb => exact .before hb
  | trans _ _ ih₁ ih₂ => exact .trans ih₁ ih₂
  | sync hs =>
    obtain ⟨w, v, r, hrel, hw, hseq, hrf, hr, hne, hacq⟩ := hs
    refine .sync ⟨w, v, r, .inl ?_, by rw [strong_has h]; exact hw, strong_sequence h hseq,
      by rw [strong_readsFrom h]; exact hrf, by rw [strong_has h]; exact hr, hne, .inl ?_⟩
    · rcases hrel with ⟨h1, h2⟩ | ⟨h1, h2⟩
      · exact ⟨strong_release h h1.atomicWrite, h2⟩
      · exact ⟨strong_release h h2, .inr h1.before⟩
    · rcases hacq with ⟨h1, h2⟩ | ⟨h1, h2⟩
      · exact ⟨strong_acquire h h1.atomicRead, h2⟩
      · exact ⟨strong_acquire h h2, .inr h1.before⟩

theorem strong_rmw (h : R.Windows) {r w : Pos} (hrw : R.Rmw r w) : R.strong.Rmw r w := by
  obtain ⟨id, it, hit, hk, ⟨it₁, x, ⟨pre₁, hl₁, ht₁, hin₁⟩, hx, hret⟩, ⟨it₂, y, ⟨pre₂, hl₂, ht₂, hin₂⟩, hy, hpub⟩⟩ := hrw
  have key : ∀ {e : Pos} {pre it'}, pre.length = id.2 → e.1 = id.1 → R.InItem e pre it' →
      pre = (R.prog id.1).take id.2 ∧ it' = it := by
    intro e pre it' hl ht hin
    obtain ⟨⟨post, hp⟩, -⟩ := hin
    rw [ht] at hp
    constructor
    · rw [hp, ← hl]; simp
    · rw [hp, ← hl] at hit; simpa using hit
  obtain ⟨rfl, rfl⟩ := key hl₁ ht₁ hin₁
  obtain ⟨rfl, rfl⟩ := key hl₂ ht₂ hin₂
  obtain ⟨it', hs, hk'⟩ : ∃ it', it₂.strong = [it'] ∧ it'.isRmw = true := by
    cases it₂ with
    | op b k o n l => cases k <;> first | (cases hk; done) | exact ⟨_, rfl, rfl⟩
    | exchange => exact ⟨_, rfl, rfl⟩
    | _ => cases hk
  refine ⟨(id.1, (((R.prog id.1).take id.2).flatMap Item.strong).length), it', ?_, hk',
    ⟨it', x, ⟨_, rfl, ht₁, strong_inItem h hin₁ hs⟩, by rw [strong_is h]; exact hx, hret⟩,
    ⟨it', y, ⟨_, rfl, ht₂, strong_inItem h hin₂ hs⟩, by rw [strong_is h]; exact hy, hpub⟩⟩
  obtain ⟨⟨post, hp⟩, -⟩ := strong_inItem h hin₁ hs
  rw [ht₁] at hp
  show (R.strong.prog id.1)[_]? = _
  rw [hp]; simp

end Run

/-- Fewer pairs that happen one before the other: fewer demands. -/
theorem Actions.Coherent.mono {G : Actions} (h : G.Coherent) {hb rmw : G.Act → G.Act → Prop}
    (h' : ∀ a b, hb a b → G.hb a b) (hr : ∀ a b, rmw a b → G.rmw a b) :
    Actions.Coherent { G with hb := hb, rmw := rmw } where
  irrefl a := fun x => h.irrefl a (h' a a x)
  oneOrder := h.oneOrder
  atomic r w s hrw := h.atomic r w s (hr r w hrw)
  writeWrite a b hab := h.writeWrite a b (h' a b hab)
  writeRead a b s hab := h.writeRead a b s (h' a b hab)
  readWrite a b w hab := h.readWrite a b w (h' a b hab)
  readRead a b w s hab := h.readRead a b w s (h' a b hab)

/-- C50 on Windows for processors that are not x86, with no exception: fences of every order synchronise together with
the atomic operations beside them, as the standard says. -/
theorem C50_happens_before_windows (R : Run .interlocked) (hR : R.Valid) : R.atomicActions.Coherent := by
  have hw : R.Windows := by
    intro t it hit
    cases hb : it.backend with
    | none => exact .inl rfl
    | some b =>
      right
      have := hR.fits t it hit b hb
      cases b <;> first | (cases this; done) | skip
      case windows x => cases x <;> first | rfl | cases this
  have hc := (Run.strong_valid hw hR).coherent (Run.strong_sound hw) fun _ _ => Run.Rmw.paired
  have := hc.mono (hb := R.HappensBeforeAtomic) (rmw := R.Rmw) (fun a b => Run.strong_happens hw)
    (fun a b => Run.strong_rmw hw)
  have e : R.atomicActions = { R.strong.actions with hb := R.HappensBeforeAtomic, rmw := R.Rmw } := by
    simp only [Run.atomicActions, Run.actions, Run.strong_code hw, Run.strong_has hw, Run.strong_readsFrom hw]
    rfl
  rw [e]; exact this

/-- An execution with two fences and relaxed operations, in which the store of the one thread happens before the load of
the other. -/
example : ∃ R : Run .interlocked, R.Valid ∧ R.HappensBeforeAtomic (0, 0) (1, 5) ∧
    R.prog 0 = [.user userStore 0, .fence (.windows false) .release, .op (.windows false) .store .relaxed 0 1] ∧
    R.prog 1 = [.op (.windows false) .load .relaxed 0 1, .fence (.windows false) .acquire, .user userLoad 0] := by
  let R : Run .interlocked := Run.of .interlocked
    [[.user userStore 0, .fence (.windows false) .release, .op (.windows false) .store .relaxed 0 1],
      [.op (.windows false) .load .relaxed 0 1, .fence (.windows false) .acquire, .user userLoad 0]]
    [[(0, 1), (0, 0), (0, 0), (0, 0), (2, 3), (0, 0)], [(0, 0), (4, 5), (0, 0), (0, 0), (0, 0), (6, 0)]]
  have hn : ∀ t, 2 ≤ t → R.prog t = [] := fun t h => by simp [R, Run.of, h]
  refine ⟨R, Run.Check.valid (n := 2) hn (by decide +kernel), ?_, rfl, rfl⟩
  have hrf : R.ReadsFrom (1, 1) (some (0, 4)) :=
    Run.readsFrom_some (n := 2) hn rfl rfl rfl rfl (by decide) (by decide +kernel)
  refine .sync ⟨(0, 4), (0, 4), (1, 1), .inr ⟨?_, ?_⟩, ⟨_, rfl, rfl⟩, .head, hrf, ⟨_, rfl, rfl⟩, by decide, .inr ⟨?_, ?_⟩⟩
  · exact ⟨rfl, [.user userStore 0], .windows false, .release, _, rfl, rfl, by decide, by decide⟩
  · exact ⟨[.user userStore 0, .fence (.windows false) .release], .op (.windows false) .store .relaxed 0 1, .relaxed, _,
      ⟨⟨[], rfl⟩, by decide, by decide⟩, rfl, rfl, rfl⟩
  · exact ⟨rfl, [.op (.windows false) .load .relaxed 0 1], .windows false, .acquire, _, rfl, rfl, by decide, by decide⟩
  · exact ⟨[], .op (.windows false) .load .relaxed 0 1, .relaxed, _, ⟨⟨_, rfl⟩, by decide, by decide⟩, rfl, rfl, rfl⟩

end Verif.Mca
