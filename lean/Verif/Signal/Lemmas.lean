import Verif.Signal.Model
import Verif.Mca.Shape

/-! Helper lemmas: what is released or acquired takes place in order. -/

namespace Verif.Signal

open Verif.Order Verif.Mca

/-! ### Where the compiler barriers are -/

/-- The compiler moves no access across one of the instructions. -/
def Barred (l : List Instr) : Prop := ∃ z ∈ l, z.clob = true

theorem acq_barred (be : Backend) (k : Kind) (o : MO) (n : Nat) (hacc : k.accepts o = true)
    (ho : (k.readOrder o).isAcquire = true) (hok : movable (.item (.op be k o n 0)) = false) :
    AfterAll (fun x b => x.ret = true → Barred (x :: b)) (trace be k o n) := by
  obtain ⟨pre, H, core, e, e0, hH⟩ := trace_split be k o n
  rw [e]
  refine afterAll_insert (fun x b b' hb h hx => ?_) (fun x hx b h => absurd h (by simp [(hH x hx).1])) ?_
  · obtain ⟨z, hz, hc⟩ := h hx
    refine ⟨z, ?_, hc⟩
    rcases List.mem_cons.1 hz with rfl | hz
    · simp
    · simp [hb z hz]
  · rw [← e0]
    have : afterB (fun x b => !x.ret || (x :: b).any (·.clob)) (trace be k o 0) = true := by
      clear e e0 hH
      revert hacc ho hok
      simp only [movable]
      cases be <;> cases k <;> cases o <;> (try cases ‹MO›) <;> (try cases ‹Bool›) <;>
        (try cases ‹Bool›) <;> decide
    refine afterAll_mono ?_ (afterB_iff.1 this)
    intro x b h hx
    simp only [hx, Bool.not_true, Bool.false_or, List.any_eq_true] at h
    exact h

/-- After the read of an acquire operation there is a barrier, or it is one. -/
theorem acquire_barred {it : Item} (h : it.accepts = true) (hm : movable (.item it) = false) {o}
    (ho : it.readOrder = some o) (hr : o.isAcquire = true) {a x b} (hc : it.code = a ++ x :: b)
    (hx : x.ret = true) : Barred (x :: b) := by
  cases it with
  | user => cases ho
  | fence => cases ho
  | clear => cases ho
  | op be k o' n l =>
    cases ho
    exact afterAll_iff.1 (acq_barred be k o' n h hr hm) a x b hc hx
  | exchange be o' n l =>
    cases ho
    by_cases hs : be.isSync = true
    · refine ⟨x, by simp, ?_⟩
      have : x ∈ gccSyncExchange o := by
        simp only [Item.code, hs, if_true] at hc; rw [hc]; simp
      simp only [gccSyncExchange, fenceBefore, when, List.mem_append, List.mem_singleton] at this
      rcases this with h | rfl
      · split at h
        · simp at h; rw [h]; rfl
        · simp at h
      · rfl
    · simp [Item.code, hs] at hc
      exact afterAll_iff.1 (acq_barred be .rmw o n rfl hr (by simp [movable])) a x b hc hx

/-- Before the write of a release operation there is a barrier, or it is one. -/
theorem release_barred {it : Item} (h : it.accepts = true) {o} (ho : it.writeOrder = some o)
    (hr : o.isRelease = true) {a x b} (hc : it.code = a ++ x :: b) (hx : x.pub = true) : Barred (a ++ [x]) := by
  have key : ∀ (be : Backend) k o' n, k.accepts o' = true → o'.isRelease = true → trace be k o' n = a ++ x :: b →
      Barred (a ++ [x]) := by
    intro be k o' n h hr hc
    rcases (beforeAll_iff.1 (rel_good be k o' n h hr) a x b hc hx).1 with h | ⟨z, hz, h⟩
    · exact ⟨x, by simp, h⟩
    · exact ⟨z, by simp at hz; simp [hz], h⟩
  cases it with
  | user => cases ho
  | fence => cases ho
  | op be k o' n l => cases ho; exact key be k _ n h hr hc
  | exchange be o' n l =>
    cases ho
    by_cases hs : be.isSync = true
    · refine ⟨x, by simp, ?_⟩
      have : x ∈ gccSyncExchange o := by
        simp only [Item.code, hs, if_true] at hc; rw [hc]; simp
      simp only [gccSyncExchange, fenceBefore, when, List.mem_append, List.mem_singleton] at this
      rcases this with h | rfl
      · split at h
        · simp at h; rw [h]; rfl
        · simp at h
      · rfl
    · simp [Item.code, hs] at hc
      exact key be .rmw _ n rfl hr hc
  | clear be o' l =>
    cases ho
    by_cases hs : be.isSync = true
    · refine ⟨x, by simp, ?_⟩
      have : x ∈ gccSyncClear o := by
        simp only [Item.code, hs, if_true] at hc; rw [hc]; simp
      simp only [gccSyncClear, fenceAfterStore, when, List.mem_cons] at this
      rcases this with rfl | h
      · rfl
      · split at h
        · simp at h; rw [h]; rfl
        · simp at h
    · simp [Item.code, hs] at hc
      exact key be .store _ 0 h hr hc

/-- A fence is a barrier. -/
theorem fence_barred {s : Step} {o : MO} (h : s.fenceOrder = some o) (ho : o ≠ .relaxed) (hm : movable s = false) :
    Barred ((events [s]).map Ev.ins) := by
  have key : ∀ l : List Instr, l.any (·.clob) = true → Barred l := fun l h => by
    simpa [Barred] using h
  cases s with
  | signalFence b o' =>
    cases h
    refine key _ ?_
    simp [events, Step.items, Order.signalFence, when, ho, Mca.events, Item.events, Item.code, cbar]
  | item it =>
    cases it with
    | fence b o' =>
      cases h
      refine key _ ?_
      have e : (events [.item (.fence b o)]).map Ev.ins = threadFence b o := by
        simp [events, Step.items, Mca.events, Run.events_ins, Item.code]
      rw [e]
      revert ho hm
      simp only [movable]
      cases b <;> cases o <;> (try cases ‹Bool›) <;> (try cases ‹Bool›) <;> decide
    | _ => cases h

namespace Run

variable {cpu : Cpu} {R : Run cpu}

theorem Valid.toMca (hR : R.Valid) : R.flat.Valid where
  fits := hR.fits
  keeps t a x b y c p q h hp hq hc _ := hR.keeps t a x b y c p q h hp hq hc
  sameLoc e f p q h hl he hf _ := hR.sameLoc e f p q h hl he hf
  readFirst := hR.readFirst
  distinct := hR.distinct
  atomic := hR.atomic

/-- All steps are accepted and none is one the compiler may move accesses across. -/
def Sound (R : Run cpu) : Prop := ∀ t, ∀ s ∈ R.prog t, s.accepts = true ∧ movable s = false

theorem events_append (p q : List Step) : events (p ++ q) = events p ++ events q := by
  simp [events, Mca.events]

theorem code_eq {t : Nat} {pre : List Step} {s : Step} {post} (h : R.prog t = pre ++ s :: post) :
    R.flat.code t = events pre ++ (events [s] ++ events post) := by
  rw [Mca.Run.code, flat]
  simp [h, events, Mca.events]

/-- Two accesses of one flow with a barrier between them. -/
theorem Valid.barred (hR : R.Valid) {t : Nat} {a x b y c} (hc : R.flat.code t = a ++ x :: (b ++ y :: c)) {p q}
    (hp : x.ins.has p = true) (hq : y.ins.has q = true) (hb : Barred (x.ins :: (b.map Ev.ins ++ [y.ins]))) {e f : Pos}
    (he : e = (t, a.length)) (hf : f = (t, a.length + 1 + b.length)) : R.time e p < R.time f q := by
  subst he hf
  refine hR.keeps t a x b y c p q hc hp hq ?_
  obtain ⟨z, hz, h⟩ := hb
  simp only [List.mem_cons, List.mem_append] at hz
  rcases hz with rfl | hz | rfl | hz
  · exact .inl h
  · exact .inr (.inr (.inl ⟨z, hz, h⟩))
  · exact .inr (.inl h)
  · cases hz

theorem Valid.fence (hR : R.Valid) (hS : R.Sound) {kind : MO → Bool} (hk : kind .relaxed = false) {e f : Pos}
    (h : R.FenceBetween kind e f) {p q} (he : R.flat.Has e p) (hf : R.flat.Has f q) : R.time e p < R.time f q := by
  obtain ⟨x, hx, hp⟩ := he
  obtain ⟨y, hy, hq⟩ := hf
  obtain ⟨ht, pre, s, o, post, hprog, ho, hko, h1, h2⟩ := h
  rw [events_append, List.length_append] at h2
  have hx' : (events pre)[e.2]? = some x := by
    rw [Mca.Run.Is, code_eq hprog, List.getElem?_append_left h1] at hx; exact hx
  have hy' : (events post)[f.2 - ((events pre).length + (events [s]).length)]? = some y := by
    rw [Mca.Run.Is, ← ht, code_eq hprog, List.getElem?_append_right (by omega),
      List.getElem?_append_right (by omega)] at hy
    rw [← hy]; congr 1; omega
  obtain ⟨a, m₁, e1, l1⟩ := Mca.Run.split_at hx'
  obtain ⟨m₂, c, e2, l2⟩ := Mca.Run.split_at hy'
  have hc : R.flat.code e.1 = a ++ x :: ((m₁ ++ events [s] ++ m₂) ++ y :: c) := by
    rw [code_eq hprog, e1, e2]; simp
  have hne : o ≠ .relaxed := by rintro rfl; rw [hk] at hko; cases hko
  obtain ⟨z, hz, hzc⟩ := fence_barred ho hne (hS e.1 s (by rw [hprog]; simp)).2
  refine hR.barred hc hp hq ⟨z, ?_, hzc⟩ ?_ ?_
  · simp only [List.map_append, List.mem_cons, List.mem_append]; exact .inr (.inl (.inl (.inr hz)))
  · ext <;> simp [l1]
  · rw [e1] at l2 h2; simp only [List.length_append, List.length_cons] at l2 h2 ⊢
    ext
    · exact ht.symm
    · show f.2 = _; omega

/-- An item of the execution is one of the steps. -/
theorem mem_flat {t : Nat} {it : Item} (h : it ∈ R.flat.prog t) :
    .item it ∈ R.prog t ∨ ∃ x, it = .user x 0 := by
  obtain ⟨s, hs, h⟩ := List.mem_flatMap.1 h
  cases s with
  | item it' => simp [Step.items] at h; subst h; exact .inl hs
  | signalFence b o =>
    obtain ⟨x, -, rfl⟩ := List.mem_map.1 h
    exact .inr ⟨x, rfl⟩

theorem Sound.item (hS : R.Sound) {t : Nat} {it : Item} (h : it ∈ R.flat.prog t) :
    it.accepts = true ∧ movable (.item it) = false := by
  rcases mem_flat h with h | ⟨x, rfl⟩
  · exact hS t _ h
  · exact ⟨rfl, rfl⟩

/-- What is released by a write takes place before it. -/
theorem Valid.released (hR : R.Valid) (hS : R.Sound) {e w : Pos} (h : R.Released e w) (hw : R.flat.Has w .wr) {p}
    (he : R.flat.Has e p) : R.time e p ≤ R.time w .wr := by
  rcases h with ⟨⟨pre, it, o, x, hin, hx, hpub, ho, hrel⟩, rfl | hb⟩ | hf
  · cases p with
    | wr => exact Nat.le_refl _
    | rd => exact Nat.le_of_lt (hR.readFirst e he hw)
  · refine Nat.le_of_lt ?_
    obtain ⟨y, hy, hyp⟩ := he
    have hwx : x.ins.has .wr = true := by
      obtain ⟨x', hx', h⟩ := hw; rw [hx.unique hx']; exact h
    by_cases hlt : e.2 < (Mca.events pre).length
    · obtain ⟨post, a', c', hp, e1, l1⟩ := hin.split hx
      have hy' : (Mca.events pre)[e.2]? = some y := by
        rw [Mca.Run.Is, hb.1, Mca.Run.code_eq hp, List.getElem?_append_left hlt] at hy; exact hy
      obtain ⟨a, m, e2, l2⟩ := Mca.Run.split_at hy'
      have hc : R.flat.code w.1 = a ++ y :: ((m ++ a') ++ x :: (c' ++ Mca.events post)) := by
        rw [Mca.Run.code_eq hp, e2, e1]; simp
      have hins : it.code = a'.map Ev.ins ++ x.ins :: c'.map Ev.ins := by
        rw [← Mca.Run.events_ins, e1]; simp
      obtain ⟨z, hz, hzc⟩ := release_barred (hS.item (show it ∈ R.flat.prog w.1 by rw [hp]; simp)).1 ho hrel hins hpub
      refine hR.barred hc hyp hwx ⟨z, ?_, hzc⟩ ?_ ?_
      · simp only [List.mem_append, List.mem_singleton] at hz
        simp only [List.map_append, List.mem_cons, List.mem_append]
        rcases hz with hz | hz
        · exact .inr (.inl (.inr hz))
        · exact .inr (.inr (.inl hz))
      · ext <;> simp [hb.1, l2]
      · rw [e2] at l1; simp at l1; ext <;> simp; omega
    · have hin' : R.flat.InItem e pre it := by
        obtain ⟨⟨post, hp⟩, h1, h2⟩ := hin
        exact ⟨⟨post, by rw [hb.1, hp]⟩, by omega, by have := hb.2; omega⟩
      exact hR.sameLoc e w p .wr hb (hin'.sameLoc hin hy hx) ⟨y, hy, hyp⟩ hw
  · exact Nat.le_of_lt (hR.fence hS rfl hf he hw)

/-- What is covered by a read takes place after it. -/
theorem Valid.acquired (hR : R.Valid) (hS : R.Sound) {r f : Pos} (h : R.Acquired r f) (hr : R.flat.Has r .rd) {q}
    (hf : R.flat.Has f q) : R.time r .rd ≤ R.time f q := by
  rcases h with ⟨⟨pre, it, o, x, hin, hx, hret, ho, hacq⟩, rfl | hb⟩ | hfb
  · cases q with
    | rd => exact Nat.le_refl _
    | wr => exact Nat.le_of_lt (hR.readFirst _ hr hf)
  · refine Nat.le_of_lt ?_
    obtain ⟨y, hy, hyq⟩ := hf
    have hrx : x.ins.has .rd = true := by
      obtain ⟨x', hx', h⟩ := hr; rw [hx.unique hx']; exact h
    by_cases hlt : f.2 < (Mca.events pre).length + (it.events).length
    · have hin' : R.flat.InItem f pre it := by
        obtain ⟨⟨post, hp⟩, h1, h2⟩ := hin
        exact ⟨⟨post, by rw [← hb.1, hp]⟩, by have := hb.2; omega, hlt⟩
      exact hR.sameLoc r f .rd q hb (hin.sameLoc hin' hx hy) hr ⟨y, hy, hyq⟩
    · obtain ⟨post, a', c', hp, e1, l1⟩ := hin.split hx
      have hs := hS.item (show it ∈ R.flat.prog r.1 by rw [hp]; simp)
      have hy' : (Mca.events post)[f.2 - ((Mca.events pre).length + (it.events).length)]? = some y := by
        rw [Mca.Run.Is, ← hb.1, Mca.Run.code_eq hp, List.getElem?_append_right (by omega),
          List.getElem?_append_right (by omega)] at hy
        rw [← hy]; congr 1; omega
      obtain ⟨m, c, e2, l2⟩ := Mca.Run.split_at hy'
      have hc : R.flat.code r.1 = (Mca.events pre ++ a') ++ x :: ((c' ++ m) ++ y :: c) := by
        rw [Mca.Run.code_eq hp, e2, e1]; simp
      have hins : it.code = a'.map Ev.ins ++ x.ins :: c'.map Ev.ins := by
        rw [← Mca.Run.events_ins, e1]; simp
      obtain ⟨z, hz, hzc⟩ := acquire_barred hs.1 hs.2 ho hacq hins hret
      refine hR.barred hc hrx hyq ⟨z, ?_, hzc⟩ ?_ ?_
      · simp only [List.map_append, List.mem_cons, List.mem_append] at hz ⊢
        rcases hz with hz | hz
        · exact .inl hz
        · exact .inr (.inl (.inl hz))
      · ext <;> simp [l1]
      · rw [e1] at l2 hlt; simp at l2 hlt; ext <;> simp [hb.1]; omega
  · exact Nat.le_of_lt (hR.fence hS rfl hfb hr hf)

/-! ### Synchronisation -/

theorem Valid.sequence (hR : R.Valid) {w v : Pos} (h : R.ReleaseSequence w v) :
    R.time w .wr ≤ R.time v .wr := by
  induction h with
  | head => exact Nat.le_refl _
  | @rmw v r v' _ hrf hr hv' hp ih =>
    have := hrf.1.2.2
    have : R.time r .rd < R.time v' .wr := hR.toMca.paired hp hr hv'
    omega

theorem FenceBetween.before {kind : MO → Bool} {e f : Pos} (h : R.FenceBetween kind e f) : Mca.Run.Before e f := by
  obtain ⟨ht, pre, s, o, post, -, -, -, h1, h2⟩ := h
  refine ⟨ht, ?_⟩
  rw [events_append] at h2; simp at h2; omega

theorem Released.before {e w : Pos} (h : R.Released e w) : e = w ∨ Mca.Run.Before e w := by
  rcases h with ⟨-, h⟩ | h
  · exact h
  · exact .inr h.before

theorem Released.of_before {e f w : Pos} (h : Mca.Run.Before e f) (h' : R.Released f w) : R.Released e w := by
  rcases h' with ⟨hw, hb⟩ | ⟨ht, pre, s, o, post, hp, ho, hk, h1, h2⟩
  · left
    refine ⟨hw, .inr ?_⟩
    rcases hb with rfl | hb
    · exact h
    · exact h.trans hb
  · right
    exact ⟨h.1.trans ht, pre, s, o, post, by rw [h.1]; exact hp, ho, hk, Nat.lt_trans h.2 h1, h2⟩

theorem Acquired.of_before {r f g : Pos} (h : R.Acquired r f) (h' : Mca.Run.Before f g) : R.Acquired r g := by
  rcases h with ⟨hr, hb⟩ | ⟨ht, pre, s, o, post, hp, ho, hk, h1, h2⟩
  · left
    refine ⟨hr, .inr ?_⟩
    rcases hb with rfl | hb
    · exact h'
    · exact hb.trans h'
  · right
    exact ⟨ht.trans h'.1, pre, s, o, post, hp, ho, hk, h1, Nat.le_of_lt (Nat.lt_of_le_of_lt h2 h'.2)⟩

theorem Acquired.released {r f w : Pos} (h : R.Acquired r f) (h' : R.Released f w) : R.Acquired r w := by
  rcases h'.before with rfl | hb
  · exact h
  · exact h.of_before hb

/-- Happens-before through other flows. -/
def Across (R : Run cpu) (e f : Pos) : Prop :=
  ∃ w r, R.Released e w ∧ R.flat.Has w .wr ∧ R.flat.Has r .rd ∧ R.Acquired r f ∧ R.time w .wr < R.time r .rd

theorem Valid.happens (hR : R.Valid) (hS : R.Sound) {e f : Pos} (h : R.HappensBefore e f) :
    Mca.Run.Before e f ∨ R.Across e f := by
  induction h with
  | before h => exact .inl h
  | sync h =>
    obtain ⟨w, v, r, hrel, hw, hseq, hrf, hr, hne, hacq⟩ := h
    exact .inr ⟨w, r, hrel, hw, hr, hacq, Nat.lt_of_le_of_lt (hR.sequence hseq) hrf.1.2.2⟩
  | trans _ _ ih₁ ih₂ =>
    rcases ih₁ with h₁ | ⟨w, r, h1, h2, h3, h4, h5⟩
    · rcases ih₂ with h₂ | ⟨w, r, h1, h2⟩
      · exact .inl (h₁.trans h₂)
      · exact .inr ⟨w, r, h1.of_before h₁, h2⟩
    · rcases ih₂ with h₂ | ⟨w', r', h1', h2', h3', h4', h5'⟩
      · exact .inr ⟨w, r, h1, h2, h3, h4.of_before h₂, h5⟩
      · have := hR.acquired hS (h4.released h1') h3 h2'
        exact .inr ⟨w, r', h1, h2, h3', h4', by omega⟩

theorem Valid.irrefl (hR : R.Valid) (hS : R.Sound) (e : Pos) : ¬ R.HappensBefore e e := by
  intro h
  rcases hR.happens hS h with h | ⟨w, r, h1, h2, h3, h4, h5⟩
  · exact absurd h.2 (Nat.lt_irrefl _)
  · have := hR.acquired hS (h4.released h1) h3 h2
    omega

/-- Accesses to one variable take place as they happen. -/
theorem Valid.inTime (hR : R.Valid) (hS : R.Sound) {e f : Pos} (h : R.HappensBefore e f) {p q} (he : R.flat.Has e p)
    (hf : R.flat.Has f q) (hl : R.flat.SameLoc e f) : R.time e p < R.time f q := by
  rcases hR.happens hS h with h | ⟨w, r, h1, h2, h3, h4, h5⟩
  · exact hR.sameLoc _ _ _ _ h hl he hf
  · have := hR.released hS h1 h2 he
    have := hR.acquired hS h4 h3 hf
    omega

theorem Valid.latest (hR : R.Valid) {b : Pos} {s : Option Pos} (hs : R.ReadsFrom b s) {a : Pos} (hv : R.Visible b a) :
    s = some a ∨ ∃ w, s = some w ∧ R.time a .wr < R.time w .wr := by
  cases s with
  | none => exact absurd hv (hs a)
  | some w =>
    rcases Nat.lt_or_eq_of_le (hs.2 a hv) with h | h
    · exact .inr ⟨w, rfl, h⟩
    · exact .inl (by rw [(hR.distinct _ _ _ _ hv.1 hs.1.1 h).1])

theorem Valid.coherent (hR : R.Valid) (hS : R.Sound) : R.actions.Coherent := by
  have loc : ∀ {e f p q}, R.flat.Has e p → R.flat.Has f q → R.actions.loc e = R.actions.loc f → R.flat.SameLoc e f :=
    fun he hf h => Mca.Run.actions_sameLoc he hf h
  refine ⟨hR.irrefl hS, ⟨fun a => Nat.lt_irrefl _, fun a b c => Nat.lt_trans, ?_⟩, ?_, ?_, ?_, ?_, ?_⟩
  · intro a b ha hb hl hne
    rcases Nat.lt_trichotomy (R.time a .wr) (R.time b .wr) with h | h | h
    · exact .inl h
    · exact absurd (hR.distinct _ _ _ _ ha hb h).1 hne
    · exact .inr h
  · intro r w s hrw hr hw hs
    have hp : R.flat.Paired r w := Mca.Run.Rmw.paired hrw
    have hlt : R.time r .rd < R.time w .wr := hR.toMca.paired hp hr hw
    refine ⟨?_, ?_⟩
    · rintro u rfl
      exact Nat.lt_trans hs.1.2.2 hlt
    · intro v hv hl hvw
      have hl := loc hv hw hl
      have hne : v ≠ w := by rintro rfl; exact Nat.lt_irrefl _ hvw
      rcases hR.atomic r w v hp hv hl hne with h | h
      · exact hR.latest hs ⟨hv, hp.1.trans hl.symm, h⟩
      · exact absurd h (Nat.lt_asymm hvw)
  · intro a b hab ha hb hl
    exact hR.inTime hS hab ha hb (loc ha hb hl)
  · intro a b s hab ha hb hl hs
    have hl := loc ha hb hl
    exact hR.latest hs ⟨ha, hl.symm, hR.inTime hS hab ha hb hl⟩
  · intro a b w hab ha hb hl hw
    have hl := loc ha hb hl
    exact Nat.lt_trans hw.1.2.2 (hR.inTime hS hab ha hb hl)
  · intro a b w s hab ha hb hl hw hs
    have hl := loc ha hb hl
    exact hR.latest hs ⟨hw.1.1, hl.symm.trans hw.1.2.1, Nat.lt_trans hw.1.2.2 (hR.inTime hS hab ha hb hl)⟩

end Run
end Verif.Signal
