import Verif.Mca.Model
import Verif.Order.Props

/-! Helper lemmas: what is released or acquired is performed in order. -/

namespace Verif.Mca

open Verif.Order

namespace Run

variable {cpu : Cpu} {R : Run cpu}

theorem Is.unique {e : Pos} {x y : Ev} (h : R.Is e x) (h' : R.Is e y) : x = y := by
  unfold Is at h h'; rw [h] at h'; exact Option.some.inj h'

theorem Has.is {e p} (h : R.Has e p) : ∃ x, R.Is e x ∧ x.ins.has p = true := h

theorem SameLoc.symm {e f} (h : R.SameLoc e f) : R.SameLoc f e := by
  obtain ⟨x, y, hx, hy, h⟩ := h; exact ⟨y, x, hy, hx, h.symm⟩

theorem SameLoc.trans {e f g} (h : R.SameLoc e f) (h' : R.SameLoc f g) : R.SameLoc e g := by
  obtain ⟨x, y, hx, hy, h⟩ := h
  obtain ⟨y', z, hy', hz, h'⟩ := h'
  rw [hy.unique hy'] at h
  exact ⟨x, z, hx, hz, h.trans h'⟩

theorem Before.trans {e f g} (h : Before e f) (h' : Before f g) : Before e g :=
  ⟨h.1.trans h'.1, Nat.lt_trans h.2 h'.2⟩

/-- `Ordered` accesses are performed in order. -/
theorem Local.ordered (hR : R.Local) {t : Nat} {x p b' y q} (h : Ordered cpu.hw x p b' y q) :
    ∀ {a X b Y c}, R.code t = a ++ X :: (b ++ Y :: c) → X.ins = x → b.map Ev.ins = b' → Y.ins = y →
      x.has p = true → y.has q = true →
      R.time (t, a.length) p < R.time (t, a.length + 1 + b.length) q := by
  induction h with
  | direct h1 h2 =>
    intro a X b Y c e hX hb hY hp hq
    subst hX hb hY
    exact hR.keeps t a X b Y c _ _ e hp hq h1 h2
  | @trans x p b₁ m r b₂ y q hm _ _ ih₁ ih₂ =>
    intro a X b Y c e hX hb hY hp hq
    obtain ⟨l₁, l₂, rfl, h1, h2⟩ := List.map_eq_append_iff.1 hb
    obtain ⟨M, l₃, rfl, hM, h3⟩ := List.map_eq_cons_iff.1 h2
    have e1 : R.code t = a ++ X :: (l₁ ++ M :: (l₃ ++ Y :: c)) := by rw [e]; simp
    have e2 : R.code t = (a ++ X :: l₁) ++ M :: (l₃ ++ Y :: c) := by rw [e]; simp
    have t1 := ih₁ e1 hX h1 hM hp hm
    have t2 := ih₂ e2 hM h3 hY hm hq
    simp only [List.length_append, List.length_cons] at t2 ⊢
    have i1 : a.length + (l₁.length + 1) = a.length + 1 + l₁.length := by omega
    have i2 : a.length + (l₁.length + 1) + 1 + l₃.length = a.length + 1 + (l₁.length + (l₃.length + 1)) := by omega
    rw [i2, i1] at t2
    exact Nat.lt_trans t1 t2

theorem split_at {α : Type} {l : List α} {i : Nat} {x : α} (h : l[i]? = some x) :
    ∃ a c, l = a ++ x :: c ∧ a.length = i := by
  obtain ⟨hi, rfl⟩ := List.getElem?_eq_some_iff.1 h
  exact ⟨l.take i, l.drop (i + 1), by simp, by simp; omega⟩

theorem events_append (p q : List Item) : events (p ++ q) = events p ++ events q := by
  simp [events]

theorem events_cons (it : Item) (q : List Item) :
    events (it :: q) = it.events ++ events q := by
  simp [events]

theorem events_ins (it : Item) : (it.events).map Ev.ins = it.code := by
  simp [Item.events, Function.comp_def]

theorem code_eq {t : Nat} {pre it post} (h : R.prog t = pre ++ it :: post) :
    R.code t = events pre ++ (it.events ++ events post) := by
  rw [code, h, events_append, events_cons]

/-- The instruction at a position inside an item. -/
theorem InItem.split {e : Pos} {pre it} (h : R.InItem e pre it) {x : Ev} (hx : R.Is e x) :
    ∃ post a c, R.prog e.1 = pre ++ it :: post ∧ it.events = a ++ x :: c ∧
      e.2 = (events pre).length + a.length := by
  obtain ⟨⟨post, hp⟩, h1, h2⟩ := h
  have hx' : (it.events)[e.2 - (events pre).length]? = some x := by
    rw [Is, code_eq hp, List.getElem?_append_right h1, List.getElem?_append_left (by omega)] at hx
    exact hx
  obtain ⟨a, c, e1, e2⟩ := split_at hx'
  exact ⟨post, a, c, hp, e1, by omega⟩

theorem events_loc {it : Item} {a : List Ev} {x c} (h : it.events = a ++ x :: c) : x.loc = it.loc := by
  have : x ∈ it.events := by rw [h]; simp
  simp only [Item.events, List.mem_map] at this
  obtain ⟨y, -, rfl⟩ := this
  rfl

theorem InItem.sameLoc {e f : Pos} {pre it} (h : R.InItem e pre it) (h' : R.InItem f pre it)
    {x y} (hx : R.Is e x) (hy : R.Is f y) : R.SameLoc e f := by
  obtain ⟨_, _, _, _, he, _⟩ := h.split hx
  obtain ⟨_, _, _, _, hf, _⟩ := h'.split hy
  exact ⟨x, y, hx, hy, (events_loc he).trans (events_loc hf).symm⟩

/-- The orders of a program are accepted and no operation is one of the broken ones. -/
def Sound (R : Run cpu) : Prop := ∀ t, ∀ it ∈ R.prog t, it.accepts = true ∧ it.broken = false

theorem Backend.isSync.hw {b : Backend} (h : b.isSync = true) : b.hw = .weak := by
  cases b <;> first | rfl | cases h

theorem releaseHolds {it : Item} (hf : it.Fits cpu) (h : it.accepts = true) {o} (ho : it.writeOrder = some o)
    (hr : o.isRelease = true) : ReleaseHolds cpu.hw (it.code) := by
  cases it with
  | user => cases ho
  | fence => cases ho
  | op b k o' n l => cases ho; exact Cpu.runs_hw (hf b rfl) ▸ C19_release b k _ n h hr
  | exchange b o' n l =>
    cases ho
    rw [← Cpu.runs_hw (hf b rfl)]
    by_cases hb : b.isSync = true
    · simpa [Item.code, hb, Backend.isSync.hw hb] using (C19_gcc_sync_exchange _).2.1 hr
    · simpa [Item.code, hb] using C19_release b .rmw _ n rfl hr
  | clear b o' l =>
    cases ho
    rw [← Cpu.runs_hw (hf b rfl)]
    by_cases hb : b.isSync = true
    · simpa [Item.code, hb, Backend.isSync.hw hb] using (C19_gcc_sync_exchange _).2.2
    · simpa [Item.code, hb] using C19_release b .store _ 0 h hr

theorem acquireHolds {it : Item} (hf : it.Fits cpu) (h : it.accepts = true) (hb : it.broken = false) {o}
    (ho : it.readOrder = some o) (hr : o.isAcquire = true) : AcquireHolds cpu.hw (it.code) := by
  cases it with
  | user => cases ho
  | fence => cases ho
  | op b k o' n l =>
    cases ho
    rw [← Cpu.runs_hw (hf b rfl)]
    exact C19_acquire_partial b k _ n h hr (by simpa [Item.broken, hr] using hb)
  | exchange b o' n l =>
    cases ho
    rw [← Cpu.runs_hw (hf b rfl)]
    by_cases hs : b.isSync = true
    · simpa [Item.code, hs, Backend.isSync.hw hs] using (C19_gcc_sync_exchange _).1
    · simp [Item.code, hs]
      exact C19_acquire_partial b .rmw _ n rfl hr (by simpa [Item.broken, hr, hs] using hb)
  | clear => cases ho

theorem Before.split {e f : Pos} (h : Before e f) {x y} (hx : R.Is e x) (hy : R.Is f y) :
    ∃ a b c, R.code e.1 = a ++ x :: (b ++ y :: c) ∧ a.length = e.2 ∧ a.length + 1 + b.length = f.2 := by
  obtain ⟨a, r, e1, l1⟩ := split_at hx
  have hy' : r[f.2 - (e.2 + 1)]? = some y := by
    rw [Is, ← h.1, e1, List.getElem?_append_right (by have := h.2; omega),
      show f.2 - a.length = (f.2 - (e.2 + 1)) + 1 by have := h.2; omega, List.getElem?_cons_succ] at hy
    exact hy
  obtain ⟨b, c, e2, l2⟩ := split_at hy'
  exact ⟨a, b, c, by rw [e1, e2], l1, by have := h.2; omega⟩

/-- Accesses with a fence between them that orders them. -/
theorem Local.fence (hR : R.Local) {kind : MO → Bool} {e f : Pos} (h : R.FenceBetween kind e f) {x y p q}
    (hx : R.Is e x) (hy : R.Is f y) (hp : x.ins.has p = true) (hq : y.ins.has q = true)
    (H : ∀ b o, Item.fence b o ∈ R.prog e.1 → kind o = true → ∀ m₁ m₂,
      Ordered cpu.hw x.ins p (m₁ ++ threadFence b o ++ m₂) y.ins q) :
    R.time e p < R.time f q := by
  obtain ⟨ht, pre, b, o, post, hprog, hk, h1, h2⟩ := h
  have hl : (events (pre ++ [.fence b o])).length =
      (events pre).length + ((Item.fence b o).events).length := by simp [events]
  rw [hl] at h2
  have hx' : (events pre)[e.2]? = some x := by
    rw [Is, code_eq hprog, List.getElem?_append_left h1] at hx; exact hx
  have hy' : (events post)[f.2 - ((events pre).length + ((Item.fence b o).events).length)]? = some y := by
    rw [Is, ← ht, code_eq hprog, List.getElem?_append_right (by omega),
      List.getElem?_append_right (by omega)] at hy
    rw [← hy]; congr 1; omega
  obtain ⟨a, m₁, e1, l1⟩ := split_at hx'
  obtain ⟨m₂, c, e2, l2⟩ := split_at hy'
  have hc : R.code e.1 = a ++ x :: ((m₁ ++ (Item.fence b o).events ++ m₂) ++ y :: c) := by
    rw [code_eq hprog, e1, e2]; simp
  have := hR.ordered (H b o (by rw [hprog]; simp) hk (m₁.map Ev.ins) (m₂.map Ev.ins)) hc rfl
    (by simp [events_ins, Item.code]) rfl hp hq
  have ee : e = (e.1, a.length) := by ext <;> simp [l1]
  have ef : f = (e.1, a.length + 1 + (m₁ ++ (Item.fence b o).events ++ m₂).length) := by
    rw [e1] at l2 h2; simp at l2 h2; ext <;> simp [ht]; omega
  rw [ef]; rw [ee]; exact this

/-- What is released by a write is performed before it. -/
theorem Local.released (hR : R.Local) (hS : R.Sound) {e w : Pos} (h : R.Released e w) (hw : R.Has w .wr) {p}
    (he : R.Has e p) : R.time e p ≤ R.time w .wr := by
  rcases h with ⟨⟨pre, it, o, x, hin, hx, hpub, ho, hrel⟩, rfl | hb⟩ | hf
  · cases p with
    | wr => exact Nat.le_refl _
    | rd => exact Nat.le_of_lt (hR.readFirst e he hw)
  · refine Nat.le_of_lt ?_
    obtain ⟨y, hy, hyp⟩ := he
    have hwx : x.ins.has .wr = true := by
      obtain ⟨x', hx', h⟩ := hw; rw [hx.unique hx']; exact h
    by_cases hlt : e.2 < (events pre).length
    · obtain ⟨post, a', c', hp, e1, l1⟩ := hin.split hx
      have hrh := releaseHolds (hR.fits w.1 it (by rw [hp]; simp)) (hS w.1 it (by rw [hp]; simp)).1 ho hrel
      have hy' : (events pre)[e.2]? = some y := by
        rw [Is, hb.1, code_eq hp, List.getElem?_append_left hlt] at hy; exact hy
      obtain ⟨a, m, e2, l2⟩ := split_at hy'
      have hc : R.code w.1 = a ++ y :: ((m ++ a') ++ x :: (c' ++ events post)) := by
        rw [code_eq hp, e2, e1]; simp
      have hins : it.code = a'.map Ev.ins ++ x.ins :: c'.map Ev.ins := by
        rw [← events_ins, e1]; simp
      have := hR.ordered (hrh _ _ _ hins hpub (m.map Ev.ins) y.ins p hyp) hc rfl (by simp) rfl hyp hwx
      have ew : w = (w.1, a.length + 1 + (m ++ a').length) := by
        rw [e2] at l1; simp at l1; ext <;> simp; omega
      have ee : e = (w.1, a.length) := by ext <;> simp [hb.1, l2]
      rw [ee]; rw [ew]; exact this
    · have hin' : R.InItem e pre it := by
        obtain ⟨⟨post, hp⟩, h1, h2⟩ := hin
        exact ⟨⟨post, by rw [hb.1, hp]⟩, by omega, by have := hb.2; omega⟩
      exact hR.sameLoc e w p .wr hb (hin'.sameLoc hin hy hx) ⟨y, hy, hyp⟩ hw (by simp)
  · obtain ⟨x, hx, hxp⟩ := he
    obtain ⟨y, hy, hyp⟩ := hw
    refine Nat.le_of_lt (hR.fence hf hx hy hxp hyp fun b o hmem ho m₁ m₂ => ?_)
    rw [← Cpu.runs_hw (hR.fits e.1 _ hmem b rfl)]
    exact (C22_thread_fence_partial b o (by simpa [Item.broken] using (hS e.1 _ hmem).2)).2.1 ho _ _ _ _ _ hxp hyp

/-- What is covered by a read is performed after it. -/
theorem Local.acquired (hR : R.Local) (hS : R.Sound) {r f : Pos} (h : R.Acquired r f) (hr : R.Has r .rd) {q}
    (hf : R.Has f q) : R.time r .rd ≤ R.time f q := by
  rcases h with ⟨⟨pre, it, o, x, hin, hx, hret, ho, hacq⟩, rfl | hb⟩ | hfb
  · cases q with
    | rd => exact Nat.le_refl _
    | wr => exact Nat.le_of_lt (hR.readFirst _ hr hf)
  · refine Nat.le_of_lt ?_
    obtain ⟨y, hy, hyq⟩ := hf
    have hrx : x.ins.has .rd = true := by
      obtain ⟨x', hx', h⟩ := hr; rw [hx.unique hx']; exact h
    by_cases hlt : f.2 < (events pre).length + (it.events).length
    · have hin' : R.InItem f pre it := by
        obtain ⟨⟨post, hp⟩, h1, h2⟩ := hin
        exact ⟨⟨post, by rw [← hb.1, hp]⟩, by have := hb.2; omega, hlt⟩
      exact hR.sameLoc r f .rd q hb (hin.sameLoc hin' hx hy) hr ⟨y, hy, hyq⟩ (by simp)
    · obtain ⟨post, a', c', hp, e1, l1⟩ := hin.split hx
      have hs := hS r.1 it (by rw [hp]; simp)
      have hah := acquireHolds (hR.fits r.1 it (by rw [hp]; simp)) hs.1 hs.2 ho hacq
      have hy' : (events post)[f.2 - ((events pre).length + (it.events).length)]? = some y := by
        rw [Is, ← hb.1, code_eq hp, List.getElem?_append_right (by omega),
          List.getElem?_append_right (by omega)] at hy
        rw [← hy]; congr 1; omega
      obtain ⟨m, c, e2, l2⟩ := split_at hy'
      have hc : R.code r.1 = (events pre ++ a') ++ x :: ((c' ++ m) ++ y :: c) := by
        rw [code_eq hp, e2, e1]; simp
      have hins : it.code = a'.map Ev.ins ++ x.ins :: c'.map Ev.ins := by
        rw [← events_ins, e1]; simp
      have := hR.ordered (hah _ _ _ hins hret (m.map Ev.ins) y.ins q hyq) hc rfl (by simp) rfl hrx hyq
      have er : r = (r.1, (events pre ++ a').length) := by ext <;> simp [l1]
      have ef : f = (r.1, (events pre ++ a').length + 1 + (c' ++ m).length) := by
        rw [e1] at l2 hlt; simp at l2 hlt; ext <;> simp [hb.1]; omega
      rw [ef]; rw [er]; exact this
  · obtain ⟨x, hx, hxp⟩ := hr
    obtain ⟨y, hy, hyp⟩ := hf
    refine Nat.le_of_lt (hR.fence hfb hx hy hxp hyp fun b o hmem ho m₁ m₂ => ?_)
    rw [← Cpu.runs_hw (hR.fits r.1 _ hmem b rfl)]
    exact (C22_thread_fence_partial b o (by simpa [Item.broken] using (hS r.1 _ hmem).2)).1 ho _ _ _ _ _ hxp hyp

/-! ### Synchronisation -/

theorem Paired.before {r w : Pos} (h : R.Paired r w) : r = w ∨ Before r w := by
  obtain ⟨-, x, d, -, -, h1, h2⟩ := h
  cases d with
  | zero => left; ext <;> simp_all
  | succ d => right; exact ⟨h1, by omega⟩

theorem Local.paired (hR : R.Local) {r w : Pos} (h : R.Paired r w) (hr : R.Has r .rd) (hw : R.Has w .wr) :
    R.time r .rd < R.time w .wr := by
  rcases h.before with rfl | hb
  · exact hR.readFirst _ hr hw
  · exact hR.sameLoc _ _ _ _ hb h.1 hr hw (by simp)

theorem Valid.sequence (hR : R.Valid) {w v : Pos} (hw : R.Has w .wr) (h : R.ReleaseSequence w v) :
    R.Has v .wr ∧ R.SameLoc w v ∧ R.time w .wr ≤ R.time v .wr := by
  induction h with
  | head =>
    obtain ⟨x, hx, h⟩ := hw
    exact ⟨⟨x, hx, h⟩, ⟨x, x, hx, hx, rfl⟩, Nat.le_refl _⟩
  | @rmw v r v' _ hrf hr hv' hp ih =>
    obtain ⟨hv, hl, ht⟩ := ih
    obtain ⟨⟨-, hl', h⟩, -⟩ := hrf
    have hlv : R.SameLoc v v' := hl'.symm.trans hp.1
    refine ⟨hv', hl.trans hlv, Nat.le_trans ht (Nat.le_of_lt ?_)⟩
    rcases h with h | h
    · exact Nat.lt_trans h (hR.paired hp hr hv')
    · refine hR.sameLoc _ _ _ _ ?_ hlv hv hv' (by simp)
      rcases hp.before with rfl | hb
      · exact h
      · exact h.trans hb

/-- A read of the release sequence by another thread is performed after its head. -/
theorem Valid.sequence_read (hR : R.Valid) {w v : Pos} (hw : R.Has w .wr) (h : R.ReleaseSequence w v) :
    ∀ {r : Pos}, R.ReadsFrom r (some v) → R.Has r .rd → r.1 ≠ w.1 → R.time w .wr < R.time r .rd := by
  induction h with
  | head =>
    intro r hrf _ hne
    rcases hrf.1.2.2 with h | h
    · exact h
    · exact absurd h.1.symm hne
  | @rmw v r' v' hs hrf hr' hv' hp ih =>
    intro r hrf' hr hne
    have hle := (hR.sequence hw (.rmw hs hrf hr' hv' hp)).2.2
    rcases hrf'.1.2.2 with h | h
    · exact Nat.lt_of_le_of_lt hle h
    · have hb : Before r' r := by
        rcases hp.before with rfl | hb
        · exact h
        · exact hb.trans h
      have := ih hrf hr' (by rw [hb.1]; exact hne)
      exact Nat.lt_trans this
        (hR.sameLoc _ _ _ _ hb (hp.1.trans hrf'.1.2.1.symm) hr' hr (by simp))

theorem Released.before {e w : Pos} (h : R.Released e w) : e = w ∨ Before e w := by
  rcases h with ⟨-, h⟩ | ⟨ht, pre, b, o, post, -, -, h1, h2⟩
  · exact h
  · right
    refine ⟨ht, ?_⟩
    rw [events_append] at h2; simp at h2; omega

theorem Released.of_before {e f w : Pos} (h : Before e f) (h' : R.Released f w) : R.Released e w := by
  rcases h' with ⟨hw, hb⟩ | ⟨ht, pre, b, o, post, hp, hk, h1, h2⟩
  · left
    refine ⟨hw, .inr ?_⟩
    rcases hb with rfl | hb
    · exact h
    · exact h.trans hb
  · right
    exact ⟨h.1.trans ht, pre, b, o, post, by rw [h.1]; exact hp, hk, Nat.lt_trans h.2 h1, h2⟩

theorem Acquired.of_before {r f g : Pos} (h : R.Acquired r f) (h' : Before f g) : R.Acquired r g := by
  rcases h with ⟨hr, hb⟩ | ⟨ht, pre, b, o, post, hp, hk, h1, h2⟩
  · left
    refine ⟨hr, .inr ?_⟩
    rcases hb with rfl | hb
    · exact h'
    · exact hb.trans h'
  · right
    exact ⟨ht.trans h'.1, pre, b, o, post, hp, hk, h1, Nat.le_of_lt (Nat.lt_of_le_of_lt h2 h'.2)⟩

theorem Acquired.released {r f w : Pos} (h : R.Acquired r f) (h' : R.Released f w) : R.Acquired r w := by
  rcases h'.before with rfl | hb
  · exact h
  · exact h.of_before hb

/-- Happens-before through other threads. -/
def Across (R : Run cpu) (e f : Pos) : Prop :=
  ∃ w r, R.Released e w ∧ R.Has w .wr ∧ R.Has r .rd ∧ R.Acquired r f ∧ R.time w .wr < R.time r .rd

theorem Valid.happens (hR : R.Valid) (hS : R.Sound) {e f : Pos} (h : R.HappensBefore e f) :
    Before e f ∨ R.Across e f := by
  induction h with
  | before h => exact .inl h
  | sync h =>
    obtain ⟨w, v, r, hrel, hw, hseq, hrf, hr, hne, hacq⟩ := h
    exact .inr ⟨w, r, hrel, hw, hr, hacq, hR.sequence_read hw hseq hrf hr hne⟩
  | trans _ _ ih₁ ih₂ =>
    rcases ih₁ with h₁ | ⟨w, r, h1, h2, h3, h4, h5⟩
    · rcases ih₂ with h₂ | ⟨w, r, h1, h2⟩
      · exact .inl (h₁.trans h₂)
      · exact .inr ⟨w, r, h1.of_before h₁, h2⟩
    · rcases ih₂ with h₂ | ⟨w', r', h1', h2', h3', h4', h5'⟩
      · exact .inr ⟨w, r, h1, h2, h3, h4.of_before h₂, h5⟩
      · have := hR.acquired hS (h4.released h1') h3 h2'
        exact .inr ⟨w, r', h1, h2, h3', h4', by omega⟩

theorem Valid.across (hR : R.Valid) (hS : R.Sound) {e f : Pos} (h : R.Across e f) {p q} (he : R.Has e p)
    (hf : R.Has f q) : R.time e p < R.time f q := by
  obtain ⟨w, r, h1, h2, h3, h4, h5⟩ := h
  have := hR.released hS h1 h2 he
  have := hR.acquired hS h4 h3 hf
  omega

theorem Valid.irrefl (hR : R.Valid) (hS : R.Sound) (e : Pos) : ¬ R.HappensBefore e e := by
  intro h
  rcases hR.happens hS h with h | ⟨w, r, h1, h2, h3, h4, h5⟩
  · exact absurd h.2 (Nat.lt_irrefl _)
  · have := hR.acquired hS (h4.released h1) h3 h2
    omega

theorem actions_sameLoc {e f : Pos} {p q} (he : R.Has e p) (hf : R.Has f q)
    (h : R.actions.loc e = R.actions.loc f) : R.SameLoc e f := by
  obtain ⟨x, hx, -⟩ := he
  obtain ⟨y, hy, -⟩ := hf
  refine ⟨x, y, hx, hy, ?_⟩
  unfold Is at hx hy
  simpa [actions, hx, hy] using h

/-- The coherence rules. -/
theorem Valid.coherent (hR : R.Valid) (hS : R.Sound) (hP : ∀ r w, R.Rmw r w → R.Paired r w) :
    R.actions.Coherent := by
  refine ⟨hR.irrefl hS, ⟨fun a => Nat.lt_irrefl _, fun a b c => Nat.lt_trans, ?_⟩, ?_, ?_, ?_, ?_, ?_⟩
  · intro a b ha hb hl hne
    rcases Nat.lt_trichotomy (R.time a .wr) (R.time b .wr) with h | h | h
    · exact .inl h
    · exact absurd (hR.distinct _ _ _ _ ha hb h).1 hne
    · exact .inr h
  · intro r w s hrw hr hw hs
    have hp := hP r w hrw
    have hlt := hR.paired hp hr hw
    refine ⟨?_, ?_⟩
    · rintro u rfl
      obtain ⟨⟨hu, hl, hv⟩, -⟩ := hs
      rcases hv with hv | hv
      · exact Nat.lt_trans hv hlt
      · have : Before u w := by
          rcases hp.before with rfl | h
          · exact hv
          · exact hv.trans h
        exact hR.sameLoc _ _ _ _ this (hl.symm.trans hp.1) hu hw (by simp)
    · intro v hv hl hvw
      have hl := actions_sameLoc hv hw hl
      have hne : v ≠ w := by rintro rfl; exact Nat.lt_irrefl _ hvw
      rcases hR.atomic r w v hp hv hl hne with h | h
      · have hvis : R.Visible r v := ⟨hv, hp.1.trans hl.symm, .inl h⟩
        cases s with
        | none => exact absurd hvis (hs v)
        | some u =>
          rcases Nat.lt_or_eq_of_le (hs.2 v hvis) with h | h
          · exact .inr ⟨u, rfl, h⟩
          · exact .inl (by rw [(hR.distinct _ _ _ _ hv hs.1.1 h).1])
      · exact absurd h (Nat.lt_asymm hvw)
  · intro a b hab ha hb hl
    have hl := actions_sameLoc ha hb hl
    rcases hR.happens hS hab with h | h
    · exact hR.sameLoc _ _ _ _ h hl ha hb (by simp)
    · exact hR.across hS h ha hb
  · intro a b s hab ha hb hl hs
    have hl := actions_sameLoc ha hb hl
    have hv : R.Visible b a := by
      refine ⟨ha, hl.symm, ?_⟩
      rcases hR.happens hS hab with h | h
      · exact .inr h
      · exact .inl (hR.across hS h ha hb)
    cases s with
    | none => exact absurd hv (hs a)
    | some w =>
      rcases Nat.lt_or_eq_of_le (hs.2 a hv) with h | h
      · exact .inr ⟨w, rfl, h⟩
      · exact .inl (by rw [(hR.distinct _ _ _ _ ha hs.1.1 h).1])
  · intro a b w hab ha hb hl hw
    have hl := actions_sameLoc ha hb hl
    obtain ⟨⟨hww, hlw, hv⟩, -⟩ := hw
    rcases hR.happens hS hab with h | h
    · rcases hv with hv | hv
      · exact Nat.lt_trans hv (hR.sameLoc _ _ _ _ h hl ha hb (by simp))
      · exact hR.sameLoc _ _ _ _ (hv.trans h) (hlw.symm.trans hl) hww hb (by simp)
    · rcases hv with hv | hv
      · exact Nat.lt_trans hv (hR.across hS h ha hb)
      · obtain ⟨w', r, h1, h2⟩ := h
        exact hR.across hS ⟨w', r, h1.of_before hv, h2⟩ hww hb
  · intro a b w s hab ha hb hl hw hs
    have hl := actions_sameLoc ha hb hl
    obtain ⟨⟨hww, hlw, hv⟩, -⟩ := hw
    have hv : R.Visible b w := by
      refine ⟨hww, hl.symm.trans hlw, ?_⟩
      rcases hR.happens hS hab with h | h
      · rcases hv with hv | hv
        · exact .inl (Nat.lt_trans hv (hR.sameLoc _ _ _ _ h hl ha hb (by simp)))
        · exact .inr (hv.trans h)
      · rcases hv with hv | hv
        · exact .inl (Nat.lt_trans hv (hR.across hS h ha hb))
        · obtain ⟨w', r, h1, h2⟩ := h
          exact .inl (hR.across hS ⟨w', r, h1.of_before hv, h2⟩ hww hb)
    cases s with
    | none => exact absurd hv (hs w)
    | some w' =>
      rcases Nat.lt_or_eq_of_le (hs.2 w hv) with h | h
      · exact .inr ⟨w', rfl, h⟩
      · exact .inl (by rw [(hR.distinct _ _ _ _ hww hs.1.1 h).1])

end Run
end Verif.Mca
