import Verif.Pow.Model
import Verif.Mca.ScLemmas

/-! Helper lemmas: where the barriers are, and what happens before is visible. -/

namespace Verif.Pow

open Verif.Order Verif.Mca Verif.Mca.Run

/-! ### Barriers in the instruction sequences -/

/-- Before every marked instruction there is a guard. -/
def guarded (mark guard : Instr → Bool) : Bool → List Instr → Bool
  | _, [] => true
  | seen, x :: l => (!mark x || seen) && guarded mark guard (seen || guard x) l

theorem guarded_spec {mark guard : Instr → Bool} : ∀ {l : List Instr} {seen : Bool} {a x c},
    guarded mark guard seen l = true → l = a ++ x :: c → mark x = true → seen = true ∨ ∃ z ∈ a, guard z = true := by
  intro l
  induction l with
  | nil => intro seen a x c _ e; simp at e
  | cons y l ih =>
    intro seen a x c h e hx
    simp only [guarded, Bool.and_eq_true] at h
    cases a with
    | nil =>
      simp at e
      obtain ⟨rfl, rfl⟩ := e
      left; simpa [hx] using h.1
    | cons y' a =>
      simp at e
      obtain ⟨rfl, rfl⟩ := e
      rcases ih h.2 rfl hx with h' | ⟨z, hz, hg⟩
      · rcases Bool.or_eq_true _ _ ▸ h' with h' | h'
        · exact .inl h'
        · exact .inr ⟨y, by simp, h'⟩
      · exact .inr ⟨z, by simp [hz], hg⟩

/-- The same for sequences with unsuccessful rounds. -/
theorem trace_guarded {be : Backend} {k o} {mark guard : Instr → Bool} (hm : ∀ x, mark x = true → x.quiet = false)
    (h : guarded mark guard false (trace be k o 0) = true) (n : Nat) {a x c}
    (e : trace be k o n = a ++ x :: c) (hx : mark x = true) : ∃ z ∈ a, guard z = true := by
  obtain ⟨pre, H, core, e1, e2, hp, hH⟩ := trace_split_quiet be k o n
  have hget : (trace be k o n)[a.length]? = some x := by rw [e]; simp
  obtain ⟨j, hj, hc⟩ := mem_shape (A := pre ++ H) (M := core) (B := []) (by rw [e1]; simp)
    (fun y hy => by rcases List.mem_append.1 hy with h | h; exact hp y h; exact hH y h) (by simp) hget (hm x hx)
  obtain ⟨a', c', e3, l3⟩ := Run.split_at hc
  have ea : a = pre ++ H ++ a' := by
    rw [e1, e3] at e
    rw [← List.append_assoc] at e
    exact ((List.append_inj e (by simp at hj ⊢; omega)).1).symm
  rcases guarded_spec h (a := pre ++ a') (x := x) (c := c') (by rw [e2, e3]; simp) hx with h | ⟨z, hz, hg⟩
  · cases h
  · refine ⟨z, ?_, hg⟩
    rw [ea]
    simp only [List.mem_append] at hz ⊢
    rcases hz with h | h
    · exact .inl (.inl h)
    · exact .inr h

/-- The back ends for these processors. -/
def codes : List Backend := [.ppc64, .ppc32, .gccArm, .gccArmWide, .alpha, .linuxArm]

theorem runs_codes {cpu : Cpu} {b : Backend} (hc : cpu ∈ barriers) (h : cpu.runs b = true) : b ∈ codes := by
  simp only [barriers, List.mem_cons, List.not_mem_nil, or_false] at hc
  rcases hc with rfl | rfl | rfl <;> cases b <;> first | (cases h; done) | simp [codes]

/-- A barrier precedes the write of a release operation. -/
theorem release_barrier {be : Backend} (hbe : be ∈ codes) {k : Kind} {o : MO} (n : Nat) (hacc : k.accepts o = true)
    (ho : o.isRelease = true) {a x c} (e : trace be k o n = a ++ x :: c) (hx : x.pub = true) :
    ∃ z ∈ a, cumulative z = true := by
  refine trace_guarded (mark := fun x => x.pub) (fun x h => by simp [Instr.quiet, h]) ?_ n e hx
  simp only [codes, List.mem_cons, List.not_mem_nil, or_false] at hbe
  rcases hbe with rfl | rfl | rfl | rfl | rfl | rfl <;> cases k <;> (try rename_i f; cases f) <;> cases o <;>
    first | rfl | (exact absurd hacc (by decide)) | (exact absurd ho (by decide))

/-- So does a release fence contain one. -/
theorem fence_barrier {be : Backend} (hbe : be ∈ codes) {o : MO} (ho : o.isRelease = true) :
    ∃ z ∈ threadFence be o, cumulative z = true := by
  have : (threadFence be o).any cumulative = true := by
    simp only [codes, List.mem_cons, List.not_mem_nil, or_false] at hbe
    rcases hbe with rfl | rfl | rfl | rfl | rfl | rfl <;> cases o <;> first | rfl | (exact absurd ho (by decide))
  simpa using this

theorem item_barrier {cpu : Cpu} (hbe : cpu ∈ barriers) {it : Item} (hf : it.Fits cpu) (hacc : it.accepts = true) {o : MO}
    (hw : it.writeOrder = some o) (ho : o.isRelease = true) {a x c} (e : it.code = a ++ x :: c)
    (hx : x.pub = true) : ∃ z ∈ a, cumulative z = true := by
  cases it with
  | user => cases hw
  | fence => cases hw
  | op b k o' n l => cases hw; exact release_barrier (runs_codes hbe (hf b rfl)) n hacc ho e hx
  | exchange b o' n l =>
    cases hw
    have hb := runs_codes hbe (hf b rfl)
    have hs : b.isSync = false := by cases b <;> first | rfl | (revert hb; decide)
    simp only [Item.code, hs] at e
    exact release_barrier hb (k := .rmw) n rfl ho e hx
  | clear b o' l =>
    cases hw
    have hb := runs_codes hbe (hf b rfl)
    have hs : b.isSync = false := by cases b <;> first | rfl | (revert hb; decide)
    simp only [Item.code, hs] at e
    exact release_barrier hb (k := .store) 0 hacc ho e hx

namespace Run

variable {cpu : Cpu} {R : Run cpu}

/-- The program is for one of these processors. -/
def OnBarriers (R : Run cpu) : Prop := cpu ∈ barriers ∧ ∀ t, ∀ it ∈ R.prog t, it.Fits cpu

/-- A barrier between what is released and the write that releases it, unless both belong to one operation. -/
theorem released_barrier (hbe : R.OnBarriers) (hacc : ∀ t, ∀ it ∈ R.prog t, it.accepts = true) {e w : Pos}
    (h : R.Released e w) {xe : Ev} (he : R.Is e xe) :
    e = w ∨ (Before e w ∧ R.SameLoc e w) ∨
      ∃ b z, R.Is b z ∧ cumulative z.ins = true ∧ Before e b ∧ Before b w := by
  rcases h with ⟨⟨pre, it, o, x, hin, hx, hpub, ho, hrel⟩, rfl | hb⟩ | ⟨ht, pre, b, o, post, hp, ho, h1, h2⟩
  · exact .inl rfl
  · right
    by_cases hlt : e.2 < (events pre).length
    · right
      obtain ⟨post, a, c, hp, e1, l1⟩ := hin.split hx
      obtain ⟨z, hz, hc⟩ := item_barrier hbe.1 (hbe.2 w.1 it (by rw [hp]; simp)) (hacc w.1 it (by rw [hp]; simp)) ho hrel
        (a := a.map Ev.ins) (x := x.ins) (c := c.map Ev.ins) (by rw [← events_ins, e1]; simp) hpub
      obtain ⟨y, hy, rfl⟩ := List.mem_map.1 hz
      obtain ⟨i, hi, hiy⟩ := List.getElem_of_mem hy
      refine ⟨(w.1, (events pre).length + i), y, ?_, hc, ⟨hb.1, by show e.2 < _; omega⟩, ⟨rfl, by show _ < w.2; omega⟩⟩
      rw [Is, code_eq hp, e1, List.getElem?_append_right (by simp)]
      rw [show (events pre).length + i - (events pre).length = i by omega, List.append_assoc,
        List.getElem?_append_left hi, List.getElem?_eq_getElem hi, hiy]
    · left
      have hin' : R.InItem e pre it := by
        obtain ⟨⟨post, hp⟩, h1, h2⟩ := hin
        exact ⟨⟨post, by rw [hb.1, hp]⟩, by omega, by have := hb.2; omega⟩
      exact ⟨hb, hin'.sameLoc hin he hx⟩
  · right; right
    obtain ⟨z, hz, hc⟩ := fence_barrier (runs_codes hbe.1 (hbe.2 e.1 (.fence b o) (by rw [hp]; simp) b rfl)) ho
    obtain ⟨i, hi, hiz⟩ := List.getElem_of_mem hz
    have hl : ((Item.fence b o).events).length = (threadFence b o).length := by simp [Item.events, Item.code]
    refine ⟨(e.1, (events pre).length + i), ⟨z, (Item.fence b o).loc, (Item.fence b o).pairOf z⟩, ?_, hc,
      ⟨rfl, by show e.2 < _; omega⟩, ⟨ht, ?_⟩⟩
    · rw [Is, code_eq hp, List.getElem?_append_right (by simp), List.getElem?_append_left (by simp [hl, hi])]
      simp [Item.events, Item.code, hi, hiz]
    · rw [events_append] at h2
      simp only [List.length_append] at h2
      have : (events [Item.fence b o]).length = (threadFence b o).length := by simp [events, hl]
      show _ < w.2
      omega

theorem Arrived.mono {w : Pos} {t S T : Nat} (h : R.Arrived w t S) (hle : S ≤ T) : R.Arrived w t T := by
  obtain ⟨m, h1, h2⟩ := h
  exact ⟨m, h1, by omega⟩

theorem Past.mono {w : Pos} {t S T : Nat} (h : R.Past w t S) (hle : S ≤ T) : R.Past w t T := by
  obtain ⟨v, h1, h2⟩ := h
  exact ⟨v, h1, h2.mono hle⟩

theorem Arrived.past {w : Pos} {t T : Nat} (h : R.Arrived w t T) : R.Past w t T := ⟨w, .inl rfl, h⟩

/-- `w` is `v` or an earlier write of the same variable. -/
def Le (R : Run cpu) (w v : Pos) : Prop := w = v ∨ R.Co w v

theorem Valid.le_trans (hR : R.Valid) {u v w : Pos} (h : R.Le u v) (h' : R.Le v w) : R.Le u w := by
  rcases h with rfl | h
  · exact h'
  · rcases h' with rfl | h'
    · exact .inr h
    · exact .inr (hR.co_trans _ _ _ h h')

theorem Valid.le_co (hR : R.Valid) {u v w : Pos} (h : R.Le u v) (h' : R.Co v w) : R.Co u w := by
  rcases h with rfl | h
  · exact h'
  · exact hR.co_trans _ _ _ h h'

theorem Valid.past_le (hR : R.Valid) {u v : Pos} {t T : Nat} (h : R.Le u v) (h' : R.Past v t T) : R.Past u t T := by
  obtain ⟨w, h1, h2⟩ := h'
  refine ⟨w, ?_, h2⟩
  rcases hR.le_trans h (h1.imp Eq.symm _root_.id) with rfl | h
  · exact .inl rfl
  · exact .inr h

theorem Valid.arrived_own (hR : R.Valid) {w : Pos} (hw : R.Has w .wr) {T : Nat} (h : R.time w .wr < T) :
    R.Arrived w w.1 T := ⟨_, hR.own w hw, h⟩

theorem Has.sameLoc {e p} (h : R.Has e p) : R.SameLoc e e := by
  obtain ⟨x, hx, -⟩ := h
  exact ⟨x, x, hx, hx, rfl⟩

theorem Valid.past_sameLoc (hR : R.Valid) {w : Pos} (hw : R.Has w .wr) {v : Pos} (h : v = w ∨ R.Co w v) :
    R.Has v .wr ∧ R.SameLoc w v := by
  rcases h with rfl | h
  · exact ⟨hw, Has.sameLoc hw⟩
  · exact (hR.co_writes _ _ h).2

/-- What is past at a thread comes before what the thread writes then. -/
theorem Valid.past_co (hR : R.Valid) {w v : Pos} (hw : R.Has w .wr) (hv : R.Has v .wr) (hl : R.SameLoc w v)
    (h : R.Past w v.1 (R.time v .wr)) : R.Co w v := by
  obtain ⟨u, h1, m, h2, h3⟩ := h
  obtain ⟨hu, hlu⟩ := hR.past_sameLoc hw h1
  have hne : u ≠ v := by
    rintro rfl
    rw [hR.own u hu] at h2
    cases h2; omega
  refine hR.le_co (h1.imp Eq.symm _root_.id) ?_
  rcases hR.co_total u v hu hv (hlu.symm.trans hl) hne with h | h
  · exact h
  · have := hR.arrive v u v.1 _ _ h (hR.own v hv) h2
    omega

/-- Writes of one thread to one variable. -/
theorem Valid.before_co (hR : R.Valid) {w v : Pos} (hw : R.Has w .wr) (hv : R.Has v .wr) (hl : R.SameLoc w v)
    (h : Before w v) : R.Co w v := by
  refine hR.past_co hw hv hl (Arrived.past ?_)
  rw [← h.1]
  exact hR.arrived_own hw (hR.inThread.sameLoc _ _ _ _ h hl hw hv (by simp))

/-- `v` is a write of the variable of `e` that is visible to `e`, or `e` itself. -/
def Seen (R : Run cpu) (e v : Pos) : Prop :=
  R.Has v .wr ∧ R.SameLoc e v ∧ (v = e ∨ Before v e ∨ (R.Has e .rd ∧ R.Arrived v e.1 (R.time e .rd)))

/-- `v` or a later write had arrived at the thread that executed a barrier that has arrived at `t`. -/
def Carried (R : Run cpu) (v : Pos) (t T : Nat) : Prop :=
  ∃ b u m n, R.IsBarrier cumulative b ∧ R.Le v u ∧ R.Has u .wr ∧ R.bar b b.1 = some m ∧ R.Arrived u b.1 m ∧
    R.bar b t = some n ∧ n ≤ T

theorem Carried.past (hR : R.Valid) {v : Pos} {t T : Nat} (h : R.Carried v t T) : R.Past v t T := by
  obtain ⟨b, u, m, n, h1, h2, h3, h4, h5, h6, h7⟩ := h
  exact hR.past_le h2 ((hR.cumul b u t m n h1 h3 h4 h5 h6).mono h7)

theorem Carried.mono {v : Pos} {t S T : Nat} (h : R.Carried v t S) (hle : S ≤ T) : R.Carried v t T := by
  obtain ⟨b, u, m, n, h1, h2, h3, h4, h5, h6, h7⟩ := h
  exact ⟨b, u, m, n, h1, h2, h3, h4, h5, h6, by omega⟩

/-- What was carried to the thread that writes is carried to where the write arrives. -/
theorem Carried.follow (hR : R.Valid) {v w : Pos} (hw : R.Has w .wr) (h : R.Carried v w.1 (R.time w .wr)) {t T : Nat}
    (ha : R.Arrived w t T) : R.Carried v t T := by
  obtain ⟨b, u, m, n, h1, h2, h3, h4, h5, h6, h7⟩ := h
  obtain ⟨k, hk, hlt⟩ := ha
  obtain ⟨k', hk', hle⟩ := hR.follow b w t n k h1 hw h6 h7 hk
  exact ⟨b, u, m, k', h1, h2, h3, h4, h5, hk', by omega⟩

/-- `v` is past when `r` reads, and those who see a write that follows `r` will see it past. -/
def Known (R : Run cpu) (v r : Pos) : Prop :=
  R.Carried v r.1 (R.time r .rd) ∨ (R.SameLoc v r ∧ R.Past v r.1 (R.time r .rd))

theorem Known.past (hR : R.Valid) {v r : Pos} (h : R.Known v r) : R.Past v r.1 (R.time r .rd) :=
  h.elim (fun h => h.past hR) fun h => h.2

/-- `v` comes before the write `w` for everybody: it is carried to the thread of `w` before `w` is made, or is an earlier
write of the same variable. -/
def Leads (R : Run cpu) (v w : Pos) : Prop :=
  R.Carried v w.1 (R.time w .wr) ∨ (R.SameLoc v w ∧ R.Le v w)

/-- What is past, and what is in addition known, at an access that is released by a write. -/
theorem Valid.released (hR : R.Valid) (hbe : R.OnBarriers) (hacc : ∀ t, ∀ it ∈ R.prog t, it.accepts = true)
    {e w v u : Pos} {xe : Ev} (hxe : R.Is e xe) (h : R.Released e w) (hw : R.Has w .wr) (hvu : R.Le v u)
    (hu : R.Has u .wr)
    (hb : ∀ b m, Before e b → R.IsBarrier cumulative b → R.bar b b.1 = some m → R.Arrived u b.1 m)
    (hs : e = w ∨ (Before e w ∧ R.SameLoc e w) → R.Leads v w) : R.Leads v w := by
  rcases released_barrier hbe hacc h hxe with rfl | h | ⟨b, z, hz, hc, heb, hbw⟩
  · exact hs (.inl rfl)
  · exact hs (.inr h)
  · left
    obtain ⟨m, hm, -, h2⟩ := hR.execute b ⟨z, hz, hc⟩
    exact ⟨b, u, m, m, ⟨z, hz, hc⟩, hvu, hu, hm, hb b m heb ⟨z, hz, hc⟩ hm, by rw [← hbw.1]; exact hm, h2 w hbw hw⟩

theorem Valid.barrier_arrived (hR : R.Valid) {e b : Pos} {m : Nat} (hb : R.IsBarrier cumulative b)
    (hm : R.bar b b.1 = some m) (heb : Before e b) {p} (he : R.Has e p) : R.time e p < m := by
  obtain ⟨m', hm', h1, -⟩ := hR.execute b hb
  rw [hm] at hm'; cases hm'
  exact h1 e p heb he

/-- What an access sees comes before the write that releases it. -/
theorem Valid.seen_released (hR : R.Valid) (hbe : R.OnBarriers) (hacc : ∀ t, ∀ it ∈ R.prog t, it.accepts = true)
    {e w v : Pos} (h : R.Released e w) (hw : R.Has w .wr) (hv : R.Seen e v) : R.Leads v w := by
  obtain ⟨hvw, hl, hs⟩ := hv
  obtain ⟨xe, _, hxe, _, _⟩ := id hl
  refine hR.released hbe hacc hxe h hw (.inl rfl) hvw ?_ ?_
  · intro b m heb hb hm
    rcases hs with rfl | hs | ⟨her, hs⟩
    · rw [← heb.1]
      exact hR.arrived_own hvw (hR.barrier_arrived hb hm heb hvw)
    · rw [← heb.1, ← hs.1]
      exact hR.arrived_own hvw (hR.barrier_arrived hb hm (hs.trans heb) hvw)
    · rw [← heb.1]
      exact hs.mono (Nat.le_of_lt (hR.barrier_arrived hb hm heb her))
  · intro hb
    right
    have hlw : R.SameLoc e w := by
      rcases hb with rfl | hb
      · exact ⟨xe, xe, hxe, hxe, rfl⟩
      · exact hb.2
    refine ⟨hl.symm.trans hlw, ?_⟩
    rcases hs with rfl | hs | ⟨her, hs⟩
    · rcases hb with rfl | hb
      · exact .inl rfl
      · exact .inr (hR.before_co hvw hw hlw hb.1)
    · refine .inr (hR.before_co hvw hw (hl.symm.trans hlw) ?_)
      rcases hb with rfl | hb
      · exact hs
      · exact hs.trans hb.1
    · refine .inr (hR.past_co hvw hw (hl.symm.trans hlw) (Arrived.past ?_))
      rcases hb with rfl | hb
      · exact hs.mono (Nat.le_of_lt (hR.inThread.readFirst _ her hw))
      · rw [← hb.1.1]
        exact hs.mono (Nat.le_of_lt (hR.inThread.sameLoc _ _ _ _ hb.1 hlw her hw (by simp)))

/-- What is known at a read comes before the write that releases it. -/
theorem Valid.known_released (hR : R.Valid) (hbe : R.OnBarriers) (hS : R.Sound) {r w v : Pos}
    (h : R.Released r w) (hr : R.Has r .rd) (hw : R.Has w .wr) (hvw : R.Has v .wr) (hv : R.Known v r) :
    R.Leads v w := by
  have hacc := fun t it h => (hS t it h).1
  obtain ⟨u, hvu, ha⟩ := hv.past hR
  obtain ⟨hu, -⟩ := hR.past_sameLoc hvw hvu
  obtain ⟨x, hx, -⟩ := id hr
  refine hR.released hbe hacc hx h hw (hvu.imp Eq.symm _root_.id) hu ?_ ?_
  · intro b m heb hb hm
    rw [← heb.1]
    exact ha.mono (Nat.le_of_lt (hR.barrier_arrived hb hm heb hr))
  · intro hb
    have hlw : R.SameLoc r w := by
      rcases hb with rfl | hb
      · exact ⟨x, x, hx, hx, rfl⟩
      · exact hb.2
    have e1 : r.1 = w.1 := by
      rcases hb with rfl | hb
      · rfl
      · exact hb.1.1
    have hlt := hR.inThread.released hS h hw hr
    rcases hv with hv | ⟨hl, hv⟩
    · left
      rw [← e1]
      exact hv.mono hlt
    · right
      refine ⟨hl.trans hlw, .inr (hR.past_co hvw hw (hl.trans hlw) ?_)⟩
      rw [← e1]
      exact hv.mono hlt

theorem Paired.thread {r w : Pos} (h : R.Paired r w) : r.1 = w.1 := by
  rcases h.before with rfl | hb
  · rfl
  · exact hb.1

/-- A read-modify-write comes after the write it reads. -/
theorem Valid.rmw_co (hR : R.Valid) {u r w : Pos} (hp : R.Paired r w) (hr : R.Has r .rd) (hw : R.Has w .wr)
    (hv : R.Visible r u) : R.Co u w := by
  obtain ⟨hu, hl, h⟩ := hv
  have hlw : R.SameLoc u w := hl.symm.trans hp.1
  rcases h with h | h
  · refine hR.past_co hu hw hlw (Arrived.past ?_)
    rw [← Paired.thread hp]
    exact h.mono (Nat.le_of_lt (hR.inThread.paired hp hr hw))
  · refine hR.before_co hu hw hlw ?_
    rcases hp.before with rfl | hb
    · exact h
    · exact h.trans hb

theorem Valid.sequence (hR : R.Valid) {w v : Pos} (hw : R.Has w .wr) (h : R.ReleaseSequence w v) :
    R.Has v .wr ∧ R.SameLoc w v ∧ R.Le w v := by
  induction h with
  | head => exact ⟨hw, Has.sameLoc hw, .inl rfl⟩
  | @rmw v r v' _ hrf hr hv' hp ih =>
    obtain ⟨hv, hl, ht⟩ := ih
    have hco := hR.rmw_co hp hr hv' hrf.1
    exact ⟨hv', hl.trans (hR.co_writes _ _ hco).2.2, .inr (hR.le_co ht hco)⟩

/-- What leads to the head of a release sequence is known to the reads `Reached` from it. -/
def Reached (R : Run cpu) (w r : Pos) : Prop :=
  R.time w .wr < R.time r .rd ∧ (∀ u, R.Carried u w.1 (R.time w .wr) → R.Carried u r.1 (R.time r .rd)) ∧
    R.SameLoc w r ∧ R.Past w r.1 (R.time r .rd)

theorem Reached.known (hR : R.Valid) {w r v : Pos} (h : R.Reached w r) (hv : R.Leads v w) : R.Known v r := by
  rcases hv with hv | ⟨h1, h2⟩
  · exact .inl (h.2.1 v hv)
  · exact .inr ⟨h1.trans h.2.2.1, hR.past_le h2 h.2.2.2⟩

/-- A read of the release sequence by another thread. -/
theorem Valid.sequence_read (hR : R.Valid) {w v : Pos} (hw : R.Has w .wr) (h : R.ReleaseSequence w v) :
    ∀ {r : Pos}, R.ReadsFrom r (some v) → R.Has r .rd → r.1 ≠ w.1 → R.Reached w r := by
  -- a member of the sequence that arrives at another thread
  have key : ∀ {v r : Pos}, R.Has v .wr → R.Le w v → R.SameLoc w v → R.Arrived v r.1 (R.time r .rd) →
      R.SameLoc r v → R.time w .wr ≤ R.time v .wr →
      (∀ u, R.Carried u w.1 (R.time w .wr) → R.Carried u v.1 (R.time v .wr)) → R.Reached w r := by
    intro v r hv hle hlw ha hl ht hc
    obtain ⟨m, hm, hlt⟩ := id ha
    have := hR.others v r.1 m hv hm
    exact ⟨by omega, fun u h => (hc u h).follow hR hv ha, hlw.trans hl.symm, hR.past_le hle ha.past⟩
  induction h with
  | head =>
    intro r hrf _ hne
    rcases hrf.1.2.2 with h | h
    · exact key hw (.inl rfl) (Has.sameLoc hw) h hrf.1.2.1 (Nat.le_refl _) fun _ h => h
    · exact absurd h.1.symm hne
  | @rmw v r' v' hs hrf hr' hv' hp ih =>
    intro r hrf' hr hne
    obtain ⟨-, hlv, hle⟩ := hR.sequence hw (.rmw hs hrf hr' hv' hp)
    rcases hrf'.1.2.2 with h | h
    · by_cases hsame : v'.1 = w.1
      · -- the same thread made it
        have ht : R.time w .wr ≤ R.time v' .wr := by
          rcases hle with rfl | hle
          · exact Nat.le_refl _
          · have h1 := hR.own v' hv'
            rw [hsame] at h1
            exact Nat.le_of_lt (hR.arrive w v' w.1 _ _ hle (hR.own w hw) h1)
        refine key hv' hle hlv h hrf'.1.2.1 ht fun u hu => ?_
        rw [hsame]
        exact hu.mono ht
      · have e1 := Paired.thread hp
        obtain ⟨h1, h2, -⟩ := ih hrf hr' (by rw [e1]; exact hsame)
        have h3 := hR.inThread.paired hp hr' hv'
        refine key hv' hle hlv h hrf'.1.2.1 (by omega) fun u hu => ?_
        rw [← e1]; exact (h2 u hu).mono (Nat.le_of_lt h3)
    · have hb : Before r' r := by
        rcases hp.before with rfl | hb
        · exact h
        · exact hb.trans h
      obtain ⟨h1, h2, h4, h5⟩ := ih hrf hr' (by rw [hb.1]; exact hne)
      have hl : R.SameLoc r' r := hp.1.trans hrf'.1.2.1.symm
      have h3 := hR.inThread.sameLoc _ _ _ _ hb hl hr' hr (by simp)
      refine ⟨by omega, fun u hu => ?_, h4.trans hl, ?_⟩
      · rw [← hb.1]; exact (h2 u hu).mono (Nat.le_of_lt h3)
      · rw [← hb.1]; exact h5.mono (Nat.le_of_lt h3)

/-- Happens-before through other threads. -/
def Across (R : Run cpu) (e f : Pos) : Prop :=
  ∃ w r, R.Released e w ∧ R.Has w .wr ∧ R.Has r .rd ∧ R.Acquired r f ∧ R.time w .wr < R.time r .rd ∧
    ∀ v, R.Has v .wr → R.Leads v w → R.Known v r

theorem Acquired.le {r f : Pos} (h : R.Acquired r f) : r = f ∨ Before r f := by
  rcases h with ⟨-, h | h⟩ | ⟨ht, pre, b, o, post, -, -, h1, h2⟩
  · exact .inl h.symm
  · exact .inr h
  · right
    refine ⟨ht, ?_⟩
    rw [events_append] at h2; simp at h2; omega

theorem Acquired.then {r f w : Pos} (h : R.Acquired r f) (h' : R.Released f w) : R.Released r w := by
  rcases Acquired.le h with rfl | hb
  · exact h'
  · exact h'.of_before hb

theorem Acquired.thread {r f : Pos} (h : R.Acquired r f) : r.1 = f.1 := by
  rcases Acquired.le h with rfl | hb
  · rfl
  · exact hb.1

theorem Valid.happens (hR : R.Valid) (hbe : R.OnBarriers) (hS : R.Sound) {e f : Pos} (h : R.HappensBefore e f) :
    Before e f ∨ R.Across e f := by
  induction h with
  | before h => exact .inl h
  | sync h =>
    obtain ⟨w, v, r, hrel, hw, hseq, hrf, hr, hne, hacq⟩ := h
    have hre := hR.sequence_read hw hseq hrf hr hne
    exact .inr ⟨w, r, hrel, hw, hr, hacq, hre.1, fun v _ h => hre.known hR h⟩
  | trans _ _ ih₁ ih₂ =>
    rcases ih₁ with h₁ | ⟨w, r, h1, h2, h3, h4, h5, h6⟩
    · rcases ih₂ with h₂ | ⟨w, r, h1, h2⟩
      · exact .inl (h₁.trans h₂)
      · exact .inr ⟨w, r, h1.of_before h₁, h2⟩
    · rcases ih₂ with h₂ | ⟨w', r', g1, g2, g3, g4, g5, g6⟩
      · exact .inr ⟨w, r, h1, h2, h3, h4.of_before h₂, h5, h6⟩
      · have hrel := Acquired.then h4 g1
        have := hR.inThread.released hS hrel g2 h3
        exact .inr ⟨w, r', h1, h2, g3, g4, by omega,
          fun v hv hl => g6 v hv (hR.known_released hbe hS hrel h3 g2 hv (h6 v hv hl))⟩

theorem Valid.across (hR : R.Valid) (hbe : R.OnBarriers) (hS : R.Sound) {e f : Pos} (h : R.Across e f) {v : Pos}
    (hv : R.Seen e v) {q} (hf : R.Has f q) : R.Past v f.1 (R.time f q) := by
  obtain ⟨w, r, h1, h2, h3, h4, h5, h6⟩ := h
  rw [← Acquired.thread h4]
  exact ((h6 v hv.1 (hR.seen_released hbe (fun t it h => (hS t it h).1) h1 h2 hv)).past hR).mono
    (hR.inThread.acquired hS h4 h3 hf)

theorem Valid.irrefl (hR : R.Valid) (hbe : R.OnBarriers) (hS : R.Sound) (e : Pos) : ¬ R.HappensBefore e e := by
  intro h
  rcases hR.happens hbe hS h with h | ⟨w, r, h1, h2, h3, h4, h5, -⟩
  · exact absurd h.2 (Nat.lt_irrefl _)
  · have := hR.inThread.released hS (Acquired.then h4 h1) h2 h3
    omega

theorem actions_sameLoc {e f : Pos} {p q} (he : R.Has e p) (hf : R.Has f q)
    (h : R.actions.loc e = R.actions.loc f) : R.SameLoc e f := by
  obtain ⟨x, hx, -⟩ := he
  obtain ⟨y, hy, -⟩ := hf
  refine ⟨x, y, hx, hy, ?_⟩
  unfold Is at hx hy
  simpa [actions, hx, hy] using h

/-- A read reads the last of the writes that are past for it. -/
theorem Valid.reads_last (hR : R.Valid) {b v : Pos} {s : Option Pos} (hv : R.Has v .wr) (hl : R.SameLoc b v)
    (h : R.Past v b.1 (R.time b .rd) ∨ Before v b) (hs : R.ReadsFrom b s) : ∃ w, s = some w ∧ R.Le v w := by
  obtain ⟨u, hvu, hvis⟩ : ∃ u, R.Le v u ∧ R.Visible b u := by
    rcases h with ⟨u, hu, ha⟩ | h
    · obtain ⟨h1, h2⟩ := hR.past_sameLoc hv hu
      exact ⟨u, hu.imp Eq.symm _root_.id, h1, hl.trans h2, .inl ha⟩
    · exact ⟨v, .inl rfl, hv, hl, .inr h⟩
  cases s with
  | none => exact absurd hvis (hs u)
  | some w => exact ⟨w, rfl, hR.le_trans hvu (hs.2 u hvis)⟩

/-- The coherence rules. -/
theorem Valid.coherent (hR : R.Valid) (hbe : R.OnBarriers) (hS : R.Sound) : R.actions.Coherent := by
  -- what is visible to `a` is visible to `b`
  have key : ∀ {a b v}, R.HappensBefore a b → R.SameLoc a b → R.Seen a v → R.Has b .wr → R.Co v b := by
    intro a b v hab hl hv hb
    have hlb : R.SameLoc v b := hv.2.1.symm.trans hl
    rcases hR.happens hbe hS hab with h | h
    · obtain ⟨hvw, hla, rfl | hs | ⟨hr, hs⟩⟩ := hv
      · exact hR.before_co hvw hb hlb h
      · exact hR.before_co hvw hb hlb (hs.trans h)
      · refine hR.past_co hvw hb hlb (Arrived.past ?_)
        rw [← h.1]
        exact hs.mono (Nat.le_of_lt (hR.inThread.sameLoc _ _ _ _ h hl hr hb (by simp)))
    · exact hR.past_co hv.1 hb hlb (hR.across hbe hS h hv hb)
  have keyR : ∀ {a b v}, R.HappensBefore a b → R.SameLoc a b → R.Seen a v → R.Has b .rd →
      R.Past v b.1 (R.time b .rd) ∨ Before v b := by
    intro a b v hab hl hv hb
    rcases hR.happens hbe hS hab with h | h
    · obtain ⟨hvw, hla, rfl | hs | ⟨hr, hs⟩⟩ := hv
      · exact .inr h
      · exact .inr (hs.trans h)
      · left
        rw [← h.1]
        exact (hs.mono (Nat.le_of_lt (hR.inThread.sameLoc _ _ _ _ h hl hr hb (by simp)))).past
    · exact .inl (hR.across hbe hS h hv hb)
  have fin : ∀ {b v s}, R.Has v .wr → R.SameLoc b v → (R.Past v b.1 (R.time b .rd) ∨ Before v b) → R.ReadsFrom b s →
      s = some v ∨ ∃ w, s = some w ∧ R.Co v w := by
    intro b v s hv hl h hs
    obtain ⟨w, rfl, rfl | h⟩ := hR.reads_last hv hl h hs
    · exact .inl rfl
    · exact .inr ⟨w, rfl, h⟩
  have self : ∀ {a}, R.Has a .wr → R.Seen a a := fun ha => ⟨ha, Has.sameLoc ha, .inl rfl⟩
  have read : ∀ {a w}, R.Has a .rd → R.ReadsFrom a (some w) → R.Seen a w := fun ha hw =>
    ⟨hw.1.1, hw.1.2.1, hw.1.2.2.elim (fun h => .inr (.inr ⟨ha, h⟩)) fun h => .inr (.inl h)⟩
  refine ⟨hR.irrefl hbe hS, ⟨hR.co_irrefl, hR.co_trans, ?_⟩, ?_, ?_, ?_, ?_, ?_⟩
  · intro a b ha hb hl hne
    exact hR.co_total a b ha hb (actions_sameLoc ha hb hl) hne
  · intro r w s hrw hr hw hs
    have hp : R.Paired r w := Rmw.paired hrw
    refine ⟨?_, ?_⟩
    · rintro u rfl
      exact hR.rmw_co hp hr hw hs.1
    · intro v hv hl hvw
      have hl := actions_sameLoc hv hw hl
      have hne : v ≠ w := by rintro rfl; exact hR.co_irrefl _ hvw
      rcases hR.atomic r w v hp hw hv hl hne with ⟨u, hu, hvu⟩ | h
      · cases s with
        | none => exact absurd hu (hs u)
        | some x =>
          rcases hR.le_trans hvu (hs.2 u hu) with rfl | h
          · exact .inl rfl
          · exact .inr ⟨x, rfl, h⟩
      · exact absurd (hR.co_trans _ _ _ h hvw) (hR.co_irrefl _)
  · intro a b hab ha hb hl
    exact key hab (actions_sameLoc ha hb hl) (self ha) hb
  · intro a b s hab ha hb hl hs
    have hl := actions_sameLoc ha hb hl
    exact fin ha hl.symm (keyR hab hl (self ha) hb) hs
  · intro a b w hab ha hb hl hw
    exact key hab (actions_sameLoc ha hb hl) (read ha hw) hb
  · intro a b w s hab ha hb hl hw hs
    have hl := actions_sameLoc ha hb hl
    exact fin hw.1.1 (hl.symm.trans hw.1.2.1) (keyR hab hl (read ha hw) hb) hs

end Run
end Verif.Pow
