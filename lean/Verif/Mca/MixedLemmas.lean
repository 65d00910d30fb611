import Verif.Mca.Mixed
import Verif.Mca.Latest
import Verif.Mca.ScLemmas

/-! Helper lemmas: the order of seq_cst operations and fences when there is one shared memory. -/

namespace Verif.Mca

open Verif.Order

/-! ### The specification -/

namespace Mixed

variable {G : Mixed}

theorem Coh.head {e f g : G.Acc} (h : G.Step e f) (h' : G.Coh f g) : G.Coh e g := by
  induction h' with
  | refl => exact .step .refl h
  | step _ hs ih => exact .step ih hs

theorem Coh.cases_head {e g : G.Acc} (h : G.Coh e g) : e = g ∨ ∃ f, G.Step e f ∧ G.Coh f g := by
  induction h with
  | refl => exact .inl rfl
  | step _ hs ih =>
    rcases ih with rfl | ⟨f, h1, h2⟩
    · exact .inr ⟨_, hs, .refl⟩
    · exact .inr ⟨f, h1, .step h2 hs⟩

end Mixed

/-! ### Fences -/

theorem fence_no_access (be : Backend) (o : MO) : ∀ x ∈ threadFence be o, ∀ p, x.has p = false := by
  have : ∀ x ∈ threadFence be o, x.wr = false ∧ x.rd = false := by
    cases be with
    | aarch64 l r => cases l <;> cases r <;> cases o <;> decide
    | x86Wide m v => cases m <;> cases v <;> cases o <;> decide
    | aarch32 w => cases w <;> cases o <;> decide
    | windows w => cases w <;> cases o <;> decide
    | _ => cases o <;> decide
  intro x hx p
  cases p
  · exact (this x hx).2
  · exact (this x hx).1

theorem fence_nonempty (be : Backend) : threadFence be .seqCst ≠ [] := by
  cases be with
  | windows w => cases w <;> decide
  | aarch64 l r => cases l <;> cases r <;> decide
  | x86Wide m v => cases m <;> cases v <;> decide
  | aarch32 w => cases w <;> decide
  | _ => decide

theorem fence_sound (be : Backend) : fenceBroken be .seqCst = false := by
  cases be with
  | windows w => cases w <;> rfl
  | x86Wide m v => cases m <;> rfl
  | _ => rfl

namespace Run

variable {cpu : Cpu} {R : Run cpu}

/-- The first instruction of an item. -/
def start (R : Run cpu) (a : OpId) : Nat := (events ((R.prog a.1).take a.2)).length

theorem Within.bounds {e a it} (h : R.Within e a it) :
    e.1 = a.1 ∧ R.start a ≤ e.2 ∧ e.2 < R.start a + (it.events).length := by
  obtain ⟨pre, hl, ht, ⟨post, hp⟩, h1, h2⟩ := h
  have : (R.prog a.1).take a.2 = pre := by rw [← ht, hp, ← hl]; simp
  rw [start, this]
  exact ⟨ht, h1, h2⟩

theorem within_of_bounds {e : Pos} {a it} (h : (R.prog a.1)[a.2]? = some it) (h0 : e.1 = a.1) (h1 : R.start a ≤ e.2)
    (h2 : e.2 < R.start a + (it.events).length) : R.Within e a it := by
  obtain ⟨pre, post, hp, hl⟩ := split_at h
  have : (R.prog a.1).take a.2 = pre := by rw [hp, ← hl]; simp
  rw [start, this] at h1 h2
  exact ⟨pre, hl, h0, ⟨post, by rw [h0]; exact hp⟩, h1, h2⟩

theorem start_le {a b : OpId} {it} (hit : (R.prog a.1)[a.2]? = some it) (h0 : a.1 = b.1) (h : a.2 < b.2) :
    R.start a + (it.events).length ≤ R.start b := by
  obtain ⟨pre, post, hp, hl⟩ := split_at hit
  unfold start
  rw [← h0, hp]
  have e1 : List.take a.2 (pre ++ it :: post) = pre := by rw [← hl]; simp
  have e2 : List.take b.2 (pre ++ it :: post) = pre ++ it :: post.take (b.2 - a.2 - 1) := by
    rw [List.take_append, ← hl, List.take_of_length_le (by omega)]
    rw [show b.2 - pre.length = (b.2 - pre.length - 1) + 1 by omega]
    simp
  rw [e1, e2, events_append, events_cons]
  simp

/-- Instructions of an earlier operation come before those of a later one. -/
theorem Within.lt {e f a b it it'} (h : R.Within e a it) (h' : R.Within f b it') (h0 : a.1 = b.1) (hlt : a.2 < b.2) :
    Before e f := by
  have := h.bounds
  have := h'.bounds
  have := start_le h.item h0 hlt
  refine ⟨by omega, by omega⟩

theorem Within.no_access {be : Backend} {z a o p} (h : R.Within z a (.fence be o)) : ¬ R.Has z p := by
  rintro ⟨x, hx, hp⟩
  obtain ⟨pre, -, -, hi⟩ := h
  obtain ⟨_, l, c, _, he, _⟩ := hi.split hx
  have : x.ins ∈ (Item.fence be o).code := by rw [← events_ins, he]; simp
  rw [fence_no_access be o _ this] at hp; cases hp

/-- Accesses before an instruction of a fence are before the fence. -/
theorem Within.start {be : Backend} {e z a o p} (h : R.Within z a (.fence be o)) (hb : Before e z) (he : R.Has e p) :
    e.1 = a.1 ∧ e.2 < R.start a := by
  have hz := h.bounds
  refine ⟨hb.1.trans hz.1, Nat.lt_of_not_le fun hle => ?_⟩
  exact (within_of_bounds h.item (hb.1.trans hz.1) hle (by have := hb.2; omega)).no_access he

theorem Within.stop {be : Backend} {f z a o p} (h : R.Within z a (.fence be o)) (hb : Before z f) (hf : R.Has f p) :
    f.1 = a.1 ∧ R.start a + ((Item.fence be o).events).length ≤ f.2 := by
  have hz := h.bounds
  have ht : f.1 = a.1 := hb.1.symm.trans hz.1
  refine ⟨ht, Nat.le_of_not_lt fun hlt => ?_⟩
  exact (within_of_bounds h.item ht (by have := hb.2; omega) hlt).no_access hf

/-- Accesses before and after a fence. -/
theorem fenceBetween {be : Backend} {e f : Pos} {a o} {kind : MO → Bool} (h : (R.prog a.1)[a.2]? = some (.fence be o))
    (hk : kind o = true) (he : e.1 = a.1 ∧ e.2 < R.start a)
    (hf : f.1 = a.1 ∧ R.start a + ((Item.fence be o).events).length ≤ f.2) : R.FenceBetween kind e f := by
  obtain ⟨pre, post, hp, hl⟩ := split_at h
  have : (R.prog a.1).take a.2 = pre := by rw [hp, ← hl]; simp
  rw [Run.start, this] at he hf
  refine ⟨he.1.trans hf.1.symm, pre, be, o, post, by rw [he.1, hp], hk, he.2, ?_⟩
  rw [events_append, List.length_append]
  have : events [Item.fence be o] = (Item.fence be o).events := by simp [events]
  rw [this]; exact hf.2

theorem fence_within {be : Backend} {a : OpId} (h : (R.prog a.1)[a.2]? = some (.fence be .seqCst)) :
    ∃ z, R.Within z a (.fence be .seqCst) := by
  refine ⟨(a.1, R.start a), within_of_bounds h rfl (Nat.le_refl _) ?_⟩
  have : 0 < ((Item.fence be .seqCst).events).length := by
    have := List.length_pos_iff.2 (fence_nonempty be)
    simpa [Item.events, Item.code] using this
  omega

/-- By this moment the accesses before the fence have been made. -/
def moment (R : Run cpu) (a : OpId) : Nat := latest R a.1 (R.start a)

theorem Valid.moment_le {be : Backend} (hR : R.Valid) {z a f q} (h : R.Within z a (.fence be .seqCst)) (hb : Before z f)
    (hf : R.Has f q) : R.moment a ≤ R.time f q := by
  refine latest_le fun e p he h0 h1 => ?_
  obtain ⟨x, hx, hp⟩ := he
  obtain ⟨y, hy, hq⟩ := _root_.id hf
  refine hR.fence (kind := fun o => o == .seqCst) (fenceBetween h.item rfl ⟨h0, h1⟩ (h.stop hb hf)) hx hy hp hq
    fun b o hmem ho m₁ m₂ => ?_
  obtain rfl : o = .seqCst := by simpa using ho
  rw [← Cpu.runs_hw (hR.fits _ _ hmem b rfl)]
  exact (C22_thread_fence_partial b .seqCst (fence_sound b)).2.2 rfl _ _ _ _ _ _ hp hq

theorem Within.lt_moment {be : Backend} {z a e p} (h : R.Within z a (.fence be .seqCst)) (hb : Before e z) (he : R.Has e p) :
    R.time e p < R.moment a := by
  obtain ⟨h0, h1⟩ := h.start hb he
  rw [moment, ← h0]
  exact lt_latest he h1

/-- What a fence happens before is performed later. -/
theorem Valid.after_fence {be : Backend} (hR : R.Valid) (hS : R.Sound) {z a f q} (h : R.Within z a (.fence be .seqCst))
    (hb : R.HappensBefore z f) (hf : R.Has f q) : R.moment a ≤ R.time f q := by
  rcases hR.happens hS hb with hb | ⟨w, r, h1, h2, h3, h4, h5⟩
  · exact hR.moment_le h hb hf
  · have := hR.acquired hS h4 h3 hf
    rcases h1.before with rfl | h1
    · exact absurd h2 h.no_access
    · have := hR.moment_le h h1 h2
      omega

/-- What happens before a fence is performed earlier. -/
theorem Valid.before_fence {be : Backend} (hR : R.Valid) (hS : R.Sound) {z a e p} (h : R.Within z a (.fence be .seqCst))
    (hb : R.HappensBefore e z) (he : R.Has e p) : R.time e p < R.moment a := by
  rcases hR.happens hS hb with hb | ⟨w, r, h1, h2, h3, h4, h5⟩
  · exact h.lt_moment hb he
  · have := hR.released hS h1 h2 he
    have hr : Before r z := by
      rcases h4 with ⟨-, rfl | h4⟩ | h4
      · exact absurd h3 h.no_access
      · exact h4
      · obtain ⟨ht, pre, be, o, post, -, -, i1, i2⟩ := h4
        refine ⟨ht, ?_⟩
        rw [events_append] at i2; simp at i2; omega
    have := h.lt_moment hr h3
    omega

/-! ### What is read -/

theorem CopyOf.reads {b c : Pos} (hc : R.CopyOf b c) (hw : R.Has c .wr) : R.Has b .rd := by
  obtain ⟨hP, x, hx, hnp⟩ := hc
  obtain ⟨id, it, hin⟩ := exists_within hx
  have npub : ¬ R.Pub id c := by
    rintro ⟨_, y, -, hy, h⟩
    rw [← hx.unique hy, hnp] at h; cases h
  have byFacts : R.Facts id it → R.Has b .rd := fun h => by
    cases h with
    | reads r _ hrd _ _ wr => rw [hP.unique (wr c hin hw).1]; exact hrd
    | writes w hp _ _ _ wr => exact absurd (wr c hin hw ▸ hp) npub
    | both _ w _ _ _ hp _ _ _ wr => exact absurd (wr c hin hw ▸ hp) npub
  cases it with
  | user i l =>
    obtain ⟨-, z, d, hz, hd, -⟩ := hP
    rw [← hx.unique hz] at hd
    obtain ⟨pre, -, -, hi⟩ := hin
    obtain ⟨_, a, b, _, he, _⟩ := hi.split hx
    have hmem : x ∈ (Item.user i l).events := by rw [he]; simp
    simp only [Item.events, List.mem_map] at hmem
    obtain ⟨i, -, rfl⟩ := hmem
    cases hd
  | fence => exact absurd hw hin.no_access
  | _ => exact byFacts (facts hin.item rfl)

theorem Valid.source (hR : R.Valid) {r w : Pos} (hr : R.Has r .rd) (h : R.Reads r (some w)) :
    R.Has w .wr ∧ R.SameLoc r w ∧ ¬ R.Copy w ∧ (R.time w .wr < R.time r .rd ∨ Before w r) := by
  generalize hs : some w = s at h
  induction h with
  | none => cases hs
  | some h hn =>
    cases hs
    exact ⟨h.1.1, h.1.2.1, hn, h.1.2.2⟩
  | @copy r c b s h hc _ ih =>
    subst hs
    obtain ⟨⟨hcw, hrc, hv⟩, -⟩ := h
    have hbr := hc.reads hcw
    obtain ⟨h1, h2, h3, h4⟩ := ih hbr rfl
    have hbc := hc.1.1
    have hrb := hrc.trans hbc.symm
    have before : ∀ {w}, Before w b → Before w c := fun h => by
      rcases hc.1.before with rfl | h'
      · exact h
      · exact h.trans h'
    refine ⟨h1, hrb.trans h2, h3, ?_⟩
    rcases hv with hv | hv
    · left
      rcases h4 with h4 | h4
      · have := hR.paired hc.1 hbr hcw; omega
      · have := hR.sameLoc w c .wr .wr (before h4) (h2.symm.trans hbc) h1 hcw (by simp); omega
    · have hv' : Before b r := by
        rcases hc.1.before with rfl | h'
        · exact hv
        · exact h'.trans hv
      rcases h4 with h4 | h4
      · left
        have := hR.sameLoc b r .rd .rd hv' hrb.symm hbr hr (by simp)
        omega
      · exact .inr (h4.trans hv')

/-- A write that is later than what a read reads is performed after the read. -/
theorem Valid.overwritten (hR : R.Valid) {r v : Pos} {s : Option Pos} (hr : R.Has r .rd) (h : R.Reads r s)
    (hv : R.Has v .wr) (hl : R.SameLoc r v) (hn : ¬ R.Copy v) (hlt : ∀ w, s = some w → R.time w .wr < R.time v .wr) :
    R.time r .rd < R.time v .wr := by
  have key : ∀ {r : Pos} {s}, R.Has r .rd → R.SameLoc r v → R.ReadsFrom r s →
      (∀ w, s = some w → R.time w .wr < R.time v .wr) → R.time r .rd < R.time v .wr := by
    intro r s hr hl h hlt
    have hvis : ¬ R.Visible r v := by
      intro hvis
      cases s with
      | none => exact h v hvis
      | some w => have := h.2 v hvis; have := hlt w rfl; omega
    rcases Nat.lt_trichotomy (R.time r .rd) (R.time v .wr) with h' | h' | h'
    · exact h'
    · have := (hR.distinct r .rd v .wr hr hv h').2; cases this
    · exact absurd ⟨hv, hl, .inl h'⟩ hvis
  induction h with
  | none h => exact key hr hl h (by intro w h; cases h)
  | some h _ => exact key hr hl h hlt
  | @copy r c b s h hc hs ih =>
    have hbr := hc.reads h.1.1
    have hlc : R.SameLoc c v := h.1.2.1.symm.trans hl
    have h1 := ih hbr (hc.1.1.trans hlc) hlt
    have hne : v ≠ c := by rintro rfl; exact hn ⟨b, hc⟩
    refine key hr hl h ?_
    intro w hw
    obtain rfl := Option.some.inj hw
    rcases hR.atomic _ _ v hc.1 hv hlc.symm hne with h2 | h2
    · omega
    · exact h2

/-! ### The order -/

/-- The access at which a seq_cst operation takes effect: its write if it has one, else its read. -/
structure Chief (R : Run cpu) (a : OpId) (M : Pos × Part) : Prop where
  item : ∃ it x, R.Within M.1 a it ∧ it.isSeqCst = true ∧ R.Is M.1 x ∧ x.ins.main M.2 = true ∧ x.ins.has M.2 = true
  mine : R.mixed.of M a
  rest : ∀ A, R.mixed.of A a → A = M ∨ (M.2 = .wr ∧ A.2 = .rd ∧ R.Has A.1 .rd ∧ R.Paired A.1 M.1)

theorem Chief.has {a M} (h : R.Chief a M) : R.Has M.1 M.2 := by
  obtain ⟨it, x, -, -, hx, -, h⟩ := h.item
  exact ⟨x, hx, h⟩

theorem Chief.unique {a M M'} (h : R.Chief a M) (h' : R.Chief a M') : M = M' := by
  rcases h.rest M' h'.mine with e | ⟨e1, e2, -⟩
  · exact e.symm
  · rcases h'.rest M h.mine with e | ⟨e3, -⟩
    · exact e
    · rw [e3] at e2; cases e2

theorem chief {a : OpId} {it} (hit : (R.prog a.1)[a.2]? = some it) (hs : it.isSeqCst = true) :
    ∃ M, R.Chief a M := by
  have hW : ∀ {e it'}, R.Within e a it' → it' = it := by
    intro e it' h; have := h.item; rw [hit] at this; exact (Option.some.inj this).symm
  cases facts hit (Item.isSeqCst.kind hs).choose_spec with
  | reads r hr hrd uniq npub =>
    refine ⟨(r, .rd), ?_, .inl ⟨rfl, hr⟩, ?_⟩
    · obtain ⟨it', x, hin, hx, hret⟩ := _root_.id hr
      obtain ⟨x', hx', h⟩ := hrd
      rw [← hx.unique hx'] at h
      rw [hW hin] at hin
      exact ⟨it, x, hin, hs, hx, hret, h⟩
    · rintro ⟨e, p⟩ (⟨rfl, h⟩ | ⟨rfl, h⟩)
      · simp only at h; rw [uniq e h]; exact .inl rfl
      · exact absurd h (npub e)
  | writes w hp hw uniq nret =>
    refine ⟨(w, .wr), ?_, .inr ⟨rfl, hp⟩, ?_⟩
    · obtain ⟨it', x, hin, hx, hret⟩ := _root_.id hp
      obtain ⟨x', hx', h⟩ := hw
      rw [← hx.unique hx'] at h
      rw [hW hin] at hin
      exact ⟨it, x, hin, hs, hx, hret, h⟩
    · rintro ⟨e, p⟩ (⟨rfl, h⟩ | ⟨rfl, h⟩)
      · exact absurd h (nret e)
      · simp only at h; rw [uniq e h]; exact .inl rfl
  | both r w hr hrd uniq hp hw uniq' pair =>
    refine ⟨(w, .wr), ?_, .inr ⟨rfl, hp⟩, ?_⟩
    · obtain ⟨it', x, hin, hx, hret⟩ := _root_.id hp
      obtain ⟨x', hx', h⟩ := hw
      rw [← hx.unique hx'] at h
      rw [hW hin] at hin
      exact ⟨it, x, hin, hs, hx, hret, h⟩
    · rintro ⟨e, p⟩ (⟨rfl, h⟩ | ⟨rfl, h⟩)
      · simp only at h; rw [uniq e h]; exact .inr ⟨rfl, rfl, hrd, pair⟩
      · simp only at h; rw [uniq' e h]; exact .inl rfl

theorem Chief.not_copy {a M} (h : R.Chief a M) (hw : M.2 = .wr) : ¬ R.Copy M.1 := by
  rintro ⟨_, -, y, hy, hp⟩
  obtain ⟨it, x, -, -, hx, hm, -⟩ := h.item
  rw [hw] at hm
  rw [hx.unique hy] at hm
  rw [show y.ins.main .wr = y.ins.pub from rfl, hp] at hm; cases hm

theorem Chief.write {a M} (h : R.Chief a M) (hw : M.2 = .wr) : R.mixed.write M :=
  ⟨hw, by have := h.has; rw [hw] at this; exact this, h.not_copy hw⟩

/-- Operations that are called with seq_cst are not among the broken ones. -/
def AsAsked (R : Run cpu) : Prop := ∀ t, ∀ it ∈ R.prog t, it.asksSeqCst = true → it.isSeqCst = true

theorem AsAsked.chief (h : R.AsAsked) {a} (ha : R.mixed.seqCst a) : ∃ M, R.Chief a M := by
  obtain ⟨it, h1, h2⟩ := ha
  exact Run.chief h1 (h _ _ (List.mem_of_getElem? h1) h2)

theorem not_both {a} (h : R.mixed.seqCst a) : ¬ R.mixed.fence a := by
  obtain ⟨it, h1, h2⟩ := h
  intro h3
  obtain ⟨be, h3⟩ := h3
  rw [h1] at h3
  cases h3
  cases h2

/-- The points at which seq_cst operations and fences take effect. -/
structure Points (R : Run cpu) (N : OpId → Nat) : Prop where
  fence : ∀ a, R.mixed.fence a → N a = 2 * R.moment a
  op : ∀ a M, R.Chief a M → N a = 2 * R.time M.1 M.2 + 1

theorem points (R : Run cpu) : ∃ N, R.Points N := by
  have : ∀ a, ∃ n, (R.mixed.fence a → n = 2 * R.moment a) ∧ ∀ M, R.Chief a M → n = 2 * R.time M.1 M.2 + 1 := by
    intro a
    by_cases hf : R.mixed.fence a
    · refine ⟨_, fun _ => rfl, fun M hM => ?_⟩
      obtain ⟨it, x, hin, hs, -⟩ := hM.item
      obtain ⟨be, h2⟩ := hf
      rw [hin.item] at h2
      cases h2
      cases hs
    · by_cases hc : ∃ M, R.Chief a M
      · obtain ⟨M, hM⟩ := hc
        refine ⟨2 * R.time M.1 M.2 + 1, fun h => absurd h hf, fun M' hM' => ?_⟩
        rw [← hM.unique hM']
      · exact ⟨0, fun h => absurd h hf, fun M hM => absurd ⟨M, hM⟩ hc⟩
  obtain ⟨N, hN⟩ := Classical.axiomOfChoice this
  exact ⟨N, fun a => (hN a).1, fun a => (hN a).2⟩

/-- Earlier point; fences at the same point in any order that agrees with that of the thread. -/
def Earlier (N : OpId → Nat) (a b : OpId) : Prop :=
  N a < N b ∨ (N a = N b ∧ (a.1 < b.1 ∨ (a.1 = b.1 ∧ a.2 < b.2)))

theorem Acquired.before {r f : Pos} (h : R.Acquired r f) : f = r ∨ Before r f := by
  rcases h with ⟨-, h⟩ | ⟨ht, pre, be, o, post, -, -, i1, i2⟩
  · exact h
  · right
    refine ⟨ht, ?_⟩
    rw [events_append] at i2; simp at i2; omega

/-- What happens before is earlier. -/
theorem Valid.earlier (hR : R.Valid) (hS : R.Sound) {N} (hN : R.Points N) (hA : R.AsAsked) {a b : OpId}
    (ha : R.mixed.Strong a) (hb : R.mixed.Strong b)
    (h : ∀ e f it it', R.Within e a it → R.Within f b it' → R.HappensBefore e f) : Earlier N a b := by
  rcases ha with ha | ha
  · obtain ⟨M, hM⟩ := hA.chief ha
    rw [Earlier, hN.op a M hM]
    obtain ⟨it, x, hin, hs, hx, hm, hh⟩ := hM.item
    left
    rcases hb with hb | hb
    · obtain ⟨M', hM'⟩ := hA.chief hb
      obtain ⟨it', x', hin', hs', hx', hm', hh'⟩ := hM'.item
      rw [hN.op b M' hM']
      have := h _ _ _ _ hin hin'
      have : R.time M.1 M.2 < R.time M'.1 M'.2 := by
        rcases hR.happens hS this with hb | hb
        · obtain ⟨h0, rfl | h1⟩ := hin.before hin' hb
          · rw [hM.unique hM'] at this
            exact absurd this (hR.irrefl hS _)
          · exact hR.main_order h0 h1 hin hin' hs hs' hx hx' hm hm' hh hh'
        · exact hR.across hS hb ⟨x, hx, hh⟩ ⟨x', hx', hh'⟩
      omega
    · obtain ⟨z, hz⟩ := fence_within (R := R) hb.choose_spec
      rw [hN.fence b hb]
      have := hR.before_fence hS hz (h _ _ _ _ hin hz) ⟨x, hx, hh⟩
      omega
  · obtain ⟨z, hz⟩ := fence_within (R := R) ha.choose_spec
    rw [Earlier, hN.fence a ha]
    rcases hb with hb | hb
    · obtain ⟨M', hM'⟩ := hA.chief hb
      obtain ⟨it', x', hin', hs', hx', hm', hh'⟩ := hM'.item
      rw [hN.op b M' hM']
      have := hR.after_fence hS hz (h _ _ _ _ hz hin') ⟨x', hx', hh'⟩
      left; omega
    · obtain ⟨z', hz'⟩ := fence_within (R := R) hb.choose_spec
      rw [hN.fence b hb]
      have hzz := h _ _ _ _ hz hz'
      rcases hR.happens hS hzz with hb | ⟨w, r, h1, h2, h3, h4, h5⟩
      · obtain ⟨h0, rfl | h1⟩ := hz.before hz' hb
        · exact absurd (h _ _ _ _ hz hz) (hR.irrefl hS _)
        · have : R.moment a ≤ R.moment b := by
            unfold moment
            rw [h0]
            refine latest_mono ?_
            have := start_le hz.item h0 h1
            omega
          omega
      · have i1 : Before z w := by
          rcases h1.before with rfl | h1
          · exact absurd h2 hz.no_access
          · exact h1
        have i2 : Before r z' := by
          rcases h4.before with rfl | h4
          · exact absurd h3 hz'.no_access
          · exact h4
        have := hR.moment_le hz i1 h2
        have := hz'.lt_moment i2 h3
        left; omega

theorem mixed_sameLoc {A B : Pos × Part} (hA : R.Has A.1 A.2) (hB : R.Has B.1 B.2) (h : R.mixed.loc A = R.mixed.loc B) :
    R.SameLoc A.1 B.1 := actions_sameLoc hA hB h

theorem mixed_read {A : Pos × Part} (h : R.mixed.read A) : R.Has A.1 A.2 := by
  obtain ⟨h1, h2⟩ := h; rw [h1]; exact h2

theorem mixed_write {A : Pos × Part} (h : R.mixed.write A) : R.Has A.1 A.2 := by
  obtain ⟨h1, h2, -⟩ := h; rw [h1]; exact h2

theorem Valid.mixed_source (hR : R.Valid) {r w : Pos × Part} (hr : R.mixed.read r) (h : R.mixed.rf r (some w)) :
    R.SameLoc r.1 w.1 ∧ (R.time w.1 .wr < R.time r.1 .rd ∨ Before w.1 r.1) := by
  obtain ⟨-, h1, -, h2⟩ := hR.source hr.2 h
  exact ⟨h1, h2⟩

/-- A step to a write leads to a later moment. -/
theorem Valid.step_write (hR : R.Valid) {A B : Pos × Part} (h : R.mixed.Step A B) (hB : B.2 = .wr) :
    R.time A.1 A.2 < R.time B.1 .wr := by
  cases h with
  | rf _ hr => rw [hr.1] at hB; cases hB
  | mo hw hv hl hm => rw [hw.1]; exact hm
  | @fr s hr hw hl hrf hs =>
    rw [hr.1]
    refine hR.overwritten hr.2 hrf hw.2.1 (mixed_sameLoc (mixed_read hr) (mixed_write hw) hl) hw.2.2 ?_
    intro w hw'
    cases s with
    | none => cases hw'
    | some v => cases hw'; exact hs v rfl

/-- What coherence says about the moments of accesses. -/
def Coming (R : Run cpu) (A B : Pos × Part) : Prop :=
  A = B ∨ (B.2 = .wr ∧ R.time A.1 A.2 < R.time B.1 .wr) ∨
  ∃ v, R.mixed.write v ∧ R.mixed.read B ∧ R.mixed.rf B (some v) ∧ R.time A.1 A.2 ≤ R.time v.1 .wr

theorem Reads.trace {r : Pos} {s s'} (h : R.Reads r s) (h' : R.Reads r s') (hR : R.Valid) : s = s' := by
  have uniq : ∀ {r : Pos} {s s'}, R.ReadsFrom r s → R.ReadsFrom r s' → s = s' := by
    intro r s s' h h'
    cases s with
    | none => cases s' with
      | none => rfl
      | some w => exact absurd h'.1 (h w)
    | some w => cases s' with
      | none => exact absurd h.1 (h' w)
      | some w' =>
        have h1 := h.2 w' h'.1
        have h2 := h'.2 w h.1
        rw [(hR.distinct w .wr w' .wr h.1.1 h'.1.1 (by omega)).1]
  induction h generalizing s' with
  | none h =>
    cases h' with
    | none => rfl
    | some h' => exact uniq h h'
    | copy h' => have := uniq h h'; cases this
  | some h hn =>
    cases h' with
    | none h' => exact uniq h h'
    | some h' => exact uniq h h'
    | copy h' hc => cases uniq h h'; exact absurd ⟨_, hc⟩ hn
  | copy h hc _ ih =>
    cases h' with
    | none h' => cases uniq h h'
    | some h' hn => cases uniq h h'; exact absurd ⟨_, hc⟩ hn
    | copy h' hc' hs' => cases uniq h h'; cases hc.1.unique hc'.1; exact ih hs'

theorem Valid.coming (hR : R.Valid) {A B : R.mixed.Acc} (h : R.mixed.Coh A B) : R.Coming A B := by
  induction h with
  | refl => exact .inl rfl
  | @step B C _ hs ih =>
    have wr : C.2 = .wr → R.time A.1 A.2 < R.time C.1 .wr := by
      intro hC
      have hlt := hR.step_write hs hC
      rcases ih with rfl | ⟨hB, h⟩ | ⟨v, hv, hr, hrf, hle⟩
      · exact hlt
      · rw [hB] at hlt; omega
      · cases hs with
        | rf hw => have := hw.1; rw [hr.1] at this; cases this
        | mo hw => have := hw.1; rw [hr.1] at this; cases this
        | @fr s _ hw hl hrf' hs =>
          have : s.map Prod.fst = some v.1 := hrf'.trace (s' := some v.1) hrf hR
          cases s with
          | none => cases this
          | some u =>
            have e : u.1 = v.1 := Option.some.inj this
            have := hs u rfl
            have hm : R.time u.1 .wr < R.time C.1 .wr := this
            rw [e] at hm; omega
    cases hs with
    | mo _ hw => exact .inr (.inl ⟨hw.1, wr hw.1⟩)
    | fr _ hw => exact .inr (.inl ⟨hw.1, wr hw.1⟩)
    | rf hw hr hrf =>
      refine .inr (.inr ⟨B, hw, hr, hrf, ?_⟩)
      rcases ih with rfl | ⟨hB, h⟩ | ⟨v, hv, hr, -⟩
      · rw [hw.1]; exact Nat.le_refl _
      · exact Nat.le_of_lt h
      · have := hr.1; rw [hw.1] at this; cases this

/-- What a read-modify-write comes before through its read it comes before through its write. -/
theorem Valid.through_write (hR : R.Valid) {A M B : Pos × Part} (hA : R.Has A.1 .rd) (hA' : A.2 = .rd)
    (hM : R.mixed.write M) (hp : R.Paired A.1 M.1) (h : R.mixed.Step A B) : B = M ∨ R.mixed.Step M B := by
  have hlt := hR.paired hp hA hM.2.1
  cases h with
  | rf hw => have := hw.1; rw [hA'] at this; cases this
  | mo hw => have := hw.1; rw [hA'] at this; cases this
  | @fr s hr hw hl hrf hs =>
    by_cases e : B.1 = M.1
    · left; ext1; exact e; rw [hw.1, hM.1]
    · right
      have hl' : R.SameLoc A.1 B.1 := mixed_sameLoc (mixed_read hr) (mixed_write hw) hl
      have := hR.step_write (.fr hr hw hl hrf hs) hw.1
      rw [hA'] at this
      refine .mo hM hw ?_ ?_
      · obtain ⟨x, y, hx, hy, h⟩ := hp.1.symm.trans hl'
        unfold Is at hx hy
        simp [mixed, actions, hx, hy, h]
      · rcases hR.atomic _ _ B.1 hp hw.2.1 (hl'.symm.trans hp.1) e with h | h
        · omega
        · exact h

theorem Valid.sequence_source (hR : R.Valid) {w v : R.mixed.Acc} (hw : R.mixed.write w) (h : R.mixed.Sequence w v) :
    R.SameLoc w.1 v.1 ∧ R.mixed.write v ∧
    ∀ r, R.mixed.read r → R.mixed.rf r (some v) → R.time w.1 .wr < R.time r.1 .rd ∨ Before w.1 r.1 := by
  induction h with
  | head =>
    obtain ⟨x, hx, -⟩ := hw.2.1
    exact ⟨⟨x, x, hx, hx, rfl⟩, hw, fun r hr h => (hR.mixed_source hr h).2⟩
  | @rmw v r v' _ hr hv' hrmw hrf ih =>
    obtain ⟨ih1, ih2, ih3⟩ := ih
    have hp : R.Paired r.1 v'.1 := Rmw.paired hrmw
    have hl := (hR.mixed_source hr hrf).1
    have hlt := hR.paired hp hr.2 hv'.2.1
    have hlw : R.SameLoc w.1 r.1 := ih1.trans hl.symm
    refine ⟨hlw.trans hp.1, hv', fun r' hr' h' => ?_⟩
    obtain ⟨hl', h'⟩ := hR.mixed_source hr' h'
    rcases h' with h' | h'
    · left
      rcases ih3 r hr hrf with h | h
      · omega
      · have hb : Before w.1 v'.1 := by
          rcases hp.before with e | hb
          · rw [← e]; exact h
          · exact h.trans hb
        have := hR.sameLoc _ _ _ _ hb (hlw.trans hp.1) hw.2.1 hv'.2.1 (by simp)
        omega
    · have hb : Before r.1 r'.1 := by
        rcases hp.before with e | hb
        · rw [e]; exact h'
        · exact hb.trans h'
      rcases ih3 r hr hrf with h | h
      · left
        have := hR.sameLoc _ _ _ _ hb (hp.1.trans hl'.symm) hr.2 hr'.2 (by simp)
        omega
      · exact .inr (h.trans hb)

/-- What is released together with the read of an operation is released together with its write. -/
theorem Within.released {a it it' r m w} (hr : R.Within r a it)
    (hm : R.Within m a it') (hu : ∀ e, R.Within e a it' → R.Has e .wr → e = m)
    (h : R.Released r w) (hw : R.Has w .wr) : w = m ∨ R.Released m w := by
  obtain rfl : it = it' := by
    have h1 := hr.item; have h2 := hm.item; rw [h1] at h2; exact Option.some.inj h2
  obtain ⟨x, hx, hxw⟩ := _root_.id hw
  obtain ⟨b, itb, hb⟩ := exists_within hx
  have hrw := h.before
  by_cases hab : b = a
  · subst hab
    have := hb.item
    rw [hm.item] at this
    obtain rfl := Option.some.inj this
    exact .inl (hu w hb hw)
  · have hrw : Before r w := by
      rcases hrw with rfl | h
      · exact absurd (hb.unique hr).1 hab
      · exact h
    obtain ⟨h0, e | h1⟩ := hr.before hb hrw
    · exact absurd e.symm hab
    have hmw' := hm.lt hb h0 h1
    right
    rcases h with ⟨h, -⟩ | ⟨ht, pre, be, o, post, hp, hk, i1, i2⟩
    · exact .inl ⟨h, .inr hmw'⟩
    · refine .inr ⟨hmw'.1, pre, be, o, post, ?_, hk, ?_, i2⟩
      · rw [hm.bounds.1, ← hr.bounds.1]; exact hp
      · obtain ⟨pre', hl', ht', ⟨post', hp'⟩, j1, j2⟩ := hm
        obtain ⟨pre'', hl'', ht'', ⟨post'', hp''⟩, k1, k2⟩ := hr
        rw [ht'] at hp'
        rw [ht''] at hp'' hp
        rw [hp'] at hp''
        obtain rfl : pre' = pre'' := (List.append_inj hp'' (by omega)).1
        have hlen : pre'.length < pre.length := by
          apply Nat.lt_of_not_le
          intro hle
          obtain ⟨m', rfl⟩ : pre <+: pre' :=
            List.prefix_of_prefix_length_le (l₃ := R.prog a.1) ⟨_, hp.symm⟩ ⟨_, hp'.symm⟩ hle
          rw [events_append, List.length_append] at k1
          omega
        obtain ⟨m', rfl⟩ : pre' ++ [it] <+: pre :=
          List.prefix_of_prefix_length_le (l₃ := R.prog a.1) ⟨post', by rw [hp']; simp⟩ ⟨_, hp.symm⟩ (by simp; omega)
        simp [events] at j1 j2 ⊢
        omega

theorem Local.released_write (hR : R.Local) (hS : R.Sound) {a it it' r m w} (hr : R.Within r a it)
    (hm : R.Within m a it') (hmw : R.Has m .wr) (hu : ∀ e, R.Within e a it' → R.Has e .wr → e = m)
    (h : R.Released r w) (hw : R.Has w .wr) : R.time m .wr ≤ R.time w .wr := by
  rcases hr.released hm hu h hw with rfl | h
  · exact Nat.le_refl _
  · exact hR.released hS h hw hmw

/-- The order. -/
theorem Valid.mixed_order (hR : R.Valid) (hS : R.Sound) (hA : R.AsAsked) :
    ∃ before, R.mixed.ScOrder before ∧
      ∀ a b, R.mixed.Strong a → R.mixed.Strong b →
        (∀ e f it it', R.Within e a it → R.Within f b it' → R.HappensBefore e f) → before a b := by
  obtain ⟨N, hN⟩ := R.points
  have hb := fun a b ha hb => hR.earlier hS hN hA (a := a) (b := b) ha hb
  have acc : ∀ {A}, R.mixed.read A ∨ R.mixed.write A → R.Has A.1 A.2 := by
    rintro A (h | h)
    · exact mixed_read h
    · exact mixed_write h
  -- an access of `a`, or one after it, that is not the read of a read-modify-write
  have lower : ∀ a A, R.mixed.From a A →
      N a ≤ 2 * R.time A.1 A.2 + 1 ∨
      (R.mixed.seqCst a ∧ R.mixed.of A a ∧
        ∃ M, R.Chief a M ∧ M.2 = .wr ∧ A.2 = .rd ∧ R.Has A.1 .rd ∧ R.Paired A.1 M.1) := by
    rintro a A ⟨hacc, ⟨ha, hof⟩ | ⟨ha, z, it, hz, hzA⟩⟩
    · obtain ⟨M, hM⟩ := hA.chief ha
      rcases hM.rest A hof with rfl | h
      · left; rw [hN.op a A hM]; exact Nat.le_refl _
      · exact .inr ⟨ha, hof, M, hM, h⟩
    · left
      obtain ⟨be, rfl⟩ : ∃ be, it = .fence be .seqCst := by
        have h1 := hz.item; obtain ⟨be, h2⟩ := ha; rw [h1] at h2; exact ⟨be, Option.some.inj h2⟩
      have := hR.after_fence hS hz hzA (acc hacc)
      rw [hN.fence a ha]; omega
  have upper : ∀ b B, R.mixed.seqCst b → R.mixed.of B b → 2 * R.time B.1 B.2 + 1 ≤ N b := by
    intro b B hb hof
    obtain ⟨M, hM⟩ := hA.chief hb
    rw [hN.op b M hM]
    rcases hM.rest B hof with rfl | ⟨h1, h2, h3, h4⟩
    · exact Nat.le_refl _
    · have := hR.paired h4 h3 (by have := hM.has; rw [h1] at this; exact this)
      rw [h1, h2]; omega
  refine ⟨Earlier N, ⟨?_, ?_, ?_, ?_, ?_, ?_, ?_, ?_⟩, hb⟩
  · intro a h; unfold Earlier at h; omega
  · intro a b c h h'; unfold Earlier at h h' ⊢; omega
  · intro a b _ _ hne
    have hne : a.1 ≠ b.1 ∨ a.2 ≠ b.2 := by
      apply Classical.byContradiction
      intro h
      apply hne
      apply Prod.ext
      · exact Classical.byContradiction fun h' => h (.inl h')
      · exact Classical.byContradiction fun h' => h (.inr h')
    unfold Earlier; omega
  · intro a b ha hb' ⟨h0, h1⟩
    exact hb a b ha hb' fun e f it it' he hf => .before (he.lt hf h0 h1)
  · rintro a x y b ha hb' ⟨h0, h1⟩ ⟨e, f, it, it', he, hf, hef⟩ ⟨h0', h1'⟩
    exact hb a b ha hb' fun e' f' _ _ he' hf' =>
      .trans (.before (he'.lt he h0 h1)) (.trans hef (.before (hf.lt hf' h0' h1')))
  · intro a w v r b ha hb' hne hwa hw hseq hr hrf hrb
    have h := (hR.sequence_source hw hseq).2.2 r hr hrf
    obtain ⟨M, hM⟩ := hA.chief ha
    rcases hM.rest w hwa with rfl | ⟨-, h2, -⟩
    · rcases h with h | h
      · have := upper b r hb' hrb
        left
        rw [hN.op a w hM]
        rw [hr.1] at this
        rw [hw.1]
        omega
      · obtain ⟨it, x, hin, -⟩ := hM.item
        rcases hrb with ⟨-, it', y, hin', -⟩ | ⟨h1, -⟩
        · obtain ⟨h0, e | h1⟩ := hin.before hin' h
          · exact absurd e hne
          · exact hb a b (.inl ha) (.inl hb') fun e f it it' he hf => .before (he.lt hf h0 h1)
        · have := hr.1; rw [h1] at this; cases this
    · have := hw.1; rw [h2] at this; cases this
  · rintro a A B b hfrom hcoh ⟨z, it, hz, hzB⟩ hfb
    left
    obtain ⟨be, rfl⟩ : ∃ be, it = .fence be .seqCst := by
      have h1 := hz.item; obtain ⟨be, h2⟩ := hfb; rw [h1] at h2; exact ⟨be, Option.some.inj h2⟩
    rw [hN.fence b hfb]
    -- from an access at or after the point of `a`
    have go : ∀ A : R.mixed.Acc, N a ≤ 2 * R.time A.1 A.2 + 1 → R.mixed.Coh A B → R.mixed.read A ∨ R.mixed.write A →
        N a < 2 * R.moment b := by
      intro A hle hcoh hA'
      rcases hR.coming hcoh with rfl | ⟨hB, h⟩ | ⟨v, hv, hr, hrf, h⟩
      · have := hR.before_fence hS hz hzB (acc hA')
        omega
      · have hB' : R.Has B.1 B.2 := by
          cases hcoh with
          | refl => exact acc hA'
          | step _ hs =>
            cases hs with
            | rf _ h2 => exact mixed_read h2
            | mo _ h2 => exact mixed_write h2
            | fr _ h2 => exact mixed_write h2
        have := hR.before_fence hS hz hzB hB'
        rw [hB] at this
        omega
      · have : R.time v.1 .wr < R.moment b := by
          rcases (hR.mixed_source hr hrf).2 with h | h
          · have := hR.before_fence hS hz hzB hr.2
            omega
          · exact hR.before_fence hS hz (.trans (.before h) hzB) hv.2.1
        omega
    rcases lower a A hfrom with h | ⟨ha, hof, M, hM, h1, h2, h3, h4⟩
    · exact go A h hcoh hfrom.1
    · have hMw := hM.write h1
      have hle : N a ≤ 2 * R.time M.1 M.2 + 1 := by rw [hN.op a M hM]; exact Nat.le_refl _
      rcases hcoh.cases_head with rfl | ⟨C, hs, hC⟩
      · -- the read of a read-modify-write happens before the fence
        obtain ⟨itM, x, hin, hsc, -⟩ := hM.item
        have hr : R.Within A.1 a itM := by
          rcases hof with ⟨-, it', y, hin', -⟩ | ⟨h, -⟩
          · have e1 := hin'.item
            rw [hin.item] at e1
            rw [Option.some.inj e1]; exact hin'
          · rw [h2] at h; cases h
        rw [hN.op a M hM, h1]
        have : R.time M.1 .wr < R.moment b := by
          rcases hR.happens hS hzB with hb | ⟨w, r, i1, i2, i3, i4, i5⟩
          · obtain ⟨j0, e | j1⟩ := hr.before hz hb
            · have := hz.item
              rw [← e, hin.item] at this
              cases this
              cases hsc
            · exact hz.lt_moment (hin.lt hz j0 j1) hMw.2.1
          · have k1 := hR.toLocal.released_write hS hr hin hMw.2.1 ?_ i1 i2
            · rcases i4.before with rfl | i4
              · exact absurd i3 hz.no_access
              · have := hz.lt_moment i4 i3
                omega
            · have hpub : R.Pub a M.1 := by
                rcases hM.mine with ⟨h, -⟩ | ⟨-, h⟩
                · rw [h1] at h; cases h
                · exact h
              intro e he hew
              cases facts hin.item (Item.isSeqCst.kind hsc).choose_spec with
              | reads _ _ _ _ npub => exact absurd hpub (npub _)
              | writes w _ _ uniq _ wr => rw [wr e he hew, uniq _ hpub]
              | both _ w _ _ _ _ _ uniq _ wr => rw [wr e he hew, uniq _ hpub]
        omega
      · rcases hR.through_write h3 h2 hMw h4 hs with rfl | hs'
        · exact go _ hle hC (.inr hMw)
        · exact go M hle (hC.head hs') (.inr hMw)
  · intro a A B b hfrom hs hof hsb hne
    -- a step from an access at or after the point of `a` to a write
    have go : ∀ A : R.mixed.Acc, N a ≤ 2 * R.time A.1 A.2 + 1 → R.mixed.Step A B → B.2 = .wr → Earlier N a b := by
      intro A hle hs hB
      have h1 := hR.step_write hs hB
      have h2 := upper b B hsb hof
      rw [hB] at h2
      left; omega
    rcases lower a A hfrom with hle | ⟨ha, hofA, M, hM, h1, h2, h3, h4⟩
    · by_cases hB : B.2 = .wr
      · exact go A hle hs hB
      · cases hs with
        | mo _ h2 => exact absurd h2.1 hB
        | fr _ h2 => exact absurd h2.1 hB
        | rf hw hr hrf =>
          have hup := upper b B hsb hof
          rw [hr.1] at hup
          rw [hw.1] at hle
          rcases (hR.mixed_source hr hrf).2 with h | h
          · left; omega
          · rcases hfrom.2 with ⟨ha, hofA⟩ | ⟨ha, z, it, hz, hzA⟩
            · rcases hofA with ⟨h', -⟩ | ⟨-, it, x, hin, -⟩
              · rw [hw.1] at h'; cases h'
              · rcases hof with ⟨-, it', y, hin', -⟩ | ⟨h', -⟩
                · obtain ⟨j0, e | j1⟩ := hin.before hin' h
                  · exact absurd e hne
                  · exact hb a b (.inl ha) (.inl hsb) fun e f it it' he hf => .before (he.lt hf j0 j1)
                · exact absurd h' hB
            · left
              obtain ⟨be, rfl⟩ : ∃ be, it = .fence be .seqCst := by
                have h1 := hz.item; obtain ⟨be, h2⟩ := ha; rw [h1] at h2; exact ⟨be, Option.some.inj h2⟩
              have := hR.after_fence hS hz (.trans hzA (.before h)) hr.2
              rw [hN.fence a ha]; omega
    · have hMw := hM.write h1
      have hle : N a ≤ 2 * R.time M.1 M.2 + 1 := by rw [hN.op a M hM]; exact Nat.le_refl _
      have hB : B.2 = .wr := by
        cases hs with
        | rf h => have := h.1; rw [h2] at this; cases this
        | mo _ h => exact h.1
        | fr _ h => exact h.1
      rcases hR.through_write h3 h2 hMw h4 hs with rfl | hs'
      · exfalso
        rcases hM.mine with ⟨h, -⟩ | ⟨-, it, x, hin, -⟩
        · rw [h1] at h; cases h
        · rcases hof with ⟨h, -⟩ | ⟨-, it', x', hin', -⟩
          · rw [h1] at h; cases h
          · exact hne (hin.unique hin').1
      · exact go M hle hs' hB

end Run
end Verif.Mca
