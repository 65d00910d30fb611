import Verif.Locked.Machines
import Verif.Locked.Program
import Verif.Idiom.Model

/-
What the proofs about the documented examples have in common: reads as the program sees them, without the writes by which
some instructions put back what they read.
-/

namespace Verif.Idiom

open Verif.Order Verif.Mca Verif.Mca.Run Verif.Locked

variable {cpu : Cpu} {R : Mca.Run cpu} {M : Memory R} {V : Values} {x : Nat}

/-- The modification whose value a read delivers. -/
inductive Src (M : Memory R) : Pos → Option Pos → Prop where
  | none {r} : M.rf r none → Src M r none
  | some {r w} : M.rf r (some w) → ¬ R.Copy w → Src M r (some w)
  | copy {r c b s} : M.rf r (some c) → R.CopyOf b c → R.Has b .rd → R.Has c .wr → Src M b s → Src M r s

theorem chain_trans {rf : Pos → Option Pos → Prop} {u v w : Pos} (h : Chain R rf u v) (h' : Chain R rf v w) : Chain R rf u w := by
  induction h' with
  | head => exact h
  | rmw _ h1 h2 h3 h4 ih => exact .rmw ih h1 h2 h3 h4

theorem src_exists (hV : ∀ r c x, R.CopyOf r c → R.Is c x → ∃ s, M.rf r s ∧ V.val c = V.of x.loc s) {x : Nat} :
    ∀ {r s}, M.rf r s → R.Has r .rd → (∀ y, R.Is r y → y.loc = x) → ∃ s', Src M r s' ∧ V.of x s' = V.of x s := by
  have key : ∀ (n : Nat) {r w}, R.time w .wr = n → M.rf r (some w) → R.Has r .rd → (∀ y, R.Is r y → y.loc = x) →
      ∃ s', Src M r s' ∧ V.of x s' = V.val w := by
    intro n
    induction n using Nat.strongRecOn with
    | _ n ih =>
      intro r w hn h hr hx
      obtain ⟨hw, hl⟩ := M.source hr h
      by_cases hc : R.Copy w
      · obtain ⟨b, hb⟩ := hc
        have hbr := hb.reads hw
        obtain ⟨y, z, hy, hz, hyz⟩ := hl
        have hzx : z.loc = x := hyz.symm.trans (hx y hy)
        obtain ⟨y', z', hy', hz', hyz'⟩ := hb.1.1
        have hy'x : y'.loc = x := by rw [hyz', hz'.unique hz, hzx]
        obtain ⟨s, hs, hv⟩ := hV b w z hb hz
        rw [hzx] at hv
        cases s with
        | none => exact ⟨none, .copy h hb hbr hw (.none hs), hv.symm⟩
        | some u =>
          obtain ⟨s', k1, k2⟩ := ih _ (hn ▸ M.older hb.1 hbr hw hs) rfl hs hbr (fun v hv => by rw [hv.unique hy', hy'x])
          exact ⟨s', .copy h hb hbr hw k1, k2.trans hv.symm⟩
      · exact ⟨_, .some h hc, rfl⟩
  intro r s h hr hx
  cases s with
  | none => exact ⟨none, .none h, rfl⟩
  | some w => exact key _ rfl h hr hx

theorem src_source {r w : Pos} (hr : R.Has r .rd) (h : Src M r (some w)) : R.Has w .wr ∧ ¬ R.Copy w ∧ R.SameLoc r w := by
  generalize hs : Option.some w = s at h
  induction h with
  | none => cases hs
  | some h hc => cases hs; exact ⟨(M.source hr h).1, hc, (M.source hr h).2⟩
  | copy h hb hbr hc _ ih =>
    obtain ⟨k1, k2, k3⟩ := ih hbr hs
    exact ⟨k1, k2, (M.source hr h).2.trans (hb.1.1.symm.trans k3)⟩

theorem src_chain {r w : Pos} (hr : R.Has r .rd) (h : Src M r (some w)) : ∃ v, M.rf r (some v) ∧ Chain R M.rf w v := by
  generalize hs : Option.some w = s at h
  induction h with
  | none => cases hs
  | some h hc => cases hs; exact ⟨_, h, .head⟩
  | copy h hb hbr hc _ ih =>
    obtain ⟨v, k1, k2⟩ := ih hbr hs
    exact ⟨_, h, .rmw k2 k1 hbr hc hb.1⟩

theorem src_atomic {r w : Pos} {s} (hr : R.Has r .rd) (hw : R.Has w .wr) (hp : R.Paired r w) (h : Src M r s) :
    (∀ u, s = some u → M.mo u w) ∧
      ∀ v, R.Has v .wr → ¬ R.Copy v → R.SameLoc v w → M.mo v w → s = some v ∨ ∃ u, s = some u ∧ M.mo v u := by
  induction h generalizing w with
  | none h =>
    obtain ⟨h1, h2⟩ := M.atomic hp hr hw h
    exact ⟨h1, fun v k1 _ k2 k3 => h2 v k1 k2 k3⟩
  | some h =>
    obtain ⟨h1, h2⟩ := M.atomic hp hr hw h
    exact ⟨h1, fun v k1 _ k2 k3 => h2 v k1 k2 k3⟩
  | @copy r c b s h hb hbr hc _ ih =>
    obtain ⟨h1, h2⟩ := M.atomic hp hr hw h
    obtain ⟨i1, i2⟩ := ih hbr hc hb.1
    refine ⟨fun u hu => M.mo_trans (i1 u hu) (h1 c rfl), fun v k1 k2 k3 k4 => ?_⟩
    rcases h2 v k1 k3 k4 with h3 | ⟨u, h3, h4⟩
    · cases h3; exact absurd ⟨b, hb⟩ k2
    · cases h3
      exact i2 v k1 k2 (k3.trans (hp.1.symm.trans (M.source hr h).2)) h4

theorem src_older {r w p : Pos} (hr : R.Has r .rd) (hw : R.Has w .wr) (hp : R.Paired r w) (h : Src M r (some p)) :
    R.time p .wr < R.time w .wr := by
  generalize hs : Option.some p = s at h
  induction h generalizing w with
  | none => cases hs
  | some h hc => cases hs; exact M.older hp hr hw h
  | copy h hb hbr hc _ ih => exact Nat.lt_trans (ih hbr hc hb.1 hs) (M.older hp hr hw h)

theorem src_writeRead {a r : Pos} {s} (hb : M.hb a r) (ha : R.Has a .wr) (hna : ¬ R.Copy a) (hr : R.Has r .rd)
    (hl : R.SameLoc a r) (h : Src M r s) : s = some a ∨ ∃ w, s = some w ∧ M.mo a w := by
  cases h with
  | none h => exact M.writeRead hb ha hr hl h
  | some h => exact M.writeRead hb ha hr hl h
  | copy h hc hbr hcw h' =>
    rcases M.writeRead hb ha hr hl h with k | ⟨w, k, k'⟩
    · cases k; exact absurd ⟨_, hc⟩ hna
    · cases k
      exact (src_atomic hbr hcw hc.1 h').2 a ha hna (hl.trans (M.source hr h).2) k'

theorem src_readWrite {r b w : Pos} (hb : M.hb r b) (hr : R.Has r .rd) (hw : R.Has b .wr) (hl : R.SameLoc r b)
    (h : Src M r (some w)) : M.mo w b := by
  cases h with
  | some h => exact M.readWrite hb hr hw hl h
  | copy h hc hbr hcw h' =>
    exact M.mo_trans ((src_atomic hbr hcw hc.1 h').1 w rfl) (M.readWrite hb hr hw hl h)

theorem src_sync {e w v r f : Pos} (h : R.Released e w) (hw : R.Has w .wr) (hc : Chain R M.rf w v) (hs : Src M r (some v))
    (hr : R.Has r .rd) (hne : r.1 ≠ w.1) (ha : R.Acquired r f) : M.hb e f := by
  obtain ⟨v', k1, k2⟩ := src_chain hr hs
  exact M.sync h hw (chain_trans hc k2) k1 hr hne ha

/-- One more read-modify-write in a release sequence. -/
theorem src_rmw {w v r v' : Pos} (hc : Chain R M.rf w v) (hs : Src M r (some v)) (hr : R.Has r .rd) (hw : R.Has v' .wr)
    (hp : R.Paired r v') : Chain R M.rf w v' := by
  obtain ⟨u, k1, k2⟩ := src_chain hr hs
  exact .rmw (chain_trans hc k2) k1 hr hw hp

/-- `w` writes the object `x`. -/
def On (R : Mca.Run cpu) (x : Nat) (w : Pos) : Prop := ∃ y, R.Is w y ∧ y.loc = x

theorem On.sameLoc {w v : Pos} (h : On R x w) (h' : On R x v) : R.SameLoc w v := by
  obtain ⟨y, hy, e⟩ := h
  obtain ⟨z, hz, e'⟩ := h'
  exact ⟨y, z, hy, hz, e.trans e'.symm⟩

theorem On.of {w v : Pos} (h : On R x w) (h' : R.SameLoc w v) : On R x v := by
  obtain ⟨y, hy, e⟩ := h
  obtain ⟨y', z, hy', hz, e'⟩ := h'
  exact ⟨z, hz, by rw [← e', hy'.unique hy, e]⟩

theorem within_on {e : Pos} {id : OpId} {it it' : Item} (hit : At R id it) (h : R.Within e id it') {p} (he : R.Has e p) :
    On R it.loc e := by
  obtain ⟨y, hy, -⟩ := he
  exact ⟨y, hy, loc_of hit h hy⟩

theorem Released.of_release {e w : Pos} {id : OpId} {it : Item} {o : MO} (hit : At R id it) (ho : it.writeOrder = some o)
    (hr : o.isRelease = true) (hw : R.Pub id w) (he : e = w ∨ Before e w) : R.Released e w := by
  obtain ⟨it', y, ⟨pre, h0, h1, h2⟩, hy, hp⟩ := hw
  have : it' = it := by
    have := Within.item ⟨pre, h0, h1, h2⟩
    rw [At] at hit; rw [hit] at this; exact (Option.some.inj this).symm
  subst this
  exact .inl ⟨⟨pre, it', o, y, h2, hy, hp, ho, hr⟩, he⟩

theorem Acquired.of_acquire {r f : Pos} {id : OpId} {it : Item} {o : MO} (hit : At R id it) (ho : it.readOrder = some o)
    (hr : o.isAcquire = true) (hw : R.Ret id r) (hf : f = r ∨ Before r f) : R.Acquired r f := by
  obtain ⟨it', y, ⟨pre, h0, h1, h2⟩, hy, hp⟩ := hw
  have : it' = it := by
    have := Within.item ⟨pre, h0, h1, h2⟩
    rw [At] at hit; rw [hit] at this; exact (Option.some.inj this).symm
  subst this
  exact .inl ⟨⟨pre, it', o, y, h2, hy, hp, ho, hr⟩, hf⟩

theorem Acquired.of_fence {be : Backend} {r f : Pos} {id a b : OpId} {it it' : Item} {o : MO} (hit : At R id (.fence be o))
    (ho : o.isAcquire = true) (hr : R.Within r a it) (hf : R.Within f b it') (h1 : a.1 = id.1) (h2 : b.1 = id.1)
    (h3 : a.2 < id.2) (h4 : id.2 < b.2) : R.Acquired r f := by
  refine .inr ⟨?_, ?_⟩
  · rw [hr.bounds.1, hf.bounds.1, h1, h2]
  · obtain ⟨pre, post, hp, hl⟩ := split_at hit
    have hr1 := hr.bounds
    have hf1 := hf.bounds
    have e1 : R.prog r.1 = pre ++ .fence be o :: post := by rw [hr1.1, h1]; exact hp
    refine ⟨pre, be, o, post, e1, ho, ?_, ?_⟩
    · have := start_le (R := R) (a := a) (b := id) hr.item h1 h3
      have hs : R.start id = (events pre).length := by
        unfold start; rw [hp, ← hl]; simp
      omega
    · have := start_le (R := R) (a := id) (b := b) hit h2.symm h4
      have hs : R.start id = (events pre).length := by
        unfold start; rw [hp, ← hl]; simp
      rw [events_append, List.length_append]
      have : (events [Item.fence be o]).length = (Item.fence be o).events.length := by simp [events]
      omega

theorem pub_within {id : OpId} {w : Pos} (h : R.Pub id w) : ∃ it, R.Within w id it := by
  obtain ⟨it, -, h, -⟩ := h; exact ⟨it, h⟩

theorem ret_within {id : OpId} {w : Pos} (h : R.Ret id w) : ∃ it, R.Within w id it := by
  obtain ⟨it, -, h, -⟩ := h; exact ⟨it, h⟩

theorem At.eq {id : OpId} {it it' : Item} (h : At R id it) (h' : At R id it') : it = it' := by
  rw [At] at h h'; rw [h] at h'; exact Option.some.inj h'

theorem Within.at {e : Pos} {id : OpId} {it : Item} (h : R.Within e id it) : At R id it := h.item

theorem pub_op {id id' : OpId} {w : Pos} (h : R.Pub id w) (h' : R.Pub id' w) : id = id' := by
  obtain ⟨_, h⟩ := pub_within h
  obtain ⟨_, h'⟩ := pub_within h'
  exact (h.unique h').1

/-- Loads modify nothing. -/
theorem peek_pub {id : OpId} {it : Item} (h : At R id it) (hp : Peek x it) {w : Pos} (hw : R.Pub id w) : False := by
  obtain ⟨b, k, o, n, hk, rfl⟩ := hp
  obtain ⟨it, y, hin, hx, hp⟩ := hw
  cases At.eq h hin.item
  obtain ⟨pre, -, -, hi⟩ := hin
  obtain ⟨_, a, c, _, he, _⟩ := hi.split hx
  have hmem : y.ins ∈ trace b k o n := by
    show y.ins ∈ (Item.op b k o n x).code
    rw [← events_ins, he]; simp
  obtain ⟨A, M, B, hl, hA, hB, hM⟩ := shape_trace b k o n
  have hM : (∃ x, M = [x] ∧ x.ret = true ∧ x.rd = true ∧ x.pub = false) ∨ ∃ x y, M = [x, y] ∧ x.ret = true ∧
      x.rd = true ∧ x.pub = false ∧ x.wr = false ∧ y.pub = false ∧ y.wr = true ∧ y.ret = false ∧ y.rd = false := by
    rcases hk with rfl | ⟨f, rfl⟩ <;> exact hM
  rw [hl] at hmem
  simp only [List.mem_append] at hmem
  rcases hmem with (h | h) | h
  · have := hA _ h; simp [Instr.quiet, hp] at this
  · rcases hM with ⟨y, rfl, -, -, hy⟩ | ⟨y, z, rfl, -, -, hy, -, hz, -⟩
    · rw [List.mem_singleton.1 h, hy] at hp; cases hp
    · rcases List.mem_cons.1 h with h | h
      · rw [h, hy] at hp; cases hp
      · rw [List.mem_singleton.1 h, hz] at hp; cases hp
  · have := hB _ h; simp [Instr.quiet, hp] at this

/-- They write nothing but what they read. -/
theorem peek_copy {id : OpId} {it : Item} (hp : Peek x it) {w : Pos} (hin : R.Within w id it) (hw : R.Has w .wr) : R.Copy w := by
  have hp' := hp
  obtain ⟨b, k, o, n, hk, rfl⟩ := hp
  exact (pub_or_copy hin hw rfl).resolve_left (peek_pub hin.item hp')

/-- A store modifies. -/
theorem store_writes {b : Backend} {o : MO} {n : Nat} {id : OpId} (h : At R id (.op b .store o n x)) : ∃ w, R.Pub id w := by
  obtain ⟨A, N, B, hl, -, -, y, rfl, hp, -⟩ := item_shape (it := .op b .store o n x) rfl
  have hc : ((Item.op b .store o n x).code)[A.length]? = some y := by
    rw [hl]; simp
  obtain ⟨e, h1, h2⟩ := instr_at h hc
  exact ⟨e, _, _, h1, h2, hp⟩

theorem On.loc {r : Pos} (h : On R x r) : ∀ y, R.Is r y → y.loc = x := by
  intro y hy; obtain ⟨z, hz, e⟩ := h; rw [hy.unique hz, e]

/-- Accesses of different operations of a thread. -/
theorem op_before {e f : Pos} {a b : OpId} {it it' : Item} (h : R.Within e a it) (h' : R.Within f b it') (h1 : a.1 = b.1)
    (h2 : a.2 < b.2) : Before e f := h.lt h' h1 h2

/-- Two read-modify-writes that find the same modification are one. -/
theorem src_inj {r r' w w' : Pos} {s : Option Pos} (hr : R.Has r .rd) (hr' : R.Has r' .rd) (hw : R.Has w .wr) (hw' : R.Has w' .wr)
    (hc : ¬ R.Copy w) (hc' : ¬ R.Copy w') (hp : R.Paired r w) (hp' : R.Paired r' w') (hl : R.SameLoc w w') (h : Src M r s)
    (h' : Src M r' s) : w = w' := by
  refine Classical.byContradiction fun hne => ?_
  have key : ∀ {r r' w w'}, R.Has r .rd → R.Has r' .rd → R.Has w .wr → R.Has w' .wr → ¬ R.Copy w → R.Paired r w →
      R.Paired r' w' → R.SameLoc w w' → Src M r s → Src M r' s → M.mo w w' → False := by
    intro r r' w w' hr hr' hw hw' hc hp hp' hl h h' hm
    rcases (src_atomic hr' hw' hp' h').2 w hw hc hl hm with k | ⟨u, k, k'⟩
    · exact M.mo_irrefl _ ((src_atomic hr hw hp h).1 w k)
    · exact M.mo_irrefl _ (M.mo_trans k' ((src_atomic hr hw hp h).1 u k))
  rcases M.mo_total hw hw' hl hne with k | k
  · exact key hr hr' hw hw' hc hp hp' hl h h' k
  · exact key hr' hr hw' hw hc' hp' hp hl.symm h' h k

end Verif.Idiom
