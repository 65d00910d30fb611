import Verif.Locked.Program
import Verif.Pow.MixedLemmas

/-
What `Verif.Locked.Exclusion` needs of the memory, for the machines of `Verif.Mca` and `Verif.Pow`; and what seq_cst
operations find.
-/

namespace Verif.Locked

open Verif.Order Verif.Mca Verif.Mca.Run

variable {cpu : Cpu}

theorem _root_.Verif.Mca.Run.SameLoc.loc {R : Mca.Run cpu} {e f : Pos} (h : R.SameLoc e f) :
    R.actions.loc e = R.actions.loc f := by
  obtain ⟨x, y, hx, hy, h⟩ := h
  simp only [Is] at hx hy
  simp [actions, hx, hy, h]

/-! ### One shared memory -/

theorem Chain.sequence {R : Mca.Run cpu} {w v : Pos} (h : Chain R R.ReadsFrom w v) : R.ReleaseSequence w v := by
  induction h with
  | head => exact .head
  | rmw _ h1 h2 h3 h4 ih => exact .rmw ih h1 h2 h3 h4

theorem mca_atomic {R : Mca.Run cpu} (hR : R.Valid) {r w : Pos} {s : Option Pos} (hp : R.Paired r w) (hr : R.Has r .rd)
    (hw : R.Has w .wr) (hs : R.ReadsFrom r s) : (∀ u, s = some u → R.time u .wr < R.time w .wr) ∧
    ∀ v, R.Has v .wr → R.SameLoc v w → R.time v .wr < R.time w .wr →
      s = some v ∨ ∃ u, s = some u ∧ R.time v .wr < R.time u .wr := by
  have hlt := hR.paired hp hr hw
  refine ⟨?_, ?_⟩
  · rintro u rfl
    obtain ⟨⟨hu, hl, hv⟩, -⟩ := hs
    rcases hv with hv | hv
    · exact Nat.lt_trans hv hlt
    · have : Before u w := by
        rcases hp.before with rfl | h
        · exact hv
        · exact hv.trans h
      exact hR.sameLoc _ _ _ _ this (hl.symm.trans hp.1) hu hw (by simp)
  · intro v hv hl hvw
    have hne : v ≠ w := by rintro rfl; exact Nat.lt_irrefl _ hvw
    rcases hR.atomic r w v hp hv hl hne with h | h
    · have hvis : R.Visible r v := ⟨hv, hp.1.trans hl.symm, .inl h⟩
      cases s with
      | none => exact absurd hvis (hs v)
      | some u =>
        rcases Nat.lt_or_eq_of_le (hs.2 v hvis) with h | h
        · exact .inr ⟨u, rfl, h⟩
        · exact .inl (by rw [(hR.distinct _ _ _ _ hv hs.1.1 h).1])
    · exact absurd h (Nat.lt_asymm hvw)

def mca (R : Mca.Run cpu) (hR : R.Valid) (hS : R.Sound) : Memory R :=
  have hC := hR.coherent hS fun _ _ h => h.paired
  { rf := R.ReadsFrom
    mo := fun w v => R.time w .wr < R.time v .wr
    hb := R.HappensBefore
    irrefl := hR.irrefl hS
    trans := .trans
    sb := .before
    mo_irrefl := fun a => Nat.lt_irrefl _
    mo_trans := Nat.lt_trans
    mo_total := fun ha hb hl hne => hC.oneOrder.2.2 _ _ ha hb hl.loc hne
    atomic := mca_atomic hR
    writeWrite := fun h ha hb hl => hC.writeWrite _ _ h ha hb hl.loc
    writeRead := fun h ha hb hl hs => hC.writeRead _ _ _ h ha hb hl.loc hs
    readWrite := fun h ha hb hl hs => hC.readWrite _ _ _ h ha hb hl.loc hs
    source := fun _ h => ⟨h.1.1, h.1.2.1⟩
    self := fun {r} hr h => by
      rcases h.1.2.2 with k | k
      · exact Nat.lt_asymm k (hR.readFirst r hr h.1.1)
      · exact Nat.lt_irrefl _ k.2
    older := fun hp hr hw h => (mca_atomic hR hp hr hw h).1 _ rfl
    inOrder := fun h ha hb hl => hR.sameLoc _ _ _ _ h hl ha hb (by simp)
    sync := fun h1 h2 h3 h4 h5 h6 h7 => .sync ⟨_, _, _, h1, h2, h3.sequence, h4, h5, h6, h7⟩ }

/-! ### Writes that become visible to one thread after another -/

theorem Chain.sequence' {R : Pow.Run cpu} {w v : Pos} (h : Chain R.toRun R.ReadsFrom w v) : R.ReleaseSequence w v := by
  induction h with
  | head => exact .head
  | rmw _ h1 h2 h3 h4 ih => exact .rmw ih h1 h2 h3 h4

theorem pow_atomic {R : Pow.Run cpu} (hR : R.Valid) {r w : Pos} {s : Option Pos} (hp : R.Paired r w) (hr : R.Has r .rd)
    (hw : R.Has w .wr) (hs : R.ReadsFrom r s) : (∀ u, s = some u → R.Co u w) ∧
    ∀ v, R.Has v .wr → R.SameLoc v w → R.Co v w → s = some v ∨ ∃ u, s = some u ∧ R.Co v u := by
  refine ⟨?_, ?_⟩
  · rintro u rfl
    exact hR.rmw_co hp hr hw hs.1
  · intro v hv hl hvw
    have hne : v ≠ w := by rintro rfl; exact hR.co_irrefl _ hvw
    rcases hR.atomic r w v hp hw hv hl hne with ⟨u', hvis, h⟩ | h
    · cases s with
      | none => exact absurd hvis (hs u')
      | some u =>
        rcases hs.2 u' hvis with rfl | k
        · rcases h with rfl | h
          · exact .inl rfl
          · exact .inr ⟨_, rfl, h⟩
        · rcases h with rfl | h
          · exact .inr ⟨_, rfl, k⟩
          · exact .inr ⟨_, rfl, hR.co_trans _ _ _ h k⟩
    · exact absurd (hR.co_trans _ _ _ h hvw) (hR.co_irrefl _)

def pow (R : Pow.Run cpu) (hR : R.Valid) (hbe : R.OnBarriers) (hS : R.Sound) : Memory R.toRun :=
  have hC := hR.coherent hbe hS
  have hl : ∀ {e f}, R.SameLoc e f → R.actions.loc e = R.actions.loc f := fun h => Verif.Mca.Run.SameLoc.loc h
  { rf := R.ReadsFrom
    mo := R.Co
    hb := R.HappensBefore
    irrefl := hR.irrefl hbe hS
    trans := .trans
    sb := .before
    mo_irrefl := hR.co_irrefl
    mo_trans := fun h h' => hR.co_trans _ _ _ h h'
    mo_total := fun ha hb hl hne => hR.co_total _ _ ha hb hl hne
    atomic := pow_atomic hR
    writeWrite := fun h ha hb k => hC.writeWrite _ _ h ha hb (hl k)
    writeRead := fun h ha hb k hs => hC.writeRead _ _ _ h ha hb (hl k) hs
    readWrite := fun h ha hb k hs => hC.readWrite _ _ _ h ha hb (hl k) hs
    source := fun _ h => ⟨h.1.1, h.1.2.1⟩
    self := fun {r} hr h => by
      rcases h.1.2.2 with ⟨m, k, k'⟩ | k
      · rw [hR.own r h.1.1] at k
        cases k
        exact Nat.lt_asymm k' (hR.inThread.readFirst r hr h.1.1)
      · exact Nat.lt_irrefl _ k.2
    older := fun {r w p} hp hr hw h => by
      have hlt := hR.inThread.paired hp hr hw
      obtain ⟨hpw, hl, ⟨m, k, k'⟩ | k⟩ := h.1
      · have := hR.others p _ m hpw k
        omega
      · have : Before p w := by
          rcases hp.before with rfl | h
          · exact k
          · exact k.trans h
        exact hR.inThread.sameLoc _ _ _ _ this (hl.symm.trans hp.1) hpw hw (by simp)
    inOrder := fun h ha hb hl => hR.inThread.sameLoc _ _ _ _ h hl ha hb (by simp)
    sync := fun h1 h2 h3 h4 h5 h6 h7 => .sync ⟨_, _, _, h1, h2, h3.sequence', h4, h5, h6, h7⟩ }

/-! ### The order of the seq_cst operations -/

theorem mca_strongly {R : Mca.Run cpu} (hR : R.Valid) (hS : R.Sound) {before} (h : R.mixed.ScOrder before) :
    Strongly (mca R hR hS) R.mixed.Strong before where
  irrefl := h.irrefl
  trans := h.trans _ _ _
  total := h.total _ _
  sb ha hb h1 h2 := h.sb _ _ ha hb ⟨h1, h2⟩
  strong ha hb h1 h2 he hf hhb h3 h4 := h.strong _ _ _ _ ha hb ⟨h1, h2⟩ ⟨_, _, _, _, he, hf, hhb⟩ ⟨h3, h4⟩

theorem pow_strongly {R : Pow.Run cpu} (hR : R.Valid) (hbe : R.OnBarriers) (hS : R.Sound) {before}
    (h : R.mixed.ScOrder before) : Strongly (pow R hR hbe hS) R.mixed.Strong before where
  irrefl := h.irrefl
  trans := h.trans _ _ _
  total := h.total _ _
  sb ha hb h1 h2 := h.sb _ _ ha hb ⟨h1, h2⟩
  strong ha hb h1 h2 he hf hhb h3 h4 := h.strong _ _ _ _ ha hb ⟨h1, h2⟩ ⟨_, _, _, _, he, hf, hhb⟩ ⟨h3, h4⟩

/-- A seq_cst operation on an object that is used with seq_cst only reads what the last one before it wrote. -/
theorem reads_last {G : Mixed} {before : G.Op → G.Op → Prop} (h : G.ScOrder before)
    (total : ∀ w v, G.write w → G.write v → G.loc w = G.loc v → w ≠ v → G.mo w v ∨ G.mo v w)
    (one : ∀ w b c, G.of w b → G.of w c → b = c)
    {a : G.Op} {r : G.Acc} {s : Option G.Acc} (ha : G.seqCst a) (hr : G.read r) (hof : G.of r a) (hs : G.rf r s)
    (src : ∀ w, s = some w → G.write w ∧ G.loc r = G.loc w ∧ ∃ b, G.seqCst b ∧ G.of w b ∧ b ≠ a) :
    (∃ w b, s = some w ∧ G.of w b ∧ G.seqCst b ∧ before b a ∧
      ∀ c w', G.seqCst c → G.of w' c → G.write w' → G.loc r = G.loc w' → before c a → c = b ∨ before c b) ∨
    (s = none ∧ ∀ c w', G.seqCst c → G.of w' c → G.write w' → G.loc r = G.loc w' → ¬ before c a) := by
  have fr : ∀ c w', G.seqCst c → G.of w' c → G.write w' → G.loc r = G.loc w' → before c a →
      (∀ v, s = some v → G.mo v w') → False := by
    intro c w' hc hof' hw' hl hca hm
    have hne : a ≠ c := by rintro rfl; exact h.irrefl _ hca
    have := h.op a r w' c ⟨.inl hr, .inl ⟨ha, hof⟩⟩ (.fr hr hw' hl hs hm) hof' hc hne
    exact h.irrefl _ (h.trans _ _ _ this hca)
  cases s with
  | none => exact .inr ⟨rfl, fun c w' hc hof' hw' hl hca => fr c w' hc hof' hw' hl hca (by intro v hv; cases hv)⟩
  | some w =>
    obtain ⟨hw, hl, b, hb, hofb, hne⟩ := src w rfl
    refine .inl ⟨w, b, rfl, hofb, hb, h.op b w r a ⟨.inr hw, .inl ⟨hb, hofb⟩⟩ (.rf hw hr hs) hof ha hne, ?_⟩
    intro c w' hc hof' hw' hl' hca
    by_cases he : w' = w
    · subst he; exact .inl (one _ _ _ hof' hofb)
    · by_cases hcb : c = b
      · exact .inl hcb
      · rcases total w' w hw' hw (hl'.symm.trans hl) he with k | k
        · exact .inr (h.op c w' w b ⟨.inr hw', .inl ⟨hc, hof'⟩⟩ (.mo hw' hw (hl'.symm.trans hl) k) hofb hb hcb)
        · exact (fr c w' hc hof' hw' hl' hca (by rintro v hv; cases hv; exact k)).elim

/-! #### One shared memory -/

/-- Values that were written back are those of the writes they come from. -/
theorem traced {R : Mca.Run cpu} (hR : R.Valid) {V : Values} (hV : R.Copies V) (x : Nat) :
    ∀ n r s, R.time r .rd ≤ n → R.Has r .rd → (∀ y, R.Is r y → y.loc = x) → R.ReadsFrom r s →
      ∃ s', R.Reads r s' ∧ V.of x s' = V.of x s := by
  intro n
  induction n using Nat.strongRecOn with
  | ind n ih =>
    intro r s hn hr hx hs
    cases s with
    | none => exact ⟨none, .none hs, rfl⟩
    | some w =>
      by_cases hc : R.Copy w
      · obtain ⟨b, hb⟩ := hc
        obtain ⟨hw, hl, hv⟩ := hs.1
        have hbr := hb.reads hw
        obtain ⟨y, z, hy, hz, hyz⟩ := hl
        have hzx : z.loc = x := hyz.symm.trans (hx y hy)
        obtain ⟨y', z', hy', hz', hyz'⟩ := hb.1.1
        have hy'x : y'.loc = x := by rw [hyz', hz'.unique hz, hzx]
        have hlt : R.time b .rd < R.time r .rd := by
          rcases hv with hv | hv
          · exact Nat.lt_trans (hR.paired hb.1 hbr hw) hv
          · have hbb : Before b r := by
              rcases hb.1.before with rfl | h
              · exact hv
              · exact h.trans hv
            exact hR.sameLoc b r .rd .rd hbb ⟨_, _, hy', hy, hy'x.trans (hx y hy).symm⟩ hbr hr (by simp)
        obtain ⟨s0, k1, k2⟩ := hV b w z hb hz
        obtain ⟨s', k3, k4⟩ := ih (R.time b .rd) (by omega) b s0 (Nat.le_refl _) hbr
          (fun u hu => by rw [hu.unique hy', hy'x]) k1
        refine ⟨s', .copy hs hb k3, ?_⟩
        rw [k4, ← hzx, ← k2]; rfl
      · exact ⟨some w, .some hs hc, rfl⟩

theorem of_one {R : Mca.Run cpu} {e : Pos × Part} {a b : OpId} (h : R.mixed.of e a) (h' : R.mixed.of e b) : a = b := by
  rcases h with ⟨-, _, _, h, -⟩ | ⟨-, _, _, h, -⟩ <;> rcases h' with ⟨-, _, _, h', -⟩ | ⟨-, _, _, h', -⟩ <;>
    exact (h.unique h').1

/-- A write of an operation that is not a modification puts back what was read. -/
theorem pub_or_copy {R : Mca.Run cpu} {w : Pos} {b : OpId} {it : Item} (hin : R.Within w b it) (hw : R.Has w .wr) {k}
    (hk : it.kind = some k) : R.Pub b w ∨ R.Copy w := by
  cases facts hin.item hk with
  | reads r ret rd uniq npub wr => exact .inr ⟨r, wr w hin hw⟩
  | writes w' pub has uniq nret wr => rw [wr w hin hw]; exact .inl pub
  | both r w' ret rd uniq pub has uniq' pair wr => rw [wr w hin hw]; exact .inl pub

theorem ret_reads {R : Mca.Run cpu} {r : Pos} {a : OpId} {it : Item} (hit : (R.prog a.1)[a.2]? = some it) {k}
    (hk : it.kind = some k) (h : R.Ret a r) : R.Has r .rd := by
  cases facts hit hk with
  | reads r' ret rd uniq npub wr => rw [uniq r h]; exact rd
  | writes w' pub has uniq nret wr => exact absurd h (nret r)
  | both r' w' ret rd uniq pub has uniq' pair wr => rw [uniq r h]; exact rd

theorem pub_writes {R : Mca.Run cpu} {w : Pos} {a : OpId} {it : Item} (hit : (R.prog a.1)[a.2]? = some it) {k}
    (hk : it.kind = some k) (h : R.Pub a w) : R.Has w .wr := by
  cases facts hit hk with
  | reads r' ret rd uniq npub wr => exact absurd h (npub w)
  | writes w' pub has uniq nret wr => rw [uniq w h]; exact has
  | both r' w' ret rd uniq pub has uniq' pair wr => rw [uniq' w h]; exact has

theorem asks_kind {it : Item} (h : it.asksSeqCst = true) : ∃ k, it.kind = some k := by
  cases it <;> first | exact ⟨_, rfl⟩ | cases h

theorem paired_of {R : Mca.Run cpu} {r w : Pos} {a : OpId} {it : Item} (hit : (R.prog a.1)[a.2]? = some it) {k}
    (hk : it.kind = some k) (h : R.Ret a r) (h' : R.Pub a w) : R.Paired r w := by
  cases facts hit hk with
  | reads r' ret rd uniq npub wr => exact absurd h' (npub w)
  | writes w' pub has uniq nret wr => exact absurd h (nret r)
  | both r' w' ret rd uniq pub has uniq' pair wr => rw [uniq r h, uniq' w h']; exact pair

theorem pub_not_copy {R : Mca.Run cpu} {w : Pos} {a : OpId} (h : R.Pub a w) : ¬ R.Copy w := by
  rintro ⟨r, -, y, hy, hn⟩
  obtain ⟨_, x, -, hx, hp⟩ := h
  rw [hx.unique hy, hn] at hp; cases hp

theorem loc_of {R : Mca.Run cpu} {e : Pos} {a : OpId} {it it' : Item} (hit : (R.prog a.1)[a.2]? = some it)
    (h : R.Within e a it') {x : Ev} (hx : R.Is e x) : x.loc = it.loc := by
  have := h.item; rw [hit] at this; cases this; exact h.loc hx

variable {A : Nat → Prop} {V : Values}

theorem mca_last {R : Mca.Run cpu} (hR : R.Valid) (hV : R.Copies V)
    (hA : ∀ t, ∀ it ∈ R.prog t, A it.loc → it.isFence = true ∨ it.asksSeqCst = true)
    {before} (h : R.mixed.ScOrder before) (a : OpId) (x v : Nat) (ha : FreeOp R A a) (hf : FreeFound R R.ReadsFrom V a x v) :
    (∃ b, FreeOp R A b ∧ before b a ∧ FreeLeft R V b x v ∧
        ∀ c u, FreeOp R A c → before c a → FreeLeft R V c x u → c = b ∨ before c b) ∨
      (v = V.init x ∧ ∀ c u, FreeOp R A c → before c a → ¬ FreeLeft R V c x u) := by
  have asks : ∀ {a}, FreeOp R A a → ∃ it k, (R.prog a.1)[a.2]? = some it ∧ it.kind = some k ∧ it.asksSeqCst = true ∧
      A it.loc := by
    rintro a ⟨it, h1, h2, h3⟩
    rcases hA a.1 it (List.mem_of_getElem? h1) h2 with h | h
    · rw [h3] at h; cases h
    · obtain ⟨k, hk⟩ := asks_kind h
      exact ⟨it, k, h1, hk, h, h2⟩
  obtain ⟨it, k, hit, hk, hsc, hax⟩ := asks ha
  obtain ⟨it', r, s, hit', hx, hret, hrf, hv⟩ := hf
  rw [hit] at hit'; cases hit'
  have hrd := ret_reads hit hk hret
  have hloc : ∀ y, R.Is r y → y.loc = x := by
    intro y hy
    obtain ⟨_, _, hin, -, -⟩ := hret
    exact (loc_of hit hin hy).trans hx
  obtain ⟨s', hs', hval⟩ := traced hR hV x _ r s (Nat.le_refl _) hrd hloc hrf
  have locW : ∀ {c w it}, (R.prog c.1)[c.2]? = some it → it.loc = x → R.Pub c w → R.SameLoc r w := by
    intro c w it h1 h2 h3
    obtain ⟨_, z, hin, hz, -⟩ := h3
    obtain ⟨y, hy, -⟩ := hrd
    exact ⟨y, z, hy, hz, (hloc y hy).trans ((loc_of h1 hin hz).trans h2).symm⟩
  have left : ∀ {c u}, FreeOp R A c → FreeLeft R V c x u → ∃ w : Pos, R.mixed.seqCst c ∧ R.mixed.of (w, .wr) c ∧
      R.mixed.write (w, .wr) ∧ R.mixed.loc (r, .rd) = R.mixed.loc (w, .wr) := by
    intro c u hc hl
    obtain ⟨it1, k1, h1, hk1, hs1, -⟩ := asks hc
    obtain ⟨it2, w, h2, hl2, hp, -⟩ := hl
    rw [h1] at h2; cases h2
    exact ⟨w, ⟨it1, h1, hs1⟩, .inr ⟨rfl, hp⟩, ⟨rfl, pub_writes h1 hk1 hp, pub_not_copy hp⟩, (locW h1 hl2 hp).loc⟩
  have src : ∀ w, s'.map (fun w => (w, Part.wr)) = some w → R.mixed.write w ∧ R.mixed.loc (r, .rd) = R.mixed.loc w ∧
      ∃ b, R.mixed.seqCst b ∧ R.mixed.of w b ∧ b ≠ a := by
    intro w hw
    cases s' with
    | none => cases hw
    | some w' =>
      cases hw
      obtain ⟨h1, h2, h3, h4⟩ := hR.source hrd hs'
      have hz := h1
      obtain ⟨z, hz, -⟩ := hz
      obtain ⟨b, itb, hin⟩ := exists_within hz
      obtain ⟨y, z', hy, hz', hyz⟩ := h2
      have hlb : itb.loc = x := by rw [← hin.loc hz, hz.unique hz', ← hyz]; exact hloc y hy
      have hfb : FreeOp R A b := ⟨itb, hin.item, by rw [hlb, ← hx]; exact hax, hin.writes h1⟩
      obtain ⟨it1, k1, e1, hk1, hs1, -⟩ := asks hfb
      have := hin.item; rw [e1] at this; cases this
      have hp : R.Pub b w' := (pub_or_copy hin h1 hk1).resolve_right h3
      refine ⟨⟨rfl, h1, h3⟩, Verif.Mca.Run.SameLoc.loc ⟨y, z', hy, hz', hyz⟩, b, ⟨itb, e1, hs1⟩, .inr ⟨rfl, hp⟩, ?_⟩
      rintro rfl
      have hpr := paired_of hit hk hret hp
      have hlt := hR.paired hpr hrd h1
      rcases h4 with h4 | h4
      · exact Nat.lt_asymm hlt h4
      · rcases hpr.before with rfl | h5
        · exact Nat.lt_irrefl _ h4.2
        · exact Nat.lt_asymm h4.2 h5.2
  have main := reads_last h (r := (r, .rd)) (s := s'.map (fun w => (w, Part.wr))) (a := a)
    (fun w v hw hv hl hne => by
      rcases Nat.lt_trichotomy (R.time w.1 .wr) (R.time v.1 .wr) with k | k | k
      · exact .inl k
      · exact absurd (Prod.ext (hR.distinct _ _ _ _ hw.2.1 hv.2.1 k).1 (hw.1.trans hv.1.symm)) hne
      · exact .inr k)
    (fun w b c => of_one) ⟨it, hit, hsc⟩ ⟨rfl, hrd⟩ (.inl ⟨rfl, hret⟩)
    (by cases s' <;> exact hs') src
  rcases main with ⟨w, b, e, hofb, hb, hba, hall⟩ | ⟨e, hall⟩
  · left
    cases s' with
    | none => cases e
    | some w' =>
      cases e
      obtain ⟨itb, e1, hs1⟩ := hb
      obtain ⟨k1, hk1⟩ := asks_kind hs1
      have hp : R.Pub b w' := by
        rcases hofb with ⟨e, -⟩ | ⟨-, h⟩
        · cases e
        · exact h
      have hlb : itb.loc = x := by
        obtain ⟨-, ⟨y, z, hy, hz, hyz⟩, -⟩ := hR.source hrd hs'
        obtain ⟨_, _, hin, -, -⟩ := hp
        rw [← loc_of e1 hin hz, ← hyz]; exact hloc y hy
      have hfb : FreeOp R A b := ⟨itb, e1, by rw [hlb, ← hx]; exact hax, by cases itb <;> first | rfl | cases hs1⟩
      refine ⟨b, hfb, hba, ⟨itb, w', e1, hlb, hp, ?_⟩, ?_⟩
      · rw [hv, ← hval]; rfl
      · intro c u hc hca hl
        obtain ⟨w'', k1, k2, k3, k4⟩ := left hc hl
        exact hall c _ k1 k2 k3 k4 hca
  · right
    cases s' with
    | some => cases e
    | none =>
      refine ⟨by rw [hv, ← hval]; rfl, ?_⟩
      intro c u hc hca hl
      obtain ⟨w'', k1, k2, k3, k4⟩ := left hc hl
      exact hall c _ k1 k2 k3 k4 hca

/-! #### Writes that become visible to one thread after another -/

open Verif.Pow.Run (op_of)

theorem pow_last {R : Pow.Run cpu} (hR : R.Valid) (hbe : R.OnBarriers) (hAs : R.toRun.AsAsked)
    (hA : ∀ t, ∀ it ∈ R.prog t, A it.loc → it.isFence = true ∨ it.asksSeqCst = true)
    {before} (h : R.mixed.ScOrder before) (a : OpId) (x v : Nat) (ha : FreeOp R.toRun A a) (hf : FreeFound R.toRun R.ReadsFrom V a x v) :
    (∃ b, FreeOp R.toRun A b ∧ before b a ∧ FreeLeft R.toRun V b x v ∧
        ∀ c u, FreeOp R.toRun A c → before c a → FreeLeft R.toRun V c x u → c = b ∨ before c b) ∨
      (v = V.init x ∧ ∀ c u, FreeOp R.toRun A c → before c a → ¬ FreeLeft R.toRun V c x u) := by
  have asks : ∀ {a}, FreeOp R.toRun A a → ∃ it k, (R.prog a.1)[a.2]? = some it ∧ it.kind = some k ∧ it.asksSeqCst = true ∧
      A it.loc := by
    rintro a ⟨it, h1, h2, h3⟩
    rcases hA a.1 it (List.mem_of_getElem? h1) h2 with h | h
    · rw [h3] at h; cases h
    · obtain ⟨k, hk⟩ := asks_kind h
      exact ⟨it, k, h1, hk, h, h2⟩
  obtain ⟨it, k, hit, hk, hsc, hax⟩ := asks ha
  obtain ⟨it', r, s, hit', hx, hret, hrf, hv⟩ := hf
  rw [hit] at hit'; cases hit'
  have hrd := ret_reads hit hk hret
  have hloc : ∀ y, R.Is r y → y.loc = x := by
    intro y hy
    obtain ⟨_, _, hin, -, -⟩ := hret
    exact (loc_of hit hin hy).trans hx
  obtain ⟨s', hs', hval⟩ : ∃ s', R.ReadsFrom r s' ∧ V.of x s' = V.of x s := ⟨s, hrf, rfl⟩
  have locW : ∀ {c w it}, (R.prog c.1)[c.2]? = some it → it.loc = x → R.Pub c w → R.SameLoc r w := by
    intro c w it h1 h2 h3
    obtain ⟨_, z, hin, hz, -⟩ := h3
    obtain ⟨y, hy, -⟩ := hrd
    exact ⟨y, z, hy, hz, (hloc y hy).trans ((loc_of h1 hin hz).trans h2).symm⟩
  have left : ∀ {c u}, FreeOp R.toRun A c → FreeLeft R.toRun V c x u → ∃ w : Pos, R.mixed.seqCst c ∧ R.mixed.of (w, .wr) c ∧
      R.mixed.write (w, .wr) ∧ R.mixed.loc (r, .rd) = R.mixed.loc (w, .wr) := by
    intro c u hc hl
    obtain ⟨it1, k1, h1, hk1, hs1, -⟩ := asks hc
    obtain ⟨it2, w, h2, hl2, hp, -⟩ := hl
    rw [h1] at h2; cases h2
    exact ⟨w, ⟨it1, h1, hs1⟩, .inr ⟨rfl, hp⟩, ⟨rfl, pub_writes h1 hk1 hp⟩, Verif.Mca.Run.SameLoc.loc (locW h1 hl2 hp)⟩
  have src : ∀ w, s'.map (fun w => (w, Part.wr)) = some w → R.mixed.write w ∧ R.mixed.loc (r, .rd) = R.mixed.loc w ∧
      ∃ b, R.mixed.seqCst b ∧ R.mixed.of w b ∧ b ≠ a := by
    intro w hw
    cases s' with
    | none => cases hw
    | some w' =>
      cases hw
      obtain ⟨h1, h2, h4⟩ := hs'.1
      have hz := h1
      obtain ⟨z, hz, -⟩ := hz
      obtain ⟨b, itb, hin⟩ := exists_within hz
      obtain ⟨y, z', hy, hz', hyz⟩ := h2
      have hlb : itb.loc = x := by rw [← hin.loc hz, hz.unique hz', ← hyz]; exact hloc y hy
      have hfb : FreeOp R.toRun A b := ⟨itb, hin.item, by rw [hlb, ← hx]; exact hax, hin.writes h1⟩
      obtain ⟨it1, k1, e1, hk1, hs1, -⟩ := asks hfb
      have := hin.item; rw [e1] at this; cases this
      have hp : R.Pub b w' := (op_of hbe e1 (hAs _ _ (List.mem_of_getElem? e1) hs1)).2 w' hin h1
      refine ⟨⟨rfl, h1⟩, Verif.Mca.Run.SameLoc.loc ⟨y, z', hy, hz', hyz⟩, b, ⟨itb, e1, hs1⟩, .inr ⟨rfl, hp⟩, ?_⟩
      rintro rfl
      have hpr := paired_of hit hk hret hp
      exact hR.co_irrefl _ (hR.rmw_co hpr hrd h1 hs'.1)
  have main := reads_last h (r := (r, .rd)) (s := s'.map (fun w => (w, Part.wr))) (a := a)
    (fun w v hw hv hl hne => hR.co_total _ _ hw.2 hv.2 (Pow.Run.mixed_sameLoc (Pow.Run.mixed_write hw) (Pow.Run.mixed_write hv) hl)
      fun e => hne (Prod.ext e (hw.1.trans hv.1.symm)))
    (fun w b c => of_one (R := R.toRun)) ⟨it, hit, hsc⟩ ⟨rfl, hrd⟩ (.inl ⟨rfl, hret⟩)
    (by cases s' <;> exact hs') src
  rcases main with ⟨w, b, e, hofb, hb, hba, hall⟩ | ⟨e, hall⟩
  · left
    cases s' with
    | none => cases e
    | some w' =>
      cases e
      obtain ⟨itb, e1, hs1⟩ := hb
      obtain ⟨k1, hk1⟩ := asks_kind hs1
      have hp : R.Pub b w' := by
        rcases hofb with ⟨e, -⟩ | ⟨-, h⟩
        · cases e
        · exact h
      have hlb : itb.loc = x := by
        obtain ⟨-, ⟨y, z, hy, hz, hyz⟩, -⟩ := hs'.1
        obtain ⟨_, _, hin, -, -⟩ := hp
        rw [← loc_of e1 hin hz, ← hyz]; exact hloc y hy
      have hfb : FreeOp R.toRun A b := ⟨itb, e1, by rw [hlb, ← hx]; exact hax, by cases itb <;> first | rfl | cases hs1⟩
      refine ⟨b, hfb, hba, ⟨itb, w', e1, hlb, hp, ?_⟩, ?_⟩
      · rw [hv, ← hval]; rfl
      · intro c u hc hca hl
        obtain ⟨w'', k1, k2, k3, k4⟩ := left hc hl
        exact hall c _ k1 k2 k3 k4 hca
  · right
    cases s' with
    | some => cases e
    | none =>
      refine ⟨by rw [hv, ← hval]; rfl, ?_⟩
      intro c u hc hca hl
      obtain ⟨w'', k1, k2, k3, k4⟩ := left hc hl
      exact hall c _ k1 k2 k3 k4 hca

end Verif.Locked
