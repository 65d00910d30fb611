import Verif.Mca.Sc
import Verif.Mca.Shape

/-! Helper lemmas: seq_cst operations take effect in one order. -/

namespace Verif.Mca

open Verif.Order

/-- A seq_cst item is one of the operations of C19. -/
theorem Item.isSeqCst.form {it : Item} (h : it.isSeqCst = true) : ∃ b, it.backend = some b ∧
    ((∃ k o n, it.code = trace b k o n ∧ k.isSeqCst o = true ∧ scBroken b k = false) ∨
      (b.isSync = true ∧ it.code = gccSyncClear .seqCst)) := by
  cases it with
  | op b k o n l =>
    simp [Item.isSeqCst] at h
    exact ⟨b, rfl, .inl ⟨k, o, n, rfl, h.1.1, h.2⟩⟩
  | exchange b o n l =>
    simp [Item.isSeqCst] at h
    obtain ⟨h, rfl⟩ := h
    exact ⟨b, rfl, .inl ⟨.rmw, .seqCst, n, by simp [Item.code, h], rfl, by cases b <;> rfl⟩⟩
  | clear b o l =>
    simp [Item.isSeqCst] at h
    subst h
    by_cases hb : b.isSync = true
    · exact ⟨b, rfl, .inr ⟨hb, by simp [Item.code, hb]⟩⟩
    · exact ⟨b, rfl, .inl ⟨.store, .seqCst, 0, by simp [Item.code, hb], rfl, by
        cases b <;> first | rfl | exact absurd rfl hb⟩⟩
  | _ => simp [Item.isSeqCst] at h

theorem Cpu.runs_sync {cpu : Cpu} {b : Backend} (h : cpu.runs b = true) : cpu = .sync ↔ b.isSync = true := by
  cases cpu <;> cases b <;> first | (cases h; done) | (constructor <;> intro h <;> first | rfl | cases h)

/-- A seq_cst `clear` of the `__sync` back ends is in order with their other seq_cst operations. -/
theorem sync_clear_table : ∀ b ∈ [Backend.gccSync, .gccSyncWide], ∀ k ∈ scKinds, scBroken b k = false →
    inOrderB .weak (trace b k .seqCst 0) (gccSyncClear .seqCst) = true ∧
    inOrderB .weak (gccSyncClear .seqCst) (trace b k .seqCst 0) = true := by decide

/-- Seq_cst items of one thread take effect in order. -/
theorem Item.isSeqCst.inOrder {cpu : Cpu} {it it' : Item} (hf : it.Fits cpu) (hf' : it'.Fits cpu)
    (h : it.isSeqCst = true) (h' : it'.isSeqCst = true) : InOrder cpu.hw it.code it'.code := by
  obtain ⟨b, hb, h⟩ := Item.isSeqCst.form h
  obtain ⟨b', hb', h'⟩ := Item.isSeqCst.form h'
  have c := hf b hb
  have c' := hf' b' hb'
  have mem : ∀ {b : Backend}, b.isSync = true → b ∈ [Backend.gccSync, .gccSyncWide] := by
    intro b h; cases b <;> first | (cases h; done) | simp
  rcases h with ⟨k, o, n, e, h1, h2⟩ | ⟨hs, e⟩
  · rcases h' with ⟨k', o', n', e', h1', -⟩ | ⟨hs', e'⟩
    · rw [e, e']; exact C19_seq_cst_partial c c' k k' o o' n n' h1 h1' h2
    · obtain rfl := (Cpu.runs_sync c').2 hs'
      have hs := (Cpu.runs_sync c).1 rfl
      rw [e, e']
      obtain ⟨k₀, hk₀, e₀, es⟩ := sc_kind b h1
      have : inOrderB .weak (trace b k o 0) (gccSyncClear .seqCst) = true := by
        rw [e₀]; exact (sync_clear_table b (mem hs) k₀ hk₀ (by rw [es]; exact h2)).1
      intro a x d ea p hp a' y d' ea' q hq mid
      exact inOrder_of_B (trace_grown _ _ _ _) (Grown.refl _) this ea hp ea' hq mid
  · obtain rfl := (Cpu.runs_sync c).2 hs
    rcases h' with ⟨k', o', n', e', h1', h2'⟩ | ⟨hs', e'⟩
    · have hs' := (Cpu.runs_sync c').1 rfl
      rw [e, e']
      obtain ⟨k₀, hk₀, e₀, es⟩ := sc_kind b' h1'
      have : inOrderB .weak (gccSyncClear .seqCst) (trace b' k' o' 0) = true := by
        rw [e₀]; exact (sync_clear_table b' (mem hs') k₀ hk₀ (by rw [es]; exact h2')).2
      intro a x d ea p hp a' y d' ea' q hq mid
      exact inOrder_of_B (Grown.refl _) (trace_grown _ _ _ _) this ea hp ea' hq mid
    · rw [e, e']
      intro a x d ea p hp a' y d' ea' q hq mid
      exact inOrder_of_B (Grown.refl _) (Grown.refl _) (by decide) ea hp ea' hq mid

theorem Item.isSeqCst.kind {it : Item} (h : it.isSeqCst = true) : ∃ k, it.kind = some k := by
  cases it <;> first | exact ⟨_, rfl⟩ | cases h

namespace Run

variable {cpu : Cpu} {R : Run cpu}

theorem load_no_pub {id : OpId} {b : Backend} {n l : Nat} (h : (R.prog id.1)[id.2]? = some (.op b .load .seqCst n l))
    (w : Pos) : ¬ R.Pub id w := by
  rintro ⟨it, x, hin, hx, hp⟩
  have hi := hin.item
  rw [h] at hi
  obtain rfl := Option.some.inj hi
  obtain ⟨pre, -, -, hi⟩ := hin
  obtain ⟨_, a, c, _, he, _⟩ := hi.split hx
  have hmem : x.ins ∈ trace b .load .seqCst n := by
    show x.ins ∈ (Item.op b .load .seqCst n l).code
    rw [← events_ins, he]; simp
  obtain ⟨A, M, B, hl, hA, hB, hM⟩ := shape_trace b .load .seqCst n
  rw [hl] at hmem
  simp only [List.mem_append] at hmem
  rcases hmem with (h | h) | h
  · have := hA _ h; simp [Instr.quiet, hp] at this
  · rcases hM with ⟨y, rfl, -, -, hy⟩ | ⟨y, z, rfl, -, -, hy, -, hz, -⟩
    · rw [List.mem_singleton.1 h, hy] at hp; cases hp
    · rcases List.mem_cons.1 h with h | h
      · rw [h, hy] at hp; cases hp
      · rw [List.mem_singleton.1 h, hz] at hp; cases hp
  · have := hB _ h; simp [Instr.quiet, hp] at this

theorem store_pub {id : OpId} {b : Backend} {n l : Nat} (h : (R.prog id.1)[id.2]? = some (.op b .store .seqCst n l)) :
    ∃ w, R.Pub id w := by
  obtain ⟨pre, post, hp, hlen⟩ := split_at h
  obtain ⟨A, M, B, hl, hA, hB, y, rfl, hy, -⟩ := shape_trace b .store .seqCst n
  have hc : (Item.op b .store .seqCst n l).code = A ++ y :: B := by
    show trace b .store .seqCst n = _
    rw [hl]; simp
  refine ⟨(id.1, (events pre).length + A.length), .op b .store .seqCst n l,
    ⟨y, l, (Item.op b .store .seqCst n l).pairOf y⟩, ⟨pre, hlen, rfl, ⟨post, hp⟩, by simp, ?_⟩, ?_, hy⟩
  · simp [Item.events, hc]
  · rw [Is, code_eq hp, List.getElem?_append_right (by simp)]
    simp [Item.events, hc, Item.loc]

theorem fence_writes_nothing (be : Backend) (o : MO) : ∀ x ∈ threadFence be o, x.wr = false := by
  cases be with
  | aarch64 l r => cases l <;> cases r <;> cases o <;> decide
  | x86Wide m v => cases m <;> cases v <;> cases o <;> decide
  | aarch32 w => cases w <;> cases o <;> decide
  | windows w => cases w <;> cases o <;> decide
  | _ => cases o <;> decide

/-- Operations on the objects `A` are seq_cst. -/
def OnlySeqCst (R : Run cpu) (A : Nat → Prop) : Prop :=
  ∀ t, ∀ it ∈ R.prog t, A it.loc → it.isSeqCst = true ∨ it.isFence = true

theorem Within.loc {e id it x} (h : R.Within e id it) (hx : R.Is e x) : x.loc = it.loc := by
  obtain ⟨pre, -, -, hi⟩ := h
  obtain ⟨_, _, _, _, h, _⟩ := hi.split hx
  exact events_loc h

theorem Within.mem {e id it} (h : R.Within e id it) : it ∈ R.prog id.1 := List.mem_of_getElem? h.item

theorem Within.writes {e id it} (h : R.Within e id it) (hw : R.Has e .wr) : it.isFence = false := by
  obtain ⟨x, hx, hxw⟩ := hw
  cases it with
  | fence b o =>
    obtain ⟨pre, -, -, hi⟩ := h
    obtain ⟨_, a, c, _, h, _⟩ := hi.split hx
    have : x.ins ∈ (Item.fence b o).code := by rw [← events_ins, h]; simp
    rw [Instr.has, fence_writes_nothing b o _ this] at hxw; cases hxw
  | _ => rfl

theorem Within.seqCst {A : Nat → Prop} (hA : R.OnlySeqCst A) {e id it} (h : R.Within e id it)
    (hw : R.Has e .wr) (hl : A it.loc) : it.isSeqCst = true := by
  rcases hA _ _ h.mem hl with h' | h'
  · exact h'
  · rw [h.writes hw] at h'; cases h'

/-- Main effects of seq_cst operations of one thread are performed in order. -/
theorem Local.main_order (hR : R.Local) {id id' : OpId} {it it' : Item} {e f : Pos} {x y : Ev} {p q : Part}
    (hid : id.1 = id'.1) (hlt : id.2 < id'.2) (he : R.Within e id it) (hf : R.Within f id' it')
    (hs : it.isSeqCst = true) (hs' : it'.isSeqCst = true) (hx : R.Is e x) (hy : R.Is f y)
    (hp : x.ins.main p = true) (hq : y.ins.main q = true) (hp' : x.ins.has p = true) (hq' : y.ins.has q = true) :
    R.time e p < R.time f q := by
  have hord := Item.isSeqCst.inOrder (hR.fits _ _ he.mem) (hR.fits _ _ hf.mem) hs hs'
  obtain ⟨pre, hl, ht, hi⟩ := he
  obtain ⟨pre', hl', ht', hi'⟩ := hf
  obtain ⟨post, a, c, hp1, e1, l1⟩ := hi.split hx
  obtain ⟨post', a', c', hp1', e1', l1'⟩ := hi'.split hy
  have hthread : e.1 = f.1 := by rw [ht, ht', hid]
  -- the items between
  obtain ⟨m, hm⟩ : ∃ m, pre' = pre ++ it :: m := by
    have : pre ++ [it] <+: pre' := by
      refine List.prefix_of_prefix_length_le (l₃ := R.prog e.1) ⟨post, by rw [hp1]; simp⟩
        ⟨it' :: post', by rw [hthread, hp1']⟩ ?_
      simp; omega
    obtain ⟨m, hm⟩ := this
    exact ⟨m, by rw [← hm]; simp⟩
  have hcode : R.code e.1 = (events pre ++ a) ++ x :: ((c ++ events m ++ a') ++ y :: (c' ++ events post')) := by
    rw [hthread, code_eq hp1', hm, events_append, events_cons, e1, e1']
    simp
  have ho := hord
    (a.map Ev.ins) x.ins (c.map Ev.ins) (by rw [← events_ins, e1]; simp) p hp
    (a'.map Ev.ins) y.ins (c'.map Ev.ins) (by rw [← events_ins, e1']; simp) q hq ((events m).map Ev.ins)
  have := hR.ordered ho hcode rfl (by simp) rfl hp' hq'
  have i1 : (e.1, (events pre ++ a).length) = e := by ext <;> simp [l1]
  have i2 : (e.1, (events pre ++ a).length + 1 + (c ++ events m ++ a').length) = f := by
    ext
    · exact hthread
    · rw [l1', hm, events_append, events_cons, e1]; simp; omega
  rw [i1, i2] at this
  exact this

theorem Within.before {e f id id' it it'} (h : R.Within e id it) (h' : R.Within f id' it') (hb : Before e f) :
    id.1 = id'.1 ∧ (id = id' ∨ id.2 < id'.2) := by
  obtain ⟨pre, hl, ht, ⟨post, hp⟩, h1, h2⟩ := h
  obtain ⟨pre', hl', ht', ⟨post', hp'⟩, h1', h2'⟩ := h'
  have h0 : id.1 = id'.1 := by rw [← ht, ← ht', hb.1]
  refine ⟨h0, ?_⟩
  rcases Nat.lt_trichotomy id.2 id'.2 with hlt | heq | hlt
  · exact .inr hlt
  · exact .inl (by ext <;> assumption)
  · exfalso
    have : pre' ++ [it'] <+: pre := by
      refine List.prefix_of_prefix_length_le (l₃ := R.prog e.1) ⟨post', by rw [hb.1, hp']; simp⟩
        ⟨it :: post, hp.symm⟩ ?_
      simp; omega
    obtain ⟨m, rfl⟩ := this
    have := hb.2
    simp [events] at h1 h2' h1'
    omega

/-- `w` is the modification of an operation. -/
def Modifies (R : Run cpu) (l : Nat) (w : Pos) : Prop :=
  ∃ id it, R.Within w id it ∧ R.Pub id w ∧ R.Has w .wr ∧ it.loc = l

theorem Paired.unique {r r' w} (h : R.Paired r w) (h' : R.Paired r' w) : r = r' := by
  obtain ⟨-, x, d, hx, hp, ht, hd⟩ := h
  obtain ⟨-, x', d', hx', hp', ht', hd'⟩ := h'
  rw [hx.unique hx', hp'] at hp
  cases hp
  ext <;> omega

/-- A read of a seq_cst operation sees only modifications that have been performed. -/
theorem Valid.visible (hR : R.Valid) {A : Nat → Prop} (hA : R.OnlySeqCst A) {id it r w id'} (hr : R.Ret id r)
    (hin : R.Within r id it) (hrd : R.Has r .rd) (hl : A it.loc) (hs : it.isSeqCst = true)
    (hp : R.Pub id' w) (hv : R.Visible r w) : R.time w .wr < R.time r .rd := by
  obtain ⟨hw, hsl, h | hb⟩ := hv
  · exact h
  obtain ⟨it', y, hin', hy, hpub⟩ := _root_.id hp
  have hyw : y.ins.has .wr = true := by
    obtain ⟨z, hz, h⟩ := hw; rw [hy.unique hz]; exact h
  obtain ⟨x, z, hx, hz, hxz⟩ := hsl
  obtain rfl := hz.unique hy
  have hl' : A it'.loc := by rw [← hin'.loc hy, ← hxz, hin.loc hx]; exact hl
  have hs' := hin'.seqCst hA ⟨z, hy, hyw⟩ hl'
  have hret : x.ins.ret = true := by
    obtain ⟨_, x', _, hx', h⟩ := hr
    rw [hx.unique hx']; exact h
  have hxrd : x.ins.has .rd = true := by
    obtain ⟨x', hx', h⟩ := hrd; rw [hx.unique hx']; exact h
  obtain ⟨h0, heq | hlt⟩ := hin'.before hin hb
  · -- the same operation
    subst heq
    have hit := hin.item
    rw [hin'.item] at hit
    obtain rfl := Option.some.inj hit
    cases facts hin'.item (Item.isSeqCst.kind hs).choose_spec with
    | reads r0 _ _ uniq npub wr => exact absurd hp (npub w)
    | writes _ _ _ _ nret => exact absurd hr (nret r)
    | both r0 w0 _ _ uniq _ _ _ pair wr =>
      rw [wr w hin' ⟨z, hy, hyw⟩, uniq r hr] at hb
      obtain ⟨-, _, _, _, _, _, h⟩ := pair
      have := hb.2
      omega
  · exact hR.main_order h0 hlt hin' hin hs' hs hy hx hpub hret hyw hxrd

/-- The last modification of `l` before moment `T`. -/
def Last (R : Run cpu) (l : Nat) (T : Nat) : Option Pos → Prop
  | none => ∀ w, R.Modifies l w → ¬ R.time w .wr < T
  | some w => R.Modifies l w ∧ R.time w .wr < T ∧ ∀ w', R.Modifies l w' → R.time w' .wr < T → R.time w' .wr ≤ R.time w .wr

theorem Modifies.sameLoc {l w r id it x} (h : R.Modifies l w) (hin : R.Within r id it) (hx : R.Is r x)
    (hl : it.loc = l) : R.SameLoc r w := by
  obtain ⟨id', it', hin', -, ⟨y, hy, -⟩, hl'⟩ := h
  exact ⟨x, y, hx, hy, by rw [hin.loc hx, hin'.loc hy, hl, hl']⟩

/-- A seq_cst operation finds the value of the last modification. -/
theorem Valid.last (hR : R.Valid) {A : Nat → Prop} (hA : R.OnlySeqCst A) {V : Values} (hV : R.Copies V) :
    ∀ (T : Nat) {id it r s}, R.time r .rd = T → R.Ret id r → R.Within r id it → R.Has r .rd → A it.loc →
      it.isSeqCst = true → R.ReadsFrom r s →
      ∃ s', R.Last it.loc (R.time r .rd) s' ∧ V.of it.loc s = V.of it.loc s' := by
  intro T
  induction T using Nat.strongRecOn with
  | ind T ih =>
  intro id it r s hT hr hin hrd hl hs hrf
  obtain ⟨x, hx, hxrd⟩ := hrd
  cases s with
  | none =>
    refine ⟨none, ?_, rfl⟩
    intro w hw hlt
    exact hrf w ⟨hw.choose_spec.choose_spec.2.2.1, hw.sameLoc hin hx rfl, .inl hlt⟩
  | some w =>
    obtain ⟨hv, hmax⟩ := hrf
    have hlt : ∀ id', R.Pub id' w → _ := fun id' hp => hR.visible hA hr hin ⟨x, hx, hxrd⟩ hl hs hp hv
    obtain ⟨⟨y, hy, hyw⟩, hsl, hord⟩ := hv
    obtain ⟨id', it', hin'⟩ := exists_within hy
    obtain ⟨x', y', hx', hy', hxy⟩ := hsl
    obtain rfl := hx.unique hx'
    obtain rfl := hy.unique hy'
    have hll : it'.loc = it.loc := by rw [← hin'.loc hy, ← hxy, hin.loc hx]
    have hl' : A it'.loc := by rw [hll]; exact hl
    have hs' := hin'.seqCst hA ⟨y, hy, hyw⟩ hl'
    have hmax' : ∀ w', R.Modifies it.loc w' → R.time w' .wr < R.time r .rd → R.time w' .wr ≤ R.time w .wr := by
      intro w' hw' hlt'
      exact hmax w' ⟨hw'.choose_spec.choose_spec.2.2.1, hw'.sameLoc hin hx rfl, .inl hlt'⟩
    have pub : R.Pub id' w → _ := fun hp =>
      (⟨some w, ⟨⟨id', it', hin', hp, ⟨y, hy, hyw⟩, hll⟩, hlt id' hp, hmax'⟩, rfl⟩ :
        ∃ s', R.Last it.loc (R.time r .rd) s' ∧ V.of it.loc (some w) = V.of it.loc s')
    cases facts hin'.item (Item.isSeqCst.kind hs').choose_spec with
    | writes w0 hp _ _ _ wr => exact pub (wr w hin' ⟨y, hy, hyw⟩ ▸ hp)
    | both _ w0 _ _ _ hp _ _ _ wr => exact pub (wr w hin' ⟨y, hy, hyw⟩ ▸ hp)
    | reads r0 hret hrd0 _ npub wr =>
      obtain ⟨hP, hnp⟩ := wr w hin' ⟨y, hy, hyw⟩
      obtain ⟨s0, hrf0, hval⟩ := hV r0 w y ⟨hP, hnp⟩ hy
      have h1 := hR.paired hP hrd0 ⟨y, hy, hyw⟩
      have h2 : R.time r0 .rd < R.time r .rd := by
        rcases hord with h | h
        · omega
        · have hb : Before r0 r := by
            rcases hP.before with rfl | hb
            · exact h
            · exact hb.trans h
          exact hR.sameLoc r0 r .rd .rd hb (hP.1.trans ⟨y, x, hy, hx, hxy.symm⟩) hrd0 ⟨x, hx, hxrd⟩ (by simp)
      have hin0 : R.Within r0 id' it' := by
        obtain ⟨it2, _, h, -, -⟩ := _root_.id hret
        have e := h.item
        rw [hin'.item] at e
        rw [Option.some.inj e]; exact h
      obtain ⟨s', hlast, heq⟩ := ih (R.time r0 .rd) (by omega) rfl hret hin0 hrd0 hl' hs' hrf0
      rw [hll] at hlast heq
      refine ⟨s', ?_, ?_⟩
      · have key : ∀ w', R.Modifies it.loc w' → R.time w' .wr < R.time r .rd → R.time w' .wr < R.time r0 .rd := by
          intro w' hw' hlt'
          have hne : w' ≠ w := by
            rintro rfl
            obtain ⟨id2, it2, hin2, hp2, -, -⟩ := hw'
            rw [← (hin'.unique hin2).1] at hp2
            exact npub _ hp2
          rcases hR.atomic r0 w w' hP hw'.choose_spec.choose_spec.2.2.1 (hw'.sameLoc hin' hy hll).symm hne with h | h
          · exact h
          · have := hmax' w' hw' hlt'; omega
        cases s' with
        | none => intro w' hw' hlt'; exact hlast w' hw' (key w' hw' hlt')
        | some v =>
          refine ⟨hlast.1, by have := hlast.2.1; omega, ?_⟩
          intro w' hw' hlt'
          exact hlast.2.2 w' hw' (key w' hw' hlt')
      · rw [← heq, ← hll, ← hin'.loc hy]; exact hval

/-- The moment at which a seq_cst operation takes effect. -/
def At (R : Run cpu) (id : OpId) (T : Nat) : Prop :=
  (∃ w, R.Pub id w ∧ T = R.time w .wr) ∨ ((∀ w, ¬ R.Pub id w) ∧ ∃ r, R.Ret id r ∧ T = R.time r .rd)

/-- The effect that counts. -/
theorem main_effect {id it} (hit : (R.prog id.1)[id.2]? = some it) (hs : it.isSeqCst = true) :
    ∃ e x p, R.Within e id it ∧ R.Is e x ∧ x.ins.main p = true ∧ x.ins.has p = true ∧
      ∀ T, R.At id T ↔ T = R.time e p := by
  have hW : ∀ {e it'}, R.Within e id it' → it' = it := by
    intro e it' h; have := h.item; rw [hit] at this; exact (Option.some.inj this).symm
  have pub : ∀ w, R.Pub id w → R.Has w .wr → (∀ e, R.Pub id e → e = w) →
      ∃ e x p, R.Within e id it ∧ R.Is e x ∧ x.ins.main p = true ∧ x.ins.has p = true ∧
      ∀ T, R.At id T ↔ T = R.time e p := fun w hp hw uniq => by
    obtain ⟨it', x, hin, hx, hpub⟩ := _root_.id hp
    obtain ⟨x', hx', h⟩ := hw
    rw [← hx.unique hx'] at h
    rw [hW hin] at hin
    refine ⟨w, x, .wr, hin, hx, hpub, h, fun T => ⟨?_, fun h => .inl ⟨w, hp, h⟩⟩⟩
    rintro (⟨w', hp', h⟩ | ⟨h, -⟩)
    · rw [h, uniq w' hp']
    · exact absurd hp (h w)
  cases facts hit (Item.isSeqCst.kind hs).choose_spec with
  | writes w hp hw uniq => exact pub w hp hw uniq
  | both _ w _ _ _ hp hw uniq => exact pub w hp hw uniq
  | reads r hr hrd uniq npub =>
    obtain ⟨it', x, hin, hx, hret⟩ := _root_.id hr
    obtain ⟨x', hx', h⟩ := hrd
    rw [← hx.unique hx'] at h
    rw [hW hin] at hin
    refine ⟨r, x, .rd, hin, hx, hret, h, fun T => ⟨?_, fun h => .inr ⟨npub, r, hr, h⟩⟩⟩
    rintro (⟨w', hp', -⟩ | ⟨-, r', hr', h⟩)
    · exact absurd hp' (npub w')
    · rw [h, uniq r' hr']

theorem Valid.total_order (hR : R.Valid) {A : Nat → Prop} (hA : R.OnlySeqCst A) {V : Values} (hV : R.Copies V) :
    (R.observations V A).SequentiallyConsistent := by
  have hop : ∀ a : (R.observations V A).Op, ∃ it, (R.prog a.1.1)[a.1.2]? = some it ∧ A it.loc ∧
      it.isSeqCst = true ∧ (R.observations V A).obj a = it.loc := by
    rintro ⟨a, it, h1, h2, h3⟩
    refine ⟨it, h1, h2, ?_, by simp [observations, h1]⟩
    rcases hA _ _ (List.mem_of_getElem? h1) h2 with h | h
    · exact h
    · rw [h3] at h; cases h
  have hAt : ∀ a : (R.observations V A).Op, ∃ T, ∀ T', R.At a.1 T' ↔ T' = T := by
    intro a
    obtain ⟨it, h1, -, h2, -⟩ := hop a
    obtain ⟨e, x, p, -, -, -, -, h⟩ := main_effect h1 h2
    exact ⟨_, h⟩
  obtain ⟨S, hS⟩ := Classical.axiomOfChoice hAt
  have hinj : ∀ a b, S a = S b → a = b := by
    intro a b hab
    obtain ⟨it, h1, -, h2, -⟩ := hop a
    obtain ⟨it', h1', -, h2', -⟩ := hop b
    obtain ⟨e, x, p, hin, hx, hm, hh, h⟩ := main_effect h1 h2
    obtain ⟨e', x', p', hin', hx', hm', hh', h'⟩ := main_effect h1' h2'
    have e1 : S a = R.time e p := (h _).1 ((hS a _).2 rfl)
    have e2 : S b = R.time e' p' := (h' _).1 ((hS b _).2 rfl)
    obtain ⟨rfl, -⟩ := hR.distinct e p e' p' ⟨x, hx, hh⟩ ⟨x', hx', hh'⟩ (by rw [← e1, ← e2, hab])
    exact Subtype.ext (hin.unique hin').1
  -- modifications of objects
  have hmod : ∀ (b : (R.observations V A).Op) u, (R.observations V A).stored b u →
      ∃ w, R.Pub b.1 w ∧ u = V.val w ∧ R.Modifies ((R.observations V A).obj b) w ∧ S b = R.time w .wr := by
    rintro b u ⟨w, hp, hu⟩
    obtain ⟨it, h1, -, h2, h3⟩ := hop b
    have hwin : R.Within w b.1 it := by
      obtain ⟨it', _, hin, -, -⟩ := id hp
      have := hin.item; rw [h1] at this; rw [Option.some.inj this]; exact hin
    have hhas : R.Has w .wr := by
      cases facts h1 (Item.isSeqCst.kind h2).choose_spec with
      | writes w0 _ hw uniq => rw [uniq w hp]; exact hw
      | both _ w0 _ _ _ _ hw uniq => rw [uniq w hp]; exact hw
      | reads _ _ _ _ npub => exact absurd hp (npub w)
    exact ⟨w, hp, hu, ⟨b.1, it, hwin, hp, hhas, h3.symm⟩, ((hS b _).1 (.inl ⟨w, hp, rfl⟩)).symm⟩
  have hmod' : ∀ l w, A l → R.Modifies l w →
      ∃ b, (R.observations V A).obj b = l ∧ (R.observations V A).stored b (V.val w) ∧ S b = R.time w .wr ∧
        R.Pub b.1 w := by
    rintro l w hl ⟨idb, it, hin, hp, hw, rfl⟩
    let b : (R.observations V A).Op := ⟨idb, it, hin.item, hl, hin.writes hw⟩
    refine ⟨b, ?_, ⟨w, hp, rfl⟩, ((hS b _).1 (.inl ⟨w, hp, rfl⟩)).symm, hp⟩
    have := hin.item
    simp [observations, b, this]
  refine ⟨fun a b => S a < S b, fun a => Nat.lt_irrefl _, fun a b c => Nat.lt_trans, ?_, ?_, ?_⟩
  · intro a b hne
    rcases Nat.lt_trichotomy (S a) (S b) with h | h | h
    · exact .inl h
    · exact absurd (hinj a b h) hne
    · exact .inr h
  · rintro a b ⟨ht, hlt⟩
    obtain ⟨it, h1, -, h2, -⟩ := hop a
    obtain ⟨it', h1', -, h2', -⟩ := hop b
    obtain ⟨e, x, p, hin, hx, hm, hh, h⟩ := main_effect h1 h2
    obtain ⟨e', x', p', hin', hx', hm', hh', h'⟩ := main_effect h1' h2'
    show S a < S b
    rw [(h _).1 ((hS a _).2 rfl), (h' _).1 ((hS b _).2 rfl)]
    exact hR.main_order ht hlt hin hin' h2 h2' hx hx' hm hm' hh hh'
  · rintro a v ⟨r, it0, s, hit0, hr, hrf, hv⟩
    obtain ⟨it, h1, hl, h2, h3⟩ := hop a
    obtain rfl : it0 = it := by rw [h1] at hit0; exact (Option.some.inj hit0).symm
    have hrin : R.Within r a.1 it0 := by
      obtain ⟨it', _, hin, -, -⟩ := id hr
      have := hin.item; rw [h1] at this; rw [Option.some.inj this]; exact hin
    -- the read, and which modifications come before the operation
    have key : R.Has r .rd ∧ ∀ w, R.Modifies it0.loc w → (R.time w .wr < S a ↔ R.time w .wr < R.time r .rd) := by
      cases facts h1 (Item.isSeqCst.kind h2).choose_spec with
      | writes _ _ _ _ nret => exact absurd hr (nret r)
      | reads r0 _ hrd uniq npub =>
        have : r = r0 := uniq r hr
        subst this
        refine ⟨hrd, fun w _ => ?_⟩
        rw [(hS a (R.time r .rd)).1 (.inr ⟨npub, r, hr, rfl⟩)]
      | both r0 w0 _ hrd uniq hp hw uniq' pair =>
        have : r = r0 := uniq r hr
        subst this
        refine ⟨hrd, fun w hwm => ?_⟩
        rw [← (hS a (R.time w0 .wr)).1 (.inl ⟨w0, hp, rfl⟩)]
        have hrw : R.time r .rd < R.time w0 .wr := by
          obtain ⟨hsl, _, d, _, _, ht, hd⟩ := id pair
          cases d with
          | zero =>
            have : r = w0 := by ext; exact ht; simpa using hd
            subst this
            exact hR.readFirst r hrd hw
          | succ d => exact hR.sameLoc r w0 .rd .wr ⟨ht, by omega⟩ hsl hrd hw (by simp)
        constructor
        · intro hlt
          have hne : w ≠ w0 := by rintro rfl; exact Nat.lt_irrefl _ hlt
          obtain ⟨xr, hxr, -⟩ := id hrd
          have hsl : R.SameLoc w w0 := (hwm.sameLoc hrin hxr rfl).symm.trans pair.1
          rcases hR.atomic r w0 w pair hwm.choose_spec.choose_spec.2.2.1 hsl hne with h | h
          · exact h
          · omega
        · intro hlt; omega
    obtain ⟨hrd, key⟩ := key
    obtain ⟨s', hlast, heq⟩ := hR.last hA hV _ rfl hr hrin hrd hl h2 hrf
    rw [heq] at hv
    cases s' with
    | none =>
      refine .inr ⟨by rw [h3]; exact hv, ?_⟩
      intro c u hlt hobj hst
      obtain ⟨w, -, -, hm, hSc⟩ := hmod c u hst
      rw [hobj, h3] at hm
      exact hlast w hm ((key w hm).1 (hSc ▸ hlt))
    | some w =>
      obtain ⟨hm, hlt, hmax⟩ := hlast
      obtain ⟨b, hobj, hst, hSb, -⟩ := hmod' _ w hl hm
      have hlt' : R.time w .wr < S a := (key w hm).2 hlt
      refine .inl ⟨b, by show S b < S a; rw [hSb]; exact hlt', by rw [hobj, h3], by rw [hv]; exact hst, ?_⟩
      intro c u hca hobjc hstc
      obtain ⟨w', -, -, hm', hSc⟩ := hmod c u hstc
      rw [hobjc, h3] at hm'
      have hle := hmax w' hm' ((key w' hm').1 (hSc ▸ hca))
      rw [← hSb, ← hSc] at hle
      rcases Nat.lt_or_eq_of_le hle with h | h
      · exact .inr h
      · exact .inl (hinj c b h)

end Run
end Verif.Mca
