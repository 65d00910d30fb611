import Verif.Pow.Lemmas
import Mathlib.Order.Extension.Linear

/-! Helper lemmas: seq_cst operations take effect in one order although writes become visible to one thread after
another. -/

namespace Verif.Pow

open Verif.Order Verif.Mca Verif.Mca.Run

/-! ### Barriers in the instruction sequences -/

/-- Delivers the result or makes the modification. -/
def effect (x : Instr) : Bool := x.ret || x.pub

theorem effect_quiet {x : Instr} (h : effect x = true) : x.quiet = false := by
  simp only [effect, Bool.or_eq_true] at h
  rcases h with h | h <;> simp [Instr.quiet, h]

/-- The part of a sequence with unsuccessful rounds from an effect on. -/
theorem trace_tail {be : Backend} {k o} (n : Nat) {a x c} (e : trace be k o n = a ++ x :: c) (hx : x.quiet = false) :
    ∃ a', trace be k o 0 = a' ++ x :: c := by
  obtain ⟨pre, H, core, e1, e2, hp, hH⟩ := trace_split_quiet be k o n
  have hget : (trace be k o n)[a.length]? = some x := by rw [e]; simp
  obtain ⟨j, hj, hc⟩ := mem_shape (A := pre ++ H) (M := core) (B := []) (by rw [e1]; simp)
    (fun y hy => by rcases List.mem_append.1 hy with h | h; exact hp y h; exact hH y h) (by simp) hget hx
  obtain ⟨a', c', e3, l3⟩ := Run.split_at hc
  rw [e1, e3, ← List.append_assoc] at e
  have := (List.append_inj e (by simp at hj ⊢; omega)).2
  exact ⟨pre ++ a', by rw [e2, e3, List.append_assoc, this]⟩

theorem trace_trailed {be : Backend} {k o} (h : guarded effect heavy false (trace be k o 0).reverse = true) (n : Nat)
    {a x c} (e : trace be k o n = a ++ x :: c) (hx : effect x = true) : ∃ z ∈ c, heavy z = true := by
  obtain ⟨a', e'⟩ := trace_tail n e (effect_quiet hx)
  rcases guarded_spec h (a := c.reverse) (x := x) (c := a'.reverse) (by rw [e']; simp) hx with h | ⟨z, hz, hg⟩
  · cases h
  · exact ⟨z, by simpa using hz, hg⟩

/-- Between the effects of two seq_cst operations there is a heavy barrier. -/
theorem sc_barrier {cpu : Cpu} (hc : cpu ∈ barriers) {c₁ c₂ : Backend} (hc₁ : cpu.runs c₁ = true)
    (hc₂ : cpu.runs c₂ = true) {k₁ k₂ : Kind} {o₁ o₂ : MO} (n₁ n₂ : Nat)
    (h₁ : k₁.isSeqCst o₁ = true) (h₂ : k₂.isSeqCst o₂ = true) (hb : scBroken c₁ k₁ = false)
    {a₁ x b₁ a₂ y b₂} (e₁ : trace c₁ k₁ o₁ n₁ = a₁ ++ x :: b₁) (e₂ : trace c₂ k₂ o₂ n₂ = a₂ ++ y :: b₂)
    (hx : effect x = true) (hy : effect y = true) : (∃ z ∈ b₁, heavy z = true) ∨ ∃ z ∈ a₂, heavy z = true := by
  have lead : cpu = .power → guarded effect heavy false (trace c₂ k₂ o₂ 0) = true := by
    rintro rfl
    cases c₂ <;> first | (cases hc₂; done) | skip
    all_goals
      cases k₂ <;> (try rename_i f; cases f) <;> cases o₂ <;> first | rfl | (exact absurd h₂ (by decide))
  have trail : cpu ≠ .power → guarded effect heavy false (trace c₁ k₁ o₁ 0).reverse = true := by
    intro hp
    simp only [barriers, List.mem_cons, List.not_mem_nil, or_false] at hc
    rcases hc with rfl | rfl | rfl <;> first | (exact absurd rfl hp) | skip
    all_goals
      cases c₁ <;> first | (cases hc₁; done) | skip
    all_goals
      cases k₁ <;> (try rename_i f; cases f) <;> cases o₁ <;>
        first | rfl | (exact absurd h₁ (by decide)) | (exact absurd hb (by decide))
  by_cases hp : cpu = .power
  · exact .inr (trace_guarded (fun x => effect_quiet) (lead hp) n₂ e₂ hy)
  · exact .inl (trace_trailed (trail hp) n₁ e₁ hx)

/-- Nothing is excluded but failing compare-and-exchange operations of the kernel helpers. -/
theorem not_broken {cpu : Cpu} (hc : cpu ∈ barriers) {it : Item} (hf : it.Fits cpu)
    (hok : ∀ f o n l, it ≠ .op .linuxArm (.casFail f) o n l) : it.broken = false := by
  cases it with
  | op b k o n l =>
    have hb := runs_codes hc (hf b rfl)
    simp only [codes, List.mem_cons, List.not_mem_nil, or_false] at hb
    rcases hb with rfl | rfl | rfl | rfl | rfl | rfl
    case inr.inr.inr.inr.inr =>
      cases k <;> first
        | exact absurd rfl (hok _ _ _ _)
        | simp [Item.broken, acquireBroken]
    all_goals simp [Item.broken, acquireBroken]
  | exchange b o n l =>
    have hb := runs_codes hc (hf b rfl)
    simp only [codes, List.mem_cons, List.not_mem_nil, or_false] at hb
    rcases hb with rfl | rfl | rfl | rfl | rfl | rfl <;> simp [Item.broken, acquireBroken]
  | fence b o =>
    have hb := runs_codes hc (hf b rfl)
    simp only [codes, List.mem_cons, List.not_mem_nil, or_false] at hb
    rcases hb with rfl | rfl | rfl | rfl | rfl | rfl <;> cases o <;> rfl
  | user => rfl
  | clear => rfl

theorem sc_fine {cpu : Cpu} (hc : cpu ∈ barriers) {b : Backend} (hf : cpu.runs b = true) {k : Kind}
    (hk : b = .linuxArm → ∀ f, k ≠ .casFail f) : scBroken b k = false := by
  have hb := runs_codes hc hf
  cases b <;> first
    | rfl
    | (exact absurd hb (by decide))
    | cases k <;> first | rfl | exact absurd rfl (hk rfl _)

theorem not_sync {cpu : Cpu} (hc : cpu ∈ barriers) {b : Backend} (hf : cpu.runs b = true) : b.isSync = false := by
  have := runs_codes hc hf
  cases b <;> first | rfl | exact absurd this (by decide)

/-- An operation that modifies nothing does not write. -/
theorem no_copy {be : Backend} (hbe : be ∈ codes) {k : Kind} {o : MO} (n : Nat) {x : Instr}
    (h : x ∈ trace be k o n) (hq : x.wr = true) : x.pub = true := by
  obtain ⟨a, c, e⟩ := List.append_of_mem h
  obtain ⟨a', e'⟩ := trace_tail n e (by simp [Instr.quiet, hq])
  have : (trace be k o 0).all (fun x => !x.wr || x.pub) = true := by
    simp only [codes, List.mem_cons, List.not_mem_nil, or_false] at hbe
    rcases hbe with rfl | rfl | rfl | rfl | rfl | rfl <;> cases k <;> (try rename_i f; cases f) <;> cases o <;> rfl
  have := List.all_eq_true.1 this x (by rw [e']; simp)
  simpa [hq] using this

namespace Run

variable {cpu : Cpu} {R : Run cpu}

/-- The instructions of a seq_cst operation. -/
theorem form (hbe : R.OnBarriers) {t : Nat} {it : Item} (hm : it ∈ R.prog t) (hs : it.isSeqCst = true) :
    ∃ b k o n, cpu.runs b = true ∧ it.code = trace b k o n ∧ k.isSeqCst o = true ∧ scBroken b k = false := by
  obtain ⟨b, hb, ⟨k, o, n, h1, h2, h3⟩ | ⟨h, -⟩⟩ := Item.isSeqCst.form hs
  · exact ⟨b, k, o, n, hbe.2 t it hm b hb, h1, h2, h3⟩
  · rw [not_sync hbe.1 (hbe.2 t it hm _ hb)] at h; cases h

/-- A heavy barrier between the effects of two seq_cst operations of one thread. -/
theorem barrier_between (hbe : R.OnBarriers) {id id' : OpId} {it it' : Item} {e f : Pos} {x y : Ev}
    (hid : id.1 = id'.1) (hlt : id.2 < id'.2) (he : R.Within e id it) (hf : R.Within f id' it')
    (hs : it.isSeqCst = true) (hs' : it'.isSeqCst = true) (hx : R.Is e x) (hy : R.Is f y)
    (hp : effect x.ins = true) (hq : effect y.ins = true) :
    ∃ b z, R.Is b z ∧ heavy z.ins = true ∧ Before e b ∧ Before b f := by
  obtain ⟨b, k, o, n, hr, hc, h1, h3⟩ := form hbe (List.mem_of_getElem? he.item) hs
  obtain ⟨b', k', o', n', hr', hc', h1', -⟩ := form hbe (List.mem_of_getElem? hf.item) hs'
  obtain ⟨pre, hl, ht, hi⟩ := he
  obtain ⟨pre', hl', ht', hi'⟩ := hf
  obtain ⟨post, a, c, hp1, e1, l1⟩ := hi.split hx
  obtain ⟨post', a', c', hp1', e1', l1'⟩ := hi'.split hy
  have hthread : e.1 = f.1 := by rw [ht, ht', hid]
  obtain ⟨m, hm⟩ : ∃ m, pre' = pre ++ it :: m := by
    have : pre ++ [it] <+: pre' := by
      refine List.prefix_of_prefix_length_le (l₃ := R.prog e.1) ⟨post, by rw [hp1]; simp⟩
        ⟨it' :: post', by rw [hthread, hp1']⟩ ?_
      simp; omega
    obtain ⟨m, hm⟩ := this
    exact ⟨m, by rw [← hm]; simp⟩
  have hcode : R.code e.1 = (events pre ++ a) ++ x :: ((c ++ events m ++ a') ++ y :: (c' ++ events post')) := by
    rw [hthread, code_eq hp1', hm, events_append, events_cons, e1, e1']
    simp
  have le : (events pre ++ a).length = e.2 := by simp [l1]
  have lf : (events pre ++ a).length + 1 + (c ++ events m ++ a').length = f.2 := by
    rw [l1', hm, events_append, events_cons, e1]; simp; omega
  have hz : ∃ z ∈ c ++ events m ++ a', heavy z.ins = true := by
    rcases sc_barrier hbe.1 hr hr' n n' h1 h1' h3 (a₁ := a.map Ev.ins) (x := x.ins) (b₁ := c.map Ev.ins)
      (a₂ := a'.map Ev.ins) (y := y.ins) (b₂ := c'.map Ev.ins) (by rw [← hc, ← events_ins, e1]; simp)
      (by rw [← hc', ← events_ins, e1']; simp) hp hq with ⟨z, hz, hh⟩ | ⟨z, hz, hh⟩
    · obtain ⟨z', hz', rfl⟩ := List.mem_map.1 hz
      exact ⟨z', by simp [hz'], hh⟩
    · obtain ⟨z', hz', rfl⟩ := List.mem_map.1 hz
      exact ⟨z', by simp [hz'], hh⟩
  obtain ⟨z, hz, hh⟩ := hz
  obtain ⟨i, hi2, hiz⟩ := List.getElem_of_mem hz
  refine ⟨(e.1, e.2 + 1 + i), z, ?_, hh, ⟨rfl, by show e.2 < _; omega⟩, ⟨hthread, by show _ < f.2; omega⟩⟩
  rw [Is, hcode, List.getElem?_append_right (by show _ ≤ e.2 + 1 + i; omega)]
  show (x :: _)[e.2 + 1 + i - (events pre ++ a).length]? = _
  rw [le, show e.2 + 1 + i - e.2 = i + 1 by omega, List.getElem?_cons_succ, List.getElem?_append_left hi2,
    List.getElem?_eq_getElem hi2, hiz]

/-- The effects of an operation. -/
def Main (R : Run cpu) (a : OpId) (e : Pos) (p : Part) : Prop := (p = .wr ∧ R.Pub a e) ∨ (p = .rd ∧ R.Ret a e)

/-- The write an operation leaves as the last one: its own or the one it reads. -/
def Src (R : Run cpu) (a : OpId) (s : Option Pos) : Prop :=
  (∃ w, R.Pub a w ∧ s = some w) ∨ ((∀ w, ¬ R.Pub a w) ∧ ∃ r, R.Ret a r ∧ R.ReadsFrom r s)

/-- Earlier in the order of the writes of a variable. -/
def Slt (R : Run cpu) : Option Pos → Option Pos → Prop
  | none, some _ => True
  | some w, some v => R.Co w v
  | _, none => False

theorem heavy_cumulative {x : Instr} (h : heavy x = true) : cumulative x = true := by
  simp only [heavy, cumulative, Bool.and_eq_true] at h ⊢
  exact ⟨⟨h.1.1.1.1, h.1.1.2⟩, h.2⟩

/-- What we know about seq_cst operations. -/
structure Op (R : Run cpu) (a : OpId) (l : Nat) : Prop where
  nonempty : ∃ e p, R.Main a e p
  main : ∀ e p, R.Main a e p → R.Has e p
  loc : ∀ e p, R.Main a e p → ∀ x, R.Is e x → x.loc = l
  pub : ∀ e f, R.Pub a e → R.Pub a f → e = f
  ret : ∀ e f, R.Ret a e → R.Ret a f → e = f
  pair : ∀ r w, R.Ret a r → R.Pub a w → R.Paired r w

theorem op_of (hbe : R.OnBarriers) {a : OpId} {it : Item} (hit : (R.prog a.1)[a.2]? = some it)
    (hs : it.isSeqCst = true) : R.Op a it.loc ∧ ∀ e, R.Within e a it → R.Has e .wr → R.Pub a e := by
  have hW : ∀ {e it'}, R.Within e a it' → it' = it := by
    intro e it' h; have := h.item; rw [hit] at this; exact (Option.some.inj this).symm
  have hloc : ∀ e p, R.Main a e p → ∀ x, R.Is e x → x.loc = it.loc := by
    rintro e p (⟨-, it', x', hin, -, -⟩ | ⟨-, it', x', hin, -, -⟩) x hx
    · rw [← hW hin]; exact hin.loc hx
    · rw [← hW hin]; exact hin.loc hx
  cases facts hit (Item.isSeqCst.kind hs).choose_spec with
  | reads r hr hrd uniq npub wr =>
    refine ⟨⟨⟨r, .rd, .inr ⟨rfl, hr⟩⟩, ?_, hloc, fun e _ h => absurd h (npub e), fun e f h h' => by
      rw [uniq e h, uniq f h'], fun _ w _ h => absurd h (npub w)⟩, ?_⟩
    · rintro e p (⟨-, h⟩ | ⟨rfl, h⟩)
      · exact absurd h (npub e)
      · rw [uniq e h]; exact hrd
    · intro e hin hw
      obtain ⟨-, x, hx, hnp⟩ := wr e hin hw
      exfalso
      obtain ⟨b, k, o, n, hrun, hc, -⟩ := form hbe (List.mem_of_getElem? hit) hs
      obtain ⟨pre, -, -, hi⟩ := hin
      obtain ⟨_, _, _, _, he, _⟩ := hi.split hx
      have hmem : x.ins ∈ trace b k o n := by rw [← hc, ← events_ins, he]; simp
      obtain ⟨x', hx', hxw⟩ := hw
      rw [← hx.unique hx'] at hxw
      rw [no_copy (runs_codes hbe.1 hrun) n hmem hxw] at hnp; cases hnp
  | writes w hp hw uniq nret wr =>
    refine ⟨⟨⟨w, .wr, .inl ⟨rfl, hp⟩⟩, ?_, hloc, fun e f h h' => by rw [uniq e h, uniq f h'],
      fun e _ h => absurd h (nret e), fun r _ h => absurd h (nret r)⟩, ?_⟩
    · rintro e p (⟨rfl, h⟩ | ⟨-, h⟩)
      · rw [uniq e h]; exact hw
      · exact absurd h (nret e)
    · intro e hin hw'; rw [wr e hin hw']; exact hp
  | both r w hr hrd uniq hp hw uniq' pair wr =>
    refine ⟨⟨⟨w, .wr, .inl ⟨rfl, hp⟩⟩, ?_, hloc, fun e f h h' => by rw [uniq' e h, uniq' f h'],
      fun e f h h' => by rw [uniq e h, uniq f h'], fun r' w' h h' => by rw [uniq r' h, uniq' w' h']; exact pair⟩, ?_⟩
    · rintro e p (⟨rfl, h⟩ | ⟨rfl, h⟩)
      · rw [uniq' e h]; exact hw
      · rw [uniq e h]; exact hrd
    · intro e hin hw'; rw [wr e hin hw']; exact hp

theorem Op.sameLoc {a b : OpId} {l : Nat} (ha : R.Op a l) (hb : R.Op b l) {e p f q} (he : R.Main a e p)
    (hf : R.Main b f q) : R.SameLoc e f := by
  obtain ⟨x, hx, -⟩ := ha.main e p he
  obtain ⟨y, hy, -⟩ := hb.main f q hf
  exact ⟨x, y, hx, hy, by rw [ha.loc e p he x hx, hb.loc f q hf y hy]⟩

theorem Valid.slt_trans (hR : R.Valid) {s t u : Option Pos} (h : R.Slt s t) (h' : R.Slt t u) : R.Slt s u := by
  cases s <;> cases t <;> cases u <;> simp only [Slt] at h h' ⊢
  exact hR.co_trans _ _ _ h h'

theorem Valid.slt_le (hR : R.Valid) {s : Option Pos} {v u : Pos} (h : R.Slt s (some v)) (h' : R.Le v u) :
    R.Slt s (some u) := by
  rcases h' with rfl | h'
  · exact h
  · exact hR.slt_trans h (t := some v) h'

theorem Valid.slt_irrefl (hR : R.Valid) {s : Option Pos} : ¬ R.Slt s s := by
  cases s with
  | none => exact id
  | some w => exact hR.co_irrefl w

/-- A read sees nothing later than what it reads. -/
theorem Valid.not_visible (hR : R.Valid) {r : Pos} {s : Option Pos} {w : Pos} (h : R.ReadsFrom r s)
    (hs : R.Slt s (some w)) : ¬ R.Visible r w := by
  intro hv
  cases s with
  | none => exact h w hv
  | some v => exact hR.slt_irrefl (hR.slt_le hs (h.2 w hv))

theorem Valid.readsFrom_unique (hR : R.Valid) {r : Pos} {s t : Option Pos} (h : R.ReadsFrom r s)
    (h' : R.ReadsFrom r t) : s = t := by
  cases s with
  | none =>
    cases t with
    | none => rfl
    | some w => exact absurd h'.1 (h w)
  | some v =>
    cases t with
    | none => exact absurd h.1 (h' v)
    | some w =>
      rcases h.2 w h'.1 with rfl | h1
      · rfl
      · rcases h'.2 v h.1 with rfl | h2
        · rfl
        · exact absurd (hR.co_trans _ _ _ h1 h2) (hR.co_irrefl _)

theorem Op.src_unique (hR : R.Valid) {a : OpId} {l : Nat} (ha : R.Op a l) {s t} (h : R.Src a s) (h' : R.Src a t) : s = t := by
  rcases h with ⟨w, hw, rfl⟩ | ⟨hn, r, hr, hrf⟩
  · rcases h' with ⟨v, hv, rfl⟩ | ⟨hn, -⟩
    · rw [ha.pub w v hw hv]
    · exact absurd hw (hn w)
  · rcases h' with ⟨v, hv, rfl⟩ | ⟨-, r', hr', hrf'⟩
    · exact absurd hv (hn v)
    · rw [ha.ret r' r hr' hr] at hrf'
      exact hR.readsFrom_unique hrf hrf'

/-- The order of operations on one object. -/
def Com (R : Run cpu) (a b : OpId) : Prop :=
  ∃ s t, R.Src a s ∧ R.Src b t ∧ (R.Slt s t ∨ (s = t ∧ (∃ w, R.Pub a w) ∧ ∀ w, ¬ R.Pub b w))

theorem Op.com_trans (hR : R.Valid) {a b c : OpId} {l : Nat} (hb : R.Op b l) (h : R.Com a b) (h' : R.Com b c) : R.Com a c := by
  obtain ⟨s, t, h1, h2, h3⟩ := h
  obtain ⟨t', u, h1', h2', h3'⟩ := h'
  obtain rfl := hb.src_unique hR h2 h1'
  refine ⟨s, u, h1, h2', ?_⟩
  rcases h3 with h3 | ⟨rfl, h4, h5⟩
  · rcases h3' with h3' | ⟨rfl, -, -⟩
    · exact .inl (hR.slt_trans h3 h3')
    · exact .inl h3
  · rcases h3' with h3' | ⟨-, ⟨w, hw⟩, -⟩
    · exact .inl h3'
    · exact absurd hw (h5 w)

theorem Op.com_irrefl (hR : R.Valid) {a : OpId} {l : Nat} (ha : R.Op a l) : ¬ R.Com a a := by
  rintro ⟨s, t, h1, h2, h3⟩
  obtain rfl := ha.src_unique hR h1 h2
  rcases h3 with h3 | ⟨-, ⟨w, hw⟩, h⟩
  · exact hR.slt_irrefl h3
  · exact h w hw

theorem Valid.rmw (hR : R.Valid) {a : OpId} {l : Nat} (ha : R.Op a l) {r w} (hr : R.Ret a r) (hw : R.Pub a w) :
    R.time r .rd < R.time w .wr :=
  hR.inThread.paired (ha.pair r w hr hw) (ha.main r .rd (.inr ⟨rfl, hr⟩)) (ha.main w .wr (.inl ⟨rfl, hw⟩))

/-- `c` takes effect when `a` and what it has seen has become visible to all threads. -/
def Lt (R : Run cpu) (a c : OpId) : Prop :=
  (∀ e p f q, R.Main a e p → R.Main c f q → R.time e p < R.time f q) ∧
  ∀ s, R.Src a (some s) → ∀ t f q, R.Main c f q → R.Past s t (R.time f q)

theorem Op.lt_trans {a c d : OpId} {l : Nat} (hc : R.Op c l) (h : R.Lt a c) (h' : R.Lt c d) : R.Lt a d := by
  obtain ⟨g, q, hg⟩ := hc.nonempty
  refine ⟨fun e p f q' he hf => Nat.lt_trans (h.1 e p g q he hg) (h'.1 g q f q' hg hf), ?_⟩
  intro s hs t f q' hf
  exact (h.2 s hs t g q hg).mono (Nat.le_of_lt (h'.1 g q f q' hg hf))

theorem Valid.lt_of_earlier (hR : R.Valid) (hbe : R.OnBarriers) {a b : OpId} {it it' : Item}
    (ha : (R.prog a.1)[a.2]? = some it) (hb : (R.prog b.1)[b.2]? = some it') (hs : it.isSeqCst = true)
    (hs' : it'.isSeqCst = true) (h1 : a.1 = b.1) (h2 : a.2 < b.2) : R.Lt a b := by
  have oa := (op_of hbe ha hs).1
  have ob := (op_of hbe hb hs').1
  have hin : ∀ {c : OpId} {it : Item} {e p}, (R.prog c.1)[c.2]? = some it → R.Main c e p →
      ∃ x, R.Within e c it ∧ R.Is e x ∧ effect x.ins = true ∧ x.ins.main p = true := by
    rintro c it e p hc (⟨rfl, it', x, hin, hx, h⟩ | ⟨rfl, it', x, hin, hx, h⟩)
    · have := hin.item; rw [hc] at this; obtain rfl := Option.some.inj this
      exact ⟨x, hin, hx, by simp [effect, h], h⟩
    · have := hin.item; rw [hc] at this; obtain rfl := Option.some.inj this
      exact ⟨x, hin, hx, by simp [effect, h], h⟩
  have has : ∀ {e p x}, R.Has e p → R.Is e x → x.ins.has p = true := by
    rintro e p x ⟨x', hx', h⟩ hx; rw [hx.unique hx']; exact h
  refine ⟨fun e p f q he hf => ?_, fun s hsrc t f q hf => ?_⟩
  · obtain ⟨x, hw, hx, -, hm⟩ := hin ha he
    obtain ⟨y, hw', hy, -, hm'⟩ := hin hb hf
    exact hR.inThread.main_order h1 h2 hw hw' hs hs' hx hy hm hm' (has (oa.main e p he) hx) (has (ob.main f q hf) hy)
  · obtain ⟨y, hw', hy, hey, -⟩ := hin hb hf
    have hfq := ob.main f q hf
    have fin : ∀ {e p b0 z}, R.Is b0 z → heavy z.ins = true → Before b0 f → Before e b0 → R.Has e p →
        R.Has s .wr → R.Arrived s e.1 (R.time e p + 1) → R.Past s t (R.time f q) := by
      intro e p b0 z hz hh hb2 hb1 he hsw har
      have hc : R.IsBarrier cumulative b0 := ⟨z, hz, heavy_cumulative hh⟩
      obtain ⟨m, hm, hm1, -⟩ := hR.execute b0 hc
      obtain ⟨n, hn, hle⟩ := hR.waits b0 f q ⟨z, hz, hh⟩ hb2 hfq t
      refine (hR.cumul b0 s t m n hc hsw hm ?_ hn).mono hle
      rw [← hb1.1]
      exact har.mono (hm1 e p hb1 he)
    rcases hsrc with ⟨w, hp, e⟩ | ⟨-, r, hr, hrf⟩
    · cases e
      have hwm : R.Main a s .wr := .inl ⟨rfl, hp⟩
      have hwr := oa.main s .wr hwm
      obtain ⟨x, hw, hx, hex, -⟩ := hin ha hwm
      obtain ⟨b0, z, hz, hh, hb1, hb2⟩ := barrier_between hbe h1 h2 hw hw' hs hs' hx hy hex hey
      exact fin hz hh hb2 hb1 hwr hwr (hR.arrived_own hwr (Nat.lt_succ_self _))
    · have hrm : R.Main a r .rd := .inr ⟨rfl, hr⟩
      obtain ⟨x, hw, hx, hex, -⟩ := hin ha hrm
      obtain ⟨b0, z, hz, hh, hb1, hb2⟩ := barrier_between hbe h1 h2 hw hw' hs hs' hx hy hex hey
      obtain ⟨⟨hwr, hl, hv⟩, -⟩ := hrf
      rcases hv with hv | hv
      · exact fin hz hh hb2 hb1 (oa.main r .rd hrm) hwr (hv.mono (Nat.le_succ _))
      · exact fin hz hh hb2 (hv.trans hb1) hwr hwr (hR.arrived_own hwr (Nat.lt_succ_self _))

theorem Op.src {a : OpId} {l : Nat} (ha : R.Op a l) {w} (h : R.Src a (some w)) :
    R.Has w .wr ∧ ∀ x, R.Is w x → x.loc = l := by
  rcases h with ⟨v, hv, e⟩ | ⟨-, r, hr, ⟨hw, ⟨y, x, hy, hx, hl⟩, -⟩, -⟩
  · cases e
    exact ⟨ha.main w .wr (.inl ⟨rfl, hv⟩), ha.loc w .wr (.inl ⟨rfl, hv⟩)⟩
  · refine ⟨hw, fun x' hx' => ?_⟩
    rw [hx'.unique hx, ← hl]
    exact ha.loc r .rd (.inr ⟨rfl, hr⟩) y hy

/-- A thread has made its write before a later one arrives. -/
theorem Valid.made (hR : R.Valid) {w : Pos} (hw : R.Has w .wr) {T : Nat} (h : R.Past w w.1 T) : R.time w .wr < T := by
  obtain ⟨u, hu, m, hm, hlt⟩ := h
  rcases hu with rfl | hu
  · rw [hR.own u hw] at hm; cases hm; exact hlt
  · exact Nat.lt_trans (hR.arrive w u w.1 _ m hu (hR.own w hw) hm) hlt

theorem Op.not_before {a : OpId} {l : Nat} (ha : R.Op a l) (hR : R.Valid) {s : Option Pos} {v : Pos}
    (hs : R.Src a s) (hv : R.Has v .wr) (hl : ∀ x, R.Is v x → x.loc = l) (h : R.Slt s (some v)) {e p}
    (he : R.Main a e p) {T : Nat} (hT : R.Past v e.1 T) : R.time e p < T := by
  have pub : ∀ w', R.Pub a w' → R.Past v w'.1 T → R.time w' .wr < T := by
    intro w' hw' hT
    rcases hs with ⟨w2, hw2, rfl⟩ | ⟨hn, -⟩
    · rw [ha.pub w2 w' hw2 hw'] at h
      exact hR.made (ha.main w' .wr (.inl ⟨rfl, hw'⟩)) (hR.past_le (.inr h) hT)
    · exact absurd hw' (hn w')
  rcases id he with ⟨rfl, hp⟩ | ⟨rfl, hr⟩
  · exact pub e hp hT
  · rcases hs with ⟨w2, hw2, rfl⟩ | ⟨hn, r, hr', hrf⟩
    · have h3 : e.1 = w2.1 := Paired.thread (ha.pair e w2 hr hw2)
      exact Nat.lt_trans (hR.rmw ha hr hw2) (pub w2 hw2 (h3 ▸ hT))
    · obtain rfl := ha.ret r e hr' hr
      obtain ⟨u, hu, m, hm, hlt⟩ := hT
      obtain ⟨huw, hlu⟩ := hR.past_sameLoc hv hu
      have hnv := hR.not_visible hrf (hR.slt_le h (hu.imp Eq.symm _root_.id))
      refine Nat.lt_of_le_of_lt (Nat.le_of_not_lt fun hlt => hnv ?_) hlt
      obtain ⟨x, hx, -⟩ := ha.main r .rd he
      obtain ⟨y, hy, hyw⟩ := hv
      have hlr : R.SameLoc r v := ⟨x, y, hx, hy, by rw [ha.loc r .rd he x hx, hl y hy]⟩
      exact ⟨huw, hlr.trans hlu, .inl ⟨m, hm, hlt⟩⟩

theorem Valid.lt_of_com (hR : R.Valid) {a b d : OpId} {l : Nat} (ha : R.Op a l) (hb : R.Op b l) (h : R.Com a b)
    (h' : R.Lt b d) : R.Lt a d := by
  obtain ⟨s, t, hs, ht, h3⟩ := h
  rcases h3 with h3 | ⟨rfl, ⟨w, hw⟩, -⟩
  · cases t with
    | none => cases s <;> exact absurd h3 id
    | some v =>
      obtain ⟨hv, hl⟩ := hb.src ht
      refine ⟨fun e p f q he hf => ?_, fun s' hs' i f q hf => ?_⟩
      · exact ha.not_before hR hs hv hl h3 he (h'.2 v ht e.1 f q hf)
      · obtain rfl := ha.src_unique hR hs hs'
        exact hR.past_le (.inr h3) (h'.2 v ht i f q hf)
  · have e : s = some w := by
      rcases hs with ⟨w', hw', rfl⟩ | ⟨hn, -⟩
      · rw [ha.pub w' w hw' hw]
      · exact absurd hw (hn w)
    subst e
    have hww := ha.main w .wr (.inl ⟨rfl, hw⟩)
    refine ⟨fun e p f q he hf => ?_, fun s' hs' i f q hf => ?_⟩
    · have h1 := hR.made hww (h'.2 w ht w.1 f q hf)
      rcases he with ⟨rfl, hp⟩ | ⟨rfl, hr⟩
      · rw [ha.pub e w hp hw]; exact h1
      · exact Nat.lt_trans (hR.rmw ha hr hw) h1
    · obtain e := ha.src_unique hR hs hs'
      cases e
      exact h'.2 w ht i f q hf

theorem Valid.not_lt_com (hR : R.Valid) {a c : OpId} {l : Nat} (ha : R.Op a l) (hc : R.Op c l) (h : R.Lt a c) :
    ¬ R.Com c a := by
  rintro ⟨s, t, hs, ht, h3⟩
  rcases h3 with h3 | ⟨rfl, ⟨w, hw⟩, -⟩
  · cases t with
    | none => cases s <;> exact absurd h3 id
    | some v =>
      obtain ⟨hv, hl⟩ := ha.src ht
      obtain ⟨e, p, he⟩ := hc.nonempty
      exact Nat.lt_irrefl _ (hc.not_before hR hs hv hl h3 he (h.2 v ht e.1 e p he))
  · have e : s = some w := by
      rcases hs with ⟨w', hw', rfl⟩ | ⟨hn, -⟩
      · rw [hc.pub w' w hw' hw]
      · exact absurd hw (hn w)
    subst e
    exact Nat.lt_irrefl _ (hR.made (hc.main w .wr (.inl ⟨rfl, hw⟩)) (h.2 w ht w.1 w .wr (.inl ⟨rfl, hw⟩)))

theorem Op.sameLoc_pub {a b : OpId} {l : Nat} (ha : R.Op a l) (hb : R.Op b l) {w v} (hw : R.Pub a w)
    (hv : R.Pub b v) : R.SameLoc w v := ha.sameLoc hb (.inl ⟨rfl, hw⟩) (.inl ⟨rfl, hv⟩)

theorem Valid.com_fromRead (hR : R.Valid) {a c : OpId} {l : Nat} (ha : R.Op a l) (hc : R.Op c l) {r s w}
    (hr : R.Ret a r) (hrf : R.ReadsFrom r s) (hw : R.Pub c w) (hne : ∀ v, R.Pub a v → w ≠ v)
    (hs : R.Slt s (some w)) : R.Com a c := by
  by_cases hp : ∃ v, R.Pub a v
  · obtain ⟨v, hv⟩ := hp
    refine ⟨some v, some w, .inl ⟨v, hv, rfl⟩, .inl ⟨w, hw, rfl⟩, .inl ?_⟩
    rcases hR.atomic r v w (ha.pair r v hr hv) (ha.main v .wr (.inl ⟨rfl, hv⟩))
      (hc.main w .wr (.inl ⟨rfl, hw⟩)) (hc.sameLoc_pub ha hw hv)
      (hne v hv) with ⟨u, hu, hwu⟩ | h
    · exact absurd hu (hR.not_visible hrf (hR.slt_le hs hwu))
    · exact h
  · exact ⟨s, some w, .inr ⟨fun v hv => hp ⟨v, hv⟩, r, hr, hrf⟩, .inl ⟨w, hw, rfl⟩, .inl hs⟩

theorem Valid.com_readsFrom (hR : R.Valid) {a b : OpId} {l : Nat} (ha : R.Op a l) {r w}
    (hr : R.Ret a r) (hrf : R.ReadsFrom r (some w)) (hw : R.Pub b w) : R.Com b a := by
  by_cases hp : ∃ v, R.Pub a v
  · obtain ⟨v, hv⟩ := hp
    refine ⟨some w, some v, .inl ⟨w, hw, rfl⟩, .inl ⟨v, hv, rfl⟩, .inl ?_⟩
    exact hR.rmw_co (ha.pair r v hr hv) (ha.main r .rd (.inr ⟨rfl, hr⟩)) (ha.main v .wr (.inl ⟨rfl, hv⟩)) hrf.1
  · exact ⟨some w, some w, .inl ⟨w, hw, rfl⟩, .inr ⟨fun v hv => hp ⟨v, hv⟩, r, hr, hrf⟩,
      .inr ⟨rfl, ⟨w, hw⟩, fun v hv => hp ⟨v, hv⟩⟩⟩

theorem Valid.total_order (hR : R.Valid) (hbe : R.OnBarriers) {A : Nat → Prop} (hA : R.toRun.OnlySeqCst A)
    (V : Values) : (R.observations V A).SequentiallyConsistent := by
  let O := R.observations V A
  have hitem : ∀ a : O.Op, ∃ it, (R.prog a.1.1)[a.1.2]? = some it ∧ it.isSeqCst = true ∧ O.obj a = it.loc ∧
      A it.loc := by
    rintro ⟨a, it, h1, h2, h3⟩
    refine ⟨it, h1, ?_, by simp [O, observations, h1], h2⟩
    rcases hA _ _ (List.mem_of_getElem? h1) h2 with h | h
    · exact h
    · rw [h3] at h; cases h
  have hop : ∀ a : O.Op, R.Op a.1 (O.obj a) := by
    intro a
    obtain ⟨it, h1, h2, h3, -⟩ := hitem a
    rw [h3]; exact (op_of hbe h1 h2).1
  let E (a b : O.Op) : Prop := O.obj a = O.obj b ∧ R.Com a.1 b.1
  let F (a b : O.Op) : Prop := E a b ∨ ∃ c : O.Op, R.Lt a.1 c.1 ∧ (c = b ∨ E c b)
  have hE : ∀ {a b c}, E a b → E b c → E a c := fun {a b c} h h' => ⟨h.1.trans h'.1, (hop b).com_trans hR h.2 h'.2⟩
  have hEL : ∀ {a b d : O.Op}, E a b → R.Lt b.1 d.1 → R.Lt a.1 d.1 := by
    intro a b d h h'
    have ha := hop a
    rw [h.1] at ha
    exact hR.lt_of_com ha (hop b) h.2 h'
  have hF : ∀ {a b c}, F a b → F b c → F a c := by
    rintro a b c (h | ⟨d, h1, h2⟩) h'
    · rcases h' with h' | ⟨d, h1, h2⟩
      · exact .inl (hE h h')
      · exact .inr ⟨d, hEL h h1, h2⟩
    · rcases h' with h' | ⟨d', h1', h2'⟩
      · refine .inr ⟨d, h1, .inr ?_⟩
        rcases h2 with rfl | h2
        · exact h'
        · exact hE h2 h'
      · refine .inr ⟨d', ?_, h2'⟩
        rcases h2 with rfl | h2
        · exact (hop d).lt_trans h1 h1'
        · exact (hop d).lt_trans h1 (hEL h2 h1')
  have hirr : ∀ a, ¬ F a a := by
    rintro a (h | ⟨c, h1, rfl | h2⟩)
    · exact (hop a).com_irrefl hR h.2
    · obtain ⟨e, p, he⟩ := (hop c).nonempty
      exact Nat.lt_irrefl _ (h1.1 e p e p he he)
    · have ha := hop a
      rw [← h2.1] at ha
      exact hR.not_lt_com ha (hop c) h1 h2.2
  let le (a b : O.Op) : Prop := a = b ∨ F a b
  have : IsPartialOrder O.Op le :=
    { refl := fun a => .inl rfl
      trans := by
        rintro a b c (rfl | h) (rfl | h')
        · exact .inl rfl
        · exact .inr h'
        · exact .inr h
        · exact .inr (hF h h')
      antisymm := by
        rintro a b (rfl | h) h'
        · rfl
        · rcases h' with rfl | h'
          · rfl
          · exact absurd (hF h h') (hirr a) }
  obtain ⟨s, hs, hle⟩ := extend_partialOrder le
  have hFs : ∀ {a b}, F a b → s a b ∧ a ≠ b := fun {a b} h =>
    ⟨hle a b (.inr h), by rintro rfl; exact hirr _ h⟩
  refine ⟨fun a b => s a b ∧ a ≠ b, fun a h => h.2 rfl, ?_, ?_, ?_, ?_⟩
  · rintro a b c ⟨h, hne⟩ ⟨h', hne'⟩
    refine ⟨_root_.trans h h', ?_⟩
    rintro rfl
    exact hne (antisymm h h')
  · intro a b hne
    rcases total_of s a b with h | h
    · exact .inl ⟨h, hne⟩
    · exact .inr ⟨h, fun e => hne e.symm⟩
  · rintro a b ⟨h1, h2⟩
    obtain ⟨it, i1, i2, -, -⟩ := hitem a
    obtain ⟨it', i1', i2', -, -⟩ := hitem b
    exact hFs (.inr ⟨b, hR.lt_of_earlier hbe i1 i1' i2 i2' h1 h2, .inl rfl⟩)
  · rintro a v ⟨r, it, src, hit, hr, hrf, hv⟩
    obtain ⟨it0, i1, i2, i3, i4⟩ := hitem a
    obtain rfl : it0 = it := by rw [i1] at hit; exact Option.some.inj hit
    have hid : ∀ {b c : O.Op} {w}, R.Pub b.1 w → R.Pub c.1 w → b = c := by
      rintro b c w ⟨_, _, h, -, -⟩ ⟨_, _, h', -, -⟩
      exact Subtype.ext (h.unique h').1
    -- what overwrites the value that was read comes after the operation
    have hfr : ∀ (c : O.Op) w, O.obj c = O.obj a → R.Pub c.1 w → R.Slt src (some w) → ¬ (s c a ∧ c ≠ a) := by
      rintro c w ho hw hsl ⟨hca, hne⟩
      have hc := hop c
      rw [ho] at hc
      have := hR.com_fromRead (hop a) hc hr hrf hw (by rintro x hx rfl; exact hne (hid hw hx)) hsl
      exact hne (antisymm hca (hFs (.inl ⟨ho.symm, this⟩)).1)
    cases src with
    | none =>
      refine .inr ⟨by show v = V.init (O.obj a); rw [i3]; exact hv, ?_⟩
      rintro c u hca ho ⟨w, hw, -⟩
      exact hfr c w ho hw trivial hca
    | some w =>
      obtain ⟨x, hx, -⟩ := id hrf.1.1
      obtain ⟨b, itb, hb⟩ := exists_within hx
      have hlb : itb.loc = it0.loc := by
        obtain ⟨y, x', hy, hx', hl⟩ := hrf.1.2.1
        rw [← hb.loc hx, hx.unique hx', ← hl, (hop a).loc r .rd (.inr ⟨rfl, hr⟩) y hy, i3]
      have hbs : itb.isSeqCst = true := by
        rcases hA _ _ hb.mem (by rw [hlb]; exact i4) with h | h
        · exact h
        · rw [hb.writes hrf.1.1] at h; cases h
      have hpb : R.Pub b w := (op_of hbe hb.item hbs).2 w hb hrf.1.1
      let b' : O.Op := ⟨b, itb, hb.item, by rw [hlb]; exact i4, hb.writes hrf.1.1⟩
      have hob : O.obj b' = O.obj a := by
        have := hb.item
        rw [i3, ← hlb]; simp [O, observations, b', this]
      have hopb := hop b'
      rw [hob] at hopb
      refine .inl ⟨b', hFs (.inl ⟨hob, hR.com_readsFrom (hop a) hr hrf hpb⟩), hob, ⟨w, hpb, hv⟩, ?_⟩
      rintro c u hca ho ⟨w', hw', -⟩
      by_cases hcb : c = b'
      · exact .inl hcb
      · right
        have hopc := hop c
        rw [ho] at hopc
        have hne : w' ≠ w := by rintro rfl; exact hcb (hid hw' hpb)
        rcases hR.co_total w' w (hopc.main w' .wr (.inl ⟨rfl, hw'⟩)) hrf.1.1 (hopc.sameLoc_pub hopb hw' hpb) hne
          with h | h
        · exact hFs (.inl ⟨ho.trans hob.symm, some w', some w, .inl ⟨w', hw', rfl⟩, .inl ⟨w, hpb, rfl⟩, .inl h⟩)
        · exact absurd hca (hfr c w' ho hw' h)

end Run
end Verif.Pow
