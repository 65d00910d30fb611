import Verif.Locked.OneOrder
import Verif.Whole.Model

/-
The program's own variables, if nobody accesses them in a data race, in the order of the critical sections and the seq_cst
operations.
-/

namespace Verif.Whole

open Verif.Order Verif.Mca Verif.Mca.Run Verif.Locked

variable {cpu : Cpu}

/-- What a program observes of its operations on the objects `A`, of its critical sections and of its own variables `D`. -/
def fullHistoryOf (R : Mca.Run cpu) (rf : Pos → Option Pos → Prop) (V : Values) (A D : Nat → Prop)
    (guard : Nat → Option Nat) {Sec : Type} (mutex : Sec → Nat) (take give : Sec → OpId) : History where
  Op := { a // FreeOp R A a } ⊕ (Sec ⊕ { a // OwnOp R D a })
  earlier a b :=
    let first : { a // FreeOp R A a } ⊕ (Sec ⊕ { a // OwnOp R D a }) → OpId := Sum.elim Subtype.val (Sum.elim take Subtype.val)
    let last : { a // FreeOp R A a } ⊕ (Sec ⊕ { a // OwnOp R D a }) → OpId := Sum.elim Subtype.val (Sum.elim give Subtype.val)
    (last a).1 = (first b).1 ∧ (last a).2 < (first b).2
  found
    | .inl a, x, v => FreeFound R rf V a.1 x v
    | .inr (.inl S), x, v => guard x = some (mutex S) ∧ SectionFound R rf V (take S) (give S) x v
    | .inr (.inr a), x, v => OwnFound R rf V a.1 x v
  left
    | .inl a, x, v => FreeLeft R V a.1 x v
    | .inr (.inl S), x, v => guard x = some (mutex S) ∧ SectionLeft R V (take S) (give S) x v
    | .inr (.inr a), x, v => OwnLeft R V a.1 x v
  init := V.init

/-! ### One order -/

variable {R : Mca.Run cpu} {M : Memory R} {V : Values}

/-- Parts of a program with a first and a last operation. -/
structure Nodes (M : Memory R) where
  N : Type
  entry : N → OpId
  exit : N → OpId
  entry_in : ∀ n, ∃ e it, R.Within e (entry n) it
  exit_in : ∀ n, ∃ e it, R.Within e (exit n) it
  /-- a part of more than one operation, or one instruction -/
  shape : ∀ n, ((entry n).1 = (exit n).1 ∧ (entry n).2 < (exit n).2) ∨
    (entry n = exit n ∧ ∀ e f it it', R.Within e (entry n) it → R.Within f (entry n) it' → e = f)

namespace Nodes

variable (L : Nodes M) {St : OpId → Prop} {before : OpId → OpId → Prop}

/-- All of the one happens before all of the other. -/
def Prior (n m : L.N) : Prop := ∃ e f it it', R.Within e (L.exit n) it ∧ R.Within f (L.entry m) it' ∧ M.hb e f

variable {L}

theorem through {n : L.N} {e f it it'} (h : R.Within f (L.entry n) it) (h' : R.Within e (L.exit n) it') :
    f = e ∨ M.hb f e := by
  rcases L.shape n with ⟨h1, h2⟩ | ⟨h1, h2⟩
  · exact .inr (M.sb (h.lt h' h1 h2))
  · rw [← h1] at h'
    exact .inl (h2 _ _ _ _ h h')

theorem prior_trans {n m k : L.N} (h : L.Prior n m) (h' : L.Prior m k) : L.Prior n k := by
  obtain ⟨e, f, it, it', h1, h2, h3⟩ := h
  obtain ⟨g, k, jt, jt', h4, h5, h6⟩ := h'
  refine ⟨e, k, it, jt', h1, h5, ?_⟩
  rcases through h2 h4 with rfl | h
  · exact M.trans h3 h6
  · exact M.trans h3 (M.trans h h6)

theorem prior_irrefl (n : L.N) : ¬ L.Prior n n := by
  rintro ⟨e, f, it, it', h1, h2, h3⟩
  rcases through h2 h1 with rfl | h
  · exact M.irrefl _ h3
  · exact M.irrefl _ (M.trans h3 h)

theorem prior_sb {n m : L.N} (h0 : (L.exit n).1 = (L.entry m).1) (h : (L.exit n).2 < (L.entry m).2) : L.Prior n m := by
  obtain ⟨_, _, hu⟩ := L.exit_in n
  obtain ⟨_, _, hl⟩ := L.entry_in m
  exact ⟨_, _, _, _, hu, hl, M.sb (hu.lt hl h0 h)⟩

variable (L)

/-- The operation comes before the part. -/
def Up (before : OpId → OpId → Prop) (St : OpId → Prop) (a : OpId) (n : L.N) : Prop :=
  ∃ a' n', St a' ∧ (a = a' ∨ before a a') ∧ a'.1 = (L.entry n').1 ∧ a'.2 < (L.entry n').2 ∧ (n' = n ∨ L.Prior n' n)

/-- The part comes before the operation. -/
def Down (before : OpId → OpId → Prop) (St : OpId → Prop) (n : L.N) (b : OpId) : Prop :=
  ∃ n' b', St b' ∧ (n = n' ∨ L.Prior n n') ∧ (L.exit n').1 = b'.1 ∧ (L.exit n').2 < b'.2 ∧ (b' = b ∨ before b' b)

variable {L}

theorem Up.down (hO : Strongly M St before) {a n b} (h : L.Up before St a n) (h' : L.Down before St n b) :
    before a b := by
  obtain ⟨a', n1, sa, h1, h2, h3, h4⟩ := h
  obtain ⟨n2, b', sb, h5, h6, h7, h8⟩ := h'
  have hle : n1 = n2 ∨ L.Prior n1 n2 := by
    rcases h4 with rfl | h4
    · exact h5
    · rcases h5 with rfl | h5
      · exact .inr h4
      · exact .inr (prior_trans h4 h5)
  have : before a' b' := by
    rcases hle with rfl | ⟨e, f, it, it', k1, k2, k3⟩
    · refine hO.sb sa sb ?_ ?_
      · rcases L.shape n1 with ⟨e, -⟩ | ⟨e, -⟩
        · exact h2.trans (e.trans h6)
        · exact h2.trans (e ▸ h6)
      · rcases L.shape n1 with ⟨-, e⟩ | ⟨e, -⟩
        · omega
        · rw [e] at h3; omega
    · obtain ⟨_, _, hl⟩ := L.entry_in n1
      obtain ⟨_, _, hu⟩ := L.exit_in n2
      refine hO.strong sa sb h2 h3 hl hu ?_ h6 h7
      rcases through hl k1 with rfl | k4 <;> rcases through k2 hu with rfl | k5
      · exact k3
      · exact M.trans k3 k5
      · exact M.trans k4 k3
      · exact M.trans k4 (M.trans k3 k5)
  have : before a' b := by
    rcases h8 with rfl | h8
    · exact this
    · exact hO.trans this h8
  rcases h1 with rfl | h1
  · exact this
  · exact hO.trans h1 this

theorem Up.prior {a n n'} (h : L.Up before St a n) (h' : L.Prior n n') : L.Up before St a n' := by
  obtain ⟨a', n1, sa, h1, h2, h3, h4⟩ := h
  refine ⟨a', n1, sa, h1, h2, h3, .inr ?_⟩
  rcases h4 with rfl | h4
  · exact h'
  · exact prior_trans h4 h'

theorem Up.head (hO : Strongly M St before) {a b n} (h : before a b) (h' : L.Up before St b n) : L.Up before St a n := by
  obtain ⟨a', n1, sa, h1, h2, h3, h4⟩ := h'
  refine ⟨a', n1, sa, .inr ?_, h2, h3, h4⟩
  rcases h1 with rfl | h1
  · exact h
  · exact hO.trans h h1

theorem Down.prior {n n' b} (h : L.Prior n n') (h' : L.Down before St n' b) : L.Down before St n b := by
  obtain ⟨n2, b', sb, h5, h6, h7, h8⟩ := h'
  refine ⟨n2, b', sb, .inr ?_, h6, h7, h8⟩
  rcases h5 with rfl | h5
  · exact h
  · exact prior_trans h h5

theorem Down.tail (hO : Strongly M St before) {n a b} (h : L.Down before St n a) (h' : before a b) :
    L.Down before St n b := by
  obtain ⟨n2, b', sb, h5, h6, h7, h8⟩ := h
  refine ⟨n2, b', sb, h5, h6, h7, .inr ?_⟩
  rcases h8 with rfl | h8
  · exact h'
  · exact hO.trans h8 h'

/-- The union of the two orders and of the order of each thread. -/
def Joint (L : Nodes M) (before : OpId → OpId → Prop) (St : OpId → Prop) : OpId ⊕ L.N → OpId ⊕ L.N → Prop
  | .inl a, .inl b => before a b
  | .inl a, .inr n => L.Up before St a n
  | .inr n, .inl b => L.Down before St n b
  | .inr n, .inr n' => L.Prior n n' ∨ ∃ c, L.Down before St n c ∧ L.Up before St c n'

theorem joint (hO : Strongly M St before) : ∃ T : OpId ⊕ L.N → OpId ⊕ L.N → Prop,
    (∀ a, ¬ T a a) ∧ (∀ a b c, T a b → T b c → T a c) ∧ (∀ a b, a ≠ b → T a b ∨ T b a) ∧
    ∀ a b, L.Joint before St a b → T a b := by
  have hW : ∀ a b c, L.Joint before St a b → L.Joint before St b c → L.Joint before St a c := by
    rintro (a | n) (b | n') (c | n'') h h'
    · exact hO.trans h h'
    · exact Up.head hO h h'
    · exact Up.down hO h h'
    · rcases h' with h' | ⟨c, h', h''⟩
      · exact Up.prior h h'
      · exact Up.head hO (Up.down hO h h') h''
    · exact Down.tail hO h h'
    · exact .inr ⟨b, h, h'⟩
    · rcases h with h | ⟨d, h, h''⟩
      · exact Down.prior h h'
      · exact Down.tail hO h (Up.down hO h'' h')
    · rcases h with h | ⟨c, h, k⟩
      · rcases h' with h' | ⟨d, h', k'⟩
        · exact .inl (prior_trans h h')
        · exact .inr ⟨d, Down.prior h h', k'⟩
      · rcases h' with h' | ⟨d, h', k'⟩
        · exact .inr ⟨c, h, Up.prior k h'⟩
        · exact .inr ⟨d, Down.tail hO h (Up.down hO k h'), k'⟩
  have hI : ∀ a, ¬ L.Joint before St a a := by
    rintro (a | n) h
    · exact hO.irrefl _ h
    · rcases h with h | ⟨c, h, k⟩
      · exact prior_irrefl n h
      · exact hO.irrefl _ (Up.down hO k h)
  obtain ⟨T, h1, h2, h3, -, h5⟩ := Pow.Run.extend (N := OpId ⊕ L.N) (S := fun _ _ => False) (W := L.Joint before St)
    (fun _ _ _ h => h.elim) hW (fun _ _ _ _ h => h.elim) (fun _ h => h) hI
  exact ⟨T, h1, h2, h3, h5⟩

end Nodes

/-! ### The program's own variables -/

theorem own_at {D : Nat → Prop} {a : OpId} (h : OwnOp R D a) : ∃ x l e, (R.prog a.1)[a.2]? = some (.user x l) ∧ D l ∧
    R.Within e a (.user x l) ∧ R.Is e ⟨x, l, none⟩ ∧ ∀ f it, R.Within f a it → f = e := by
  obtain ⟨x, l, hit, hd⟩ := h
  obtain ⟨pre, post, hp, hl⟩ := split_at hit
  have hc : (R.code a.1)[(events pre).length]? = some ⟨x, l, none⟩ := by
    rw [code_eq hp, List.getElem?_append_right (by simp), Nat.sub_self]
    rfl
  have hw : R.Within (a.1, (events pre).length) a (.user x l) :=
    ⟨pre, hl, rfl, ⟨post, hp⟩, Nat.le_refl _, by simp [Item.events, Item.code]⟩
  refine ⟨x, l, (a.1, (events pre).length), hit, hd, hw, hc, ?_⟩
  intro f it hf
  have := hf.item; rw [hit] at this; cases this
  have h1 := hf.bounds
  have h2 := hw.bounds
  have h3 : f.1 = a.1 := hf.bounds.1
  simp only [Item.events, Item.code, List.map_cons, List.map_nil, List.length_cons, List.length_nil] at h1 h2
  exact Prod.ext h3 (by omega)

section

variable (L : Locks M V) (D : Nat → Prop)

/-- The sections and the accesses to the variables `D` as parts of the program. -/
def nodes : Nodes M where
  N := L.Sec ⊕ { a // OwnOp R D a }
  entry := Sum.elim L.take Subtype.val
  exit := Sum.elim L.give Subtype.val
  entry_in
    | .inl S => ⟨_, L.lw_in S⟩
    | .inr a => by obtain ⟨x, l, e, -, -, h, -⟩ := own_at a.2; exact ⟨e, _, h⟩
  exit_in
    | .inl S => ⟨_, L.uw_in S⟩
    | .inr a => by obtain ⟨x, l, e, -, -, h, -⟩ := own_at a.2; exact ⟨e, _, h⟩
  shape
    | .inl S => .inl ⟨L.same S, L.lt S⟩
    | .inr a => by
      obtain ⟨x, l, e, -, -, -, -, h⟩ := own_at a.2
      exact .inr ⟨rfl, fun f g it it' hf hg => (h f it hf).trans (h g it' hg).symm⟩

end

variable {D : Nat → Prop}

theorem own_prior {L : Locks M V} {a b : { a // OwnOp R D a }} {e f it it'} (he : R.Within e a.1 it)
    (hf : R.Within f b.1 it') (h : M.hb e f) : (nodes L D).Prior (.inr a) (.inr b) := ⟨e, f, it, it', he, hf, h⟩

/-- Every access to one of these variables is by the program itself. -/
def Own (R : Mca.Run cpu) (D : Nat → Prop) : Prop :=
  ∀ (a : OpId) (it : Item), (R.prog a.1)[a.2]? = some it → D it.loc → it.isFence = false → ∃ x l, it = .user x l

theorem own_of (hD : Own R D) {e : Pos} {x : Ev} {p : Part} (hx : R.Is e x) (he : R.Has e p) (hd : D x.loc) :
    ∃ a it, OwnOp R D a ∧ R.Within e a it := by
  obtain ⟨id, it, hin⟩ := exists_within hx
  have hl : it.loc = x.loc := (hin.loc hx).symm
  have hf : it.isFence = false := by
    cases it with
    | fence b o => exact absurd he hin.no_access
    | _ => rfl
  obtain ⟨y, l, rfl⟩ := hD id it hin.item (hl ▸ hd) hf
  refine ⟨id, _, ⟨y, l, hin.item, ?_⟩, hin⟩
  have : l = x.loc := hl
  rw [this]; exact hd

/-- Without data races an access finds what the last one before it left. -/
theorem own_last {L : Locks M V} (hD : Own R D) (hrace : RaceFree R M.hb D) {a : { a // OwnOp R D a }} {x v : Nat}
    (h : OwnFound R M.rf V a.1 x v) :
    (∃ b : { a // OwnOp R D a }, (nodes L D).Prior (.inr b) (.inr a) ∧ OwnLeft R V b.1 x v ∧
      ∀ (c : { a // OwnOp R D a }) u, ¬ (nodes L D).Prior (.inr a) (.inr c) → OwnLeft R V c.1 x u → c ≠ a →
        c = b ∨ (nodes L D).Prior (.inr c) (.inr b)) ∨
    (v = V.init x ∧ ∀ (c : { a // OwnOp R D a }) u, ¬ (nodes L D).Prior (.inr a) (.inr c) → c ≠ a → ¬ OwnLeft R V c.1 x u) := by
  obtain ⟨it, e, s, hin, hl, hrd, hrf, hv⟩ := h
  obtain ⟨x₀, l, e₀, hit, hd, hin₀, hx₀, huniq⟩ := own_at a.2
  obtain rfl := huniq e it hin
  have := hin.item; rw [hit] at this; cases this
  cases hl
  have dx : ∀ {f y}, R.Is f y → y.loc = l → ∀ z, R.Is f z → D z.loc := by
    intro f y hy hyl z hz; rw [hz.unique hy, hyl]; exact hd
  -- a write before it
  have prev : ∀ {c : { a // OwnOp R D a }} {f it' y}, ¬ (nodes L D).Prior (.inr a) (.inr c) → c ≠ a → R.Within f c.1 it' →
      R.Has f .wr → R.Is f y → y.loc = l → M.hb f e := by
    intro c f it' y hn hne hf hw hy hyl
    have hfe : f ≠ e := by
      rintro rfl
      exact hne (Subtype.ext (hf.unique hin).1)
    rcases hrace f e .wr .rd hfe ⟨_, _, hy, hx₀, hyl⟩ hw hrd (.inl rfl) (dx hy hyl) with k | k
    · exact k
    · exact absurd (own_prior hin hf k) hn
  cases s with
  | none =>
    refine .inr ⟨hv, ?_⟩
    rintro c u hn hne ⟨it', f, hf, hl', hw, -⟩
    obtain ⟨y, hy, -⟩ := _root_.id hw
    have hyl : y.loc = l := (hf.loc hy).trans hl'
    rcases M.writeRead (prev hn hne hf hw hy hyl) hw hrd ⟨_, _, hy, hx₀, hyl⟩ hrf with k | ⟨_, k, -⟩ <;> cases k
  | some w =>
    obtain ⟨hw, y, z, hy, hz, hyz⟩ := M.source hrd hrf
    rw [hy.unique hx₀] at hyz
    have hzl : z.loc = l := hyz.symm
    obtain ⟨b, itb, hb, hinb⟩ := own_of hD hz hw (by rw [hzl]; exact hd)
    have hlb : itb.loc = l := (hinb.loc hz).symm.trans hzl
    have hne : w ≠ e := by rintro rfl; exact M.self hrd hrf
    have hwe : M.hb w e := by
      rcases hrace w e .wr .rd hne ⟨_, _, hz, hx₀, hzl⟩ hw hrd (.inl rfl) (dx hz hzl) with k | k
      · exact k
      · exact absurd (M.readWrite k hrd hw ⟨_, _, hx₀, hz, hzl.symm⟩ hrf) (M.mo_irrefl _)
    refine .inl ⟨⟨b, hb⟩, own_prior hinb hin hwe, ⟨itb, w, hinb, hlb, hw, hv⟩, ?_⟩
    rintro c u hn ⟨it', f, hf, hl', hwf, -⟩ hca
    obtain ⟨y', hy', -⟩ := _root_.id hwf
    have hyl : y'.loc = l := (hf.loc hy').trans hl'
    by_cases hfw : f = w
    · subst hfw
      exact .inl (Subtype.ext (hf.unique hinb).1)
    · rcases M.writeRead (prev hn hca hf hwf hy' hyl) hwf hrd ⟨_, _, hy', hx₀, hyl⟩ hrf with k | ⟨_, k, hmo⟩
      · cases k; exact absurd rfl hfw
      · cases k
        rcases hrace f w .wr .wr hfw ⟨_, _, hy', hz, hyl.trans hzl.symm⟩ hwf hw (.inl rfl) (dx hy' hyl) with k | k
        · exact .inr (own_prior hf hinb k)
        · exact absurd (M.mo_trans hmo (M.writeWrite k hw hwf ⟨_, _, hz, hy', hzl.trans hyl.symm⟩)) (M.mo_irrefl _)

/-- Critical sections, seq_cst operations and accesses to variables without data races are in one order. -/
theorem full_order {L : Locks M V} {St : OpId → Prop} {before : OpId → OpId → Prop} (hO : Strongly M St before)
    {guard : Nat → Option Nat} (hG : L.Guards guard) {A : Nat → Prop}
    (hA : ∀ x, A x → guard x = none) (hDg : ∀ x, D x → guard x = none) (hDA : ∀ x, D x → ¬ A x)
    (hD : Own R D) (hrace : RaceFree R M.hb D)
    (hSt : ∀ a it, (R.prog a.1)[a.2]? = some it → A it.loc → it.isFence = false → St a)
    (hlast : ∀ a x v, FreeOp R A a → FreeFound R M.rf V a x v →
      (∃ b, FreeOp R A b ∧ before b a ∧ FreeLeft R V b x v ∧
        ∀ c u, FreeOp R A c → before c a → FreeLeft R V c x u → c = b ∨ before c b) ∨
      (v = V.init x ∧ ∀ c u, FreeOp R A c → before c a → ¬ FreeLeft R V c x u)) :
    (fullHistoryOf R M.rf V A D guard L.mutex L.take L.give).OneOrder := by
  obtain ⟨T, t1, t2, t3, t4⟩ := (nodes L D).joint hO
  have hst : ∀ {a}, FreeOp R A a → St a := by rintro a ⟨it, h1, h2, h3⟩; exact hSt a it h1 h2 h3
  have back : ∀ {a b : { a // FreeOp R A a }}, T (.inl a.1) (.inl b.1) → before a.1 b.1 := by
    intro a b h
    by_cases he : a.1 = b.1
    · rw [he] at h; exact absurd h (t1 _)
    · rcases hO.total (hst a.2) (hst b.2) he with k | k
      · exact k
      · exact absurd (t2 _ _ _ h (t4 (.inl b.1) (.inl a.1) k)) (t1 _)
  have up : ∀ {n m : (nodes L D).N}, (nodes L D).Prior n m → T (.inr n) (.inr m) := fun h => t4 (.inr _) (.inr _) (.inl h)
  have backS : ∀ {S S' : L.Sec}, L.mutex S = L.mutex S' → T (.inr (.inl S)) (.inr (.inl S')) → L.Prior S S' := by
    intro S S' hm h
    by_cases he : S = S'
    · rw [he] at h; exact absurd h (t1 _)
    · rcases Locks.prior_total hm he with k | k
      · exact k
      · exact absurd (t2 _ _ _ h (up (n := .inl S') (m := .inl S) k)) (t1 _)
  have backO : ∀ {c a : { a // OwnOp R D a }}, T (.inr (.inr c)) (.inr (.inr a)) →
      ¬ (nodes L D).Prior (.inr a) (.inr c) ∧ c ≠ a := by
    intro c a h
    refine ⟨fun k => t1 _ (t2 _ _ _ h (up k)), ?_⟩
    rintro rfl; exact t1 _ h
  let f : { a // FreeOp R A a } ⊕ (L.Sec ⊕ { a // OwnOp R D a }) → OpId ⊕ (L.Sec ⊕ { a // OwnOp R D a }) :=
    Sum.map Subtype.val _root_.id
  have finj : ∀ {a b}, f a = f b → a = b := by
    rintro (a | S) (b | S') h
    · exact congrArg Sum.inl (Subtype.ext (Sum.inl.inj h))
    · cases h
    · cases h
    · exact congrArg Sum.inr (Sum.inr.inj h)
  -- on which variables the operations are
  have freeA : ∀ (c : { a // FreeOp R A a }) {x u}, FreeLeft R V c.1 x u → A x := by
    rintro c x u ⟨it', w, i1, i2, -⟩
    obtain ⟨it, h1, h2, -⟩ := c.2
    rw [h1] at i1; cases i1; rw [← i2]; exact h2
  have ownD : ∀ (c : { a // OwnOp R D a }) {x u}, OwnLeft R V c.1 x u → D x := by
    rintro c x u ⟨it', e, i1, i2, -⟩
    obtain ⟨y, l, h1, h2⟩ := c.2
    have := i1.item; rw [h1] at this; cases this; rw [← i2]; exact h2
  refine ⟨fun a b => T (f a) (f b), fun a => t1 _, fun a b c => t2 _ _ _, fun a b h => t3 _ _ fun e => h (finj e), ?_, ?_⟩
  · rintro (a | n) (b | m) h
    · exact t4 (.inl _) (.inl _) (hO.sb (hst a.2) (hst b.2) h.1 h.2)
    · refine t4 (.inl _) (.inr m) ⟨a.1, m, hst a.2, .inl rfl, ?_, ?_, .inl rfl⟩
      · cases m <;> exact h.1
      · cases m <;> exact h.2
    · refine t4 (.inr n) (.inl _) ⟨n, b.1, hst b.2, .inl rfl, ?_, ?_, .inl rfl⟩
      · cases n <;> exact h.1
      · cases n <;> exact h.2
    · refine up (Nodes.prior_sb (L := nodes L D) (n := n) (m := m) ?_ ?_)
      · cases n <;> cases m <;> exact h.1
      · cases n <;> cases m <;> exact h.2
  · rintro (a | S | a) x v h
    · have hax : A x := by
        obtain ⟨it, h1, h2, -⟩ := a.2
        obtain ⟨it', r, s, i1, i2, -⟩ := h
        rw [h1] at i1; cases i1; rw [← i2]; exact h2
      rcases hlast a.1 x v a.2 h with ⟨b, fb, k1, k2, k3⟩ | ⟨k1, k2⟩
      · refine .inl ⟨.inl ⟨b, fb⟩, t4 (.inl _) (.inl _) k1, k2, ?_⟩
        rintro (c | C | c) u hc hl
        · rcases k3 c.1 u c.2 (back hc) hl with e | e
          · exact .inl (congrArg Sum.inl (Subtype.ext e))
          · exact .inr (t4 (.inl _) (.inl _) e)
        · have := hl.1; rw [hA x hax] at this; cases this
        · exact absurd hax (hDA x (ownD c hl))
      · refine .inr ⟨k1, ?_⟩
        rintro (c | C | c) u hc hl
        · exact k2 c.1 u c.2 (back hc) hl
        · have := hl.1; rw [hA x hax] at this; cases this
        · exact absurd hax (hDA x (ownD c hl))
    · obtain ⟨hg, h⟩ := h
      have hnA : ∀ c : { a // FreeOp R A a }, ∀ u, ¬ FreeLeft R V c.1 x u := by
        intro c u hu
        have := hA x (freeA c hu); rw [hg] at this; cases this
      have hnD : ∀ c : { a // OwnOp R D a }, ∀ u, ¬ OwnLeft R V c.1 x u := by
        intro c u hu
        have := hDg x (ownD c hu); rw [hg] at this; cases this
      rcases Locks.section_last hG h hg with ⟨S', k1, k2, k3, k4⟩ | ⟨k1, k2⟩
      · refine .inl ⟨.inr (.inl S'), up (n := .inl S') (m := .inl S) k1, ⟨by rw [hg, k2], k3⟩, ?_⟩
        rintro (c | C | c) u hc hl
        · exact absurd hl (hnA c u)
        · have hm : L.mutex C = L.mutex S := by
            have := hl.1; rw [hg] at this; exact (Option.some.inj this).symm
          rcases k4 C u hm (backS hm hc) hl.2 with e | e
          · exact .inl (congrArg (fun C => Sum.inr (Sum.inl C)) e)
          · exact .inr (up (n := .inl C) (m := .inl S') e)
        · exact absurd hl (hnD c u)
      · refine .inr ⟨k1, ?_⟩
        rintro (c | C | c) u hc hl
        · exact absurd hl (hnA c u)
        · have hm : L.mutex C = L.mutex S := by
            have := hl.1; rw [hg] at this; exact (Option.some.inj this).symm
          exact k2 C u hm (backS hm hc) hl.2
        · exact absurd hl (hnD c u)
    · have hdx : D x := by
        obtain ⟨it', e, s, i1, i2, -⟩ := h
        obtain ⟨y, l, h1, h2⟩ := a.2
        have := i1.item; rw [h1] at this; cases this; rw [← i2]; exact h2
      have hnA : ∀ c : { a // FreeOp R A a }, ∀ u, ¬ FreeLeft R V c.1 x u := fun c u hu => hDA x hdx (freeA c hu)
      rcases own_last (L := L) hD hrace h with ⟨b, k1, k2, k3⟩ | ⟨k1, k2⟩
      · refine .inl ⟨.inr (.inr b), up k1, k2, ?_⟩
        rintro (c | C | c) u hc hl
        · exact absurd hl (hnA c u)
        · have := hl.1; rw [hDg x hdx] at this; cases this
        · obtain ⟨h1, h2⟩ := backO hc
          rcases k3 c u h1 hl h2 with rfl | e
          · exact .inl rfl
          · exact .inr (up e)
      · refine .inr ⟨k1, ?_⟩
        rintro (c | C | c) u hc hl
        · exact absurd hl (hnA c u)
        · have := hl.1; rw [hDg x hdx] at this; cases this
        · obtain ⟨h1, h2⟩ := backO hc
          exact k2 c u h1 h2 hl

end Verif.Whole
