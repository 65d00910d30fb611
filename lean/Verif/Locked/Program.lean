import Verif.Locked.OneOrder

/-
The sections of a program satisfy what `Verif.Locked.Exclusion` needs.
-/

namespace Verif.Locked

open Verif.Order Verif.Mca Verif.Mca.Run

/-! ### Words -/

theorem taken_odd {v : Nat} (h : v &&& locked = 0) : v % 2 = 0 ∧ takenWord v % 2 = 1 := by
  simp only [takenWord, locked] at *
  refine ⟨by rw [Nat.and_one_is_mod] at h; exact h, ?_⟩
  simp [Nat.or_mod_two_eq_one]

theorem given_even (v : Nat) : givenWord v % 2 = 0 := by
  have h : (v &&& compl32 locked) % 2 ^ 1 = 0 := by
    rw [Nat.and_mod_two_pow]; simp [compl32, locked]
  simp only [givenWord, counterOne]
  omega

theorem marked_same (v : Nat) : markedWord v % 2 = v % 2 := by
  have := Nat.or_mod_two_pow (a := v) (b := contended) (n := 1)
  simp only [markedWord]
  simpa [contended] using this

theorem unmarked_same (v : Nat) : unmarkedWord v % 2 = v % 2 := by
  have := Nat.and_mod_two_pow (a := v) (b := compl32 contended) (n := 1)
  simp only [unmarkedWord]
  simp only [contended, compl32] at this ⊢
  rw [Nat.pow_one] at this
  rw [this]
  rcases Nat.mod_two_eq_zero_or_one v with h | h <;> rw [h] <;> rfl

/-! ### Positions -/

theorem code_append (p q : List Piece) : code (p ++ q) = code p ++ code q := by simp [code]

theorem locate : ∀ {p : List Piece} {k : Nat} {it : Item}, (code p)[k]? = some it →
    ∃ (i : Nat) (q : Piece) (j : Nat), p[i]? = some q ∧ k = (code (p.take i)).length + j ∧ q.items[j]? = some it := by
  intro p
  induction p with
  | nil => intro k it h; simp [code] at h
  | cons q p ih =>
    intro k it h
    have e : code (q :: p) = q.items ++ code p := by simp [code]
    rw [e] at h
    by_cases hk : k < q.items.length
    · rw [List.getElem?_append_left hk] at h
      exact ⟨0, q, k, rfl, by simp [code], h⟩
    · rw [List.getElem?_append_right (by omega)] at h
      obtain ⟨i, q', j, h1, h2, h3⟩ := ih h
      refine ⟨i + 1, q', j, by simpa using h1, ?_, h3⟩
      have : code ((q :: p).take (i + 1)) = q.items ++ code (p.take i) := by simp [code]
      rw [this, List.length_append]; omega

theorem at_piece {p : List Piece} {i : Nat} {q : Piece} (h : p[i]? = some q) {j : Nat} (hj : j < q.items.length) :
    (code p)[(code (p.take i)).length + j]? = q.items[j]? := by
  obtain ⟨a, c, rfl, rfl⟩ := split_at h
  have : (a ++ q :: c).take a.length = a := by simp
  rw [this, code_append, List.getElem?_append_right (by omega), Nat.add_sub_cancel_left]
  have : code (q :: c) = q.items ++ code c := by simp [code]
  rw [this, List.getElem?_append_left hj]

theorem start_lt {p : List Piece} {i i' : Nat} {q : Piece} (h : p[i]? = some q) (hlt : i < i') :
    (code (p.take i)).length + q.items.length ≤ (code (p.take i')).length := by
  have h1 : p.take (i + 1) = p.take i ++ [q] := by rw [List.take_add_one, h]; rfl
  have h2 : p.take i' = p.take (i + 1) ++ (p.take i').drop (i + 1) := by
    conv => lhs; rw [← List.take_append_drop (i + 1) (p.take i')]
    rw [List.take_take, Nat.min_eq_left (by omega)]
  rw [h2, h1]
  simp [code]

namespace Sec

variable {P : Nat → List Piece}

theorem mem (S : Sec P) : Piece.locked S.sec ∈ P S.thread := List.mem_of_getElem? S.2

theorem isMutex (S : Sec P) : IsMutex P S.sec.mutex := ⟨_, _, S.mem, rfl⟩

theorem length (s : Section) : s.items.length =
    s.spin.length + 1 + s.body.length + s.leave.length + 1 + s.wake.length := by
  simp [Section.items]; omega

theorem end_le {S S' : Sec P} (ht : S.thread = S'.thread) (h : S.1.1.2 < S'.1.1.2) :
    S.start + S.sec.items.length ≤ S'.start := by
  have := start_lt (q := .locked S.sec) S.2 h
  unfold start
  unfold thread at ht
  rw [← ht]
  exact this

theorem ext {S S' : Sec P} (ht : S.thread = S'.thread) (h : S.1.1.2 = S'.1.1.2) : S = S' := by
  obtain ⟨⟨⟨t, i⟩, s⟩, hs⟩ := S
  obtain ⟨⟨⟨t', i'⟩, s'⟩, hs'⟩ := S'
  simp only [thread] at ht h
  subst ht; subst h
  simp only at hs hs'
  rw [hs] at hs'
  cases hs'
  rfl

theorem take_inj {S S' : Sec P} (h : S.take = S'.take) : S = S' := by
  have ht : S.thread = S'.thread := (congrArg Prod.fst h :)
  have h2 : S.start + S.sec.spin.length = S'.start + S'.sec.spin.length := congrArg Prod.snd h
  rcases Nat.lt_trichotomy S.1.1.2 S'.1.1.2 with k | k | k
  · have := end_le ht k; have := length S.sec; omega
  · exact ext ht k
  · have := end_le ht.symm k; have := length S'.sec; omega

theorem take_ne {S S' : Sec P} : S.take ≠ S'.give := by
  intro h
  have ht : S.thread = S'.thread := (congrArg Prod.fst h :)
  have h2 : S.start + S.sec.spin.length =
    S'.start + S'.sec.spin.length + 1 + S'.sec.body.length + S'.sec.leave.length := congrArg Prod.snd h
  rcases Nat.lt_trichotomy S.1.1.2 S'.1.1.2 with k | k | k
  · have := end_le ht k; have := length S.sec; omega
  · obtain rfl := ext ht k; omega
  · have := end_le ht.symm k; have := length S'.sec; omega

end Sec

variable {cpu : Cpu} {R : Mca.Run cpu} {P : Nat → List Piece}

theorem item_take (hP : ∀ t, R.prog t = code (P t)) (S : Sec P) : (R.prog S.take.1)[S.take.2]? = some S.sec.take := by
  have := Sec.length S.sec
  show (R.prog S.thread)[S.start + S.sec.spin.length]? = _
  rw [hP]
  refine (at_piece (q := .locked S.sec) S.2 (by show _ < S.sec.items.length; omega)).trans ?_
  simp [Piece.items, Section.items]

theorem item_give (hP : ∀ t, R.prog t = code (P t)) (S : Sec P) : (R.prog S.give.1)[S.give.2]? = some S.sec.give := by
  have := Sec.length S.sec
  show (R.prog S.thread)[S.start + S.sec.spin.length + 1 + S.sec.body.length + S.sec.leave.length]? = _
  rw [hP]
  have e : S.start + S.sec.spin.length + 1 + S.sec.body.length + S.sec.leave.length =
    (code ((P S.1.1.1).take S.1.1.2)).length + (S.sec.spin.length + 1 + S.sec.body.length + S.sec.leave.length) := by
    unfold Sec.start; omega
  rw [e]
  refine (at_piece (q := .locked S.sec) S.2 (by show _ < S.sec.items.length; omega)).trans ?_
  have h : S.sec.items = (S.sec.spin ++ S.sec.take :: (S.sec.body ++ S.sec.leave)) ++ S.sec.give :: S.sec.wake := by
    simp [Section.items]
  have hl : S.sec.spin.length + 1 + S.sec.body.length + S.sec.leave.length =
      (S.sec.spin ++ S.sec.take :: (S.sec.body ++ S.sec.leave)).length := by simp; omega
  show S.sec.items[_]? = _
  rw [h, hl, List.getElem?_append_right (Nat.le_refl _), Nat.sub_self]
  rfl

/-- Where an operation of the program is. -/
theorem place (hP : ∀ t, R.prog t = code (P t)) {id : OpId} {it : Item} (h : (R.prog id.1)[id.2]? = some it) :
    Piece.plain it ∈ P id.1 ∨ ∃ S : Sec P, S.thread = id.1 ∧
      (it ∈ S.sec.spin ∨ (id = S.take ∧ it = S.sec.take) ∨
        (it ∈ S.sec.body ∧ S.take.2 < id.2 ∧ id.2 < S.give.2) ∨ it ∈ S.sec.leave ∨
        (id = S.give ∧ it = S.sec.give) ∨ it ∈ S.sec.wake) := by
  rw [hP] at h
  obtain ⟨i, q, j, h1, h2, h3⟩ := locate h
  cases q with
  | plain it' =>
    left
    have : it' = it := by
      simp only [Piece.items] at h3
      match j, h3 with
      | 0, h3 => simpa using h3
    rw [← this]; exact List.mem_of_getElem? h1
  | locked s =>
    right
    refine ⟨⟨((id.1, i), s), h1⟩, rfl, ?_⟩
    simp only [Piece.items, Section.items] at h3
    simp only [Sec.take, Sec.give, Sec.sec, Sec.start, Sec.thread]
    by_cases k1 : j < s.spin.length
    · rw [List.getElem?_append_left k1] at h3
      exact .inl (List.mem_of_getElem? h3)
    rw [List.getElem?_append_right (by omega)] at h3
    by_cases k2 : j = s.spin.length
    · subst k2
      simp at h3
      exact .inr (.inl ⟨Prod.ext rfl h2, h3.symm⟩)
    obtain ⟨j', rfl⟩ : ∃ j', j = s.spin.length + 1 + j' := ⟨j - s.spin.length - 1, by omega⟩
    have e : s.spin.length + 1 + j' - s.spin.length = j' + 1 := by omega
    rw [e, List.getElem?_cons_succ] at h3
    by_cases k3 : j' < s.body.length
    · rw [List.getElem?_append_left k3] at h3
      exact .inr (.inr (.inl ⟨List.mem_of_getElem? h3, by omega, by omega⟩))
    rw [List.getElem?_append_right (by omega)] at h3
    by_cases k4 : j' - s.body.length < s.leave.length
    · rw [List.getElem?_append_left k4] at h3
      exact .inr (.inr (.inr (.inl (List.mem_of_getElem? h3))))
    rw [List.getElem?_append_right (by omega)] at h3
    by_cases k5 : j' - s.body.length - s.leave.length = 0
    · rw [k5] at h3
      simp at h3
      exact .inr (.inr (.inr (.inr (.inl ⟨Prod.ext rfl (by simp only; omega), h3.symm⟩))))
    · obtain ⟨j'', hj⟩ : ∃ j'', j' - s.body.length - s.leave.length = j'' + 1 := ⟨_, (Nat.succ_pred k5).symm⟩
      rw [hj, List.getElem?_cons_succ] at h3
      exact .inr (.inr (.inr (.inr (.inr (List.mem_of_getElem? h3)))))

/-! ### The sections as locks -/

variable {M : Memory R} {V : Values} {guard : Nat → Option Nat}

theorem instr_at {id : OpId} {it : Item} (hit : (R.prog id.1)[id.2]? = some it) {i : Nat} {x : Instr}
    (hx : it.code[i]? = some x) : ∃ e, R.Within e id it ∧ R.Is e ⟨x, it.loc, it.pairOf x⟩ := by
  obtain ⟨pre, post, hp, hl⟩ := split_at hit
  have hi : i < (it.events).length := by
    have := (List.getElem?_eq_some_iff.1 hx).1; simpa [Item.events] using this
  refine ⟨(id.1, (events pre).length + i), ⟨pre, hl, rfl, ⟨post, hp⟩, by simp, by simpa using hi⟩, ?_⟩
  rw [Is, code_eq hp, List.getElem?_append_right (by simp), List.getElem?_append_left (by simpa using hi)]
  simp [Item.events, hx]

/-- A read-modify-write has a read and a write. -/
theorem rmw_accesses {id : OpId} {it : Item} (hit : (R.prog id.1)[id.2]? = some it) (hr : it.isRmw = true) :
    ∃ r w, R.Ret id r ∧ R.Pub id w := by
  obtain ⟨k, hk, hk'⟩ : ∃ k, it.kind = some k ∧ (k = .rmw ∨ k = .loop ∨ ∃ f, k = .casOk f) := by
    cases it with
    | op b k o n l => cases k <;> simp [Item.isRmw] at hr <;> exact ⟨_, rfl, by simp⟩
    | exchange => exact ⟨_, rfl, .inl rfl⟩
    | _ => cases hr
  obtain ⟨A, N, B, hl, -, -, hM⟩ := item_shape hk
  have hM : (∃ x, N = [x] ∧ x.ret = true ∧ x.rd = true ∧ x.pub = true ∧ x.wr = true) ∨
        ∃ x y, N = [x, y] ∧ x.ret = true ∧ x.rd = true ∧ x.pub = false ∧ x.wr = false ∧
          y.pub = true ∧ y.wr = true ∧ y.ret = false ∧ y.rd = false := by
    rcases hk' with rfl | rfl | ⟨f, rfl⟩ <;> exact hM
  rcases hM with ⟨x, rfl, h1, -, h2, -⟩ | ⟨x, y, rfl, h1, -, -, -, h2, -⟩
  · obtain ⟨e, he, hx⟩ := instr_at hit (i := A.length) (x := x) (by rw [hl]; simp)
    exact ⟨e, e, ⟨it, _, he, hx, h1⟩, ⟨it, _, he, hx, h2⟩⟩
  · obtain ⟨e, he, hx⟩ := instr_at hit (i := A.length) (x := x) (by rw [hl]; simp)
    obtain ⟨f, hf, hy⟩ := instr_at hit (i := A.length + 1) (x := y) (by rw [hl]; simp)
    exact ⟨e, f, ⟨it, _, he, hx, h1⟩, ⟨it, _, hf, hy, h2⟩⟩

/-- The read and the write of a read-modify-write. -/
theorem rmw_facts {id : OpId} {it : Item} (hit : (R.prog id.1)[id.2]? = some it) (hrmw : it.isRmw = true) :
    ∃ r w, R.Ret id r ∧ R.Has r .rd ∧ R.Pub id w ∧ R.Has w .wr ∧ R.Paired r w ∧
      ∀ e it, R.Within e id it → R.Has e .wr → e = w := by
  obtain ⟨k, hk⟩ : ∃ k, it.kind = some k := by
    cases it <;> simp [Item.isRmw] at hrmw <;> exact ⟨_, rfl⟩
  obtain ⟨r', w', hr', hw'⟩ := rmw_accesses hit hrmw
  cases facts hit hk with
  | both r w ret rd uniq pub has uniq' pair wr =>
    refine ⟨r, w, ret, rd, pub, has, pair, fun e it h hw => wr e ?_ hw⟩
    have := h.item; rw [hit] at this; cases this; exact h
  | reads r ret rd uniq npub wr => exact absurd hw' (npub w')
  | writes w pub has uniq nret wr => exact absurd hr' (nret r')

theorem take_item (hP : ∀ t, R.prog t = code (P t)) (hL : Lawful P guard) (S : Sec P) :
    ∃ b n, (R.prog S.take.1)[S.take.2]? = some (.op b (.casOk .relaxed) .acquire n S.sec.mutex) := by
  obtain ⟨b, n, h⟩ := (hL.sections _ _ S.mem).take
  exact ⟨b, n, by rw [item_take hP S, h]⟩

theorem give_item (hP : ∀ t, R.prog t = code (P t)) (hL : Lawful P guard) (S : Sec P) :
    ∃ b n, (R.prog S.give.1)[S.give.2]? = some (.op b (.casOk .relaxed) .release n S.sec.mutex) := by
  obtain ⟨b, n, h⟩ := (hL.sections _ _ S.mem).give
  exact ⟨b, n, by rw [item_give hP S, h]⟩

/-- The accesses of the operation that takes the mutex. -/
structure Taking (R : Mca.Run cpu) (S : Sec P) (r w : Pos) : Prop where
  ret : R.Ret S.take r
  rd : R.Has r .rd
  pub : R.Pub S.take w
  wr : R.Has w .wr
  pair : R.Paired r w
  only : ∀ e it, R.Within e S.take it → R.Has e .wr → e = w
  acquire : R.AcquireRead r
  loc : ∀ x, R.Is w x → x.loc = S.sec.mutex

/-- The accesses of the operation that gives it back. -/
structure Giving (R : Mca.Run cpu) (S : Sec P) (r w : Pos) : Prop where
  ret : R.Ret S.give r
  rd : R.Has r .rd
  pub : R.Pub S.give w
  wr : R.Has w .wr
  pair : R.Paired r w
  only : ∀ e it, R.Within e S.give it → R.Has e .wr → e = w
  release : R.ReleaseWrite w
  loc : ∀ x, R.Is w x → x.loc = S.sec.mutex

theorem taking (hP : ∀ t, R.prog t = code (P t)) (hL : Lawful P guard) (S : Sec P) : ∃ r w, Taking R S r w := by
  obtain ⟨b, n, h⟩ := take_item hP hL S
  obtain ⟨r, w, h1, h2, h3, h4, h5, h6⟩ := rmw_facts h rfl
  refine ⟨r, w, h1, h2, h3, h4, h5, h6, ?_, ?_⟩
  · obtain ⟨it, x, hin, hx, hr⟩ := h1
    have := hin.item; rw [h] at this; cases this
    obtain ⟨pre, -, -, hi⟩ := hin
    exact ⟨pre, _, _, x, hi, hx, hr, rfl, rfl⟩
  · intro x hx
    obtain ⟨it, y, hin, -, -⟩ := h3
    have := hin.item; rw [h] at this; cases this
    exact hin.loc hx

theorem giving (hP : ∀ t, R.prog t = code (P t)) (hL : Lawful P guard) (S : Sec P) : ∃ r w, Giving R S r w := by
  obtain ⟨b, n, h⟩ := give_item hP hL S
  obtain ⟨r, w, h1, h2, h3, h4, h5, h6⟩ := rmw_facts h rfl
  refine ⟨r, w, h1, h2, h3, h4, h5, h6, ?_, ?_⟩
  · obtain ⟨it, x, hin, hx, hr⟩ := h3
    have := hin.item; rw [h] at this; cases this
    obtain ⟨pre, -, -, hi⟩ := hin
    exact ⟨pre, _, _, x, hi, hx, hr, rfl, rfl⟩
  · intro x hx
    obtain ⟨it, y, hin, -, -⟩ := h3
    have := hin.item; rw [h] at this; cases this
    exact hin.loc hx

theorem Mark.loc {m : Nat} {it : Item} (h : Mark m it) : it.loc = m := by
  obtain ⟨b, n, k, -, rfl⟩ := h; rfl

theorem Watch.loc {m : Nat} {it : Item} (h : Watch m it) : it.loc = m := by
  obtain ⟨b, n, rfl | ⟨o, -, rfl⟩⟩ := h <;> rfl

theorem Mark.isRmw {m : Nat} {it : Item} (h : Mark m it) : it.isRmw = true := by
  obtain ⟨b, n, k, hk, rfl⟩ := h
  simp only [List.mem_cons, List.not_mem_nil, or_false] at hk
  rcases hk with rfl | rfl | rfl <;> rfl

theorem Watch.kind {m : Nat} {it : Item} (h : Watch m it) : ∃ k, it.kind = some k ∧ (k = .load ∨ k = .casFail .relaxed) := by
  obtain ⟨b, n, rfl | ⟨o, -, rfl⟩⟩ := h
  · exact ⟨_, rfl, .inl rfl⟩
  · exact ⟨_, rfl, .inr rfl⟩

/-- A write of an operation that modifies nothing. -/
theorem watch_copy {id : OpId} {it : Item} (hit : (R.prog id.1)[id.2]? = some it) {m : Nat} (h : Watch m it) {w : Pos}
    (hin : R.Within w id it) (hw : R.Has w .wr) : ∃ r, R.CopyOf r w := by
  obtain ⟨k, hk, hk'⟩ := h.kind
  obtain ⟨A, N, B, hl, hA, hB, hM⟩ := item_shape hk
  have np : ∀ x ∈ it.code, x.pub = false := by
    intro x hx
    rw [hl, List.mem_append, List.mem_append] at hx
    have q : ∀ x : Instr, x.quiet = true → x.pub = false := by intro x; simp [Instr.quiet]; intros; assumption
    rcases hx with (hx | hx) | hx
    · exact q x (hA x hx)
    · have hM : (∃ x, N = [x] ∧ x.ret = true ∧ x.rd = true ∧ x.pub = false) ∨ ∃ x y, N = [x, y] ∧ x.ret = true ∧
          x.rd = true ∧ x.pub = false ∧ x.wr = false ∧ y.pub = false ∧ y.wr = true ∧ y.ret = false ∧ y.rd = false := by
        rcases hk' with rfl | rfl <;> exact hM
      rcases hM with ⟨y, rfl, -, -, hy⟩ | ⟨y, z, rfl, -, -, hy, -, hz, -⟩
      · rw [List.mem_singleton.1 hx]; exact hy
      · rcases List.mem_cons.1 hx with hx | hx
        · rw [hx]; exact hy
        · rw [List.mem_singleton.1 hx]; exact hz
    · exact q x (hB x hx)
  have npub : ∀ e, ¬ R.Pub id e := by
    rintro e ⟨it', x, hin, hx, hp⟩
    have := hin.item; rw [hit] at this; cases this
    obtain ⟨pre, -, -, hi⟩ := hin
    obtain ⟨-, a, c, -, e1, -⟩ := hi.split hx
    have : x.ins ∈ it.code := by rw [← events_ins, e1]; simp
    rw [np _ this] at hp; cases hp
  cases facts hit hk with
  | both r w' ret rd uniq pub => exact absurd pub (npub _)
  | writes w' pub => exact absurd pub (npub _)
  | reads r ret rd uniq npub wr =>
    obtain ⟨h1, h2⟩ := wr w hin hw
    exact ⟨r, h1, h2⟩

/-- Whose access of the word of a mutex it is. -/
theorem accesses_mutex (hP : ∀ t, R.prog t = code (P t)) (hL : Lawful P guard) {id : OpId} {it : Item}
    (hit : (R.prog id.1)[id.2]? = some it) (hf : it.isFence = false) (hm : IsMutex P it.loc) :
    (∃ S : Sec P, id = S.take) ∨ (∃ S : Sec P, id = S.give) ∨ Watch it.loc it ∨ Mark it.loc it := by
  have wm : ∀ {m}, Watch m it ∨ Mark m it → Watch it.loc it ∨ Mark it.loc it := by
    rintro m (h | h)
    · rw [h.loc]; exact .inl h
    · rw [h.loc]; exact .inr h
  rcases place hP hit with h | ⟨S, hS, h | ⟨h, -⟩ | ⟨h, -⟩ | h | ⟨h, -⟩ | h⟩
  · rcases hL.plain _ _ h with h | ⟨h, -⟩
    · rw [hf] at h; cases h
    · exact absurd hm h
  · exact .inr (.inr (wm ((hL.sections _ _ S.mem).spin _ h)))
  · exact .inl ⟨S, h⟩
  · rcases hL.body _ _ _ S.mem h with h | h | ⟨h, -⟩
    · rw [hf] at h; cases h
    · exact .inr (.inr (wm (.inr h)))
    · exact absurd hm h
  · exact .inr (.inr (wm (.inl ((hL.sections _ _ S.mem).leave _ h))))
  · exact .inr (.inl ⟨S, h⟩)
  · exact .inr (.inr (wm ((hL.sections _ _ S.mem).wake _ h)))

/-- The sections of a program that follows the code of the mutex. -/
noncomputable def locks (M : Memory R) (hP : ∀ t, R.prog t = code (P t)) (hL : Lawful P guard)
    (hF : Follows R M.rf V P) (hcr : ∀ r c, R.CopyOf r c → R.Has c .wr → R.Has r .rd) : Locks M V :=
  have ht := fun S => Classical.choose_spec (Classical.choose_spec (taking hP hL S))
  have hg := fun S => Classical.choose_spec (Classical.choose_spec (giving hP hL S))
  { Sec := Sec P
    mutex := fun S => S.sec.mutex
    take := Sec.take
    give := Sec.give
    lr := fun S => Classical.choose (taking hP hL S)
    lw := fun S => Classical.choose (Classical.choose_spec (taking hP hL S))
    uw := fun S => Classical.choose (Classical.choose_spec (giving hP hL S))
    same := fun S => rfl
    lt := fun S => by show S.start + _ < S.start + _ + 1 + _ + _; omega
    inj := fun S S' h => Sec.take_inj h
    ne := fun S S' => Sec.take_ne
    lr_in := fun S => by obtain ⟨it, -, h, -⟩ := (ht S).ret; exact ⟨it, h⟩
    lw_in := fun S => by obtain ⟨it, -, h, -⟩ := (ht S).pub; exact ⟨it, h⟩
    uw_in := fun S => by obtain ⟨it, -, h, -⟩ := (hg S).pub; exact ⟨it, h⟩
    lr_rd := fun S => (ht S).rd
    lw_wr := fun S => (ht S).wr
    uw_wr := fun S => (hg S).wr
    pair := fun S => (ht S).pair
    acquire := fun S => (ht S).acquire
    release := fun S => (hg S).release
    lw_loc := fun S => (ht S).loc
    uw_loc := fun S => (hg S).loc
    taken := fun S => by
      obtain ⟨s, h1, h2, -⟩ := hF.take S _ _ (ht S).ret (ht S).pub
      exact ⟨s, h1, (taken_odd h2).1⟩
    lw_val := fun S => by
      obtain ⟨s, -, h2, h3⟩ := hF.take S _ _ (ht S).ret (ht S).pub
      rw [h3]; exact (taken_odd h2).2
    uw_val := fun S => by
      obtain ⟨s, -, h3⟩ := hF.give S _ _ (hg S).ret (hg S).pub
      rw [h3]; exact given_even _
    uw_rmw := fun S => by
      obtain ⟨s, h1, -⟩ := hF.give S _ _ (hg S).ret (hg S).pub
      exact ⟨_, s, (hg S).pair, (hg S).rd, h1⟩
    others := by
      intro w x S hx hw hxl
      obtain ⟨id, it, hin⟩ := exists_within hx
      have hl : it.loc = S.sec.mutex := (hin.loc hx).symm.trans hxl
      rcases accesses_mutex hP hL hin.item (hin.writes hw) (hl ▸ S.isMutex) with ⟨S', rfl⟩ | ⟨S', rfl⟩ | h | h
      · exact .inl ⟨S', (ht S').only _ _ hin hw⟩
      · exact .inr (.inl ⟨S', (hg S').only _ _ hin hw⟩)
      · right; right
        obtain ⟨r, hc⟩ := watch_copy hin.item h hin hw
        obtain ⟨s, h1, h2⟩ := hF.copies r w x hc hx
        exact ⟨r, s, hc.1, hcr r w hc hw, h1, by rw [h2, hxl]⟩
      · right; right
        obtain ⟨r, w', h1, h2, h3, h4, h5, h6⟩ := rmw_facts hin.item h.isRmw
        cases h6 w it hin hw
        obtain ⟨s, k1, k2⟩ := hF.mark id it S.sec.mutex hin.item S.isMutex (hl ▸ h) r w h1 h3
        refine ⟨r, s, h5, h2, k1, ?_⟩
        rcases k2 with k2 | k2 <;> rw [k2]
        · exact marked_same _
        · exact unmarked_same _
    init := fun S => by rw [hF.init _ S.isMutex] }

theorem locks_guards (M : Memory R) (hP : ∀ t, R.prog t = code (P t)) (hL : Lawful P guard)
    (hF : Follows R M.rf V P) (hcr : ∀ r c, R.CopyOf r c → R.Has c .wr → R.Has r .rd) :
    (locks M hP hL hF hcr).Guards guard := by
  intro e x p m hx he hg
  obtain ⟨id, it, hin⟩ := exists_within hx
  have hl : it.loc = x.loc := (hin.loc hx).symm
  have hf : it.isFence = false := by
    cases it with
    | fence b o => exact absurd he hin.no_access
    | _ => rfl
  have nm : ¬ IsMutex P it.loc := fun h => by have := hL.words _ h; rw [hl, hg] at this; cases this
  have wm : ∀ {S : Sec P}, Watch S.sec.mutex it ∨ Mark S.sec.mutex it → False := by
    rintro S (h | h) <;> exact nm (h.loc ▸ S.isMutex)
  rcases place hP hin.item with h | ⟨S, hS, h | ⟨h, h'⟩ | ⟨h, h1, h2⟩ | h | ⟨h, h'⟩ | h⟩
  · rcases hL.plain _ _ h with h | ⟨-, h⟩
    · rw [hf] at h; cases h
    · rw [hl, hg] at h; cases h
  · exact (wm ((hL.sections _ _ S.mem).spin _ h)).elim
  · obtain ⟨b, n, k⟩ := (hL.sections _ _ S.mem).take
    rw [← h'] at k; subst k
    exact absurd S.isMutex nm
  · rcases hL.body _ _ _ S.mem h with h | h | ⟨-, h⟩
    · rw [hf] at h; cases h
    · exact (wm (.inr h)).elim
    · exact ⟨S, (h m (by rw [hl, hg])).symm, id, it, hin, hS.symm, h1, h2⟩
  · exact (wm (.inl ((hL.sections _ _ S.mem).leave _ h))).elim
  · obtain ⟨b, n, k⟩ := (hL.sections _ _ S.mem).give
    rw [← h'] at k; subst k
    exact absurd S.isMutex nm
  · exact (wm ((hL.sections _ _ S.mem).wake _ h)).elim

end Verif.Locked
