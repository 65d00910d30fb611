import Verif.Idiom.Hist
import Mathlib.Data.List.Perm.Subperm

/-
The reference that is dropped last.
-/

namespace Verif.Idiom

open Verif.Order Verif.Mca Verif.Mca.Run Verif.Locked

variable {cpu : Cpu} {R : Mca.Run cpu} {M : Memory R} {V : Values} {x bits : Nat} {P : Refs}

theorem Arith.item {id : OpId} {o : MO} (h : Arith R id o x) : ∃ it, At R id it ∧ it.isRmw = true ∧ it.loc = x ∧
    it.writeOrder = some o := by
  obtain ⟨b, k, n, rfl | rfl, h⟩ := h <;> exact ⟨_, h, rfl, rfl, rfl⟩

theorem Arith.mod {id : OpId} {o : MO} (h : Arith R id o x) : ∃ r w, Mod R x id r w := by
  obtain ⟨it, h1, h2, h3, -⟩ := h.item
  exact mod_of h1 h2 h3

/-- A read-modify-write finds one modification. -/
theorem Mod.src {id : OpId} {r w : Pos} (h : Mod R x id r w) {s s' : Option Pos} (hs : Src M r s) (hs' : Src M r s') : s = s' := by
  have key : ∀ {s s' u}, Src M r s → Src M r s' → s = some u → s' = some u ∨ ∃ u', s' = some u' ∧ M.mo u u' := by
    intro s s' u hs hs' e
    subst e
    obtain ⟨h1, h2, h3⟩ := src_source h.rd hs
    exact (src_atomic h.rd h.wr h.pair hs').2 u h1 h2 (h3.symm.trans h.pair.1) ((src_atomic h.rd h.wr h.pair hs).1 u rfl)
  cases s with
  | none => cases s' with
    | none => rfl
    | some u => rcases key hs' hs rfl with k | ⟨_, k, -⟩ <;> cases k
  | some u =>
    rcases key hs hs' rfl with k | ⟨u', rfl, k⟩
    · exact k.symm
    · rcases key hs' hs rfl with k' | ⟨_, k', k''⟩
      · exact k'
      · cases k'; exact absurd (M.mo_trans k k'') (M.mo_irrefl _)

theorem Mod.finds (hV : ∀ r c x, R.CopyOf r c → R.Is c x → ∃ s, M.rf r s ∧ V.val c = V.of x.loc s) {id : OpId} {r w : Pos}
    (h : Mod R x id r w) {v : Nat} (hf : Finds R M.rf V id x v) : ∃ s, M.rf r s ∧ ∀ s', Src M r s' → V.of x s' = v := by
  obtain ⟨r', s, h1, h2, h3⟩ := hf
  have e : r' = r := by
    obtain ⟨it, hin⟩ := h.within
    cases it with
    | user i l =>
      exfalso
      obtain ⟨y, d, hy, hp, -⟩ := h.pair.2
      obtain ⟨pre, -, -, hi⟩ := hin
      obtain ⟨_, a, c, -, he, -⟩ := hi.split hy
      have : y ∈ (Item.user i l).events := by rw [he]; simp
      simp [Item.events, Item.code, Item.pairOf] at this
      rw [this] at hp; cases hp
    | fence => exact absurd h.wr hin.no_access
    | op b k =>
      cases facts (k := k) hin.item rfl with
      | reads r ret rd uniq npub wr => exact absurd h.pub (npub _)
      | writes w' pub has uniq nret wr => exact absurd h.ret (nret _)
      | both r₀ w₀ ret rd uniq pub has uniq' pair wr => exact (uniq _ h1).trans (uniq _ h.ret).symm
    | exchange b =>
      cases facts (k := .rmw) hin.item rfl with
      | reads r ret rd uniq npub wr => exact absurd h.pub (npub _)
      | writes w' pub has uniq nret wr => exact absurd h.ret (nret _)
      | both r₀ w₀ ret rd uniq pub has uniq' pair wr => exact (uniq _ h1).trans (uniq _ h.ret).symm
    | clear b =>
      cases facts (k := .store) hin.item rfl with
      | reads r ret rd uniq npub wr => exact absurd h.pub (npub _)
      | writes w' pub has uniq nret wr => exact absurd h.ret (nret _)
      | both r₀ w₀ ret rd uniq pub has uniq' pair wr => exact (uniq _ h1).trans (uniq _ h.ret).symm
  subst e
  obtain ⟨s', k1, k2⟩ := src_exists hV h2 h.rd h.onr.loc
  exact ⟨s, h2, fun s'' h'' => by rw [h.src h'' k1, k2, h3]⟩

namespace RefCount

variable (h : RefCount R M.rf M.hb V x bits P)
  (hV : ∀ r c x, R.CopyOf r c → R.Is c x → ∃ s, M.rf r s ∧ V.val c = V.of x.loc s)

/-- The reference was made by modification `n` of the counter. -/
def AddAt (M : Memory R) (x : Nat) (P : Refs) (n : Nat) (p : P.Ref) : Prop := Turn M x n (P.add p)

/-- The reference was dropped by modification `n` of the counter. -/
def DropAt (M : Memory R) (x : Nat) (P : Refs) (n : Nat) (p : P.Ref) : Prop := ∃ d, P.release p = some d ∧ Turn M x n d

include h

theorem counted : Counted R x := by
  intro id it h1 h2 h3
  rcases h.others id it h1 h2 h3 with ⟨p, rfl⟩ | ⟨p, hp⟩ | k
  · obtain ⟨it', k1, k2, -⟩ := (h.add p).item
    rw [h1.eq k1]; exact .inl k2
  · obtain ⟨it', k1, k2, -⟩ := (h.release p id hp).item
    rw [h1.eq k1]; exact .inl k2
  · exact .inr k

theorem mod_cases {id : OpId} {r w : Pos} (hm : Mod R x id r w) : (∃ p, id = P.add p) ∨ ∃ p, P.release p = some id := by
  obtain ⟨it, hin⟩ := hm.within
  have hl : it.loc = x := by
    obtain ⟨y, hy, e⟩ := hm.on
    exact (hin.loc hy).symm.trans e
  rcases h.others id it hin.item (hin.writes hm.wr) hl with k | k | hp
  · exact .inl k
  · exact .inr k
  · exact (peek_pub hin.item hp hm.pub).elim

include hV

theorem reads {id : OpId} {r w : Pos} (hm : Mod R x id r w) : ∃ s, M.rf r s := by
  rcases h.mod_cases hm with ⟨p, rfl⟩ | ⟨p, hp⟩
  · obtain ⟨v, hf, -⟩ := h.added p
    obtain ⟨s, hs, -⟩ := hm.finds hV hf
    exact ⟨s, hs⟩
  · obtain ⟨v, hf, -⟩ := h.subtracted p id hp
    obtain ⟨s, hs, -⟩ := hm.finds hV hf
    exact ⟨s, hs⟩

theorem turn {id : OpId} {r w : Pos} (hm : Mod R x id r w) : ∃ n, Turn M x n id :=
  hm.turn hV h.counted (fun _ _ _ k => h.reads hV k) _ rfl

theorem add_turn (p : P.Ref) : ∃ n, AddAt M x P n p := by
  obtain ⟨r, w, hm⟩ := (h.add p).mod
  exact h.turn hV hm

omit hV in
theorem add_unique {n : Nat} {p q : P.Ref} (hp : AddAt M x P n p) (hq : AddAt M x P n q) : p = q :=
  h.add_inj _ _ (hp.inj hq)

omit hV in
theorem drop_unique {n : Nat} {p q : P.Ref} (hp : DropAt M x P n p) (hq : DropAt M x P n q) : p = q := by
  obtain ⟨d, h1, h2⟩ := hp
  obtain ⟨d', h1', h2'⟩ := hq
  cases h2.inj h2'
  exact h.release_inj _ _ _ h1 h1'

omit hV h in
theorem lt_of_opHb {n m : Nat} {a b : OpId} (ha : Turn M x n a) (hb : Turn M x m b) (hh : OpHb R M.hb a b) : n < m := by
  obtain ⟨_, _, ma⟩ := ha.mod
  obtain ⟨_, _, mb⟩ := hb.mod
  obtain ⟨_, ia⟩ := ma.within
  obtain ⟨_, ib⟩ := mb.within
  exact ha.lt_of_hb hb ma mb (hh _ _ _ _ ia ib)

theorem added_before {n : Nat} {p : P.Ref} (hp : DropAt M x P n p) : ∃ m, m < n ∧ AddAt M x P m p := by
  obtain ⟨d, h1, h2⟩ := hp
  obtain ⟨m, hm⟩ := h.add_turn hV p
  exact ⟨m, lt_of_opHb hm h2 (h.order p d h1), hm⟩

/-- After `n` modifications: `A` are the references that were made and `D` those that were dropped, and `v` is the value of
the counter. -/
structure State (M : Memory R) (V : Values) (x bits : Nat) (P : Refs) (n : Nat) (A D : List P.Ref) (v : Nat) : Prop where
  nodupA : A.Nodup
  nodupD : D.Nodup
  memA : ∀ p, p ∈ A ↔ ∃ m, m < n ∧ AddAt M x P m p
  memD : ∀ p, p ∈ D ↔ ∃ m, m < n ∧ DropAt M x P m p
  sub : ∀ p, p ∈ D → p ∈ A
  count : v + D.length = A.length
  lt : v < 2 ^ bits
  value : ∀ id r w s, Turn M x n id → Mod R x id r w → Src M r s → V.of x s = v

theorem state_exists : ∀ n, (∀ m, m < n → ∃ id, Turn M x m id) → ∃ A D v, State M V x bits P n A D v := by
  intro n
  induction n with
  | zero =>
    intro _
    refine ⟨[], [], 0, .nil, .nil, by simp, by simp, by simp, rfl, Nat.two_pow_pos _, ?_⟩
    intro id r w s ht hm hs
    cases ht with
    | first hm' hs' =>
      cases (hm.eq hm').1
      rw [hm.src hs hs']
      exact h.init
  | succ n ih =>
    intro hn
    obtain ⟨A, D, v, S⟩ := ih fun m hm => hn m (by omega)
    obtain ⟨id, ht⟩ := hn n (by omega)
    obtain ⟨r, w, hm⟩ := ht.mod
    have val : ∀ u, V.val w = u → ∀ id' r' w' s, Turn M x (n + 1) id' → Mod R x id' r' w' → Src M r' s → V.of x s = u := by
      rintro u rfl id' r' w' s ht' hm' hs
      cases ht' with
      | next k1 k2 k3 k4 =>
        cases ht.inj k1
        cases (hm.eq k2).2
        cases (hm'.eq k3).1
        rw [hm'.src hs k4]; rfl
    have hsrc : ∃ s, Src M r s := by
      obtain ⟨s, hs⟩ := h.reads hV hm
      obtain ⟨s', hs', -⟩ := src_exists hV hs hm.rd hm.onr.loc
      exact ⟨s', hs'⟩
    obtain ⟨s, hs⟩ := hsrc
    have lt : ∀ m, m < n + 1 ↔ m < n ∨ m = n := by intro m; omega
    rcases h.mod_cases hm with ⟨p, rfl⟩ | ⟨p, hp⟩
    · obtain ⟨u, hf, hlt, hl⟩ := h.added p
      obtain ⟨_, -, hu⟩ := hm.finds hV hf
      have huv : u = v := (hu s hs).symm.trans (S.value _ _ _ _ ht hm hs)
      subst huv
      have hpA : p ∉ A := by
        intro k
        obtain ⟨m, k1, k2⟩ := (S.memA p).1 k
        have := Turn.unique k2 ht; omega
      have nd : ∀ q, ¬ DropAt M x P n q := by
        rintro q ⟨d, k1, k2⟩
        cases k2.inj ht
        exact h.disjoint _ _ k1
      refine ⟨p :: A, D, u + 1, List.nodup_cons.2 ⟨hpA, S.nodupA⟩, S.nodupD, ?_, ?_, fun q hq => .tail _ (S.sub q hq), ?_, hlt,
        val _ (hl w hm.pub)⟩
      · intro q
        rw [List.mem_cons, S.memA]
        constructor
        · rintro (rfl | ⟨m, k1, k2⟩)
          · exact ⟨n, by omega, ht⟩
          · exact ⟨m, by omega, k2⟩
        · rintro ⟨m, k1, k2⟩
          rcases (lt m).1 k1 with k | rfl
          · exact .inr ⟨m, k, k2⟩
          · exact .inl (h.add_unique k2 ht)
      · intro q
        rw [S.memD]
        constructor
        · rintro ⟨m, k1, k2⟩; exact ⟨m, by omega, k2⟩
        · rintro ⟨m, k1, k2⟩
          rcases (lt m).1 k1 with k | rfl
          · exact ⟨m, k, k2⟩
          · exact absurd k2 (nd q)
      · have := S.count; simp only [List.length_cons]; omega
    · obtain ⟨u, hf, hl⟩ := h.subtracted p id hp
      obtain ⟨_, -, hu⟩ := hm.finds hV hf
      have huv : u = v := (hu s hs).symm.trans (S.value _ _ _ _ ht hm hs)
      subst huv
      have hdn : DropAt M x P n p := ⟨id, hp, ht⟩
      have hpD : p ∉ D := by
        intro k
        obtain ⟨m, k1, d, k2, k3⟩ := (S.memD p).1 k
        rw [hp] at k2; cases k2
        have := Turn.unique k3 ht; omega
      have na : ∀ q, ¬ AddAt M x P n q := by
        intro q k
        have : P.add q = id := Turn.inj k ht
        exact h.disjoint _ _ (this ▸ hp)
      have hpA : p ∈ A := by
        obtain ⟨m, k1, k2⟩ := h.added_before hV hdn
        exact (S.memA p).2 ⟨m, k1, k2⟩
      have hnd : (p :: D).Nodup := List.nodup_cons.2 ⟨hpD, S.nodupD⟩
      have hsub : ∀ q, q ∈ p :: D → q ∈ A := by
        intro q hq
        rcases List.mem_cons.1 hq with rfl | hq
        · exact hpA
        · exact S.sub q hq
      have hlen : (p :: D).length ≤ A.length := (List.subperm_of_subset hnd hsub).length_le
      have hc := S.count
      simp only [List.length_cons] at hlen
      have hb := S.lt
      refine ⟨A, p :: D, u - 1, S.nodupA, hnd, ?_, ?_, hsub, ?_, by omega, val _ ?_⟩
      · intro q
        rw [S.memA]
        constructor
        · rintro ⟨m, k1, k2⟩; exact ⟨m, by omega, k2⟩
        · rintro ⟨m, k1, k2⟩
          rcases (lt m).1 k1 with k | rfl
          · exact ⟨m, k, k2⟩
          · exact absurd k2 (na q)
      · intro q
        rw [List.mem_cons, S.memD]
        constructor
        · rintro (rfl | ⟨m, k1, k2⟩)
          · exact ⟨n, by omega, hdn⟩
          · exact ⟨m, by omega, k2⟩
        · rintro ⟨m, k1, k2⟩
          rcases (lt m).1 k1 with k | rfl
          · exact .inr ⟨m, k, k2⟩
          · exact .inl (h.drop_unique k2 hdn)
      · simp only [List.length_cons]; omega
      · rw [hl w hm.pub]
        have e : u + (2 ^ bits - 1) = (u - 1) + 2 ^ bits := by have := Nat.two_pow_pos bits; omega
        rw [e, Nat.add_mod_right, Nat.mod_eq_of_lt (by omega)]

theorem turns_below {n : Nat} {id : OpId} (ht : Turn M x n id) : ∃ A D v, State M V x bits P n A D v :=
  h.state_exists hV n fun m hm => ht.smaller (by omega)

/-- The first reference is made first. -/
theorem root_first : ∀ {n : Nat} {p : P.Ref}, AddAt M x P n p → ∃ m, m ≤ n ∧ AddAt M x P m P.root := by
  intro n
  induction n using Nat.strongRecOn with
  | _ n ih =>
    intro p hp
    by_cases hr : p = P.root
    · exact ⟨n, Nat.le_refl _, hr ▸ hp⟩
    · obtain ⟨m, hm⟩ := h.add_turn hV (P.origin p)
      have hlt := lt_of_opHb hm hp (h.copied p hr).1
      obtain ⟨k, k1, k2⟩ := ih m hlt hm
      exact ⟨k, by omega, k2⟩

/-- The release that finds 1 is the last modification of the counter; before it every reference was made and dropped. -/
theorem last {p : P.Ref} {d : OpId} (hd : P.release p = some d) (hf : Finds R M.rf V d x 1) {n : Nat} (ht : Turn M x n d) :
    (∀ m id, Turn M x m id → m ≤ n) ∧ ∀ q, ∃ m, m ≤ n ∧ DropAt M x P m q := by
  obtain ⟨A, D, v, S⟩ := h.turns_below hV ht
  obtain ⟨r, w, hm⟩ := ht.mod
  obtain ⟨s₀, hs₀⟩ := h.reads hV hm
  obtain ⟨s, hs, -⟩ := src_exists hV hs₀ hm.rd hm.onr.loc
  obtain ⟨_, -, hu⟩ := hm.finds hV hf
  have hv : v = 1 := (S.value _ _ _ _ ht hm hs).symm.trans (hu s hs)
  subst hv
  have hdn : DropAt M x P n p := ⟨d, hd, ht⟩
  have hpD : p ∉ D := by
    intro k
    obtain ⟨m, k1, d', k2, k3⟩ := (S.memD p).1 k
    rw [hd] at k2; cases k2
    have := Turn.unique k3 ht; omega
  have hpA : p ∈ A := by
    obtain ⟨m, k1, k2⟩ := h.added_before hV hdn
    exact (S.memA p).2 ⟨m, k1, k2⟩
  have hnd : (p :: D).Nodup := List.nodup_cons.2 ⟨hpD, S.nodupD⟩
  have hsub : ∀ q, q ∈ p :: D → q ∈ A := by
    intro q hq
    rcases List.mem_cons.1 hq with rfl | hq
    · exact hpA
    · exact S.sub q hq
  have hperm := (List.subperm_of_subset hnd hsub).perm_of_length_le (by
    have := S.count; simp only [List.length_cons]; omega)
  -- the references that were made before have all been dropped
  have all : ∀ q m, m ≤ n → AddAt M x P m q → ∃ m, m ≤ n ∧ DropAt M x P m q := by
    intro q m hm hq
    have hlt : m < n := by
      rcases Nat.lt_or_eq_of_le hm with k | rfl
      · exact k
      · have : P.add q = d := Turn.inj hq ht
        exact absurd (this ▸ hd) (h.disjoint _ _)
    have : q ∈ p :: D := hperm.mem_iff.2 ((S.memA q).2 ⟨m, hlt, hq⟩)
    rcases List.mem_cons.1 this with rfl | k
    · exact ⟨n, Nat.le_refl _, hdn⟩
    · obtain ⟨m', k1, k2⟩ := (S.memD q).1 k
      exact ⟨m', by omega, k2⟩
  have one : ∀ {q m m'}, DropAt M x P m q → DropAt M x P m' q → m = m' := by
    rintro q m m' ⟨d₁, h1, h2⟩ ⟨d₂, h3, h4⟩
    rw [h1] at h3; cases h3
    exact h2.unique h4
  have none_next : ∀ id, ¬ Turn M x (n + 1) id := by
    intro id hid
    obtain ⟨r', w', hm'⟩ := hid.mod
    rcases h.mod_cases hm' with ⟨q, rfl⟩ | ⟨q, hq⟩
    · -- a new reference would be a copy of one that has been dropped
      have hroot : q ≠ P.root := by
        rintro rfl
        obtain ⟨m, k1, k2⟩ := h.added_before hV hdn
        obtain ⟨m', k3, k4⟩ := h.root_first hV k2
        have := Turn.unique k4 hid; omega
      obtain ⟨c1, c2⟩ := h.copied q hroot
      obtain ⟨m, hm⟩ := h.add_turn hV (P.origin q)
      have hlt := lt_of_opHb hm hid c1
      obtain ⟨m', k1, d', k2, k3⟩ := all _ m (by omega) hm
      have := lt_of_opHb hid k3 (c2 d' k2)
      omega
    · obtain ⟨m, k1, k2⟩ := h.added_before hV (n := n + 1) ⟨id, hq, hid⟩
      obtain ⟨m', k3, k4⟩ := all _ m (by omega) k2
      have := one k4 ⟨id, hq, hid⟩
      omega
  have bound : ∀ m id, Turn M x m id → m ≤ n := by
    intro m id hid
    refine Classical.byContradiction fun hlt => ?_
    obtain ⟨a, ha⟩ := hid.smaller (m := n + 1) (by omega)
    exact none_next a ha
  refine ⟨bound, fun q => ?_⟩
  obtain ⟨m, hm⟩ := h.add_turn hV q
  exact all q m (bound m _ hm) hm

/-- When the object is deleted, every reference to it has been dropped, and everything before these calls happens before the
deletion. -/
theorem deletes {p : P.Ref} {d : OpId} {k : Nat} (hd : Deletes R M.rf V x P p d k) :
    ∀ q, ∃ d', P.release q = some d' ∧ ∀ e f, Until R d'.1 d'.2 e → From R d.1 (k + 1) f → M.hb e f := by
  intro q
  obtain ⟨r, w, hm⟩ := (h.release p d hd.release).mod
  obtain ⟨n, ht⟩ := h.turn hV hm
  obtain ⟨m, hle, d', h1, h2⟩ := (h.last hV hd.release hd.found ht).2 q
  refine ⟨d', h1, fun e f he hf => ?_⟩
  obtain ⟨ie, ite, we, e1, e2⟩ := he
  obtain ⟨jf, itf, wf, f1, f2⟩ := hf
  obtain ⟨b, hfen⟩ := hd.fence
  have haf := hd.after
  by_cases hth : d'.1 = d.1
  · -- the same thread
    refine M.sb (op_before we wf (by rw [e1, f1, hth]) ?_)
    rcases Nat.lt_or_eq_of_le hle with hlt | rfl
    · have hne : d' ≠ d := by rintro rfl; have := Turn.unique h2 ht; omega
      have hlt' : d'.2 < d.2 := by
        refine Classical.byContradiction fun hge => ?_
        obtain ⟨_, _, ma⟩ := h2.mod
        obtain ⟨_, ia⟩ := ma.within
        obtain ⟨_, ib⟩ := hm.within
        have : d.2 ≠ d'.2 := fun k => hne (Prod.ext hth k.symm)
        have := ht.lt_of_hb h2 hm ma (M.sb (op_before ib ia hth.symm (by omega)))
        omega
      omega
    · cases h2.inj ht; omega
  · obtain ⟨r', w', hm'⟩ := h2.mod
    obtain ⟨it', k1, k2, k3, k4⟩ := (h.release q d' h1).item
    obtain ⟨_, iw'⟩ := hm'.within
    obtain ⟨_, ir⟩ := hm.within_r
    obtain ⟨j, rfl⟩ : ∃ j, n = m + j + 1 := by
      refine ⟨n - m - 1, ?_⟩
      rcases Nat.lt_or_eq_of_le hle with k | rfl
      · omega
      · cases h2.inj ht; exact absurd rfl hth
    obtain ⟨v', c1, c2⟩ := h2.found ht hm' hm
    refine src_sync (Released.of_release k1 k4 rfl hm'.pub (.inr (op_before we iw' e1 e2))) hm'.wr c1 c2 hm.rd ?_ ?_
    · rw [ir.bounds.1, iw'.bounds.1]; exact fun e => hth e.symm
    · exact Acquired.of_fence hfen rfl ir wf rfl f1 haf (by simp only; omega)

/-- The object is deleted once. -/
theorem once {p q : P.Ref} {d d' : OpId} (hp : P.release p = some d) (hq : P.release q = some d') (hf : Finds R M.rf V d x 1)
    (hf' : Finds R M.rf V d' x 1) : p = q ∧ d = d' := by
  obtain ⟨r, w, hm⟩ := (h.release p d hp).mod
  obtain ⟨n, ht⟩ := h.turn hV hm
  obtain ⟨r', w', hm'⟩ := (h.release q d' hq).mod
  obtain ⟨n', ht'⟩ := h.turn hV hm'
  have h1 := (h.last hV hp hf ht).1 _ _ ht'
  have h2 := (h.last hV hq hf' ht').1 _ _ ht
  obtain rfl : n = n' := by omega
  cases ht.inj ht'
  exact ⟨h.release_inj _ _ _ hp hq, rfl⟩

/-- If there are finitely many references and all are dropped, the object is deleted. -/
theorem deleted (refs : List P.Ref) (hall : ∀ p, p ∈ refs) (hdrop : ∀ p, ∃ d, P.release p = some d) :
    ∃ p d, P.release p = some d ∧ Finds R M.rf V d x 1 := by
  -- the modification with the largest number
  have bound : ∃ N, ∀ n id, Turn M x n id → n ≤ N := by
    have : ∀ l : List P.Ref, ∃ N, ∀ p ∈ l, ∀ n, AddAt M x P n p ∨ DropAt M x P n p → n ≤ N := by
      intro l
      induction l with
      | nil => exact ⟨0, by simp⟩
      | cons p l ih =>
        obtain ⟨N, hN⟩ := ih
        obtain ⟨a, ha⟩ := h.add_turn hV p
        obtain ⟨d, hd⟩ := hdrop p
        obtain ⟨_, _, hm⟩ := (h.release p d hd).mod
        obtain ⟨b, hb⟩ := h.turn hV hm
        refine ⟨N + a + b, fun q hq n hn => ?_⟩
        rcases List.mem_cons.1 hq with rfl | hq
        · rcases hn with hn | ⟨d', k1, k2⟩
          · have := Turn.unique hn ha; omega
          · rw [hd] at k1; cases k1
            have := Turn.unique k2 hb; omega
        · have := hN q hq n hn; omega
    obtain ⟨N, hN⟩ := this refs
    refine ⟨N, fun n id hid => ?_⟩
    obtain ⟨_, _, hm⟩ := hid.mod
    rcases h.mod_cases hm with ⟨p, rfl⟩ | ⟨p, hp⟩
    · exact hN p (hall p) n (.inl hid)
    · exact hN p (hall p) n (.inr ⟨id, hp, hid⟩)
  obtain ⟨N, hN⟩ := bound
  have top : ∃ n id, Turn M x n id ∧ ∀ m id', Turn M x m id' → m ≤ n := by
    obtain ⟨a, ha⟩ := h.add_turn hV P.root
    have : ∀ k n id, N - n ≤ k → Turn M x n id → ∃ n id, Turn M x n id ∧ ∀ m id', Turn M x m id' → m ≤ n := by
      intro k
      induction k with
      | zero => intro n id hk hid; exact ⟨n, id, hid, fun m id' h' => by have := hN m id' h'; omega⟩
      | succ k ih =>
        intro n id hk hid
        by_cases hmax : ∀ m id', Turn M x m id' → m ≤ n
        · exact ⟨n, id, hid, hmax⟩
        · simp only [not_forall] at hmax
          obtain ⟨m, id', h1, h2⟩ := hmax
          exact ih m id' (by omega) h1
    exact this N a _ (by omega) ha
  obtain ⟨n, id, ht, hmax⟩ := top
  obtain ⟨r, w, hm⟩ := ht.mod
  obtain ⟨A, D, v, S⟩ := h.turns_below hV ht
  rcases h.mod_cases hm with ⟨p, rfl⟩ | ⟨p, hp⟩
  · exfalso
    obtain ⟨d, hd⟩ := hdrop p
    obtain ⟨_, _, hm'⟩ := (h.release p d hd).mod
    obtain ⟨m, ht'⟩ := h.turn hV hm'
    have := lt_of_opHb ht ht' (h.order p d hd)
    have := hmax m d ht'
    omega
  · refine ⟨p, id, hp, ?_⟩
    obtain ⟨u, hf, -⟩ := h.subtracted p id hp
    obtain ⟨s₀, hs₀⟩ := h.reads hV hm
    obtain ⟨s, hs, -⟩ := src_exists hV hs₀ hm.rd hm.onr.loc
    obtain ⟨_, -, hu⟩ := hm.finds hV hf
    have huv : v = u := (S.value _ _ _ _ ht hm hs).symm.trans (hu s hs)
    have hsub : ∀ q, q ∈ A → q ∈ p :: D := by
      intro q hq
      obtain ⟨d, hd⟩ := hdrop q
      obtain ⟨_, _, hm'⟩ := (h.release q d hd).mod
      obtain ⟨m, ht'⟩ := h.turn hV hm'
      have := hmax m d ht'
      rcases Nat.lt_or_eq_of_le this with k | rfl
      · exact .tail _ ((S.memD q).2 ⟨m, k, d, hd, ht'⟩)
      · rw [h.drop_unique ⟨d, hd, ht'⟩ ⟨id, hp, ht⟩]; exact .head _
    have h1 := (List.subperm_of_subset S.nodupA hsub).length_le
    have hpD : p ∉ D := by
      intro k
      obtain ⟨m, k1, d', k2, k3⟩ := (S.memD p).1 k
      rw [hp] at k2; cases k2
      have := Turn.unique k3 ht; omega
    have hpA : p ∈ A := by
      obtain ⟨m, k1, k2⟩ := h.added_before hV (n := n) ⟨id, hp, ht⟩
      exact (S.memA p).2 ⟨m, k1, k2⟩
    have h2 : (p :: D).length ≤ A.length := (List.subperm_of_subset (List.nodup_cons.2 ⟨hpD, S.nodupD⟩) (by
      intro q hq
      rcases List.mem_cons.1 hq with rfl | hq
      · exact hpA
      · exact S.sub q hq)).length_le
    have := S.count
    simp only [List.length_cons] at h1 h2
    have : u = 1 := by omega
    exact this ▸ hf

end RefCount

end Verif.Idiom
