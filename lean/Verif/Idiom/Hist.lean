import Verif.Idiom.Base

/-
Objects that are modified by read-modify-write operations only: their modifications can be numbered.
-/

namespace Verif.Idiom

open Verif.Order Verif.Mca Verif.Mca.Run Verif.Locked

variable {cpu : Cpu} {R : Mca.Run cpu} {M : Memory R} {V : Values} {x : Nat}

/-- `x` is used by read-modify-write operations and loads only. -/
def Counted (R : Mca.Run cpu) (x : Nat) : Prop :=
  ∀ id it, At R id it → it.isFence = false → it.loc = x → it.isRmw = true ∨ Peek x it

/-- The operation `id` modifies `x` by the read `r` and the write `w`. -/
structure Mod (R : Mca.Run cpu) (x : Nat) (id : OpId) (r w : Pos) : Prop where
  ret : R.Ret id r
  rd : R.Has r .rd
  pub : R.Pub id w
  wr : R.Has w .wr
  pair : R.Paired r w
  on : On R x w

theorem mod_of {id : OpId} {it : Item} (hit : At R id it) (hr : it.isRmw = true) (hl : it.loc = x) : ∃ r w, Mod R x id r w := by
  obtain ⟨r, w, h1, h2, h3, h4, h5, -⟩ := rmw_facts hit hr
  obtain ⟨_, hin⟩ := pub_within h3
  exact ⟨r, w, h1, h2, h3, h4, h5, hl ▸ within_on hit hin h4⟩

theorem kind_of_rmw {it : Item} (h : it.isRmw = true) : ∃ k, it.kind = some k := by
  cases it <;> simp [Item.isRmw] at h <;> exact ⟨_, rfl⟩

namespace Mod

variable {id : OpId} {r w r' w' : Pos}

theorem copy (h : Mod R x id r w) : ¬ R.Copy w := pub_not_copy h.pub

theorem within (h : Mod R x id r w) : ∃ it, R.Within w id it := pub_within h.pub

theorem within_r (h : Mod R x id r w) : ∃ it, R.Within r id it := ret_within h.ret

theorem onr (h : Mod R x id r w) : On R x r := h.on.of h.pair.1.symm

theorem eq (h : Mod R x id r w) (h' : Mod R x id r' w') : r = r' ∧ w = w' := by
  obtain ⟨it, hin⟩ := h.within
  have hf := hin.writes h.wr
  have fin : ∀ k, it.kind = some k → r = r' ∧ w = w' := by
    intro k hk
    cases facts hin.item hk with
    | reads r ret rd uniq npub wr => exact absurd h.pub (npub _)
    | writes w' pub has uniq nret wr => exact absurd h.ret (nret _)
    | both r₀ w₀ ret rd uniq pub has uniq' pair wr =>
      exact ⟨(uniq _ h.ret).trans (uniq _ h'.ret).symm, (uniq' _ h.pub).trans (uniq' _ h'.pub).symm⟩
  cases it with
  | user i l =>
    exfalso
    obtain ⟨y, d, hy, hp, -⟩ := h.pair.2
    obtain ⟨pre, -, -, hi⟩ := hin
    obtain ⟨_, a, c, -, he, -⟩ := hi.split hy
    have : y ∈ (Item.user i l).events := by rw [he]; simp
    simp [Item.events, Item.code, Item.pairOf] at this
    rw [this] at hp; cases hp
  | fence => cases hf
  | op => exact fin _ rfl
  | exchange => exact fin _ rfl
  | clear => exact fin _ rfl

end Mod

/-- The operation makes modification number `n` of `x`. -/
inductive Turn (M : Memory R) (x : Nat) : Nat → OpId → Prop where
  | first {id r w} : Mod R x id r w → Src M r none → Turn M x 0 id
  | next {n p q v id r w} : Turn M x n p → Mod R x p q v → Mod R x id r w → Src M r (some v) → Turn M x (n + 1) id

theorem Turn.mod {n : Nat} {id : OpId} (h : Turn M x n id) : ∃ r w, Mod R x id r w := by
  cases h with
  | first h => exact ⟨_, _, h⟩
  | next _ _ h => exact ⟨_, _, h⟩

/-- Whoever modifies `x` does it by a read-modify-write. -/
theorem Counted.writer (hC : Counted R x) {g : Pos} (hg : R.Has g .wr) (hc : ¬ R.Copy g) (ho : On R x g) :
    ∃ id r, Mod R x id r g := by
  obtain ⟨y, hy, hl⟩ := ho
  obtain ⟨id, it, hin⟩ := exists_within hy
  have hx : it.loc = x := (hin.loc hy).symm.trans hl
  rcases hC id it hin.item (hin.writes hg) hx with h | hp
  · obtain ⟨r, w, h1, h2, h3, h4, h5, h6⟩ := rmw_facts hin.item h
    cases h6 g it hin hg
    exact ⟨id, r, h1, h2, h3, h4, h5, y, hy, hl⟩
  · exact absurd (peek_copy hp hin hg) hc

variable (hV : ∀ r c x, R.CopyOf r c → R.Is c x → ∃ s, M.rf r s ∧ V.val c = V.of x.loc s) (hC : Counted R x)
  (hrf : ∀ id r w, Mod R x id r w → ∃ s, M.rf r s)

include hV hC hrf in
theorem Mod.turn : ∀ (n : Nat) {id r w}, R.time w .wr = n → Mod R x id r w → ∃ k, Turn M x k id := by
  intro n
  induction n using Nat.strongRecOn with
  | _ n ih =>
    intro id r w hn h
    obtain ⟨s, hs⟩ := hrf _ _ _ h
    obtain ⟨s', k1, -⟩ := src_exists hV hs h.rd h.onr.loc
    cases s' with
    | none => exact ⟨0, .first h k1⟩
    | some g =>
      obtain ⟨g1, g2, g3⟩ := src_source h.rd k1
      obtain ⟨p, q, hp⟩ := hC.writer g1 g2 (h.onr.of g3)
      obtain ⟨k, hk⟩ := ih _ (hn ▸ src_older h.rd h.wr h.pair k1) rfl hp
      exact ⟨k + 1, .next hk hp h k1⟩

/-- One operation for each number. -/
theorem Turn.inj {n : Nat} : ∀ {a b}, Turn M x n a → Turn M x n b → a = b := by
  induction n with
  | zero =>
    intro a b ha hb
    cases ha with
    | first a1 a2 => cases hb with
      | first b1 b2 =>
        have := src_inj a1.rd b1.rd a1.wr b1.wr a1.copy b1.copy a1.pair b1.pair (a1.on.sameLoc b1.on) a2 b2
        exact pub_op a1.pub (this ▸ b1.pub)
  | succ n ih =>
    intro a b ha hb
    cases ha with
    | next a0 am a1 a2 => cases hb with
      | next b0 bm b1 b2 =>
        cases ih a0 b0
        cases (am.eq bm).2
        have := src_inj a1.rd b1.rd a1.wr b1.wr a1.copy b1.copy a1.pair b1.pair (a1.on.sameLoc b1.on) a2 b2
        exact pub_op a1.pub (this ▸ b1.pub)

theorem Turn.prev {n : Nat} {b : OpId} (h : Turn M x (n + 1) b) : ∃ a, Turn M x n a := by
  cases h with
  | next h => exact ⟨_, h⟩

/-- All smaller numbers are used. -/
theorem Turn.smaller {n m : Nat} {b : OpId} (h : Turn M x n b) (hm : m ≤ n) : ∃ a, Turn M x m a := by
  obtain ⟨k, rfl⟩ : ∃ k, n = m + k := ⟨n - m, by omega⟩
  induction k generalizing b with
  | zero => exact ⟨b, h⟩
  | succ k ih =>
    obtain ⟨a, ha⟩ := h.prev
    exact ih ha (by omega)

/-- Each modification is in the release sequence of each one before it. -/
theorem Turn.chain {n k : Nat} : ∀ {a b q v r w}, Turn M x n a → Turn M x (n + k) b → Mod R x a q v → Mod R x b r w →
    Chain R M.rf v w ∧ (v = w ∨ M.mo v w) := by
  induction k with
  | zero =>
    intro a b q v r w ha hb ma mb
    cases ha.inj hb
    cases (ma.eq mb).2
    exact ⟨.head, .inl rfl⟩
  | succ k ih =>
    intro a b q v r w ha hb ma mb
    cases hb with
    | next b0 bm b1 b2 =>
      cases (b1.eq mb).1; cases (b1.eq mb).2
      obtain ⟨i1, i2⟩ := ih ha b0 ma bm
      refine ⟨src_rmw i1 b2 mb.rd mb.wr mb.pair, .inr ?_⟩
      have := (src_atomic mb.rd mb.wr mb.pair b2).1 _ rfl
      rcases i2 with rfl | i2
      · exact this
      · exact M.mo_trans i2 this

/-- What the last but one left is what the last one finds, through a release sequence. -/
theorem Turn.found {n k : Nat} {a b q v r w} (ha : Turn M x n a) (hb : Turn M x (n + k + 1) b) (ma : Mod R x a q v)
    (mb : Mod R x b r w) : ∃ v', Chain R M.rf v v' ∧ Src M r (some v') := by
  cases hb with
  | next b0 bm b1 b2 =>
    cases (b1.eq mb).1
    exact ⟨_, (ha.chain b0 ma bm).1, b2⟩

theorem Turn.mo {n m : Nat} {a b q v r w} (ha : Turn M x n a) (hb : Turn M x m b) (ma : Mod R x a q v) (mb : Mod R x b r w) :
    M.mo v w ↔ n < m := by
  have lt : ∀ {n m a b q v r w}, Turn M x n a → Turn M x m b → Mod R x a q v → Mod R x b r w → n ≤ m → v = w ∨ M.mo v w := by
    intro n m a b q v r w ha hb ma mb h
    obtain ⟨k, rfl⟩ : ∃ k, m = n + k := ⟨m - n, by omega⟩
    exact (ha.chain hb ma mb).2
  constructor
  · intro h
    refine Classical.byContradiction fun hn => ?_
    rcases lt hb ha mb ma (by omega) with rfl | k
    · exact M.mo_irrefl _ h
    · exact M.mo_irrefl _ (M.mo_trans h k)
  · intro h
    rcases lt ha hb ma mb (by omega) with rfl | k
    · exfalso
      have e : a = b := pub_op ma.pub mb.pub
      subst e
      obtain ⟨k, rfl⟩ : ∃ k, m = n + k + 1 := ⟨m - n - 1, by omega⟩
      obtain ⟨v', h1, h2⟩ := ha.found hb ma mb
      cases hb with
      | next b0 bm b1 b2 =>
        cases (b1.eq mb).1; cases (b1.eq mb).2
        have hm := (src_atomic mb.rd mb.wr mb.pair b2).1 _ rfl
        rcases (ha.chain b0 ma bm).2 with e | hm'
        · rw [← e] at hm; exact M.mo_irrefl _ hm
        · exact M.mo_irrefl _ (M.mo_trans hm hm')
    · exact k

/-- One number for each operation. -/
theorem Turn.unique {n m : Nat} {a : OpId} (h : Turn M x n a) (h' : Turn M x m a) : n = m := by
  obtain ⟨r, w, ma⟩ := h.mod
  rcases Nat.lt_trichotomy n m with k | k | k
  · exact absurd ((h.mo h' ma ma).2 k) (M.mo_irrefl _)
  · exact k
  · exact absurd ((h'.mo h ma ma).2 k) (M.mo_irrefl _)

/-- What happens before comes first. -/
theorem Turn.lt_of_hb {n m : Nat} {a b q v r w} (ha : Turn M x n a) (hb : Turn M x m b) (ma : Mod R x a q v) (mb : Mod R x b r w)
    (h : M.hb v w) : n < m :=
  (ha.mo hb ma mb).1 (M.writeWrite h ma.wr mb.wr (ma.on.sameLoc mb.on))

end Verif.Idiom
