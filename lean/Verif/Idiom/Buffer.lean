import Verif.Idiom.Base

/-
The ring buffer.
-/

namespace Verif.Idiom

open Verif.Order Verif.Mca Verif.Mca.Run Verif.Locked

variable {cpu : Cpu} {R : Mca.Run cpu} {M : Memory R} {V : Values} {x t n : Nat} {st : Nat → Nat}

/-- `x` is written by the `n` stores `st` of the thread `t` only. -/
structure Index (R : Mca.Run cpu) (x t n : Nat) (st : Nat → Nat) : Prop where
  store : ∀ k, k < n → ∃ b m, At R (t, st k) (.op b .store .release m x)
  step : ∀ k, k + 1 < n → st k < st (k + 1)
  only : ∀ id it, At R id it → it.isFence = false → it.loc = x → (∃ k, k < n ∧ id = (t, st k)) ∨ Peek x it

/-- The read finds what the first `c` stores have left. -/
def Seen (M : Memory R) (t n : Nat) (st : Nat → Nat) (r : Pos) (c : Nat) : Prop :=
  (c = 0 ∧ Src M r none) ∨ ∃ k w, c = k + 1 ∧ k < n ∧ R.Pub (t, st k) w ∧ Src M r (some w)

namespace Index

variable (I : Index R x t n st)

include I

theorem mono {i j : Nat} (h : i < j) (hj : j < n) : st i < st j := by
  obtain ⟨d, rfl⟩ : ∃ d, j = i + d + 1 := ⟨j - i - 1, by omega⟩
  induction d with
  | zero => exact I.step _ hj
  | succ d ih =>
    have := ih (by omega) (by omega)
    exact Nat.lt_trans this (I.step _ hj)

theorem writes {k : Nat} (hk : k < n) : ∃ w, R.Pub (t, st k) w := by
  obtain ⟨b, m, hit⟩ := I.store k hk
  exact store_writes hit

theorem facts {k : Nat} (hk : k < n) {w : Pos} (hw : R.Pub (t, st k) w) : R.Has w .wr ∧ On R x w ∧ ¬ R.Copy w := by
  obtain ⟨b, m, hit⟩ := I.store k hk
  have hw' := pub_writes hit rfl hw
  obtain ⟨_, hin⟩ := pub_within hw
  exact ⟨hw', within_on hit hin hw', pub_not_copy hw⟩

theorem writer {g : Pos} (hg : R.Has g .wr) (hc : ¬ R.Copy g) (ho : On R x g) : ∃ k, k < n ∧ R.Pub (t, st k) g := by
  obtain ⟨y, hy, hl⟩ := ho
  obtain ⟨id, it, hin⟩ := exists_within hy
  have hx : it.loc = x := (hin.loc hy).symm.trans hl
  rcases I.only id it hin.item (hin.writes hg) hx with ⟨k, hk, rfl⟩ | hp
  · obtain ⟨b, m, hit⟩ := I.store k hk
    cases At.eq hit hin.item
    exact ⟨k, hk, (pub_or_copy hin hg rfl).resolve_right hc⟩
  · exact absurd (peek_copy hp hin hg) hc

theorem seen (hV : ∀ r c x, R.CopyOf r c → R.Is c x → ∃ s, M.rf r s ∧ V.val c = V.of x.loc s) {r : Pos} {s : Option Pos}
    (hr : R.Has r .rd) (ho : On R x r) (hs : M.rf r s) :
    ∃ c, Seen M t n st r c ∧ ((c = 0 ∧ V.of x s = V.init x) ∨ ∃ k w, c = k + 1 ∧ k < n ∧ R.Pub (t, st k) w ∧ V.of x s = V.val w) := by
  obtain ⟨s', h1, h2⟩ := src_exists hV hs hr ho.loc
  cases s' with
  | none => exact ⟨0, .inl ⟨rfl, h1⟩, .inl ⟨rfl, h2.symm⟩⟩
  | some g =>
    obtain ⟨g1, g2, g3⟩ := src_source hr h1
    obtain ⟨k, hk, hp⟩ := I.writer g1 g2 (ho.of g3)
    exact ⟨k + 1, .inr ⟨k, g, rfl, hk, hp, h1⟩, .inr ⟨k, g, rfl, hk, hp, h2.symm⟩⟩

/-- The stores are ordered. -/
theorem mo {i j : Nat} (h : i < j) (hj : j < n) {w v : Pos} (hw : R.Pub (t, st i) w) (hv : R.Pub (t, st j) v) : M.mo w v := by
  obtain ⟨w1, w2, -⟩ := I.facts (by omega) hw
  obtain ⟨v1, v2, -⟩ := I.facts hj hv
  obtain ⟨_, iw⟩ := pub_within hw
  obtain ⟨_, iv⟩ := pub_within hv
  exact M.writeWrite (M.sb (op_before iw iv rfl (I.mono h hj))) w1 v1 (w2.sameLoc v2)

/-- What happens before a read is seen by it. -/
theorem seen_ge {k c : Nat} (hk : k < n) {w r : Pos} (hw : R.Pub (t, st k) w) (hb : M.hb w r) (hr : R.Has r .rd) (ho : On R x r)
    (h : Seen M t n st r c) : k + 1 ≤ c := by
  obtain ⟨w1, w2, w3⟩ := I.facts hk hw
  rcases h with ⟨rfl, h⟩ | ⟨k', v, rfl, hk', hv, h⟩
  · rcases src_writeRead hb w1 w3 hr (w2.sameLoc ho) h with e | ⟨_, e, -⟩ <;> cases e
  · refine Classical.byContradiction fun hlt => ?_
    have hm := I.mo (M := M) (by omega : k' < k) hk hv hw
    rcases src_writeRead hb w1 w3 hr (w2.sameLoc ho) h with e | ⟨_, e, e'⟩
    · cases e; exact M.mo_irrefl _ hm
    · cases e; exact M.mo_irrefl _ (M.mo_trans hm e')

/-- The thread sees its own stores. -/
theorem own {r : Pos} {i c k : Nat} {it : Item} (hin : R.Within r (t, i) it) (hr : R.Has r .rd) (ho : On R x r)
    (h : Seen M t n st r c) (hk : k ≤ n) (h1 : ∀ j, j < k → st j < i) (h2 : ∀ j, k ≤ j → j < n → i < st j) : c = k := by
  have h3 : c ≤ k := by
    rcases h with ⟨rfl, -⟩ | ⟨k', v, rfl, hk', hv, hs⟩
    · omega
    · refine Classical.byContradiction fun hlt => ?_
      obtain ⟨v1, v2, -⟩ := I.facts hk' hv
      obtain ⟨_, iv⟩ := pub_within hv
      exact M.mo_irrefl _ (src_readWrite (M.sb (op_before hin iv rfl (h2 k' (by omega) hk'))) hr v1 (ho.sameLoc v2) hs)
  have h4 : k ≤ c := by
    cases k with
    | zero => omega
    | succ k =>
      obtain ⟨w, hw⟩ := I.writes (k := k) (by omega)
      obtain ⟨_, iw⟩ := pub_within hw
      exact I.seen_ge (by omega) hw (M.sb (op_before iw hin rfl (h1 k (by omega)))) hr ho h
  omega

/-- What comes before a store happens before what follows an acquire load that sees it. -/
theorem sync {r : Pos} {t' i c k : Nat} {b : Backend} {m : Nat} (ht : t' ≠ t) (hit : At R (t', i) (.op b .load .acquire m x))
    (hret : R.Ret (t', i) r) (h : Seen M t n st r c) (hk : k < c) {e f : Pos}
    (he : (∃ w, R.Pub (t, st k) w ∧ (e = w ∨ Before e w))) (hf : f = r ∨ Before r f) : M.hb e f := by
  obtain ⟨w, hw, he⟩ := he
  have hr := ret_reads hit rfl hret
  obtain ⟨_, ir⟩ := ret_within hret
  rcases h with ⟨rfl, -⟩ | ⟨k', v, rfl, hk', hv, hs⟩
  · omega
  · obtain ⟨b', m', hit'⟩ := I.store k' hk'
    obtain ⟨v1, v2, -⟩ := I.facts hk' hv
    obtain ⟨_, iv⟩ := pub_within hv
    obtain ⟨_, iw⟩ := pub_within hw
    refine src_sync (Released.of_release hit' rfl rfl hv ?_) v1 .head hs hr ?_ (Acquired.of_acquire hit rfl rfl hret hf)
    · rcases Nat.lt_or_eq_of_le (Nat.le_of_lt_succ hk) with hlt | rfl
      · have hb : Before w v := op_before iw iv rfl (I.mono hlt hk')
        rcases he with rfl | he
        · exact .inr hb
        · exact .inr (he.trans hb)
      · obtain ⟨b', m', hit'⟩ := I.store k hk'
        have : w = v := by
          cases Run.facts hit' rfl with
          | reads r ret rd uniq npub wr => exact absurd hw (npub _)
          | writes w' pub has uniq nret wr => exact (uniq _ hw).trans (uniq _ hv).symm
          | both r₀ w₀ ret rd uniq pub has uniq' pair wr => exact (uniq' _ hw).trans (uniq' _ hv).symm
        exact this ▸ he
    · rw [ir.bounds.1, iv.bounds.1]; exact ht

end Index

namespace Ring

theorem gap {size i j : Nat} (hij : j < i) (he : i % size = j % size) : j + size ≤ i := by
  have h1 := Nat.div_add_mod i size
  have h2 := Nat.div_add_mod j size
  have : j / size < i / size := by
    refine Classical.byContradiction fun hle => ?_
    have := Nat.mul_le_mul_left size (Nat.not_lt.1 hle)
    omega
  have := Nat.mul_le_mul_left size this
  rw [Nat.mul_succ] at this
  omega

variable {size head tail producer consumer pushes pops : Nat} {cell : Nat → Nat} {push pop : Nat → RingCall}
  (h : Ring R M.rf V size head tail cell producer consumer pushes pops push pop)
  (hV : ∀ r c x, R.CopyOf r c → R.Is c x → ∃ s, M.rf r s ∧ V.val c = V.of x.loc s)

include h

theorem heads_index : Index R head producer pushes (fun i => (push i).store) where
  store k hk := by obtain ⟨_, _, -, -, -, -, -, -, -, h1, -⟩ := h.pushOk k hk; exact h1
  step k hk := by
    obtain ⟨_, _, h1, -⟩ := h.pushOk (k + 1) hk
    have := h.pushed k hk
    omega
  only := h.heads

theorem tails_index : Index R tail consumer pops (fun j => (pop j).store) where
  store k hk := by obtain ⟨_, _, -, -, -, -, -, -, -, h1, -⟩ := h.popOk k hk; exact h1
  step k hk := by
    obtain ⟨_, _, h1, -⟩ := h.popOk (k + 1) hk
    have := h.popped k hk
    omega
  only := h.tails

theorem push_lt {i j : Nat} (hij : i < j) (hj : j < pushes) : (push i).store < (push j).own := by
  obtain ⟨d, rfl⟩ : ∃ d, j = i + d + 1 := ⟨j - i - 1, by omega⟩
  rcases Nat.eq_zero_or_pos d with rfl | hd
  · exact h.pushed i hj
  · have h1 := h.heads_index.mono (by omega : i < i + d) (by omega)
    have h2 := h.pushed (i + d) hj
    exact Nat.lt_trans h1 h2

theorem pop_lt {i j : Nat} (hij : i < j) (hj : j < pops) : (pop i).store < (pop j).own := by
  obtain ⟨d, rfl⟩ : ∃ d, j = i + d + 1 := ⟨j - i - 1, by omega⟩
  rcases Nat.eq_zero_or_pos d with rfl | hd
  · exact h.popped i hj
  · have h1 := h.tails_index.mono (by omega : i < i + d) (by omega)
    have h2 := h.popped (i + d) hj
    exact Nat.lt_trans h1 h2

include hV

/-- What the stores of an index leave, and what its owner finds in it. -/
theorem push_index : ∀ i, i < pushes → (∀ w, R.Pub (producer, (push i).store) w → V.val w = (i + 1) % size) ∧
    ∃ y, At R (producer, (push i).access) (.user y (cell (i % size))) ∧ y.wr = true ∧ y.rd = false := by
  intro i
  induction i with
  | zero =>
    intro hi
    obtain ⟨v, t, h1, ⟨b, n, h2⟩, ⟨r, s, k1, k2, k3⟩, -, -, -, h3, -, h4⟩ := h.pushOk 0 hi
    have hr := ret_reads h2 rfl k1
    obtain ⟨_, ir⟩ := ret_within k1
    have ho := within_on h2 ir hr
    obtain ⟨c, c1, c2⟩ := h.heads_index.seen hV hr ho k2
    have hc : c = 0 := h.heads_index.own ir hr ho c1 (Nat.zero_le _) (by intro j hj; omega) (by
      intro j _ hj
      show (push 0).own < (push j).store
      rcases Nat.eq_zero_or_pos j with rfl | hp
      · omega
      · have := h.push_lt hp hj
        obtain ⟨_, _, h5, -⟩ := h.pushOk j hj
        omega)
    have hv : v = 0 := by
      rw [← k3]
      rcases c2 with ⟨-, c2⟩ | ⟨k, w, c2, -⟩
      · exact c2.trans h.init.1
      · omega
    subst hv
    exact ⟨h4, by simpa using h3⟩
  | succ i ih =>
    intro hi
    obtain ⟨v, t, h1, ⟨b, n, h2⟩, ⟨r, s, k1, k2, k3⟩, -, -, -, h3, -, h4⟩ := h.pushOk (i + 1) hi
    have hr := ret_reads h2 rfl k1
    obtain ⟨_, ir⟩ := ret_within k1
    have ho := within_on h2 ir hr
    obtain ⟨c, c1, c2⟩ := h.heads_index.seen hV hr ho k2
    have hc : c = i + 1 := h.heads_index.own ir hr ho c1 (by omega) (by
      intro j hj
      exact h.push_lt hj hi) (by
      intro j hj1 hj
      show (push (i + 1)).own < (push j).store
      rcases Nat.lt_or_eq_of_le hj1 with hlt | rfl
      · have := h.push_lt hlt hj
        obtain ⟨_, _, h5, -⟩ := h.pushOk j hj
        omega
      · omega)
    have hv : v = (i + 1) % size := by
      rw [← k3]
      rcases c2 with ⟨c2, -⟩ | ⟨k, w, c2, -, c4, c5⟩
      · omega
      · obtain rfl : k = i := by omega
        exact c5.trans ((ih (by omega)).1 w c4)
    subst hv
    refine ⟨fun w hw => ?_, h3⟩
    rw [h4 w hw, Nat.mod_add_mod]

theorem pop_index : ∀ i, i < pops → (∀ w, R.Pub (consumer, (pop i).store) w → V.val w = (i + 1) % size) ∧
    (∃ y, At R (consumer, (pop i).access) (.user y (cell (i % size))) ∧ y.rd = true ∧ y.wr = false) ∧
    ∃ g, Finds R M.rf V (consumer, (pop i).other) head g ∧ i % size ≠ g := by
  intro i
  induction i with
  | zero =>
    intro hi
    obtain ⟨v, t, h1, ⟨b, n, h2⟩, ⟨r, s, k1, k2, k3⟩, -, g1, g2, h3, -, h4⟩ := h.popOk 0 hi
    have hr := ret_reads h2 rfl k1
    obtain ⟨_, ir⟩ := ret_within k1
    have ho := within_on h2 ir hr
    obtain ⟨c, c1, c2⟩ := h.tails_index.seen hV hr ho k2
    have hc : c = 0 := h.tails_index.own ir hr ho c1 (Nat.zero_le _) (by intro j hj; omega) (by
      intro j _ hj
      show (pop 0).own < (pop j).store
      rcases Nat.eq_zero_or_pos j with rfl | hp
      · omega
      · have := h.pop_lt hp hj
        obtain ⟨_, _, h5, -⟩ := h.popOk j hj
        omega)
    have hv : v = 0 := by
      rw [← k3]
      rcases c2 with ⟨-, c2⟩ | ⟨k, w, c2, -⟩
      · exact c2.trans h.init.2
      · omega
    subst hv
    exact ⟨h4, by simpa using h3, t, g1, by simpa using g2⟩
  | succ i ih =>
    intro hi
    obtain ⟨v, t, h1, ⟨b, n, h2⟩, ⟨r, s, k1, k2, k3⟩, -, g1, g2, h3, -, h4⟩ := h.popOk (i + 1) hi
    have hr := ret_reads h2 rfl k1
    obtain ⟨_, ir⟩ := ret_within k1
    have ho := within_on h2 ir hr
    obtain ⟨c, c1, c2⟩ := h.tails_index.seen hV hr ho k2
    have hc : c = i + 1 := h.tails_index.own ir hr ho c1 (by omega) (by
      intro j hj
      exact h.pop_lt hj hi) (by
      intro j hj1 hj
      show (pop (i + 1)).own < (pop j).store
      rcases Nat.lt_or_eq_of_le hj1 with hlt | rfl
      · have := h.pop_lt hlt hj
        obtain ⟨_, _, h5, -⟩ := h.popOk j hj
        omega
      · omega)
    have hv : v = (i + 1) % size := by
      rw [← k3]
      rcases c2 with ⟨c2, -⟩ | ⟨k, w, c2, -, c4, c5⟩
      · omega
      · obtain rfl : k = i := by omega
        exact c5.trans ((ih (by omega)).1 w c4)
    subst hv
    refine ⟨fun w hw => ?_, h3, t, g1, g2⟩
    rw [h4 w hw, Nat.mod_add_mod]

/-- The call of `push` has seen that `c` elements have been taken out. -/
def Room (M : Memory R) (consumer pops : Nat) (pop : Nat → RingCall) (id : OpId) (c : Nat) : Prop :=
  ∃ r, R.Ret id r ∧ R.Has r .rd ∧ Seen M consumer pops (fun j => (pop j).store) r c

theorem push_room {i : Nat} (hi : i < pushes) : ∃ c, Room M consumer pops pop (producer, (push i).other) c ∧
    (i + 1) % size ≠ c % size := by
  obtain ⟨v, t, h1, ⟨b₀, n₀, h0⟩, hf0, ⟨b, n, h2⟩, ⟨r, s, k1, k2, k3⟩, h3, hacc, -, h4⟩ := h.pushOk i hi
  have hr := ret_reads h2 rfl k1
  obtain ⟨_, ir⟩ := ret_within k1
  have ho := within_on h2 ir hr
  obtain ⟨c, c1, c2⟩ := h.tails_index.seen hV hr ho k2
  refine ⟨c, ⟨r, k1, hr, c1⟩, ?_⟩
  have ht : t = c % size := by
    rw [← k3]
    rcases c2 with ⟨rfl, c2⟩ | ⟨k, w, rfl, c3, c4, c5⟩
    · rw [c2, Nat.zero_mod]; exact h.init.2
    · exact c5.trans ((h.pop_index hV k c3).1 w c4)
  obtain ⟨w, hw⟩ := h.heads_index.writes hi
  rw [← ht, ← (h.push_index hV i hi).1 w hw, h4 w hw]
  exact h3

theorem pop_room {j : Nat} (hj : j < pops) : ∃ c, Room M producer pushes push (consumer, (pop j).other) c ∧
    j % size ≠ c % size := by
  obtain ⟨-, -, g, ⟨r, s, k1, k2, k3⟩, h3⟩ := h.pop_index hV j hj
  obtain ⟨_, _, -, -, -, ⟨b, n, h2⟩, -⟩ := h.popOk j hj
  have hr := ret_reads h2 rfl k1
  obtain ⟨_, ir⟩ := ret_within k1
  have ho := within_on h2 ir hr
  obtain ⟨c, c1, c2⟩ := h.heads_index.seen hV hr ho k2
  refine ⟨c, ⟨r, k1, hr, c1⟩, ?_⟩
  have ht : g = c % size := by
    rw [← k3]
    rcases c2 with ⟨rfl, c2⟩ | ⟨k, w, rfl, c3, c4, c5⟩
    · rw [c2, Nat.zero_mod]; exact h.init.1
    · exact c5.trans ((h.push_index hV k c3).1 w c4)
  rw [← ht]; exact h3

omit hV in
/-- What has been seen once is seen later. -/
theorem room_mono {i i' c c' : Nat} (hii : i < i') (hi : i' < pushes) (hc : Room M consumer pops pop (producer, (push i).other) c)
    (hc' : Room M consumer pops pop (producer, (push i').other) c') : c ≤ c' := by
  obtain ⟨r, r1, r2, r3⟩ := hc
  obtain ⟨r', q1, q2, q3⟩ := hc'
  cases c with
  | zero => omega
  | succ k =>
    obtain ⟨_, _, o1, -, -, ⟨b, n, h2⟩, -⟩ := h.pushOk i (by omega)
    obtain ⟨_, _, o2, -, -, ⟨b', n', h2'⟩, -⟩ := h.pushOk i' hi
    obtain ⟨_, ir⟩ := ret_within r1
    obtain ⟨_, iq⟩ := ret_within q1
    have hk : k < pops := by
      rcases r3 with ⟨e, -⟩ | ⟨k', _, e, hk', -⟩ <;> omega
    obtain ⟨w, hw⟩ := h.tails_index.writes hk
    have hlt := h.push_lt hii hi
    refine h.tails_index.seen_ge hk hw ?_ q2 (within_on h2' iq q2) q3
    exact h.tails_index.sync h.threads h2 r1 r3 (Nat.lt_succ_self k) ⟨w, hw, .inl rfl⟩
      (.inr (op_before ir iq rfl (by simp only; omega)))

omit hV in
theorem full_mono {i i' c c' : Nat} (hii : i < i') (hi : i' < pops) (hc : Room M producer pushes push (consumer, (pop i).other) c)
    (hc' : Room M producer pushes push (consumer, (pop i').other) c') : c ≤ c' := by
  obtain ⟨r, r1, r2, r3⟩ := hc
  obtain ⟨r', q1, q2, q3⟩ := hc'
  cases c with
  | zero => omega
  | succ k =>
    obtain ⟨_, _, o1, -, -, ⟨b, n, h2⟩, -⟩ := h.popOk i (by omega)
    obtain ⟨_, _, o2, -, -, ⟨b', n', h2'⟩, -⟩ := h.popOk i' hi
    obtain ⟨_, ir⟩ := ret_within r1
    obtain ⟨_, iq⟩ := ret_within q1
    have hk : k < pushes := by
      rcases r3 with ⟨e, -⟩ | ⟨k', _, e, hk', -⟩ <;> omega
    obtain ⟨w, hw⟩ := h.heads_index.writes hk
    have hlt := h.pop_lt hii hi
    refine h.heads_index.seen_ge hk hw ?_ q2 (within_on h2' iq q2) q3
    exact h.heads_index.sync h.threads.symm h2 r1 r3 (Nat.lt_succ_self k) ⟨w, hw, .inl rfl⟩
      (.inr (op_before ir iq rfl (by simp only; omega)))

/-- There is an element for every `pop`. -/
theorem filled : ∀ j, j < pops → ∃ c, Room M producer pushes push (consumer, (pop j).other) c ∧ j < c := by
  intro j
  induction j with
  | zero =>
    intro hj
    obtain ⟨c, c1, c2⟩ := h.pop_room hV hj
    refine ⟨c, c1, Nat.pos_of_ne_zero ?_⟩
    rintro rfl; exact c2 rfl
  | succ j ih =>
    intro hj
    obtain ⟨c', c1', c2'⟩ := ih (by omega)
    obtain ⟨c, c1, c2⟩ := h.pop_room hV hj
    have := h.full_mono (Nat.lt_succ_self j) hj c1' c1
    refine ⟨c, c1, ?_⟩
    have : c ≠ j + 1 := by rintro rfl; exact c2 rfl
    omega

/-- There is room for every `push`. -/
theorem free : ∀ i, i < pushes → ∃ c, Room M consumer pops pop (producer, (push i).other) c ∧ i + 1 < c + size := by
  intro i
  have hs := h.size_pos
  induction i with
  | zero =>
    intro hi
    obtain ⟨c, c1, c2⟩ := h.push_room hV hi
    refine ⟨c, c1, ?_⟩
    rcases Nat.eq_zero_or_pos c with rfl | hc
    · have : size ≠ 1 := by rintro rfl; simp at c2
      omega
    · omega
  | succ i ih =>
    intro hi
    obtain ⟨c', c1', c2'⟩ := ih (by omega)
    obtain ⟨c, c1, c2⟩ := h.push_room hV hi
    have := h.room_mono (Nat.lt_succ_self i) hi c1' c1
    refine ⟨c, c1, ?_⟩
    have : i + 1 + 1 ≠ c + size := by
      intro e; rw [e, Nat.add_mod_right] at c2; exact c2 rfl
    omega

/-- What is put in happens before it is taken out. -/
theorem push_pop {i j : Nat} (hj : j < pops) (hij : i ≤ j) : j < pushes ∧
    OpHb R M.hb (producer, (push i).access) (consumer, (pop j).access) := by
  obtain ⟨c, ⟨r, r1, r2, r3⟩, c2⟩ := h.filled hV j hj
  obtain ⟨_, _, o1, -, -, ⟨b, n, h2⟩, -⟩ := h.popOk j hj
  have hjp : j < pushes := by
    rcases r3 with ⟨e, -⟩ | ⟨k', _, e, hk', -⟩ <;> omega
  refine ⟨hjp, ?_⟩
  intro e f it it' he hf
  obtain ⟨w, hw⟩ := h.heads_index.writes hjp
  obtain ⟨_, iw⟩ := pub_within hw
  obtain ⟨_, ir⟩ := ret_within r1
  obtain ⟨_, _, o2, -⟩ := h.pushOk i (by omega)
  have hle : (push i).store ≤ (push j).store := by
    rcases Nat.lt_or_eq_of_le hij with k | rfl
    · exact Nat.le_of_lt (h.heads_index.mono k hjp)
    · exact Nat.le_refl _
  exact h.heads_index.sync h.threads.symm h2 r1 r3 c2 ⟨w, hw, .inr (op_before he iw rfl (by simp only; omega))⟩
    (.inr (op_before ir hf rfl (by simp only; omega)))

/-- What is taken out is so before the element is used again. -/
theorem pop_push {i j : Nat} (hi : i < pushes) (hj : j < pops) (hij : j + size ≤ i) :
    OpHb R M.hb (consumer, (pop j).access) (producer, (push i).access) := by
  obtain ⟨c, ⟨r, r1, r2, r3⟩, c2⟩ := h.free hV i hi
  obtain ⟨_, _, o1, -, -, ⟨b, n, h2⟩, -⟩ := h.pushOk i hi
  intro e f it it' he hf
  obtain ⟨w, hw⟩ := h.tails_index.writes hj
  obtain ⟨_, iw⟩ := pub_within hw
  obtain ⟨_, ir⟩ := ret_within r1
  obtain ⟨_, _, o2, -⟩ := h.popOk j hj
  exact h.tails_index.sync h.threads h2 r1 r3 (by omega : j < c) ⟨w, hw, .inr (op_before he iw rfl (by simp only; omega))⟩
    (.inr (op_before ir hf rfl (by simp only; omega)))

omit h hV in
theorem user_access {id : OpId} {y : Instr} {l : Nat} (hit : At R id (.user y l)) : ∃ e, R.Within e id (.user y l) ∧ R.Is e ⟨y, l, none⟩ := by
  obtain ⟨e, h1, h2⟩ := instr_at (i := 0) (x := y) hit rfl
  exact ⟨e, h1, h2⟩

omit h hV in
theorem user_is {id : OpId} {y : Instr} {l : Nat} {e : Pos} (h : R.Within e id (.user y l)) : R.Is e ⟨y, l, none⟩ := by
  obtain ⟨z, hz, hi⟩ := user_access h.item
  have h1 := h.bounds
  have h2 := hz.bounds
  have : e = z := by
    refine Prod.ext (h1.1.trans h2.1.symm) ?_
    have : (Item.user y l).events.length = 1 := rfl
    omega
  rw [this]; exact hi

/-- The `j`-th element that is taken out is the `j`-th one that was put in. -/
theorem fifo {j : Nat} (hj : j < pops) {f : Pos} {it : Item} (hf : R.Within f (consumer, (pop j).access) it) {s : Option Pos}
    (hs : M.rf f s) : ∃ e it', s = some e ∧ R.Within e (producer, (push j).access) it' := by
  have hs0 := h.size_pos
  obtain ⟨hjp, hb⟩ := h.push_pop hV hj (Nat.le_refl j)
  obtain ⟨-, ⟨y, k1, k2, k3⟩, -⟩ := h.pop_index hV j hj
  obtain ⟨-, z, q1, q2, q3⟩ := h.push_index hV j hjp
  cases At.eq k1 hf.item
  have hif := user_is hf
  obtain ⟨e, he, hie⟩ := user_access q1
  have hfr : R.Has f .rd := ⟨_, hif, k2⟩
  have hew : R.Has e .wr := ⟨_, hie, q2⟩
  have hl : R.SameLoc e f := ⟨_, _, hie, hif, rfl⟩
  rcases M.writeRead (hb _ _ _ _ he hf) hew hfr hl hs with rfl | ⟨w, rfl, hm⟩
  · exact ⟨e, _, rfl, he⟩
  · exfalso
    obtain ⟨hw, hfw⟩ := M.source hfr hs
    obtain ⟨a, c, ha, hc, hac⟩ := hfw
    cases ha.unique hif
    obtain ⟨id, it', hin⟩ := exists_within hc
    have hloc : it'.loc = cell (j % size) := by rw [← hin.loc hc, ← hac]
    rcases h.cells id it' (j % size) hin.item (hin.writes hw) (Nat.mod_lt _ hs0) hloc with ⟨i, hi, rfl⟩ | ⟨i, hi, rfl⟩
    · obtain ⟨-, z', p1, p2, p3⟩ := h.push_index hV i hi
      cases At.eq p1 hin.item
      have hmod : i % size = j % size := h.cell_inj _ _ (Nat.mod_lt _ hs0) (Nat.mod_lt _ hs0) hloc
      obtain ⟨_, _, o1, -⟩ := h.pushOk i hi
      obtain ⟨_, _, o2, -⟩ := h.pushOk j hjp
      rcases Nat.lt_trichotomy i j with hlt | rfl | hlt
      · have := h.push_lt hlt hjp
        have hbw := M.sb (op_before hin he rfl (by simp only; omega))
        exact M.mo_irrefl _ (M.mo_trans hm (M.writeWrite hbw hw hew ⟨_, _, hc, hie, by rw [← hac]⟩))
      · have : w = e := by
          have h1 := hin.bounds
          have h2 := he.bounds
          have h3 : ∀ y l, (Item.user y l).events.length = 1 := fun _ _ => rfl
          refine Prod.ext (h1.1.trans h2.1.symm) ?_
          have := h3 z' (cell (i % size)); have := h3 z (cell (i % size))
          omega
        rw [this] at hm; exact M.mo_irrefl _ hm
      · have hge : j + size ≤ i := gap hlt hmod
        exact M.mo_irrefl _ (M.readWrite (h.pop_push hV hi hj hge _ _ _ _ hf hin) hfr hw ⟨_, _, hif, hc, hac⟩ hs)
    · obtain ⟨-, ⟨z', p1, p2, p3⟩, -⟩ := h.pop_index hV i hi
      cases At.eq p1 hin.item
      obtain ⟨u, hu, hu'⟩ := hw
      cases (user_is hin).unique hu
      rw [show z'.has .wr = z'.wr from rfl, p3] at hu'
      cases hu'

/-- What a failing `push` has seen. -/
theorem push_fails {i own other : Nat} (hf : PushFails R M.rf V size head tail producer pushes push i own other) :
    ∃ r, R.Ret (producer, other) r ∧ R.Has r .rd ∧ On R tail r ∧
      ∃ c, Seen M consumer pops (fun j => (pop j).store) r c ∧ i + 1 = c + size := by
  have hs := h.size_pos
  obtain ⟨v, ⟨b, n, h2⟩, ⟨r, s, k1, k2, k3⟩, ⟨b', n', h2'⟩, ⟨r', s', k1', k2', k3'⟩⟩ := hf.fails
  have hr := ret_reads h2 rfl k1
  obtain ⟨_, ir⟩ := ret_within k1
  have ho := within_on h2 ir hr
  obtain ⟨c, c1, c2⟩ := h.heads_index.seen hV hr ho k2
  have hc : c = i := h.heads_index.own ir hr ho c1 hf.count hf.before (by
    intro j hj hj'
    show own < (push j).store
    have := hf.after j hj hj'
    have := hf.order
    obtain ⟨_, _, h5, -⟩ := h.pushOk j hj'
    omega)
  have hv : v = i % size := by
    rw [← k3]
    rcases c2 with ⟨e, c2⟩ | ⟨k, w, c2, hk, c4, c5⟩
    · rw [c2, ← hc, e, Nat.zero_mod]; exact h.init.1
    · rw [c5, (h.push_index hV k hk).1 w c4, ← hc, c2]
  have hr' := ret_reads h2' rfl k1'
  obtain ⟨_, ir'⟩ := ret_within k1'
  have ho' := within_on h2' ir' hr'
  obtain ⟨d, d1, d2⟩ := h.tails_index.seen hV hr' ho' k2'
  refine ⟨r', k1', hr', ho', d, d1, ?_⟩
  have hd : (i + 1) % size = d % size := by
    have : V.of tail s' = d % size := by
      rcases d2 with ⟨rfl, d2⟩ | ⟨k, w, rfl, d3, d4, d5⟩
      · rw [d2, Nat.zero_mod]; exact h.init.2
      · exact d5.trans ((h.pop_index hV k d3).1 w d4)
    rw [← this, k3', hv, Nat.mod_add_mod]
  -- no more has been taken out than was put in
  have hle : d ≤ i := by
    refine Classical.byContradiction fun hlt => ?_
    have hd' : d - 1 < pops := by rcases d1 with ⟨e, -⟩ | ⟨k', _, e, hk', -⟩ <;> omega
    obtain ⟨hp, hb⟩ := h.push_pop hV hd' (Nat.le_refl _)
    obtain ⟨w, hw⟩ := h.tails_index.writes hd'
    obtain ⟨_, iw⟩ := pub_within hw
    obtain ⟨_, _, o1, -⟩ := h.popOk _ hd'
    obtain ⟨_, _, o2, -⟩ := h.pushOk _ hp
    obtain ⟨-, z, q1, -⟩ := h.push_index hV _ hp
    obtain ⟨-, ⟨y, p1, -⟩, -⟩ := h.pop_index hV _ hd'
    obtain ⟨e, he, -⟩ := user_access q1
    obtain ⟨f, hf', -⟩ := user_access p1
    have := hf.after (d - 1) (by omega) hp
    have h1 := M.sb (op_before ir' he rfl (by simp only; omega))
    have h3 := h.tails_index.sync h.threads h2' k1' d1 (by omega : d - 1 < d)
      ⟨w, hw, .inr (op_before hf' iw rfl (by simp only; omega))⟩ (.inl rfl)
    exact M.irrefl _ (M.trans h1 (M.trans (hb _ _ _ _ he hf') h3))
  -- and enough for what was put in
  have hge : i < d + size := by
    cases i with
    | zero => omega
    | succ i =>
      have hi : i < pushes := hf.count
      obtain ⟨c', ⟨q, q1, q2, q3⟩, c2'⟩ := h.free hV i hi
      have : c' ≤ d := by
        cases c' with
        | zero => omega
        | succ k =>
          obtain ⟨_, _, o1, -, -, ⟨b₁, n₁, h4⟩, -⟩ := h.pushOk i hi
          have hk : k < pops := by rcases q3 with ⟨e, -⟩ | ⟨k', _, e, hk', -⟩ <;> omega
          obtain ⟨w, hw⟩ := h.tails_index.writes hk
          obtain ⟨_, iq⟩ := ret_within q1
          have := hf.before i (Nat.lt_succ_self i)
          have := hf.order
          exact h.tails_index.seen_ge hk hw (h.tails_index.sync h.threads h4 q1 q3 (Nat.lt_succ_self k) ⟨w, hw, .inl rfl⟩
            (.inr (op_before iq ir' rfl (by simp only; omega)))) hr' ho' d1
      omega
  have := gap (by omega : d < i + 1) hd
  omega

theorem full {i own other : Nat} (hf : PushFails R M.rf V size head tail producer pushes push i own other) :
    size ≤ i + 1 ∧ ∀ j, j < pops → OpHb R M.hb (consumer, (pop j).store) (producer, other) → j + size ≤ i := by
  obtain ⟨r, r1, r2, r3, c, c1, c2⟩ := h.push_fails hV hf
  refine ⟨by omega, fun j hj hb => ?_⟩
  obtain ⟨w, hw⟩ := h.tails_index.writes hj
  obtain ⟨_, iw⟩ := pub_within hw
  obtain ⟨_, ir⟩ := ret_within r1
  have := h.tails_index.seen_ge hj hw (hb _ _ _ _ iw ir) r2 r3 c1
  omega

/-- What a failing `pop` has seen. -/
theorem pop_fails {j own other : Nat} (hf : PopFails R M.rf V head tail consumer pops pop j own other) :
    ∃ r, R.Ret (consumer, other) r ∧ R.Has r .rd ∧ On R head r ∧ Seen M producer pushes (fun i => (push i).store) r j := by
  have hs := h.size_pos
  obtain ⟨v, ⟨b, n, h2⟩, ⟨r, s, k1, k2, k3⟩, ⟨b', n', h2'⟩, ⟨r', s', k1', k2', k3'⟩⟩ := hf.fails
  have hr := ret_reads h2 rfl k1
  obtain ⟨_, ir⟩ := ret_within k1
  have ho := within_on h2 ir hr
  obtain ⟨c, c1, c2⟩ := h.tails_index.seen hV hr ho k2
  have hc : c = j := h.tails_index.own ir hr ho c1 hf.count hf.before (by
    intro i hi hi'
    show own < (pop i).store
    have := hf.after i hi hi'
    have := hf.order
    obtain ⟨_, _, h5, -⟩ := h.popOk i hi'
    omega)
  have hv : v = j % size := by
    rw [← k3]
    rcases c2 with ⟨e, c2⟩ | ⟨k, w, c2, hk, c4, c5⟩
    · rw [c2, ← hc, e, Nat.zero_mod]; exact h.init.2
    · rw [c5, (h.pop_index hV k hk).1 w c4, ← hc, c2]
  have hr' := ret_reads h2' rfl k1'
  obtain ⟨_, ir'⟩ := ret_within k1'
  have ho' := within_on h2' ir' hr'
  obtain ⟨d, d1, d2⟩ := h.heads_index.seen hV hr' ho' k2'
  have hd : j % size = d % size := by
    have : V.of head s' = d % size := by
      rcases d2 with ⟨rfl, d2⟩ | ⟨k, w, rfl, d3, d4, d5⟩
      · rw [d2, Nat.zero_mod]; exact h.init.1
      · exact d5.trans ((h.push_index hV k d3).1 w d4)
    rw [← this, k3', hv]
  -- what was taken out was put in
  have hge : j ≤ d := by
    cases j with
    | zero => omega
    | succ j =>
      have hj : j < pops := hf.count
      obtain ⟨c', ⟨q, q1, q2, q3⟩, c2'⟩ := h.filled hV j hj
      have : c' ≤ d := by
        cases c' with
        | zero => omega
        | succ k =>
          obtain ⟨_, _, o1, -, -, ⟨b₁, n₁, h4⟩, -⟩ := h.popOk j hj
          have hk : k < pushes := by rcases q3 with ⟨e, -⟩ | ⟨k', _, e, hk', -⟩ <;> omega
          obtain ⟨w, hw⟩ := h.heads_index.writes hk
          obtain ⟨_, iq⟩ := ret_within q1
          have := hf.before j (Nat.lt_succ_self j)
          have := hf.order
          exact h.heads_index.seen_ge hk hw (h.heads_index.sync h.threads.symm h4 q1 q3 (Nat.lt_succ_self k) ⟨w, hw, .inl rfl⟩
            (.inr (op_before iq ir' rfl (by simp only; omega)))) hr' ho' d1
      omega
  -- and no more is in the buffer than fits
  have hle : d < j + size := by
    refine Classical.byContradiction fun hlt => ?_
    have hd' : d - 1 < pushes := by rcases d1 with ⟨e, -⟩ | ⟨k', _, e, hk', -⟩ <;> omega
    obtain ⟨c', ⟨q, q1, q2, q3⟩, c2'⟩ := h.free hV _ hd'
    have hj : j < pops := by rcases q3 with ⟨e, -⟩ | ⟨k', _, e, hk', -⟩ <;> omega
    obtain ⟨_, _, o1, -, -, ⟨b₁, n₁, h4⟩, -⟩ := h.pushOk _ hd'
    obtain ⟨_, _, o2, -⟩ := h.popOk _ hj
    obtain ⟨w, hw⟩ := h.tails_index.writes hj
    obtain ⟨w', hw'⟩ := h.heads_index.writes hd'
    obtain ⟨_, iw⟩ := pub_within hw
    obtain ⟨_, iw'⟩ := pub_within hw'
    obtain ⟨_, iq⟩ := ret_within q1
    have := hf.after j (Nat.le_refl j) hj
    have h5 := h.tails_index.sync h.threads h4 q1 q3 (by omega : j < c') ⟨w, hw, .inl rfl⟩ (.inl rfl)
    have h6 := h.heads_index.sync h.threads.symm h2' k1' d1 (by omega : d - 1 < d)
      ⟨w', hw', .inr (op_before iq iw' rfl (by simp only; omega))⟩ (.inl rfl)
    exact M.irrefl _ (M.trans (M.sb (op_before ir' iw rfl (by simp only; omega))) (M.trans h5 h6))
  have : d = j := by
    rcases Nat.lt_or_eq_of_le hge with hlt | rfl
    · have := gap hlt hd.symm
      omega
    · rfl
  exact ⟨r', k1', hr', ho', this ▸ d1⟩

theorem empty {j own other : Nat} (hf : PopFails R M.rf V head tail consumer pops pop j own other) :
    ∀ i, i < pushes → OpHb R M.hb (producer, (push i).store) (consumer, other) → i < j := by
  obtain ⟨r, r1, r2, r3, c1⟩ := h.pop_fails hV hf
  intro i hi hb
  obtain ⟨w, hw⟩ := h.heads_index.writes hi
  obtain ⟨_, iw⟩ := pub_within hw
  obtain ⟨_, ir⟩ := ret_within r1
  exact h.heads_index.seen_ge hi hw (hb _ _ _ _ iw ir) r2 r3 c1

end Ring

end Verif.Idiom
