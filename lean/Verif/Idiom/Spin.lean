import Verif.Idiom.Base

/-
The sections of a spinlock are ordered.
-/

namespace Verif.Idiom

open Verif.Order Verif.Mca Verif.Mca.Run Verif.Locked

variable {cpu : Cpu} {R : Mca.Run cpu} {M : Memory R} {V : Values} {x : Nat} {Secs : Holding → Prop}

namespace Spinlock

section

variable (h : Spinlock R M.rf V x Secs)

include h

theorem exchange {S : Holding} (hS : Secs S) : ∃ b o n, At R (S.thread, S.lock) (.exchange b o n x) := by
  rcases h.lock S hS with ⟨b, n, h1, -⟩ | ⟨b, n, -, h1, -⟩ <;> exact ⟨b, _, n, h1⟩

theorem lock_le {S : Holding} (hS : Secs S) : S.lock ≤ S.locked := by
  rcases h.lock S hS with ⟨b, n, -, h1⟩ | ⟨b, n, -, -, -, h1⟩ <;> omega

/-- A value other than `Locked` comes from an `unlock`. -/
theorem writer {g : Pos} (hg : R.Has g .wr) (hc : ¬ R.Copy g) (ho : On R x g) (hv : V.val g ≠ Locked) :
    ∃ D u, Secs D ∧ D.unlock = some u ∧ R.Pub (D.thread, u) g := by
  obtain ⟨y, hy, hl⟩ := ho
  obtain ⟨id, it, hin⟩ := exists_within hy
  have hx : it.loc = x := (hin.loc hy).symm.trans hl
  rcases h.others id it hin.item (hin.writes hg) hx with ⟨b, o, n, rfl⟩ | ⟨S, u, h1, h2, rfl⟩ | hp
  · exact absurd (h.locks id b o n hin.item g ((pub_or_copy hin hg rfl).resolve_right hc)) hv
  · obtain ⟨b, n, h3⟩ := (h.unlock S u h1 h2).2
    have := hin.item; rw [At] at h3; rw [h3] at this; cases this
    exact ⟨S, u, h1, h2, (pub_or_copy hin hg rfl).resolve_right hc⟩
  · exact absurd (peek_copy hp hin hg) hc

end

/-- The accesses of the exchange that ends `lock`. -/
structure Taken (M : Memory R) (x : Nat) (S : Holding) (r w : Pos) : Prop where
  ret : R.Ret (S.thread, S.lock) r
  rd : R.Has r .rd
  pub : R.Pub (S.thread, S.lock) w
  wr : R.Has w .wr
  pair : R.Paired r w
  on : On R x w

theorem taken (h : Spinlock R M.rf V x Secs) {S : Holding} (hS : Secs S) : ∃ r w, Taken M x S r w := by
  obtain ⟨b, o, n, hit⟩ := h.exchange hS
  obtain ⟨r, w, h1, h2, h3, h4, h5, -⟩ := rmw_facts hit rfl
  obtain ⟨_, hin⟩ := pub_within h3
  exact ⟨r, w, h1, h2, h3, h4, h5, within_on hit hin h4⟩

theorem Taken.eq {S : Holding} {r w r' w' : Pos} (h : Spinlock R M.rf V x Secs) (hS : Secs S) (k : Taken M x S r w) (k' : Taken M x S r' w') : r = r' ∧ w = w' := by
  obtain ⟨b, o, n, hit⟩ := h.exchange hS
  cases facts hit rfl with
  | reads r ret rd uniq npub wr => exact absurd k.pub (npub _)
  | writes w' pub has uniq nret wr => exact absurd k.ret (nret _)
  | both r₀ w₀ ret rd uniq pub has uniq' pair wr =>
    exact ⟨(uniq _ k.ret).trans (uniq _ k'.ret).symm, (uniq' _ k.pub).trans (uniq' _ k'.pub).symm⟩

theorem sec_eq (h : Spinlock R M.rf V x Secs) {S S' : Holding} (hS : Secs S) (hS' : Secs S') (e : (S.thread, S.lock) = (S'.thread, S'.lock)) :
    S = S' := by
  have h1 := congrArg Prod.fst e
  have h2 := congrArg Prod.snd e
  simp only at h1 h2
  rcases h.apart S S' hS hS' h1 with k | ⟨u, k1, k2⟩ | ⟨u, k1, k2⟩
  · exact k
  · have := (h.unlock S u hS k1).1; have := h.lock_le hS; omega
  · have := (h.unlock S' u hS' k1).1; have := h.lock_le hS'; omega

/-- The section was entered as number `n`. -/
inductive Turn (M : Memory R) (x : Nat) (Secs : Holding → Prop) : Nat → Holding → Prop where
  | first {S r w} : Secs S → Taken M x S r w → Src M r none → Turn M x Secs 0 S
  | next {n D u g S r w} : Turn M x Secs n D → D.unlock = some u → R.Pub (D.thread, u) g → Secs S → Taken M x S r w →
      Src M r (some g) → Turn M x Secs (n + 1) S

theorem Turn.sec {n : Nat} {S : Holding} (k : Turn M x Secs n S) : Secs S := by cases k <;> assumption

variable (h : Spinlock R M.rf V x Secs)
  (hV : ∀ r c x, R.CopyOf r c → R.Is c x → ∃ s, M.rf r s ∧ V.val c = V.of x.loc s)

include h

theorem given {D : Holding} (hD : Secs D) {u : Nat} (hu : D.unlock = some u) {g : Pos} (hg : R.Pub (D.thread, u) g) :
    R.Has g .wr ∧ On R x g := by
  obtain ⟨b, n, hit⟩ := (h.unlock D u hD hu).2
  have hw := pub_writes hit rfl hg
  obtain ⟨_, hin⟩ := pub_within hg
  exact ⟨hw, within_on hit hin hw⟩

theorem given_eq {D : Holding} (hD : Secs D) {u : Nat} (hu : D.unlock = some u) {g g' : Pos} (hg : R.Pub (D.thread, u) g)
    (hg' : R.Pub (D.thread, u) g') : g = g' := by
  obtain ⟨b, n, hit⟩ := (h.unlock D u hD hu).2
  cases facts hit rfl with
  | reads r ret rd uniq npub wr => exact absurd hg (npub _)
  | writes w' pub has uniq nret wr => exact (uniq _ hg).trans (uniq _ hg').symm
  | both r₀ w₀ ret rd uniq pub has uniq' pair wr => exact (uniq' _ hg).trans (uniq' _ hg').symm

include hV

theorem turn_exists : ∀ (n : Nat) {S r w}, R.time w .wr = n → Secs S → Taken M x S r w → ∃ k, Turn M x Secs k S := by
  intro n
  induction n using Nat.strongRecOn with
  | _ n ih =>
    intro S r w hn hS ht
    obtain ⟨v, hv, r', s, h1, h2, h3⟩ := h.found S hS
    have : r' = r := by
      obtain ⟨b, o, m, hit⟩ := h.exchange hS
      cases facts hit rfl with
      | reads r ret rd uniq npub wr => exact absurd ht.pub (npub _)
      | writes w' pub has uniq nret wr => exact absurd ht.ret (nret _)
      | both r₀ w₀ ret rd uniq pub has uniq' pair wr => exact (uniq _ h1).trans (uniq _ ht.ret).symm
    subst this
    have ho : On R x r' := ht.on.of ht.pair.1.symm
    obtain ⟨s', k1, k2⟩ := src_exists hV h2 ht.rd (x := x) (by
      intro y hy; obtain ⟨z, hz, e⟩ := ho; rw [hy.unique hz, e])
    cases s' with
    | none => exact ⟨0, .first hS ht k1⟩
    | some g =>
      obtain ⟨g1, g2, g3⟩ := src_source ht.rd k1
      obtain ⟨D, u, d1, d2, d3⟩ := h.writer g1 g2 (ho.of g3) (by
        rw [show V.val g = v from k2.trans h3]; exact hv)
      obtain ⟨r₀, w₀, ht₀⟩ := h.taken (M := M) d1
      have hlt := src_older ht.rd ht.wr ht.pair k1
      have hlt' : R.time w₀ .wr < R.time g .wr := by
        obtain ⟨_, i1⟩ := pub_within ht₀.pub
        obtain ⟨_, i2⟩ := pub_within d3
        refine M.inOrder (op_before i1 i2 rfl ?_) ht₀.wr g1 (ht₀.on.sameLoc (ho.of g3))
        have := (h.unlock D u d1 d2).1; have := h.lock_le d1; simp only; omega
      obtain ⟨k, hk⟩ := ih _ (by omega) rfl d1 ht₀
      exact ⟨k + 1, .next hk d2 d3 hS ht k1⟩

omit hV in
theorem turn_inj {n : Nat} : ∀ {A B}, Turn M x Secs n A → Turn M x Secs n B → A = B := by
  induction n with
  | zero =>
    intro A B a b
    cases a with
    | first a1 a2 a3 => cases b with
      | first b1 b2 b3 =>
        have := src_inj a2.rd b2.rd a2.wr b2.wr (pub_not_copy a2.pub) (pub_not_copy b2.pub) a2.pair b2.pair (a2.on.sameLoc b2.on) a3 b3
        exact h.sec_eq a1 b1 (pub_op a2.pub (this ▸ b2.pub))
  | succ n ih =>
    intro A B a b
    cases a with
    | next a0 au ag a1 a2 a3 => cases b with
      | next b0 bu bg b1 b2 b3 =>
        cases ih a0 b0
        rw [au] at bu; cases bu
        cases h.given_eq a0.sec au ag bg
        have := src_inj a2.rd b2.rd a2.wr b2.wr (pub_not_copy a2.pub) (pub_not_copy b2.pub) a2.pair b2.pair (a2.on.sameLoc b2.on) a3 b3
        exact h.sec_eq a1 b1 (pub_op a2.pub (this ▸ b2.pub))

/-- Everything before the end of the section `A` happens before everything in the section `B` and after it. -/
def Precedes (M : Memory R) (A B : Holding) : Prop :=
  ∃ u, A.unlock = some u ∧ ∀ e f, Until R A.thread u e → From R B.thread (B.locked + 1) f → M.hb e f

omit hV in
/-- Everything up to the store of `unlock` happens before the section that finds it. -/
theorem passes {D B : Holding} (hD : Secs D) (hB : Secs B) {u : Nat} (hu : D.unlock = some u) {g r w : Pos}
    (hg : R.Pub (D.thread, u) g) (ht : Taken M x B r w) (hs : Src M r (some g)) {e f : Pos} (he : e = g ∨ Before e g)
    (hf : From R B.thread (B.locked + 1) f) : M.hb e f := by
  obtain ⟨hgw, hgo⟩ := h.given hD hu hg
  obtain ⟨b, n, hit⟩ := (h.unlock D u hD hu).2
  obtain ⟨_, ig⟩ := pub_within hg
  obtain ⟨_, iw⟩ := pub_within ht.pub
  obtain ⟨_, ir⟩ := ret_within ht.ret
  obtain ⟨id, it, hin, hid, hle⟩ := hf
  have hlk := h.lock_le hB
  by_cases hth : D.thread = B.thread
  · have hlt : u < B.lock := by
      rcases h.apart D B hD hB hth with rfl | ⟨u', k1, k2⟩ | ⟨u', k1, k2⟩
      · exfalso
        have := src_older ht.rd ht.wr ht.pair hs
        have := M.inOrder (op_before iw ig rfl (by have := (h.unlock D u hD hu).1; simp only; omega)) ht.wr hgw (ht.on.sameLoc hgo)
        omega
      · rw [hu] at k1; cases k1; exact k2
      · exfalso
        have := src_older ht.rd ht.wr ht.pair hs
        have h1 := (h.unlock B u' hB k1).1
        have h2 := (h.unlock D u hD hu).1
        have h3 := h.lock_le hD
        have := M.inOrder (op_before iw ig hth.symm (by simp only; omega)) ht.wr hgw (ht.on.sameLoc hgo)
        omega
    have hgf : Before g f := op_before ig hin (by simp only [hid, hth]) (by simp only; omega)
    rcases he with rfl | he
    · exact M.sb hgf
    · exact M.sb (he.trans hgf)
  · refine src_sync (Released.of_release hit rfl rfl hg he) hgw .head hs ht.rd ?_ ?_
    · rw [ir.bounds.1, ig.bounds.1]; exact fun e => hth e.symm
    · rcases h.lock B hB with ⟨b', n', k1, k2⟩ | ⟨b', n', b'', k1, k2, k3⟩
      · exact Acquired.of_acquire k1 rfl rfl ht.ret (.inr (op_before ir hin (by simp only [hid]) (by simp only; omega)))
      · exact Acquired.of_fence k2 rfl ir hin rfl hid (by simpa using k3) (by simp only; omega)

omit hV in
theorem turn_precedes {n k : Nat} : ∀ {A B}, Turn M x Secs n A → Turn M x Secs (n + k + 1) B → Precedes M A B := by
  induction k with
  | zero =>
    intro A B a b
    cases b with
    | next b0 bu bg b1 b2 b3 =>
      cases h.turn_inj a b0
      refine ⟨_, bu, fun e f he hf => h.passes a.sec b1 bu bg b2 b3 ?_ hf⟩
      obtain ⟨id, it, hin, hid, hlt⟩ := he
      obtain ⟨_, ig⟩ := pub_within bg
      exact .inr (op_before hin ig hid hlt)
  | succ k ih =>
    intro A B a b
    cases b with
    | @next _ D u g _ r w b0 bu bg b1 b2 b3 =>
      obtain ⟨u', k1, k2⟩ := ih a b0
      refine ⟨u', k1, fun e f he hf => ?_⟩
      obtain ⟨_, ig⟩ := pub_within bg
      have hd := b0.sec
      exact M.trans (k2 e g he ⟨_, _, ig, rfl, by have := (h.unlock D u hd bu).1; simp only; omega⟩)
        (h.passes hd b1 bu bg b2 b3 (.inl rfl) hf)

/-- The sections of a spinlock are ordered. -/
theorem ordered {A B : Holding} (hA : Secs A) (hB : Secs B) (hne : A ≠ B) : Precedes M A B ∨ Precedes M B A := by
  obtain ⟨_, _, ta⟩ := h.taken (M := M) hA
  obtain ⟨_, _, tb⟩ := h.taken (M := M) hB
  obtain ⟨i, hi⟩ := h.turn_exists hV _ rfl hA ta
  obtain ⟨j, hj⟩ := h.turn_exists hV _ rfl hB tb
  rcases Nat.lt_trichotomy i j with hij | rfl | hij
  · obtain ⟨k, rfl⟩ : ∃ k, j = i + k + 1 := ⟨j - i - 1, by omega⟩
    exact .inl (h.turn_precedes hi hj)
  · exact absurd (h.turn_inj hi hj) hne
  · obtain ⟨k, rfl⟩ : ∃ k, i = j + k + 1 := ⟨i - j - 1, by omega⟩
    exact .inr (h.turn_precedes hj hi)

end Spinlock

end Verif.Idiom
