import Verif.Idiom.Base

/-
The object that is created once.
-/

namespace Verif.Idiom

open Verif.Order Verif.Mca Verif.Mca.Run Verif.Locked

variable {cpu : Cpu} {R : Mca.Run cpu} {M : Memory R} {V : Values} {x : Nat} {Calls : InstanceCall → Prop}

namespace Singleton

variable (h : Singleton R M.rf M.hb V x Calls)
  (hV : ∀ r c x, R.CopyOf r c → R.Is c x → ∃ s, M.rf r s ∧ V.val c = V.of x.loc s)

include h

/-- Whoever modifies `instance_` has created an object. -/
theorem writer {u : Pos} (hu : R.Has u .wr) (hc : ¬ R.Copy u) (ho : On R x u) : ∃ c s, Calls c ∧ c.store = some s ∧
    R.Pub (c.thread, s) u ∧ V.val u = c.result ∧ c.result ≠ 0 := by
  obtain ⟨y, hy, hl⟩ := ho
  obtain ⟨id, it, hin⟩ := exists_within hy
  have hx : it.loc = x := (hin.loc hy).symm.trans hl
  rcases h.others id it hin.item (hin.writes hu) hx with ⟨c, s, h1, h2, rfl⟩ | hp
  · obtain ⟨k, -, -, -, ⟨b, n, h3⟩, h4, h5⟩ := h.store c s h1 h2
    cases At.eq h3 hin.item
    have hpub := (pub_or_copy hin hu rfl).resolve_right hc
    exact ⟨c, s, h1, h2, hpub, h4 _ hpub, h5⟩
  · exact absurd (peek_copy hp hin hu) hc

include hV

/-- A load that finds an address finds what a call has stored. -/
theorem found {id : OpId} {b : Backend} {o : MO} {n v : Nat} (hit : At R id (.op b .load o n x)) (hf : Finds R M.rf V id x v) :
    ∃ r s, R.Ret id r ∧ R.Has r .rd ∧ On R x r ∧ Src M r s ∧
      ((s = none ∧ v = 0) ∨ ∃ u c k, s = some u ∧ Calls c ∧ c.store = some k ∧ R.Pub (c.thread, k) u ∧ v = c.result ∧ v ≠ 0) := by
  obtain ⟨r, s, h1, h2, rfl⟩ := hf
  have hr := ret_reads hit rfl h1
  obtain ⟨_, ir⟩ := ret_within h1
  have ho : On R x r := within_on hit ir hr
  obtain ⟨s', k1, k2⟩ := src_exists hV h2 hr ho.loc
  refine ⟨r, s', h1, hr, ho, k1, ?_⟩
  cases s' with
  | none => exact .inl ⟨rfl, k2.symm.trans h.init⟩
  | some u =>
    obtain ⟨g1, g2, g3⟩ := src_source hr k1
    obtain ⟨c, k, q1, q2, q3, q4, q5⟩ := h.writer g1 g2 (ho.of g3)
    have : V.of x s = c.result := k2.symm.trans q4
    exact .inr ⟨u, c, k, rfl, q1, q2, q3, this, this ▸ q5⟩

/-- Not both create an object if one comes after the other. -/
theorem not_after {c c' : InstanceCall} {s s' k' : Nat} (hc : Calls c) (hc' : Calls c') (hs : c.store = some s)
    (hs' : c'.store = some s') (hk' : c'.second = some k') (hb : OpHb R M.hb (c.thread, s) (c'.thread, k')) : False := by
  obtain ⟨-, -, -, -, ⟨b, n, h3⟩, -⟩ := h.store c s hc hs
  obtain ⟨w, hw⟩ := store_writes h3
  obtain ⟨_, iw⟩ := pub_within hw
  have hwr : R.Has w .wr := pub_writes h3 rfl hw
  have how : On R x w := within_on h3 iw hwr
  obtain ⟨-, -, ⟨b', n', g1⟩, v, g2, g3, -⟩ := h.second c' k' hc' hk'
  obtain ⟨r, src, r1, r2, r3, r4, r5⟩ := h.found hV g1 g2
  obtain ⟨_, ir⟩ := ret_within r1
  have hv : v = 0 := by
    refine Classical.byContradiction fun hne => ?_
    have := g3.2 hne
    rw [hs'] at this; cases this
  rcases r5 with ⟨rfl, -⟩ | ⟨_, _, _, _, _, _, _, _, hne⟩
  · rcases src_writeRead (hb _ _ _ _ iw ir) hwr (pub_not_copy hw) r2 (how.sameLoc r3) r4 with k | ⟨_, k, -⟩ <;> cases k
  · exact hne hv

/-- One object is created. -/
theorem once {c c' : InstanceCall} {s s' : Nat} (hc : Calls c) (hc' : Calls c') (hs : c.store = some s)
    (hs' : c'.store = some s') : c = c' := by
  refine Classical.byContradiction fun hne => ?_
  obtain ⟨k, hk, -⟩ := h.store c s hc hs
  obtain ⟨k', hk', -⟩ := h.store c' s' hc' hs'
  rcases h.mutex c c' k k' hc hc' hne hk hk' with hb | hb
  · exact h.not_after hV hc hc' hs hs' hk' (hb s hs)
  · exact h.not_after hV hc' hc hs' hs hk (hb s' hs')

/-- A load that has found the address comes after what its creator did. -/
theorem seen {c₀ : InstanceCall} {s₀ : Nat} (h₀ : Calls c₀) (hs₀ : c₀.store = some s₀) {id : OpId} {b : Backend} {n v : Nat}
    (hit : At R id (.op b .load .consume n x)) (hf : Finds R M.rf V id x v) (hv : v ≠ 0) :
    v = c₀.result ∧ ∀ e f, Until R c₀.thread s₀ e → From R id.1 (id.2 + 1) f → M.hb e f := by
  obtain ⟨r, src, r1, r2, r3, r4, r5⟩ := h.found hV hit hf
  obtain ⟨_, ir⟩ := ret_within r1
  rcases r5 with ⟨-, r5⟩ | ⟨u, c, k, rfl, hc, hk, hu, rfl, -⟩
  · exact absurd r5 hv
  obtain rfl := h.once hV hc h₀ hk hs₀
  rw [hk] at hs₀
  obtain rfl := Option.some.inj hs₀
  refine ⟨rfl, fun e f he hf' => ?_⟩
  obtain ⟨ide, _, ine, e1, e2⟩ := he
  obtain ⟨idf, _, inf, f1, f2⟩ := hf'
  obtain ⟨-, -, -, -, ⟨b', n', h3⟩, -⟩ := h.store c k hc hk
  have hwr : R.Has u .wr := pub_writes h3 rfl hu
  obtain ⟨_, iu⟩ := pub_within hu
  by_cases hth : c.thread = id.1
  · refine M.sb (op_before ine inf (by rw [e1, f1, hth]) ?_)
    have : k ≤ id.2 := by
      refine Classical.byContradiction fun hgt => ?_
      have := M.sb (op_before ir iu hth.symm (by simp only; omega))
      exact M.mo_irrefl _ (src_readWrite this r2 hwr (src_source r2 r4).2.2 r4)
    omega
  · refine src_sync (Released.of_release h3 rfl rfl hu (.inr (op_before ine iu e1 e2))) hwr .head r4 r2 ?_
      (Acquired.of_acquire hit rfl rfl r1 (.inr (op_before ir inf f1.symm (by omega))))
    rw [ir.bounds.1, iu.bounds.1]; exact fun k => hth k.symm

/-- All calls return the address of one object, and what was done to make it happens before what is done after the call. -/
theorem instance_ {c : InstanceCall} (hc : Calls c) : c.result ≠ 0 ∧ ∃ c₀ s₀, Calls c₀ ∧ c₀.store = some s₀ ∧
    (∀ c' s', Calls c' → c'.store = some s' → c' = c₀) ∧ c.result = c₀.result ∧
    ∀ e f, Until R c₀.thread s₀ e → From R c.thread c.after f → M.hb e f := by
  have loaded : ∀ {k b n v}, k < c.after → At R (c.thread, k) (.op b .load .consume n x) → Finds R M.rf V (c.thread, k) x v → v ≠ 0 →
      c.result = v → c.result ≠ 0 ∧ ∃ c₀ s₀, Calls c₀ ∧ c₀.store = some s₀ ∧
      (∀ c' s', Calls c' → c'.store = some s' → c' = c₀) ∧ c.result = c₀.result ∧
      ∀ e f, Until R c₀.thread s₀ e → From R c.thread c.after f → M.hb e f := by
    intro k b n v hk hit hf hv hres
    obtain ⟨r, src, r1, r2, r3, r4, r5⟩ := h.found hV hit hf
    rcases r5 with ⟨-, r5⟩ | ⟨u, c₀, s₀, -, h₀, hs₀, -⟩
    · exact absurd r5 hv
    obtain ⟨g1, g2⟩ := h.seen hV h₀ hs₀ hit hf hv
    refine ⟨hres ▸ hv, c₀, s₀, h₀, hs₀, fun c' s' q1 q2 => h.once hV q1 h₀ q2 hs₀, hres.trans g1, fun e f he hf' => ?_⟩
    obtain ⟨idf, itf, inf, f1, f2⟩ := hf'
    exact g2 e f he ⟨idf, itf, inf, f1, by simp only; omega⟩
  obtain ⟨h1, ⟨b, n, h2⟩, v, h3, h4, h5⟩ := h.first c hc
  cases hsec : c.second with
  | none => exact loaded h1 h2 h3 (h4.1 hsec) (h5 hsec)
  | some k =>
    obtain ⟨k1, k2, ⟨b', n', k3⟩, v', k4, k5, k6⟩ := h.second c k hc hsec
    cases hst : c.store with
    | none => exact loaded k2 k3 k4 (k5.1 hst) (k6 hst)
    | some s =>
      obtain ⟨k', q1, q2, q3, q4, q5, q6⟩ := h.store c s hc hst
      refine ⟨q6, c, s, hc, hst, fun c' s' g1 g2 => h.once hV g1 hc g2 hst, rfl, fun e f he hf' => ?_⟩
      obtain ⟨ide, _, ine, e1, e2⟩ := he
      obtain ⟨idf, _, inf, f1, f2⟩ := hf'
      exact M.sb (op_before ine inf (by rw [e1, f1]) (by omega))

end Singleton

end Verif.Idiom
