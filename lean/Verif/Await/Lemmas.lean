import Verif.Await.Loaded
import Verif.Locked.OneOrder
import Verif.Locked.Machines

/-
What happens before the modification that a waiting function has seen happens before what follows the call.
-/

namespace Verif.Await

open Verif.Order Verif.Mca Verif.Mca.Run Verif.Locked Verif.Wait

variable {cpu : Cpu} {R : Mca.Run cpu} {M : Memory R} {V : Values}

theorem getLast_mem {α : Type} {ks : List (α × Nat)} {v : Nat} (h : (ks.map Prod.snd).getLast? = some v) : ∃ k, (k, v) ∈ ks := by
  have := List.mem_of_getLast? h
  obtain ⟨⟨k, u⟩, hk, rfl⟩ := List.mem_map.1 this
  exact ⟨k, hk⟩

/-- A call ends with a load of the value that it returns. -/
theorem Performs.load {rf : Pos → Option Pos → Prop} {x old : Nat} {o : MO} {f : Func} {C : Call}
    (h : Performs R rf V x o old f C) :
    (∃ k, C.first ≤ k ∧ k < C.after ∧ Loads R rf V x o C.thread k C.value) ∧ (C.timedOut = true ↔ C.value = old) := by
  obtain ⟨-, ks, -, hk, W, i, j, tr, hr, hl⟩ := h
  obtain ⟨h1, h2⟩ := (func_ends (h := []) f).1 _ _ _ hr
  rw [List.nil_append, Last, hl] at h1
  obtain ⟨k, hm⟩ := getLast_mem h1
  exact ⟨⟨k, hk _ _ hm⟩, h2⟩

theorem PerformsInside.load {rf : Pos → Option Pos → Prop} {Sec : Type} {mutex : Sec → Nat} {take give : Sec → OpId}
    {m x old : Nat} {f : PoolFunc} {C : Call} (h : PerformsInside R rf V mutex take give m x old f C) :
    (∃ r, (∃ id it, R.Within r id it ∧ id.1 = C.thread ∧ C.first ≤ id.2 ∧ id.2 < C.after) ∧
      LoadsInside R rf V mutex take give m x C.thread r C.value) ∧ (C.timedOut = true ↔ C.value = old) := by
  obtain ⟨-, ks, -, hk, W, i, j, tr, hr, hl⟩ := h
  obtain ⟨h1, h2⟩ := (poolFunc_ends (h := []) f).1 _ _ _ hr
  rw [List.nil_append, Last, hl] at h1
  obtain ⟨r, hm⟩ := getLast_mem h1
  exact ⟨⟨r, hk _ _ hm⟩, h2⟩

/-- A value comes from a modification, or from the beginning. -/
theorem origin (hV : ∀ r c x, R.CopyOf r c → R.Is c x → ∃ s, M.rf r s ∧ V.val c = V.of x.loc s) {x : Nat} :
    ∀ (n : Nat) {w : Pos}, R.time w .wr = n → R.Has w .wr → (∃ y, R.Is w y ∧ y.loc = x) →
      V.val w = V.init x ∨ ∃ w₀, Modifies R w₀ x ∧ V.val w₀ = V.val w ∧ Chain R M.rf w₀ w := by
  intro n
  induction n using Nat.strongRecOn with
  | _ n ih =>
    rintro w hn hw ⟨y, hy, hl⟩
    by_cases hc : R.Copy w
    · obtain ⟨b, hb⟩ := hc
      have hbr := hb.reads hw
      obtain ⟨s, hs, hv⟩ := hV b w y hb hy
      rw [hl] at hv
      cases s with
      | none => exact .inl hv
      | some u =>
        obtain ⟨hu, hbu⟩ := M.source hbr hs
        obtain ⟨a, c, ha, hc, hac⟩ := hbu
        obtain ⟨a', y', ha', hy', hay⟩ := hb.1.1
        have hcl : c.loc = x := by rw [← hac, ha.unique ha', hay, hy'.unique hy, hl]
        have hv' : V.val w = V.val u := hv
        rcases ih _ (hn ▸ M.older hb.1 hbr hw hs) rfl hu ⟨c, hc, hcl⟩ with h | ⟨w₀, h1, h2, h3⟩
        · exact .inl (hv'.trans h)
        · exact .inr ⟨w₀, h1, h2.trans hv'.symm, .rmw h3 hs hbr hw hb.1⟩
    · exact .inr ⟨w, ⟨hw, hc, y, hy, hl⟩, rfl, .head⟩

theorem chain_trans {rf : Pos → Option Pos → Prop} {u v w : Pos} (h : Chain R rf u v) (h' : Chain R rf v w) : Chain R rf u w := by
  induction h' with
  | head => exact h
  | rmw _ h1 h2 h3 h4 ih => exact .rmw ih h1 h2 h3 h4

theorem chain_mo {u w : Pos} (h : Chain R M.rf u w) : u = w ∨ M.mo u w := by
  induction h with
  | head => exact .inl rfl
  | rmw _ k1 k2 k3 k4 ih =>
    have := (M.atomic k4 k2 k3 k1).1 _ rfl
    rcases ih with rfl | ih
    · exact .inr this
    · exact .inr (M.mo_trans ih this)

/-- The call has seen a modification, or the initial value, and what is released by the modification happens before
what follows the call. -/
theorem saw (hV : ∀ r c x, R.CopyOf r c → R.Is c x → ∃ s, M.rf r s ∧ V.val c = V.of x.loc s) {x old : Nat} {o : MO} {f : Func}
    {C : Call} (h : Performs R M.rf V x o old f C) :
    (C.timedOut = true ↔ C.value = old) ∧
    (C.value = V.init x ∨ ∃ w, Modifies R w x ∧ V.val w = C.value ∧
      ∀ e u, u.1 ≠ C.thread → R.Has u .wr → R.Released e u → Chain R M.rf u w →
        ∀ g, (o.isAcquire = true ∧ C.Then R g) ∨ C.FenceThen R g → M.hb e g) := by
  obtain ⟨⟨k, k1, k2, ⟨b, n, hit⟩, r, s, hret, hs, hv⟩, hto⟩ := h.load
  refine ⟨hto, ?_⟩
  have hr : R.Has r .rd := ret_reads (a := (C.thread, k)) hit rfl hret
  obtain ⟨it, y, hin, hy, hyr⟩ := hret
  have hi := hin.item
  rw [hit] at hi
  cases hi
  have hyl := hin.loc hy
  cases s with
  | none => exact .inl hv.symm
  | some w =>
    obtain ⟨hw, y', z, hy', hz, hyz⟩ := M.source hr hs
    have hzl : z.loc = x := by rw [← hyz, hy'.unique hy, hyl]; rfl
    rcases origin hV _ rfl hw ⟨z, hz, hzl⟩ with h | ⟨w₀, h1, h2, h3⟩
    · exact .inl (hv.symm.trans h)
    · refine .inr ⟨w₀, h1, h2.trans hv, fun e u hu huw hrel hch g hg => ?_⟩
      refine M.sync hrel huw (chain_trans hch h3) hs hr ?_ ?_
      · rw [hin.bounds.1]; exact fun e => hu e.symm
      · rcases hg with ⟨ho, id, it, g1, g2, g3⟩ | ⟨kf, bf, of, id, it, f1, f2, f3, g1, g2, g3⟩
        · have hb := hin.lt g1 g2.symm (Nat.lt_of_lt_of_le k2 g3)
          obtain ⟨pre, -, -, hp⟩ := hin
          exact .inl ⟨⟨pre, _, o, y, hp, hy, hyr, rfl, ho⟩, .inr hb⟩
        · obtain ⟨pre, post, hp, hl⟩ := split_at f1
          have hrb := hin.bounds
          have hgb := g1.bounds
          have e1 := start_le (a := (C.thread, k)) (b := (C.thread, kf)) hit rfl (Nat.lt_of_lt_of_le k2 f3)
          have e2 := start_le (a := (C.thread, kf)) (b := id) f1 g2.symm g3
          have hst : R.start (C.thread, kf) = (events pre).length := by
            unfold start; rw [hp, ← hl]; simp
          refine .inr ⟨hrb.1.trans (hgb.1.trans g2).symm, pre, bf, of, post, ?_, f2, ?_, ?_⟩
          · rw [hrb.1]; exact hp
          · omega
          · have : (events (pre ++ [Item.fence bf of])).length = (events pre).length + ((Item.fence bf of).events).length := by
              simp [events]
            omega

/-- A write that every modification to such a value publishes is seen after the call. -/
theorem sees (hV : ∀ r c x, R.CopyOf r c → R.Is c x → ∃ s, M.rf r s ∧ V.val c = V.of x.loc s) {x old : Nat} {o : MO} {f : Func}
    {C : Call} (h : Performs R M.rf V x o old f C) {p : Nat → Prop} (hp : p C.value) (hinit : ¬ p (V.init x)) {e g : Pos}
    (hpub : Published R (Chain R M.rf) V x p C.thread e)
    (hg : (o.isAcquire = true ∧ C.Then R g) ∨ C.FenceThen R g) : M.hb e g := by
  rcases (saw hV h).2 with k | ⟨w, h1, h2, h3⟩
  · exact absurd (k ▸ hp) hinit
  · obtain ⟨u, u1, u2, u3, u4⟩ := hpub w h1 (h2 ▸ hp)
    exact h3 e u u1 u2 u3 u4 g hg

/-- The same for an object of the lock pool. -/
theorem sees_inside {L : Locks M V} (hV : ∀ r c x, R.CopyOf r c → R.Is c x → ∃ s, M.rf r s ∧ V.val c = V.of x.loc s)
    {m x old : Nat} {f : PoolFunc} {C : Call} (h : PerformsInside R M.rf V L.mutex L.take L.give m x old f C) {p : Nat → Prop}
    (hp : p C.value) (hinit : ¬ p (V.init x)) {e g : Pos}
    (hpub : PublishedInside R M.hb V L.mutex L.take L.give m x p C.thread e) (hg : C.Then R g) : M.hb e g := by
  obtain ⟨⟨r, ⟨id, it, hin, hid, -, hid2⟩, ⟨S, rfl, hST, hrS⟩, hr, ⟨y, hy, hyl⟩, s, hs, hv⟩, -⟩ := h.load
  obtain ⟨id', it', g1, g2, g3⟩ := hg
  have hrg : M.hb r g := M.sb (hin.lt g1 (hid.trans g2.symm) (Nat.lt_of_lt_of_le hid2 g3))
  cases s with
  | none => exact absurd (show p (V.init x) from (show V.init x = C.value from hv) ▸ hp) hinit
  | some w =>
    obtain ⟨hw, y', z, hy', hz, hyz⟩ := M.source hr hs
    have hzl : z.loc = x := by rw [← hyz, hy'.unique hy, hyl]
    rcases origin hV _ rfl hw ⟨z, hz, hzl⟩ with h | ⟨w₀, h1, h2, h3⟩
    · exact absurd (show p (V.init x) from h ▸ (show V.val w = C.value from hv) ▸ hp) hinit
    · obtain ⟨N, i, jt, e', n1, n2, n3, n4, n5, n6, n7⟩ := hpub w₀ h1 (by rw [h2]; exact (show V.val w = C.value from hv) ▸ hp)
      have hne : N ≠ S := by rintro rfl; exact n2 hST
      have hw0 := chain_mo h3
      rcases Locks.prior_total n1 hne with k | k
      · obtain ⟨a, b, ia, ib, p1, p2, p3⟩ := k
        obtain ⟨jd, jt', q1, q2, q3, q4⟩ := hrS
        have : M.hb e' g := M.trans (M.sb (n4.lt p1 (n5.trans (L.same N)) n6))
          (M.trans p3 (M.trans (M.sb (p2.lt q1 q2.symm q3)) hrg))
        rcases n7 with rfl | n7
        · exact this
        · exact M.trans n7 this
      · have hlt := M.readWrite (Locks.prior_inside k hrS n3) hr h1.1
          (by obtain ⟨-, -, z', hz', hl'⟩ := h1; exact ⟨y, z', hy, hz', hyl.trans hl'.symm⟩) hs
        rcases hw0 with rfl | h
        · exact absurd hlt (M.mo_irrefl _)
        · exact absurd (M.mo_trans hlt h) (M.mo_irrefl _)

end Verif.Await
