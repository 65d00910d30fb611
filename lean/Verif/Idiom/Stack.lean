import Verif.Idiom.Buffer
import Verif.Idiom.Count

/-
The queue of several producers: what a call takes out, and in what order.
-/

namespace Verif.Idiom

open Verif.Order Verif.Mca Verif.Mca.Run Verif.Locked

variable {cpu : Cpu} {R : Mca.Run cpu} {M : Memory R} {V : Values}

/-- The address of the first node of a list. -/
def headNode : List PushCall → Nat
  | [] => 0
  | p :: _ => p.node

/-- The numbers of the modifications are their order. -/
theorem Turn.opMo {x n m : Nat} {a b : OpId} (ha : Turn M x n a) (hb : Turn M x m b) : OpMo R M.mo a b ↔ n < m := by
  obtain ⟨q, v, ma⟩ := ha.mod
  obtain ⟨r, w, mb⟩ := hb.mod
  have uniq : ∀ {id r w w'}, Mod R x id r w → R.Pub id w' → w' = w := by
    intro id r w w' hm hw'
    obtain ⟨it, hin⟩ := hm.within
    obtain ⟨it', hin'⟩ := pub_within hw'
    cases At.eq hin.item hin'.item
    cases hk : it.kind with
    | none =>
      exfalso
      cases it with
      | user i l =>
        obtain ⟨y, d, hy, hp, -⟩ := hm.pair.2
        obtain ⟨pre, -, -, hi⟩ := hin
        obtain ⟨_, a, c, -, he, -⟩ := hi.split hy
        have : y ∈ (Item.user i l).events := by rw [he]; simp
        simp [Item.events, Item.code, Item.pairOf] at this
        rw [this] at hp; cases hp
      | fence => exact absurd hm.wr hin.no_access
      | op => cases hk
      | exchange => cases hk
      | clear => cases hk
    | some k =>
      cases facts hin.item hk with
      | reads r ret rd uniq npub wr => exact absurd hm.pub (npub _)
      | writes w' pub has uniq nret wr => exact absurd hm.ret (nret _)
      | both r₀ w₀ ret rd uniq pub has uniq' pair wr => exact (uniq' _ hw').trans (uniq' _ hm.pub).symm
  constructor
  · intro h; exact (ha.mo hb ma mb).1 (h _ _ ma.pub mb.pub)
  · intro h w' v' hw' hv'
    rw [uniq ma hw', uniq mb hv']
    exact (ha.mo hb ma mb).2 h

/-- What the operations before modification number `n` have left in the list. -/
inductive Seg (M : Memory R) (head t : Nat) (Pushes : PushCall → Prop) (Pops : PopCall → Prop) : Nat → List PushCall → Prop where
  | zero : Seg M head t Pushes Pops 0 []
  | pop {n c} : Turn M head n (t, c.exchange) → Pops c → Seg M head t Pushes Pops (n + 1) []
  | push {n p L} : Turn M head n p.op → Pushes p → Seg M head t Pushes Pops n L → Seg M head t Pushes Pops (n + 1) (p :: L)

namespace Queue

variable {head t : Nat} {next : Nat → Nat} {Pushes : PushCall → Prop} {Pops : PopCall → Prop}
  (h : Queue R M.rf V head next t Pushes Pops)
  (hV : ∀ r c x, R.CopyOf r c → R.Is c x → ∃ s, M.rf r s ∧ V.val c = V.of x.loc s)

include h

theorem counted : Counted R head := by
  intro id it h1 h2 h3
  rcases h.heads id it h1 h2 h3 with ⟨p, hp, rfl⟩ | ⟨c, hc, rfl⟩ | k
  · obtain ⟨-, ⟨_, _, _, k⟩, -⟩ := h.push p hp
    rw [h1.eq k]; exact .inl rfl
  · obtain ⟨-, ⟨_, _, k⟩, -⟩ := h.pop c hc
    rw [h1.eq k]; exact .inl rfl
  · exact .inr k

theorem push_mod {p : PushCall} (hp : Pushes p) : ∃ r w, Mod R head p.op r w := by
  obtain ⟨-, ⟨_, _, _, k⟩, -⟩ := h.push p hp
  exact mod_of k rfl rfl

theorem pop_mod {c : PopCall} (hc : Pops c) : ∃ r w, Mod R head (t, c.exchange) r w := by
  obtain ⟨-, ⟨_, _, k⟩, -⟩ := h.pop c hc
  exact mod_of k rfl rfl

theorem mod_cases {id : OpId} {r w : Pos} (hm : Mod R head id r w) :
    (∃ p, Pushes p ∧ id = p.op) ∨ ∃ c, Pops c ∧ id = (t, c.exchange) := by
  obtain ⟨it, hin⟩ := hm.within
  have hl : it.loc = head := by
    obtain ⟨y, hy, e⟩ := hm.on
    exact (hin.loc hy).symm.trans e
  rcases h.heads id it hin.item (hin.writes hm.wr) hl with k | k | hp
  · exact .inl k
  · exact .inr k
  · exact (peek_pub hin.item hp hm.pub).elim

/-- A call of `push` is not one of `pop_all`. -/
theorem push_ne_pop {p : PushCall} {c : PopCall} (hp : Pushes p) (hc : Pops c) : p.op ≠ (t, c.exchange) := by
  intro e
  obtain ⟨-, ⟨_, _, _, k⟩, -⟩ := h.push p hp
  obtain ⟨-, ⟨_, _, k'⟩, -⟩ := h.pop c hc
  rw [e] at k
  cases At.eq k k'

include hV

theorem reads {id : OpId} {r w : Pos} (hm : Mod R head id r w) : ∃ s, M.rf r s := by
  rcases h.mod_cases hm with ⟨p, hp, rfl⟩ | ⟨c, hc, rfl⟩
  · obtain ⟨-, -, -, v, -, hf⟩ := h.push p hp
    obtain ⟨s, hs, -⟩ := hm.finds hV hf
    exact ⟨s, hs⟩
  · obtain ⟨-, -, -, -, v, hf, -⟩ := h.pop c hc
    obtain ⟨s, hs, -⟩ := hm.finds hV hf
    exact ⟨s, hs⟩

theorem turn {id : OpId} {r w : Pos} (hm : Mod R head id r w) : ∃ n, Turn M head n id :=
  hm.turn hV h.counted (fun _ _ _ k => h.reads hV k) _ rfl

omit hV in
theorem seg_exists : ∀ {n : Nat} {id : OpId}, Turn M head n id → ∃ L, Seg M head t Pushes Pops n L := by
  intro n
  induction n with
  | zero => intro id _; exact ⟨[], .zero⟩
  | succ n ih =>
    intro id hid
    obtain ⟨a, ha⟩ := hid.prev
    obtain ⟨L, hL⟩ := ih ha
    obtain ⟨r, w, hm⟩ := ha.mod
    rcases h.mod_cases hm with ⟨p, hp, rfl⟩ | ⟨c, hc, rfl⟩
    · exact ⟨_, .push ha hp hL⟩
    · exact ⟨_, .pop ha hc⟩

omit hV in
theorem seg_unique {n : Nat} {L L' : List PushCall} (hL : Seg M head t Pushes Pops n L) (hL' : Seg M head t Pushes Pops n L') :
    L = L' := by
  induction hL generalizing L' with
  | zero => cases hL'; rfl
  | pop h1 h2 => cases hL' with
    | pop => rfl
    | push k1 k2 => exact absurd (k1.inj h1) (h.push_ne_pop k2 h2)
  | push h1 h2 _ ih => cases hL' with
    | pop k1 k2 => exact absurd (h1.inj k1) (h.push_ne_pop h2 k2)
    | push k1 k2 k3 => rw [h.pushes _ _ h2 k2 (h1.inj k1), ih k3]

omit hV in
/-- The part of the list from a node on is what its `push` found. -/
theorem seg_split {n : Nat} {L done rest : List PushCall} {p : PushCall} (hL : Seg M head t Pushes Pops n L) (e : L = done ++ p :: rest) :
    Pushes p ∧ ∃ m, n = m + 1 + done.length ∧ Turn M head m p.op ∧ Seg M head t Pushes Pops m rest ∧
      ∀ k id, m ≤ k → k < n → Turn M head k id → ∀ c, Pops c → id ≠ (t, c.exchange) := by
  induction hL generalizing done with
  | zero => simp at e
  | pop => simp at e
  | @push n q L h1 h2 h3 ih =>
    cases done with
    | nil =>
      cases e
      refine ⟨h2, n, rfl, h1, h3, fun k id k1 k2 k3 c hc => ?_⟩
      obtain rfl : k = n := by omega
      rw [k3.inj h1]; exact h.push_ne_pop h2 hc
    | cons a done =>
      simp only [List.cons_append, List.cons.injEq] at e
      obtain ⟨rfl, e⟩ := e
      obtain ⟨i1, m, i2, i3, i4, i5⟩ := ih e
      refine ⟨i1, m, by simp only [List.length_cons]; omega, i3, i4, fun k id k1 k2 k3 c hc => ?_⟩
      rcases Nat.lt_or_ge k n with hk | hk
      · exact i5 k id k1 hk k3 c hc
      · obtain rfl : k = n := by omega
        rw [k3.inj h1]; exact h.push_ne_pop h2 hc

/-- What the next operation finds is the address of the first node. -/
theorem found {n : Nat} {id : OpId} {L : List PushCall} (ht : Turn M head n id) (hL : Seg M head t Pushes Pops n L) {v : Nat}
    (hf : Finds R M.rf V id head v) : v = headNode L := by
  cases ht with
  | first hm hs =>
    obtain ⟨_, -, k⟩ := hm.finds hV hf
    cases hL
    rw [← k _ hs]; exact h.init
  | next hp mp hm hs =>
    obtain ⟨_, -, k⟩ := hm.finds hV hf
    rw [← k _ hs]
    cases hL with
    | pop h1 h2 =>
      cases hp.inj h1
      obtain ⟨-, -, hl, -⟩ := h.pop _ h2
      exact hl _ mp.pub
    | push h1 h2 =>
      cases hp.inj h1
      obtain ⟨-, -, hl, -⟩ := h.push _ h2
      exact hl _ mp.pub

omit hV in
theorem mem_seg {n : Nat} {L : List PushCall} (hL : Seg M head t Pushes Pops n L) (p : PushCall) :
    p ∈ L ↔ Pushes p ∧ ∃ m, m < n ∧ Turn M head m p.op ∧ ∀ k c, m < k → k < n → Turn M head k (t, c.exchange) → ¬ Pops c := by
  constructor
  · intro hp
    obtain ⟨done, rest, e⟩ := List.append_of_mem hp
    obtain ⟨h1, m, h2, h3, -, h5⟩ := h.seg_split hL e
    exact ⟨h1, m, by omega, h3, fun k c k1 k2 k3 k4 => h5 k _ (by omega) k2 k3 c k4 rfl⟩
  · rintro ⟨hp, m, hm, ht, hn⟩
    induction hL with
    | zero => omega
    | @pop n c h1 h2 =>
      exfalso
      rcases Nat.lt_or_ge m n with hlt | hge
      · exact hn n c hlt (by omega) h1 h2
      · obtain rfl : m = n := by omega
        exact h.push_ne_pop hp h2 (ht.inj h1)
    | @push n q L h1 h2 h3 ih =>
      rcases Nat.lt_or_ge m n with hlt | hge
      · exact List.mem_cons_of_mem _ (ih hlt fun k c k1 k2 => hn k c k1 (by omega))
      · obtain rfl : m = n := by omega
        rw [h.pushes _ _ hp h2 (ht.inj h1)]
        exact List.mem_cons_self

omit hV in
theorem seg_sorted {n : Nat} {L : List PushCall} (hL : Seg M head t Pushes Pops n L) : L.Pairwise fun p q => OpMo R M.mo q.op p.op := by
  induction hL with
  | zero => exact .nil
  | pop => exact .nil
  | @push n p L h1 h2 h3 ih =>
    refine .cons (fun q hq => ?_) ih
    obtain ⟨-, m, hm, ht, -⟩ := (h.mem_seg h3 q).1 hq
    exact (ht.opMo h1).2 hm

/-- The list that a call takes out. -/
theorem taken {c : PopCall} {n : Nat} (ht : Turn M head n (t, c.exchange)) {L : List PushCall}
    (hL : Seg M head t Pushes Pops n L) : Taken R M.mo t Pushes Pops c L.reverse where
  mem p := by
    rw [List.mem_reverse, h.mem_seg hL p]
    constructor
    · rintro ⟨h1, m, h2, h3, h4⟩
      refine ⟨h1, (h3.opMo ht).2 h2, fun c' hc' hh => ?_⟩
      obtain ⟨_, _, hm⟩ := h.pop_mod hc'
      obtain ⟨k, hk⟩ := h.turn hV hm
      exact h4 k c' ((h3.opMo hk).1 hh.1) ((hk.opMo ht).1 hh.2) hk hc'
    · rintro ⟨h1, h2, h3⟩
      obtain ⟨_, _, hm⟩ := h.push_mod h1
      obtain ⟨m, hm⟩ := h.turn hV hm
      exact ⟨h1, m, (hm.opMo ht).1 h2, hm, fun k c' k1 k2 k3 k4 => h3 c' k4 ⟨(hm.opMo k3).2 k1, (k3.opMo ht).2 k2⟩⟩
  order := by
    rw [List.pairwise_reverse]; exact h.seg_sorted hL

omit hV in
/-- What a thread did before it put an object in happens before what the thread does that has taken it out. -/
theorem ordered {c : PopCall} (hc : Pops c) {n m : Nat} (ht : Turn M head n (t, c.exchange)) {p : PushCall} (hp : Pushes p)
    (hm : Turn M head m p.op) (hmn : m < n) {e f : Pos} (he : Until R p.thread p.cas e) (hf : From R t (c.exchange + 1) f) : M.hb e f := by
  obtain ⟨-, ⟨_, _, k⟩, -⟩ := h.pop c hc
  obtain ⟨-, ⟨_, _, _, k'⟩, -⟩ := h.push p hp
  obtain ⟨r, w, mc⟩ := ht.mod
  obtain ⟨q, v, mp⟩ := hm.mod
  obtain ⟨ide, _, ine, e1, e2⟩ := he
  obtain ⟨idf, _, inf, f1, f2⟩ := hf
  obtain ⟨_, inr⟩ := mc.within_r
  obtain ⟨_, inw⟩ := mc.within
  obtain ⟨_, inv⟩ := mp.within
  by_cases hth : p.thread = t
  · rcases Nat.lt_trichotomy p.cas c.exchange with hlt | heq | hgt
    · exact M.sb (op_before ine inf (by rw [e1, f1, hth]) (by omega))
    · exact absurd (Prod.ext hth heq) (h.push_ne_pop hp hc)
    · exfalso
      have := ht.lt_of_hb hm mc mp (M.sb (op_before inw inv hth.symm hgt))
      omega
  · obtain ⟨d, rfl⟩ : ∃ d, n = m + d + 1 := ⟨n - m - 1, by omega⟩
    obtain ⟨v', h1, h2⟩ := hm.found ht mp mc
    refine src_sync (Released.of_release k' rfl rfl mp.pub (.inr (op_before ine inv e1 e2))) mp.wr h1 h2 mc.rd ?_
      (Acquired.of_acquire k rfl rfl mc.ret (.inr (op_before inr inf f1.symm (by simp only; omega))))
    rw [inr.bounds.1, inv.bounds.1]; exact fun k => hth k.symm

omit h hV in
theorem user_one {id : OpId} {y : Instr} {l : Nat} {e f : Pos} {it : Item} (he : R.Within e id (.user y l)) (hf : R.Within f id it) : e = f := by
  cases At.eq he.item hf.item
  have h1 := he.bounds
  have h2 := hf.bounds
  have : (Item.user y l).events.length = 1 := rfl
  exact Prod.ext (h1.1.trans h2.1.symm) (by omega)

/-- A node that nobody has turned round: its `next` is what `push` has found. -/
theorem read_next {c : PopCall} (hc : Pops c) {n m : Nat} (ht : Turn M head n (t, c.exchange)) {p : PushCall} (hp : Pushes p)
    (hm : Turn M head m p.op) (hmn : m < n) {L : List PushCall} (hL : Seg M head t Pushes Pops m L) {i v : Nat}
    (hr : UserReads R M.rf V (t, i) (next p.node) v) (hi : c.exchange < i)
    (hno : ∀ c' s, Pops c' → s ∈ c'.steps → s.node = p.node → ¬ s.write < i) : v = headNode L := by
  obtain ⟨y, r, s, r1, r2, r3, r4, r5, rfl⟩ := hr
  obtain ⟨hlt, -, -, v, ⟨z, w, w1, w2, w3, rfl⟩, hf⟩ := h.push p hp
  rw [← h.found hV hm hL hf]
  have hiw := Ring.user_is w3
  have hir := Ring.user_is r4
  have hbw : M.hb w r := h.ordered hc ht hp hm hmn ⟨_, _, w3, rfl, hlt⟩ ⟨_, _, r4, rfl, hi⟩
  have hww : R.Has w .wr := ⟨_, hiw, w2⟩
  have hrr : R.Has r .rd := ⟨_, hir, r2⟩
  rcases M.writeRead hbw hww hrr ⟨_, _, hiw, hir, rfl⟩ r5 with rfl | ⟨u, rfl, hmo⟩
  · rfl
  · exfalso
    obtain ⟨hu, hl⟩ := M.source hrr r5
    obtain ⟨a, b, ha, hb, hab⟩ := hl
    cases ha.unique hir
    obtain ⟨id, it, hin⟩ := exists_within hb
    have hloc : it.loc = next p.node := by rw [← hin.loc hb, ← hab]
    rcases h.nexts p hp id it hin.item (hin.writes hu) hloc with ⟨k1, k2, -⟩ | ⟨c', s, k1, k2, k3, rfl⟩ | ⟨y', rfl, k⟩
    · rcases Nat.lt_or_eq_of_le k2 with k2 | k2
      · have := M.sb (op_before hin w3 k1 k2)
        exact M.mo_irrefl _ (M.mo_trans hmo (M.writeWrite this hu hww ⟨_, _, hb, hiw, hab.symm⟩))
      · have e : id = (p.thread, p.next) := Prod.ext k1 k2
        subst e
        rw [← user_one w3 hin] at hmo
        exact M.mo_irrefl _ hmo
    · rcases Nat.lt_trichotomy s.write i with hlt' | heq | hgt
      · exact hno c' s k1 k2 k3 hlt'
      · subst heq
        cases At.eq r1 hin.item
        obtain ⟨q, hq, hq'⟩ := hu
        cases hq.unique (Ring.user_is hin)
        rw [show y.has .wr = y.wr from rfl, r3] at hq'; cases hq'
      · have hru := M.sb (op_before r4 hin rfl hgt)
        exact M.mo_irrefl _ (M.readWrite hru hrr hu ⟨_, _, hir, hb, hab⟩ r5)
    · obtain ⟨q, hq, hq'⟩ := hu
      cases hq.unique (Ring.user_is hin)
      rw [show y'.has .wr = y'.wr from rfl, k] at hq'; cases hq'

/-- The pass `s` of the loop of `c` is at a node that `c` has taken out. -/
def Right (M : Memory R) (head t : Nat) (Pushes : PushCall → Prop) (Pops : PopCall → Prop) (c : PopCall) (s : RevStep) : Prop :=
  ∃ n L pre ss done p rest, Turn M head n (t, c.exchange) ∧ Seg M head t Pushes Pops n L ∧ c.steps = pre ++ s :: ss ∧
    L = done ++ p :: rest ∧ done.length = pre.length ∧ p.node = s.node

omit hV in
/-- A node is turned round once. -/
theorem right_once {c c' : PopCall} {s s' : RevStep} (hc : Pops c) (hc' : Pops c') (hs : Right M head t Pushes Pops c s)
    (hs' : Right M head t Pushes Pops c' s') (e : s.node = s'.node) : c = c' ∧ s = s' := by
  obtain ⟨n, L, pre, ss, done, p, rest, h1, h2, h3, h4, h5, h6⟩ := hs
  obtain ⟨n', L', pre', ss', done', p', rest', k1, k2, k3, k4, k5, k6⟩ := hs'
  obtain ⟨hp, m, m1, m2, m3, m4⟩ := h.seg_split h2 h4
  obtain ⟨hp', m', q1, q2, q3, q4⟩ := h.seg_split k2 k4
  cases h.fresh _ _ hp hp' (by rw [h6, k6, e])
  cases m2.unique q2
  have hn : n = n' := by
    rcases Nat.lt_trichotomy n n' with k | k | k
    · exact absurd rfl (q4 n _ (by omega) k h1 c hc)
    · exact k
    · exact absurd rfl (m4 n' _ (by omega) k k1 c' hc')
  subst hn
  cases h.pops _ _ hc hc' (congrArg Prod.snd (h1.inj k1))
  refine ⟨rfl, ?_⟩
  have hlen : pre.length = pre'.length := by omega
  rw [h3] at k3
  have := congrArg (fun l => l[pre.length]?) k3
  simp only [List.getElem?_append_right (Nat.le_refl pre.length), Nat.sub_self, List.getElem?_cons_zero] at this
  rw [hlen, List.getElem?_append_right (Nat.le_refl pre'.length), Nat.sub_self, List.getElem?_cons_zero] at this
  exact Option.some.inj this

omit h hV in
theorem reverses_after {res : Option Nat} : ∀ {ss : List RevStep} {k last first : Nat},
    Reverses R M.rf V next t res k last first ss → ∀ s, s ∈ ss → k < s.read ∧ s.read < s.write := by
  intro ss
  induction ss with
  | nil => intro _ _ _ _ s hs; cases hs
  | cons a ss ih =>
    intro k last first hR s hs
    obtain ⟨-, -, h1, h2, -, -, h3⟩ := hR
    rcases List.mem_cons.1 hs with rfl | hs
    · exact ⟨h1, h2⟩
    · have := ih h3 s hs; omega

/-- The passes up to the one that reads at `N` are right. -/
theorem right_upto : ∀ (N : Nat) {c : PopCall} {s : RevStep}, Pops c → s ∈ c.steps → s.read ≤ N → Right M head t Pushes Pops c s := by
  intro N
  induction N using Nat.strongRecOn with
  | _ N ih =>
    intro c s hc hs hN
    obtain ⟨-, -, -, -, v, hf, hfw, hnf⟩ := h.pop c hc
    obtain ⟨_, _, hm⟩ := h.pop_mod hc
    obtain ⟨n, ht⟩ := h.turn hV hm
    obtain ⟨L, hL⟩ := h.seg_exists ht
    have hv := h.found hV ht hL hf
    cases hfor : c.forward with
    | false => rw [(hnf hfor).1] at hs; cases hs
    | true =>
      have hR := hfw hfor
      have key : ∀ (ss pre : List RevStep) (done rest : List PushCall) (k last first : Nat), c.steps = pre ++ ss → L = done ++ rest →
          done.length = pre.length → last = headNode rest → c.exchange ≤ k → Reverses R M.rf V next t c.result k last first ss →
          ∀ s, s ∈ ss → s.read ≤ N → Right M head t Pushes Pops c s := by
        intro ss
        induction ss with
        | nil => intro _ _ _ _ _ _ _ _ _ _ _ _ s hs; cases hs
        | cons a ss ihs =>
          intro pre done rest k last first h1 h2 h3 h4 hk h5 s hs hN
          have hR := reverses_after h5
          obtain ⟨g1, g2, g3, g4, g5, g6, g7⟩ := h5
          cases rest with
          | nil => exact absurd h4 g1
          | cons p rest =>
            have hpn : p.node = a.node := by rw [g2, h4]; rfl
            have ha : Right M head t Pushes Pops c a := ⟨n, L, pre, ss, done, p, rest, ht, hL, h1, h2, h3, hpn⟩
            rcases List.mem_cons.1 hs with rfl | hs
            · exact ha
            · have haN : a.read < N := by
                have := (reverses_after g7 s hs).1
                omega
              obtain ⟨hp, m, m1, m2, m3, m4⟩ := h.seg_split hL h2
              refine ihs (pre ++ [a]) (done ++ [p]) rest a.write a.found last (by simp [h1]) (by simp [h2]) (by simp [h3]) ?_ (by omega)
                g7 s hs hN
              refine h.read_next hV hc ht hp m2 (by omega) m3 (by rw [hpn]; exact g5) (by omega) ?_
              intro c' s' q1 q2 q3 q4
              have hs'w : s'.read < s'.write := by
                obtain ⟨-, -, -, -, v', -, hfw', hnf'⟩ := h.pop c' q1
                cases hfor' : c'.forward with
                | false => rw [(hnf' hfor').1] at q2; cases q2
                | true => exact (reverses_after (hfw' hfor') s' q2).2
              obtain ⟨-, rfl⟩ := h.right_once hc q1 ha (ih _ (by omega) q1 q2 (Nat.le_refl s'.read)) (by rw [q3, hpn])
              omega
      exact key c.steps [] [] L c.exchange v 0 rfl rfl rfl hv (Nat.le_refl _) hR s hs hN

theorem right {c : PopCall} {s : RevStep} (hc : Pops c) (hs : s ∈ c.steps) : Right M head t Pushes Pops c s :=
  h.right_upto hV s.read hc hs (Nat.le_refl _)

omit hV in
theorem write_after {c : PopCall} {s : RevStep} (hc : Pops c) (hs : s ∈ c.steps) : c.exchange < s.write ∧ s.read < s.write := by
  obtain ⟨-, -, -, -, v, -, hfw, hnf⟩ := h.pop c hc
  cases hfor : c.forward with
  | false => rw [(hnf hfor).1] at hs; cases hs
  | true => have := reverses_after (hfw hfor) s hs; omega

omit hV in
theorem pushes_of_seg {n : Nat} {L : List PushCall} (hL : Seg M head t Pushes Pops n L) {p : PushCall} (hp : p ∈ L) : Pushes p :=
  ((h.mem_seg hL p).1 hp).1

omit hV in
theorem headNode_zero {n : Nat} {L done rest : List PushCall} (hL : Seg M head t Pushes Pops n L) (e : L = done ++ rest)
    (hz : headNode rest = 0) : rest = [] := by
  cases rest with
  | nil => rfl
  | cons p rest => exact absurd hz (h.nodes p (h.pushes_of_seg hL (by simp [e])))

/-- When `pop_all` returns, it has turned all the nodes round that it has taken out. -/
theorem turned {c : PopCall} (hc : Pops c) (hfor : c.forward = true) {x : Nat} (hx : c.result = some x) {n : Nat}
    (ht : Turn M head n (t, c.exchange)) {L : List PushCall} (hL : Seg M head t Pushes Pops n L) :
    x = headNode L.reverse ∧ ∀ done p rest, L = done ++ p :: rest → ∃ s, s ∈ c.steps ∧ s.node = p.node ∧
      UserWrites R V (t, s.write) (next p.node) (headNode done.reverse) := by
  obtain ⟨-, -, -, -, v, hf, hfw, -⟩ := h.pop c hc
  have hv := h.found hV ht hL hf
  have key : ∀ (ss pre : List RevStep) (done rest : List PushCall) (k last first : Nat), c.steps = pre ++ ss → L = done ++ rest →
      done.length = pre.length → last = headNode rest → first = headNode done.reverse → c.exchange ≤ k →
      Reverses R M.rf V next t c.result k last first ss →
      x = headNode L.reverse ∧ ∀ mid p tail, rest = mid ++ p :: tail → ∃ s, s ∈ ss ∧ s.node = p.node ∧
        UserWrites R V (t, s.write) (next p.node) (headNode (done ++ mid).reverse) := by
    intro ss
    induction ss with
    | nil =>
      intro pre done rest k last first h1 h2 h3 h4 h5 hk h6
      obtain ⟨g1, g2⟩ := h6 x hx
      have hr := h.headNode_zero hL h2 (h4.symm.trans g1)
      subst hr
      refine ⟨by rw [g2, h5, h2, List.append_nil], fun mid p tail e => ?_⟩
      simp at e
    | cons a ss ihs =>
      intro pre done rest k last first h1 h2 h3 h4 h5 hk h6
      obtain ⟨g1, g2, g3, g4, g5, g6, g7⟩ := h6
      cases rest with
      | nil => exact absurd h4 g1
      | cons p rest =>
        have hpn : p.node = a.node := by rw [g2, h4]; rfl
        have ha : a ∈ c.steps := by simp [h1]
        obtain ⟨hp, m, m1, m2, m3, m4⟩ := h.seg_split hL h2
        have hfound : a.found = headNode rest := by
          refine h.read_next hV hc ht hp m2 (by omega) m3 (by rw [hpn]; exact g5) (by omega) ?_
          intro c' s' q1 q2 q3 q4
          have hw := (h.write_after q1 q2).2
          obtain ⟨-, rfl⟩ := h.right_once hc q1 (h.right hV hc ha) (h.right hV q1 q2) (by rw [q3, hpn])
          omega
        obtain ⟨i1, i2⟩ := ihs (pre ++ [a]) (done ++ [p]) rest a.write a.found last (by simp [h1]) (by simp [h2]) (by simp [h3]) hfound
          (by rw [h4]; simp [headNode]) (by omega) g7
        refine ⟨i1, fun mid q tail e => ?_⟩
        cases mid with
        | nil =>
          simp only [List.nil_append, List.cons.injEq] at e
          obtain ⟨rfl, rfl⟩ := e
          exact ⟨a, List.mem_cons_self, hpn.symm, by rw [hpn, List.append_nil, ← h5]; exact g6⟩
        | cons q' mid =>
          simp only [List.cons_append, List.cons.injEq] at e
          obtain ⟨rfl, e⟩ := e
          obtain ⟨s, s1, s2, s3⟩ := i2 mid q tail e
          refine ⟨s, List.mem_cons_of_mem _ s1, s2, ?_⟩
          simpa using s3
  obtain ⟨k1, k2⟩ := key c.steps [] [] L c.exchange v 0 rfl rfl rfl hv rfl (Nat.le_refl _) (hfw hfor)
  exact ⟨k1, fun done p rest e => by simpa using k2 done p rest e⟩

/-- After that, `next` is what `pop_all` has written. -/
theorem read_turned {c : PopCall} (hc : Pops c) {n m : Nat} (ht : Turn M head n (t, c.exchange)) {p : PushCall} (hp : Pushes p)
    (hm : Turn M head m p.op) (hmn : m < n) {s : RevStep} (hs : s ∈ c.steps) (hsn : s.node = p.node) {v' : Nat}
    (hw : UserWrites R V (t, s.write) (next p.node) v') {i v : Nat}
    (hr : UserReads R M.rf V (t, i) (next p.node) v) (hi : c.last < i) : v = v' := by
  obtain ⟨y, r, src, r1, r2, r3, r4, r5, rfl⟩ := hr
  obtain ⟨z, w, w1, w2, w3, rfl⟩ := hw
  have hiw := Ring.user_is w3
  have hir := Ring.user_is r4
  have hlast : s.write ≤ c.last := (h.pop c hc).2.2.2.1 s hs
  have hbw : M.hb w r := M.sb (op_before w3 r4 rfl (by simp only; omega))
  have hww : R.Has w .wr := ⟨_, hiw, w2⟩
  have hrr : R.Has r .rd := ⟨_, hir, r2⟩
  rcases M.writeRead hbw hww hrr ⟨_, _, hiw, hir, rfl⟩ r5 with rfl | ⟨u, rfl, hmo⟩
  · rfl
  · exfalso
    obtain ⟨hu, hl⟩ := M.source hrr r5
    obtain ⟨a, b, ha, hb, hab⟩ := hl
    cases ha.unique hir
    obtain ⟨id, it, hin⟩ := exists_within hb
    have hloc : it.loc = next p.node := by rw [← hin.loc hb, ← hab]
    rcases h.nexts p hp id it hin.item (hin.writes hu) hloc with ⟨k1, k2, -⟩ | ⟨c', s', k1, k2, k3, rfl⟩ | ⟨y', rfl, k⟩
    · have hpc := (h.push p hp).1
      have := h.ordered hc ht hp hm hmn ⟨_, _, hin, k1, by omega⟩ ⟨_, _, w3, rfl, by have := h.write_after hc hs; simp only; omega⟩
      exact M.mo_irrefl _ (M.mo_trans hmo (M.writeWrite this hu hww ⟨_, _, hb, hiw, hab.symm⟩))
    · obtain ⟨-, rfl⟩ := h.right_once hc k1 (h.right hV hc hs) (h.right hV k1 k2) (by rw [hsn, k3])
      rw [← user_one w3 hin] at hmo
      exact M.mo_irrefl _ hmo
    · obtain ⟨q, hq, hq'⟩ := hu
      cases hq.unique (Ring.user_is hin)
      rw [show y'.has .wr = y'.wr from rfl, k] at hq'; cases hq'

/-- What a call returns is the list of what it has taken out: in the order of the calls of `push` for `pop_all`, in the
opposite order for `pop_all_reverse`. -/
theorem delivers {c : PopCall} (hc : Pops c) : ∃ L, Taken R M.mo t Pushes Pops c L ∧
    (∀ p, p ∈ L → ∀ e f, Until R p.thread p.cas e → From R t (c.exchange + 1) f → M.hb e f) ∧
    ∀ x l b, c.result = some x → Walk R M.rf V next t c.last x l b →
      ∃ rest, ((if c.forward then L else L.reverse).map fun p => p.node) = l ++ rest ∧ b = rest.headD 0 := by
  obtain ⟨_, _, hm⟩ := h.pop_mod hc
  obtain ⟨n, ht⟩ := h.turn hV hm
  obtain ⟨L, hL⟩ := h.seg_exists ht
  obtain ⟨hel, -, -, -, v, hf, -, hnf⟩ := h.pop c hc
  refine ⟨L.reverse, h.taken hV ht hL, fun p hp e f he hf' => ?_, fun x l b hx hw => ?_⟩
  · obtain ⟨h1, m, h2, h3, -⟩ := (h.mem_seg hL p).1 (List.mem_reverse.1 hp)
    exact h.ordered hc ht h1 h3 h2 he hf'
  · have hd : ∀ l : List PushCall, headNode l = (l.map fun p => p.node).headD 0 := by
      intro l; cases l <;> rfl
    cases hfor : c.forward with
    | true =>
      obtain ⟨hx', htn⟩ := h.turned hV hc hfor hx ht hL
      simp only [↓reduceIte]
      have key : ∀ {k a l b}, Walk R M.rf V next t k a l b → c.last ≤ k → ∀ ra lb, L.reverse = lb ++ ra → a = headNode ra →
          ∃ rest, (ra.map fun p => p.node) = l ++ rest ∧ b = rest.headD 0 := by
        intro k a l b hw
        induction hw with
        | stop => intro _ ra lb _ ha; exact ⟨_, rfl, ha.trans (hd _)⟩
        | @node k a i b l d w1 w2 w3 w4 ih =>
          intro hk ra lb e ha
          cases ra with
          | nil => exact absurd ha w1
          | cons p ra =>
            have e' : L = ra.reverse ++ p :: lb.reverse := by
              rw [← List.reverse_reverse L, e]; simp
            obtain ⟨hp, m, m1, m2, m3, m4⟩ := h.seg_split hL e'
            obtain ⟨s, s1, s2, s3⟩ := htn _ _ _ e'
            have hpn : a = p.node := ha
            have hbv := h.read_turned hV hc ht hp m2 (by omega) s1 s2 s3 (hpn ▸ w3) (by omega)
            rw [List.reverse_reverse] at hbv
            obtain ⟨rest, q1, q2⟩ := ih (by omega) ra (lb ++ [p]) (by simp [e]) hbv
            exact ⟨rest, by simp [q1, hpn], q2⟩
      exact key hw (Nat.le_refl _) L.reverse [] rfl hx'
    | false =>
      obtain ⟨hst, hx'⟩ := hnf hfor
      rw [hx] at hx'; cases hx'
      simp only [Bool.false_eq_true, ↓reduceIte, List.reverse_reverse]
      have key : ∀ {k a l b}, Walk R M.rf V next t k a l b → c.last ≤ k → ∀ ra lb, L = lb ++ ra → a = headNode ra →
          ∃ rest, (ra.map fun p => p.node) = l ++ rest ∧ b = rest.headD 0 := by
        intro k a l b hw
        induction hw with
        | stop => intro _ ra lb _ ha; exact ⟨_, rfl, ha.trans (hd _)⟩
        | @node k a i b l d w1 w2 w3 w4 ih =>
          intro hk ra lb e ha
          cases ra with
          | nil => exact absurd ha w1
          | cons p ra =>
            obtain ⟨hp, m, m1, m2, m3, m4⟩ := h.seg_split hL e
            have hpn : a = p.node := ha
            have hbv : b = headNode ra := by
              refine h.read_next hV hc ht hp m2 (by omega) m3 (hpn ▸ w3) (by omega) ?_
              intro c' s' q1 q2 q3 _
              obtain ⟨n', L', pre', ss', done', p', rest', k1, k2, k3, k4, k5, k6⟩ := h.right hV q1 q2
              obtain ⟨hp', m', g1, g2, g3, g4⟩ := h.seg_split k2 k4
              cases h.fresh _ _ hp hp' (by rw [k6, q3])
              cases m2.unique g2
              have hn : n = n' := by
                rcases Nat.lt_trichotomy n n' with k | k | k
                · exact absurd rfl (g4 n _ (by omega) k ht c hc)
                · exact k
                · exact absurd rfl (m4 n' _ (by omega) k k1 c' q1)
              subst hn
              cases h.pops _ _ hc q1 (congrArg Prod.snd (ht.inj k1))
              rw [hst] at q2; cases q2
            obtain ⟨rest, q1, q2⟩ := ih (by omega) ra (lb ++ [p]) (by simp [e]) hbv
            exact ⟨rest, by simp [q1, hpn], q2⟩
      exact key hw (Nat.le_refl _) L [] rfl (h.found hV ht hL hf)

end Queue

end Verif.Idiom
