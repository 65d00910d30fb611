import Verif.Use.Lemmas

/-!
C45  what programs build on atomic integers: counters, tickets, reference counts, hand-over, claiming, consensus
The specification is `Verif.Use.Spec`.  Each theorem is about every history that any implementation of
`atomic<integral>` can produce (`Produced`).
-/

namespace Verif.Use

open Verif.Integral (Op Ret Backend)

section
variable {Id : Type} [DecidableEq Id] {b : Backend} {sgn : Bool} {N : Nat} {v₀ : BitVec N}
  {H : List (Event Id (Op N) (Ret N))}

/-! ### Counters -/

/-- C45: no update is lost.  If threads only add to and subtract from a counter (in any flavour, by any amounts) and
read it, then a load that begins after all other calls have returned yields the initial value plus the sum of all
amounts. -/
theorem C45_no_lost_update (hN : 0 < N) (hb : b.Fits N) (hp : Produced b sgn v₀ H)
    (hadd : ∀ i op, Event.inv i op ∈ H → (addend op).isSome)
    {i : Id} (hi : Event.inv i Op.load ∈ H)
    (hlast : ∀ j op, j ≠ i → Event.inv j op ∈ H → ∃ r, Before H (Event.res j r) (Event.inv i Op.load))
    {r : Ret N} (hr : Event.res i r ∈ H) :
    r = .val (v₀ + total H) := by
  obtain ⟨hw, L, s, hl, hn, hinv, hres, hrt⟩ := produced_lin hN hb hp
  obtain ⟨o, ho⟩ := hres i r hr
  have := inv_unique hw hi (hinv _ ho)
  simp only at this
  subst this
  have hc : Complete H := by
    intro j op hj
    by_cases h : j = i
    · subst h; exact ⟨r, hr⟩
    · obtain ⟨r', hb'⟩ := hlast j op h hj
      exact ⟨r', hb'.mem_left⟩
  have hperm := pairs_perm hw hc hn hinv hres
  obtain ⟨l₁, l₂, rfl⟩ := List.append_of_mem ho
  have e2 : l₂ = [] := by
    cases l₂ with
    | nil => rfl
    | cons x l₂ =>
      exfalso
      have hx : x ∈ l₁ ++ (⟨i, Op.load, r⟩ : Entry Id (Op N) (Ret N)) :: x :: l₂ := by simp
      have hafter : Before (l₁ ++ (⟨i, Op.load, r⟩ : Entry Id (Op N) (Ret N)) :: x :: l₂) ⟨i, Op.load, r⟩ x :=
        ⟨l₁, [], l₂, rfl⟩
      have hne : x.id ≠ i := by
        intro h
        have hxx := eq_of_id hn hx ho (by simpa using h)
        subst hxx
        exact before_asymm hn hafter hafter
      obtain ⟨r', hb'⟩ := hlast x.id x.op hne (hinv _ hx)
      obtain ⟨o', ho'⟩ := hres _ _ hb'.mem_left
      have hxe := eq_of_id hn hx ho' rfl
      have hret : x.ret = r' := by rw [hxe]
      have := hrt _ hx _ ho (by rw [hret]; exact hb')
      exact before_asymm hn hafter this
  subst e2
  obtain ⟨m, h1, h2⟩ := Legal.split hl
  cases h2 with
  | cons hs _ =>
    obtain ⟨-, hret⟩ : _ ∧ r = .val m := hs
    have ha : ∀ e ∈ l₁, (addend e.op).isSome := fun e he => hadd _ _ (hinv e (by simp [he]))
    have hm := legal_total h1 ha
    rw [hret, hm]
    congr 2
    have hfm := foldr_perm (hperm.filterMap fun c => addend c.2)
    have e3 : (pairs (l₁ ++ [(⟨i, Op.load, r⟩ : Entry Id (Op N) (Ret N))])).filterMap (fun c => addend c.2) =
        (l₁.filterMap fun e => addend e.op) ++ [0] := by
      simp [pairs, List.filterMap_append, List.filterMap_map, addend]
    rw [e3, foldr_append] at hfm
    rw [total, ← hfm]
    simp

/-- Non-vacuity: an 8-bit counter at 255 with overlapping `fetch_add(1)` and `sub(3)`, the first of which wraps around,
then a load: 255 + 1 - 3 = 253. -/
example : ∃ H : List (Event Nat (Op 8) (Ret 8)), Produced .casOnly false 255 H ∧
    (∀ i op, Event.inv i op ∈ H → (addend op).isSome) ∧ Event.inv 2 Op.load ∈ H ∧
    (∀ j op, j ≠ 2 → Event.inv j op ∈ H → ∃ r, Before H (Event.res j r) (Event.inv 2 Op.load)) ∧
    Event.res 2 (.val 253) ∈ H ∧ (255 : BitVec 8) + total H = 253 := by
  have h0 := Exec.init (Id := Nat) (M := Concurrent.casMachine (Integral.native .casOnly false 8))
    (sh₀ := Integral.construct false 8 (255 : BitVec 8))
  have h1 := h0.invoke 0 (.fetchAdd 1) rfl
  have h2 := h1.invoke 1 (.sub 3) rfl
  have h3 := h2.step 1 (.sub 3) _ _ _ rfl (Concurrent.CasStep.snapshot (7 : BitVec 8) rfl)
  have h4 := h3.step 0 (.fetchAdd 1) _ _ _ rfl (Concurrent.CasStep.snapshot (Integral.construct false 8 (255 : BitVec 8)) rfl)
  have h5 := h4.step 0 (.fetchAdd 1) _ _ _ rfl (Concurrent.CasStep.loopOk rfl)
  have h6 := h5.step 1 (.sub 3) _ _ _ rfl (Concurrent.CasStep.loopFail rfl)
  have h7 := h6.step 1 (.sub 3) _ _ _ rfl (Concurrent.CasStep.loopOk rfl)
  have h8 := h7.ret 0 (.fetchAdd 1) _ (.val 255) rfl rfl
  have h9 := h8.ret 1 (.sub 3) _ (.val 253) rfl rfl
  have h10 := h9.invoke 2 .load rfl
  have h11 := h10.step 2 .load _ _ _ rfl (Concurrent.CasStep.load rfl)
  have h12 := h11.ret 2 .load _ (.val 253) rfl rfl
  refine ⟨_, .cas h12, ?_, by simp, ?_, by simp, by decide⟩
  · simp only [List.nil_append, List.cons_append, List.mem_cons, List.not_mem_nil, or_false, Event.inv.injEq, reduceCtorEq,
      false_or]
    rintro i op (⟨-, rfl⟩ | ⟨-, rfl⟩ | ⟨-, rfl⟩) <;> rfl
  · intro j op hj h
    simp only [List.nil_append, List.cons_append, List.mem_cons, List.not_mem_nil, or_false, Event.inv.injEq, reduceCtorEq,
      false_or] at h
    rcases h with ⟨rfl, -⟩ | ⟨rfl, -⟩ | ⟨rfl, -⟩
    · exact ⟨_, [_, _], [_], [_], rfl⟩
    · exact ⟨_, [_, _, _], [], [_], rfl⟩
    · exact absurd rfl hj

/-! ### Tickets -/

/-- C45: `fetch_add(1)` hands out tickets.  If a counter is only used with `fetch_add(1)`, by no more calls than it has
values, then different calls get different tickets, tickets count up from the initial value without running ahead of the
number of calls, and a call that begins after another has returned gets a later ticket.  When all calls have
returned, no ticket has been left out. -/
theorem C45_tickets (hN : 0 < N) (hb : b.Fits N) (hp : Produced b sgn v₀ H) (ho : Only (.fetchAdd 1) H)
    (hcount : (calls H).length ≤ 2 ^ N) :
    (∀ i r, Event.res i r ∈ H → ∃ a, r = .val a ∧ (a - v₀).toNat < (calls H).length) ∧
    (∀ i j a, i ≠ j → Event.res i (.val a) ∈ H → Event.res j (.val a) ∉ H) ∧
    (∀ i j a a', Before H (Event.res i (.val a)) (Event.inv j (.fetchAdd 1)) → Event.res j (.val a') ∈ H →
      (a - v₀).toNat < (a' - v₀).toNat) ∧
    (Complete H → ∀ k, k < (calls H).length → ∃ i, Event.res i (.val (v₀ + BitVec.ofNat N k)) ∈ H) := by
  obtain ⟨hw, L, s, hl, hn, hinv, hres, hrt⟩ := produced_lin hN hb hp
  have hop : ∀ e ∈ L, e.op = .fetchAdd 1 := fun e he => ho _ _ (hinv e he)
  have hch := legal_chain (f := .val) fetchAdd_one hl hop
  have hlen := length_le hn hinv
  have hidx : ∀ i r, Event.res i r ∈ H → ∃ k, ∃ hk : k < L.length, L[k] = ⟨i, .fetchAdd 1, r⟩ ∧
      r = .val (v₀ + BitVec.ofNat N k * 1) := by
    intro i r h
    obtain ⟨o, h1⟩ := hres i r h
    obtain ⟨k, hk, he⟩ := index_of h1
    have e1 : o = .fetchAdd 1 := hop _ h1
    subst e1
    refine ⟨k, hk, he, ?_⟩
    have := hch k hk
    rw [he] at this
    exact this
  refine ⟨?_, ?_, ?_, ?_⟩
  · intro i r h
    obtain ⟨k, hk, -, rfl⟩ := hidx i r h
    exact ⟨_, rfl, by rw [ticket_toNat (by omega)]; omega⟩
  · intro i j a hij h1 h2
    obtain ⟨k, hk, e1, e2⟩ := hidx i _ h1
    obtain ⟨m, hm, e3, e4⟩ := hidx j _ h2
    have : k = m := by
      rw [e2, Ret.val.injEq] at e4
      have := congrArg (fun x => (x - v₀).toNat) e4
      simp only [ticket_toNat (N := N) (k := k) (by omega), ticket_toNat (N := N) (k := m) (by omega)] at this
      exact this
    subst this
    rw [e1] at e3
    exact hij (Entry.mk.inj e3).1
  · intro i j a a' h1 h2
    obtain ⟨k, hk, e1, e2⟩ := hidx i _ h1.mem_left
    obtain ⟨m, hm, e3, e4⟩ := hidx j _ h2
    have hB := hrt _ (List.getElem_mem hk) _ (List.getElem_mem hm) (by rw [e1, e3]; exact h1)
    have := before_index hn hB
    rw [Ret.val.injEq] at e2 e4
    rw [e2, e4, ticket_toNat (by omega), ticket_toNat (by omega)]
    exact this
  · intro hc k hk
    have hk' : k < L.length := by
      have := (pairs_perm hw hc hn hinv hres).length_eq
      simp only [pairs, List.length_map] at this
      omega
    have h1 := hch k hk'
    have hm := List.getElem_mem hk'
    obtain ⟨r, hr⟩ := hc _ _ (hinv _ hm)
    obtain ⟨o, h2⟩ := hres _ _ hr
    have h3 := eq_of_id hn hm h2 rfl
    have h4 : L[k].ret = r := by rw [h3]
    refine ⟨L[k].id, ?_⟩
    rw [show (1 : BitVec N) = 1#N from rfl, BitVec.mul_one] at h1
    rw [← h1, h4]
    exact hr

/-- Non-vacuity: two overlapping `fetch_add(1)` on the last ticket before wrap-around, with LL/SC; the second caller
is overtaken. -/
example : ∃ H : List (Event Nat (Op 8) (Ret 8)), Produced (.llsc 32 0) false 255 H ∧ Only (.fetchAdd 1) H ∧
    (calls H).length ≤ 2 ^ 8 ∧ Complete H ∧ Event.res 1 (.val 255) ∈ H ∧ Event.res 0 (.val 0) ∈ H := by
  have h0 := Exec.init (Id := Nat) (M := Concurrent.llMachine (Integral.native (.llsc 32 0) false 8))
    (sh₀ := ⟨Integral.construct false 8 (255 : BitVec 8), 0⟩)
  have h1 := h0.invoke 0 (.fetchAdd 1) rfl
  have h2 := h1.step 0 (.fetchAdd 1) _ _ _ rfl (Concurrent.LlStep.rmwLink rfl)
  have h3 := h2.invoke 1 (.fetchAdd 1) rfl
  have h4 := h3.step 1 (.fetchAdd 1) _ _ _ rfl (Concurrent.LlStep.rmwLink rfl)
  have h5 := h4.step 1 (.fetchAdd 1) _ _ _ rfl (Concurrent.LlStep.rmwSc rfl)
  have h6 := h5.step 0 (.fetchAdd 1) _ _ _ rfl (Concurrent.LlStep.rmwScFail rfl)
  have h7 := h6.step 0 (.fetchAdd 1) _ _ _ rfl (Concurrent.LlStep.rmwLink rfl)
  have h8 := h7.step 0 (.fetchAdd 1) _ _ _ rfl (Concurrent.LlStep.rmwSc rfl)
  have h9 := h8.ret 0 (.fetchAdd 1) _ (.val 0) rfl rfl
  have h10 := h9.ret 1 (.fetchAdd 1) _ (.val 255) rfl rfl
  refine ⟨_, .llsc h10, ?_, by decide, ?_, by simp, by simp⟩
  · intro i o h
    simp only [List.nil_append, List.cons_append, List.mem_cons, List.not_mem_nil, or_false, Event.inv.injEq, reduceCtorEq] at h
    rcases h with ⟨-, rfl⟩ | ⟨-, rfl⟩ <;> rfl
  · intro i o h
    simp only [List.nil_append, List.cons_append, List.mem_cons, List.not_mem_nil, or_false, Event.inv.injEq, reduceCtorEq] at h
    rcases h with ⟨rfl, -⟩ | ⟨rfl, -⟩
    · exact ⟨.val 0, by simp⟩
    · exact ⟨.val 255, by simp⟩

/-! ### Reference counts -/

/-- C45: reference counts with `fetch_sub(1)`.  When `v₀` references are dropped by concurrent calls, no two calls see
the count 1 before their decrement, the one that does is the last to be needed (all `v₀` calls have been made), and once
all of them have returned one call has seen it: the object is destroyed exactly once. -/
theorem C45_last_reference (hN : 0 < N) (hb : b.Fits N) (hp : Produced b sgn v₀ H) (ho : Only (.fetchSub 1) H)
    (hcount : (calls H).length ≤ v₀.toNat) :
    (∀ i j, Event.res i (.val 1) ∈ H → Event.res j (.val 1) ∈ H → i = j) ∧
    (∀ i, Event.res i (.val 1) ∈ H → (calls H).length = v₀.toNat) ∧
    (Complete H → (calls H).length = v₀.toNat → H ≠ [] → ∃ i, Event.res i (.val 1) ∈ H) := by
  refine countdown hN hb hp (f := .val) ?_ ?_ ho hcount
  · rintro s s' r ⟨h1, h2⟩
    exact ⟨by rw [h1, BitVec.sub_eq_add_neg]; rfl, h2⟩
  · intro s
    rw [Ret.val.injEq]
    constructor
    · rintro rfl
      rw [show (1 : BitVec N) = 1#N from rfl, BitVec.toNat_ofNat, Nat.mod_eq_of_lt (Nat.one_lt_two_pow (by omega))]
    · intro h
      apply BitVec.eq_of_toNat_eq
      rw [h, show (1 : BitVec N) = 1#N from rfl, BitVec.toNat_ofNat, Nat.mod_eq_of_lt (Nat.one_lt_two_pow (by omega))]

/-- Non-vacuity: two references dropped concurrently; the call that came first is overtaken and drops the last one. -/
example : ∃ H : List (Event Nat (Op 8) (Ret 8)), Produced .casOnly false 2 H ∧ Only (.fetchSub 1) H ∧
    (calls H).length = (2 : BitVec 8).toNat ∧ Complete H ∧ H ≠ [] ∧ Event.res 0 (.val 1) ∈ H := by
  have h0 := Exec.init (Id := Nat) (M := Concurrent.casMachine (Integral.native .casOnly false 8))
    (sh₀ := Integral.construct false 8 (2 : BitVec 8))
  have h1 := h0.invoke 0 (.fetchSub 1) rfl
  have h2 := h1.step 0 (.fetchSub 1) _ _ _ rfl (Concurrent.CasStep.snapshot (Integral.construct false 8 (2 : BitVec 8)) rfl)
  have h3 := h2.invoke 1 (.fetchSub 1) rfl
  have h4 := h3.step 1 (.fetchSub 1) _ _ _ rfl (Concurrent.CasStep.snapshot (Integral.construct false 8 (2 : BitVec 8)) rfl)
  have h5 := h4.step 1 (.fetchSub 1) _ _ _ rfl (Concurrent.CasStep.loopOk rfl)
  have h6 := h5.step 0 (.fetchSub 1) _ _ _ rfl (Concurrent.CasStep.loopFail rfl)
  have h7 := h6.step 0 (.fetchSub 1) _ _ _ rfl (Concurrent.CasStep.loopOk rfl)
  have h8 := h7.ret 0 (.fetchSub 1) _ (.val 1) rfl rfl
  have h9 := h8.ret 1 (.fetchSub 1) _ (.val 2) rfl rfl
  refine ⟨_, .cas h9, ?_, by decide, ?_, by simp, by simp⟩
  · intro i o h
    simp only [List.nil_append, List.cons_append, List.mem_cons, List.not_mem_nil, or_false, Event.inv.injEq,
      reduceCtorEq] at h
    rcases h with ⟨-, rfl⟩ | ⟨-, rfl⟩ <;> rfl
  · intro i o h
    simp only [List.nil_append, List.cons_append, List.mem_cons, List.not_mem_nil, or_false, Event.inv.injEq,
      reduceCtorEq] at h
    rcases h with ⟨rfl, -⟩ | ⟨rfl, -⟩
    · exact ⟨.val 1, by simp⟩
    · exact ⟨.val 2, by simp⟩

/-- C45: reference counts with `sub_and_test(1)`: exactly one of the calls reports that the count has become zero. -/
theorem C45_last_reference_test (hN : 0 < N) (hb : b.Fits N) (hp : Produced b sgn v₀ H) (ho : Only (.subAndTest 1) H)
    (hcount : (calls H).length ≤ v₀.toNat) :
    (∀ i j, Event.res i (.flag false) ∈ H → Event.res j (.flag false) ∈ H → i = j) ∧
    (∀ i, Event.res i (.flag false) ∈ H → (calls H).length = v₀.toNat) ∧
    (Complete H → (calls H).length = v₀.toNat → H ≠ [] → ∃ i, Event.res i (.flag false) ∈ H) := by
  have h1N : (1 : BitVec N).toNat = 1 := by
    rw [show (1 : BitVec N) = 1#N from rfl, BitVec.toNat_ofNat, Nat.mod_eq_of_lt (Nat.one_lt_two_pow (by omega))]
  refine countdown hN hb hp (f := fun s => .flag (decide (s - 1 ≠ 0))) ?_ ?_ ho hcount
  · rintro s s' r ⟨h1, h2⟩
    refine ⟨by rw [h1, BitVec.sub_eq_add_neg]; rfl, by rw [h2, h1]⟩
  · intro s
    rw [Ret.flag.injEq, decide_eq_false_iff_not, not_not]
    constructor
    · intro h
      have : s = 1 := by
        have := congrArg (· + (1 : BitVec N)) h
        simpa [BitVec.sub_add_cancel] using this
      rw [this, h1N]
    · intro h
      have : s = 1 := BitVec.eq_of_toNat_eq (by rw [h, h1N])
      rw [this]; simp

/-- Non-vacuity: two references dropped concurrently; the call that came first is overtaken and drops the last one. -/
example : ∃ H : List (Event Nat (Op 8) (Ret 8)), Produced .casOnly false 2 H ∧ Only (.subAndTest 1) H ∧
    (calls H).length = (2 : BitVec 8).toNat ∧ Complete H ∧ H ≠ [] ∧ Event.res 0 (.flag false) ∈ H := by
  have h0 := Exec.init (Id := Nat) (M := Concurrent.casMachine (Integral.native .casOnly false 8))
    (sh₀ := Integral.construct false 8 (2 : BitVec 8))
  have h1 := h0.invoke 0 (.subAndTest 1) rfl
  have h2 := h1.step 0 (.subAndTest 1) _ _ _ rfl (Concurrent.CasStep.snapshot (Integral.construct false 8 (2 : BitVec 8)) rfl)
  have h3 := h2.invoke 1 (.subAndTest 1) rfl
  have h4 := h3.step 1 (.subAndTest 1) _ _ _ rfl (Concurrent.CasStep.snapshot (Integral.construct false 8 (2 : BitVec 8)) rfl)
  have h5 := h4.step 1 (.subAndTest 1) _ _ _ rfl (Concurrent.CasStep.loopOk rfl)
  have h6 := h5.step 0 (.subAndTest 1) _ _ _ rfl (Concurrent.CasStep.loopFail rfl)
  have h7 := h6.step 0 (.subAndTest 1) _ _ _ rfl (Concurrent.CasStep.loopOk rfl)
  have h8 := h7.ret 0 (.subAndTest 1) _ (.flag false) rfl rfl
  have h9 := h8.ret 1 (.subAndTest 1) _ (.flag true) rfl rfl
  refine ⟨_, .cas h9, ?_, by decide, ?_, by simp, by simp⟩
  · intro i o h
    simp only [List.nil_append, List.cons_append, List.mem_cons, List.not_mem_nil, or_false, Event.inv.injEq,
      reduceCtorEq] at h
    rcases h with ⟨-, rfl⟩ | ⟨-, rfl⟩ <;> rfl
  · intro i o h
    simp only [List.nil_append, List.cons_append, List.mem_cons, List.not_mem_nil, or_false, Event.inv.injEq,
      reduceCtorEq] at h
    rcases h with ⟨rfl, -⟩ | ⟨rfl, -⟩
    · exact ⟨.flag false, by simp⟩
    · exact ⟨.flag true, by simp⟩

/-! ### Hand-over by exchange -/

/-- C45: `exchange` hands each value over exactly once.  If a variable is only used with `exchange`, and the values put
in are all different and differ from the initial one, then no two calls get the same value, and each call gets the
initial value or what another call has put in. -/
theorem C45_exchange (hN : 0 < N) (hb : b.Fits N) (hp : Produced b sgn v₀ H) {x : Id → BitVec N}
    (ho : ∀ i o, Event.inv i o ∈ H → o = .exchange (x i) ∧ x i ≠ v₀)
    (hx : ∀ i j, Event.inv i (.exchange (x i)) ∈ H → Event.inv j (.exchange (x j)) ∈ H → x i = x j → i = j) :
    (∀ i j a, Event.res i (.val a) ∈ H → Event.res j (.val a) ∈ H → i = j) ∧
    (∀ i r, Event.res i r ∈ H →
      r = .val v₀ ∨ ∃ j, j ≠ i ∧ Event.inv j (.exchange (x j)) ∈ H ∧ r = .val (x j)) := by
  obtain ⟨hw, L, s, hl, hn, hinv, hres, hrt⟩ := produced_lin hN hb hp
  have hop : ∀ e ∈ L, e.op = .exchange (x e.id) := fun e he => (ho _ _ (hinv e he)).1
  have hch := legal_exchange hl hop
  have hin : ∀ e ∈ L, Event.inv e.id (.exchange (x e.id)) ∈ H := fun e he => by
    have := hinv e he
    rw [hop e he] at this
    exact this
  have hret : ∀ k (hk : k < L.length), L[k].ret = .val ((v₀ :: L.map fun e => x e.id)[k]'(by simp; omega)) := by
    intro k hk
    have h1 : (L.map Entry.ret)[k]'(by simpa using hk) = L[k].ret := by simp
    rw [← h1]
    simp only [hch, List.getElem_map, List.getElem_take]
  have hinj : ∀ k m (hk : k < L.length) (hm : m < L.length), k < m → L[k].ret ≠ L[m].ret := by
    intro k m hk hm hlt he
    rw [hret k hk, hret m hm, Ret.val.injEq] at he
    cases m with
    | zero => omega
    | succ m =>
      simp only [List.getElem_cons_succ, List.getElem_map] at he
      have hm' : m < L.length := by omega
      have hmem := List.getElem_mem hm'
      cases k with
      | zero =>
        simp only [List.getElem_cons_zero] at he
        exact (ho _ _ (hinv _ hmem)).2 he.symm
      | succ k =>
        simp only [List.getElem_cons_succ, List.getElem_map] at he
        have hk' : k < L.length := by omega
        have h1 := hx _ _ (hin _ (List.getElem_mem hk')) (hin _ hmem) he
        have h2 : k = m := by
          have := (List.Nodup.getElem_inj_iff hn (i := k) (j := m) (hi := by simpa using hk')
            (hj := by simpa using hm')).1 (by simpa using h1)
          exact this
        omega
  refine ⟨?_, ?_⟩
  · intro i j a h1 h2
    obtain ⟨o1, h3⟩ := hres i _ h1
    obtain ⟨o2, h4⟩ := hres j _ h2
    obtain ⟨k, hk, e1⟩ := index_of h3
    obtain ⟨m, hm, e2⟩ := index_of h4
    rcases Nat.lt_trichotomy k m with h | h | h
    · exact absurd (by rw [e1, e2]) (hinj k m hk hm h)
    · subst h; rw [e1] at e2; exact (Entry.mk.inj e2).1
    · exact absurd (by rw [e1, e2]) (hinj m k hm hk h)
  · intro i r h1
    obtain ⟨o1, h3⟩ := hres i _ h1
    obtain ⟨k, hk, e1⟩ := index_of h3
    have h4 := hret k hk
    rw [e1] at h4
    cases k with
    | zero => left; simpa using h4
    | succ k =>
      right
      have hk' : k < L.length := by omega
      refine ⟨L[k].id, ?_, hin _ (List.getElem_mem hk'), by simpa using h4⟩
      intro h
      have : k = k + 1 := (List.Nodup.getElem_inj_iff hn (i := k) (j := k + 1) (hi := by simpa using hk')
        (hj := by simpa using hk)).1 (by simp [h, e1])
      omega

/-- Non-vacuity: a variable holding 9; one call puts in 1, an overlapping one puts in 2 and gets ahead. -/
example : ∃ (H : List (Event Nat (Op 8) (Ret 8))) (x : Nat → BitVec 8), Produced .casOnly false 9 H ∧
    (∀ i o, Event.inv i o ∈ H → o = .exchange (x i) ∧ x i ≠ 9) ∧
    (∀ i j, Event.inv i (.exchange (x i)) ∈ H → Event.inv j (.exchange (x j)) ∈ H → x i = x j → i = j) ∧
    Event.res 0 (.val 2) ∈ H ∧ Event.res 1 (.val 9) ∈ H := by
  have h0 := Exec.init (Id := Nat) (M := Concurrent.casMachine (Integral.native .casOnly false 8))
    (sh₀ := Integral.construct false 8 (9 : BitVec 8))
  have h1 := h0.invoke 0 (.exchange 1) rfl
  have h2 := h1.step 0 (.exchange 1) _ _ _ rfl (Concurrent.CasStep.snapshot (Integral.construct false 8 (9 : BitVec 8)) rfl)
  have h3 := h2.invoke 1 (.exchange 2) rfl
  have h4 := h3.step 1 (.exchange 2) _ _ _ rfl (Concurrent.CasStep.snapshot (Integral.construct false 8 (9 : BitVec 8)) rfl)
  have h5 := h4.step 1 (.exchange 2) _ _ _ rfl (Concurrent.CasStep.loopOk rfl)
  have h6 := h5.step 0 (.exchange 1) _ _ _ rfl (Concurrent.CasStep.loopFail rfl)
  have h7 := h6.step 0 (.exchange 1) _ _ _ rfl (Concurrent.CasStep.loopOk rfl)
  have h8 := h7.ret 0 (.exchange 1) _ (.val 2) rfl rfl
  have h9 := h8.ret 1 (.exchange 2) _ (.val 9) rfl rfl
  refine ⟨_, fun i => if i = 0 then 1 else 2, .cas h9, ?_, ?_, by simp, by simp⟩
  · intro i o h
    simp only [List.nil_append, List.cons_append, List.mem_cons, List.not_mem_nil, or_false, Event.inv.injEq,
      reduceCtorEq] at h
    rcases h with ⟨rfl, rfl⟩ | ⟨rfl, rfl⟩ <;> exact ⟨rfl, by decide⟩
  · intro i j h h' he
    simp only [List.nil_append, List.cons_append, List.mem_cons, List.not_mem_nil, or_false, Event.inv.injEq,
      reduceCtorEq] at h
    simp only [List.nil_append, List.cons_append, List.mem_cons, List.not_mem_nil, or_false, Event.inv.injEq,
      reduceCtorEq] at h'
    rcases h with ⟨rfl, -⟩ | ⟨rfl, -⟩ <;> rcases h' with ⟨rfl, -⟩ | ⟨rfl, -⟩ <;> first | rfl | (exfalso; revert he; decide)

/-! ### Claiming bits -/

/-- C45: `bit_test_and_set` lets exactly one caller claim each bit.  If a variable is only used with
`bit_test_and_set`, at most one of the calls for an initially clear bit finds it clear, and if all calls
have returned and there was a call for the bit, then one did. -/
theorem C45_claim_bit (hN : 0 < N) (hb : b.Fits N) (hp : Produced b sgn v₀ H) (c : Fin N)
    (ho : ∀ i o, Event.inv i o ∈ H → ∃ d, o = .bitTestAndSet d) (hc : v₀.getLsbD c = false) :
    (∀ i j, Event.inv i (.bitTestAndSet c) ∈ H → Event.inv j (.bitTestAndSet c) ∈ H →
      Event.res i (.flag false) ∈ H → Event.res j (.flag false) ∈ H → i = j) ∧
    (Complete H → ∀ i, Event.inv i (.bitTestAndSet c) ∈ H →
      ∃ w, Event.inv w (.bitTestAndSet c) ∈ H ∧ Event.res w (.flag false) ∈ H) := by
  obtain ⟨hw, L, s, hl, hn, hinv, hres, hrt⟩ := produced_lin hN hb hp
  have hop : ∀ e ∈ L, ∃ d, e.op = .bitTestAndSet d := fun e he => ho _ _ (hinv e he)
  have hkey := legal_bits hl hop hc
  have hent : ∀ i r, Event.inv i (.bitTestAndSet c) ∈ H → Event.res i r ∈ H → ⟨i, .bitTestAndSet c, r⟩ ∈ L := by
    intro i r h1 h2
    obtain ⟨o, h3⟩ := hres i r h2
    have := inv_unique hw h1 (hinv _ h3)
    simp only at this
    subst this; exact h3
  refine ⟨?_, ?_⟩
  · intro i j h1 h2 h3 h4
    have m1 := hent i _ h1 h3
    have m2 := hent j _ h2 h4
    rcases hkey with h | ⟨w, -, -, -, hu⟩
    · exact absurd rfl (h _ m1)
    · have e1 := hu _ m1 rfl rfl
      have e2 := hu _ m2 rfl rfl
      rw [← e1] at e2
      exact (Entry.mk.inj e2).1.symm
  · intro hcm i h1
    obtain ⟨r, hr⟩ := hcm _ _ h1
    rcases hkey with h | ⟨w, hwm, hwo, hwr, -⟩
    · exact absurd rfl (h _ (hent i r h1 hr))
    · have hi := hinv w hwm
      rw [hwo] at hi
      obtain ⟨r', hr'⟩ := hcm _ _ hi
      have := eq_of_id hn hwm (hent _ _ hi hr') rfl
      refine ⟨w.id, hi, ?_⟩
      have h5 : w.ret = r' := by rw [this]
      rw [← hwr, h5]; exact hr'

/-- Non-vacuity: two callers want bit 5, and the one that began later gets it. -/
example : ∃ H : List (Event Nat (Op 8) (Ret 8)), Produced .casOnly false 1 H ∧
    (∀ i o, Event.inv i o ∈ H → ∃ d, o = .bitTestAndSet d) ∧ (1 : BitVec 8).getLsbD (5 : Fin 8) = false ∧ Complete H ∧
    Event.inv 0 (.bitTestAndSet 5) ∈ H ∧ Event.res 0 (.flag true) ∈ H ∧ Event.res 1 (.flag false) ∈ H := by
  have h0 := Exec.init (Id := Nat) (M := Concurrent.casMachine (Integral.native .casOnly false 8))
    (sh₀ := Integral.construct false 8 (1 : BitVec 8))
  have h1 := h0.invoke 0 (.bitTestAndSet 5) rfl
  have h2 := h1.step 0 (.bitTestAndSet 5) _ _ _ rfl (Concurrent.CasStep.snapshot (Integral.construct false 8 (1 : BitVec 8)) rfl)
  have h3 := h2.invoke 1 (.bitTestAndSet 5) rfl
  have h4 := h3.step 1 (.bitTestAndSet 5) _ _ _ rfl (Concurrent.CasStep.snapshot (Integral.construct false 8 (1 : BitVec 8)) rfl)
  have h5 := h4.step 1 (.bitTestAndSet 5) _ _ _ rfl (Concurrent.CasStep.loopOk rfl)
  have h6 := h5.step 0 (.bitTestAndSet 5) _ _ _ rfl (Concurrent.CasStep.loopFail rfl)
  have h7 := h6.step 0 (.bitTestAndSet 5) _ _ _ rfl (Concurrent.CasStep.loopOk rfl)
  have h8 := h7.ret 0 (.bitTestAndSet 5) _ (.flag true) rfl rfl
  have h9 := h8.ret 1 (.bitTestAndSet 5) _ (.flag false) rfl rfl
  refine ⟨_, .cas h9, ?_, by decide, ?_, by simp, by simp, by simp⟩
  · intro i o h
    simp only [List.nil_append, List.cons_append, List.mem_cons, List.not_mem_nil, or_false, Event.inv.injEq,
      reduceCtorEq] at h
    rcases h with ⟨-, rfl⟩ | ⟨-, rfl⟩ <;> exact ⟨_, rfl⟩
  · intro i o h
    simp only [List.nil_append, List.cons_append, List.mem_cons, List.not_mem_nil, or_false, Event.inv.injEq,
      reduceCtorEq] at h
    rcases h with ⟨rfl, -⟩ | ⟨rfl, -⟩
    · exact ⟨.flag true, by simp⟩
    · exact ⟨.flag false, by simp⟩

/-! ### Consensus -/

/-- C45: `compare_exchange_strong` decides.  If every call tries to replace the initial value by its own proposal, then as
soon as one call has returned there is a winner, one of the callers: it is told that it succeeded, and every other
call that returns is told the winner's proposal. -/
theorem C45_consensus (hN : 0 < N) (hb : b.Fits N) (hp : Produced b sgn v₀ H) {x : Id → BitVec N}
    (ho : ∀ i o, Event.inv i o ∈ H → o = .casStrong v₀ (x i) ∧ x i ≠ v₀)
    (hne : ∃ i r, Event.res i r ∈ H) :
    ∃ w, Event.inv w (.casStrong v₀ (x w)) ∈ H ∧
      ∀ i r, Event.res i r ∈ H →
        (i = w ∧ r = .cas true v₀) ∨ (i ≠ w ∧ r = .cas false (x w)) := by
  obtain ⟨hw, L, s, hl, hn, hinv, hres, hrt⟩ := produced_lin hN hb hp
  have hop : ∀ e ∈ L, e.op = .casStrong v₀ (x e.id) := fun e he => (ho _ _ (hinv e he)).1
  cases hl with
  | nil =>
    obtain ⟨i, r, h⟩ := hne
    obtain ⟨o, h⟩ := hres i r h
    simp at h
  | @cons _ s₁ _ e L h1 h2 =>
    have hoe := hop e (by simp)
    have hi := hinv e (by simp)
    rw [hoe] at h1 hi
    rcases h1 with ⟨-, h3, h4⟩ | ⟨h3, -, -⟩
    · subst h3
      have hlost := legal_cas_lost h2 (fun e he => hop e (by simp [he])) (ho _ _ hi).2
      refine ⟨e.id, hi, ?_⟩
      intro i r hr
      obtain ⟨o, h5⟩ := hres i r hr
      rw [List.map_cons, List.nodup_cons] at hn
      rcases List.mem_cons.1 h5 with h6 | h6
      · left; subst h6; exact ⟨rfl, h4⟩
      · right
        refine ⟨?_, hlost _ h6⟩
        rintro rfl
        exact hn.1 (List.mem_map.2 ⟨_, h6, rfl⟩)
    · exact absurd rfl h3

/-- Non-vacuity: proposals 1 and 2; the second caller wins while the first is under way. -/
example : ∃ (H : List (Event Nat (Op 8) (Ret 8))) (x : Nat → BitVec 8), Produced .casOnly false 0 H ∧
    (∀ i o, Event.inv i o ∈ H → o = .casStrong 0 (x i) ∧ x i ≠ 0) ∧
    Event.res 0 (.cas false 2) ∈ H ∧ Event.res 1 (.cas true 0) ∈ H := by
  have h0 := Exec.init (Id := Nat) (M := Concurrent.casMachine (Integral.native .casOnly false 8))
    (sh₀ := Integral.construct false 8 (0 : BitVec 8))
  have h1 := h0.invoke 0 (.casStrong 0 1) rfl
  have h2 := h1.invoke 1 (.casStrong 0 2) rfl
  have h3 := h2.step 1 (.casStrong 0 2) _ _ _ rfl (Concurrent.CasStep.strongOk rfl)
  have h4 := h3.step 0 (.casStrong 0 1) _ _ _ rfl (Concurrent.CasStep.strongFail rfl (by decide))
  have h5 := h4.ret 0 (.casStrong 0 1) _ (.cas false 2) rfl rfl
  have h6 := h5.ret 1 (.casStrong 0 2) _ (.cas true 0) rfl rfl
  refine ⟨_, fun i => if i = 0 then 1 else 2, .cas h6, ?_, by simp, by simp⟩
  intro i o h
  simp only [List.nil_append, List.cons_append, List.mem_cons, List.not_mem_nil, or_false, Event.inv.injEq,
    reduceCtorEq] at h
  rcases h with ⟨rfl, rfl⟩ | ⟨rfl, rfl⟩ <;> exact ⟨rfl, by decide⟩

end

end Verif.Use
