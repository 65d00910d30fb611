import Mathlib.Data.List.Nodup
import Mathlib.Data.List.Perm.Subperm
import Verif.Common.LinLemmas
import Verif.Concurrent.Props
import Verif.Use.Spec

/-!
Proofs about histories for `Verif.Use.Props`.
-/

namespace Verif.Use

open Verif.Integral (Op Ret)

section
variable {Id O R σ : Type}

theorem mem_calls {H : List (Event Id O R)} {i : Id} {op : O} : (i, op) ∈ calls H ↔ Event.inv i op ∈ H := by
  simp only [calls, List.mem_filterMap]
  constructor
  · rintro ⟨e, he, h⟩
    cases e with
    | inv j o => simp only [Option.some.injEq, Prod.mk.injEq] at h; obtain ⟨rfl, rfl⟩ := h; exact he
    | res j r => simp at h
  · intro h; exact ⟨_, h, rfl⟩

theorem calls_append (H K : List (Event Id O R)) : calls (H ++ K) = calls H ++ calls K := by
  simp [calls, List.filterMap_append]

/-- Every execution of a machine produces a well-formed history. -/
theorem wellFormed_of_exec {Sh : Type} [DecidableEq Id] {M : Machine Sh O R} {sh₀ : Sh} {sys : Sys Id M} {H}
    (h : Exec M sh₀ sys H) : WellFormed H := by
  refine ⟨?_, ?_⟩
  · induction h with
    | init => simp [calls]
    | @invoke sys H i op hx hi ih =>
      rw [calls_append, List.map_append, List.nodup_append]
      refine ⟨ih, by simp [calls], ?_⟩
      intro a ha b hb
      simp [calls] at hb
      subst hb
      rintro rfl
      obtain ⟨⟨j, o⟩, hm, rfl⟩ := List.mem_map.1 ha
      rw [mem_calls] at hm
      rcases (hx.hist.inv_iff _ _).1 hm with ⟨l, e⟩ | ⟨r, e⟩ <;> simp_all
    | step => assumption
    | @ret sys H i op l r hx hi hr ih => rw [calls_append]; simpa [calls] using ih
  · intro i r hr
    obtain ⟨op, e⟩ := (h.hist.res_iff i r).1 hr
    exact ⟨op, (h.hist.inv_iff i op).2 (.inr ⟨r, e⟩)⟩

/-- The entries of a linearization, as calls. -/
def pairs (L : List (Entry Id O R)) : List (Id × O) := L.map fun e => (e.id, e.op)

theorem pairs_nodup {L : List (Entry Id O R)} (h : (L.map Entry.id).Nodup) : (pairs L).Nodup := by
  have : (pairs L).map Prod.fst = L.map Entry.id := by simp [pairs, Function.comp_def]
  exact List.Nodup.of_map Prod.fst (this ▸ h)

theorem calls_nodup {H : List (Event Id O R)} (h : WellFormed H) : (calls H).Nodup :=
  List.Nodup.of_map _ h.nodup

theorem inv_unique {H : List (Event Id O R)} (h : WellFormed H) {i : Id} {o o' : O} (h1 : Event.inv i o ∈ H)
    (h2 : Event.inv i o' ∈ H) : o = o' := by
  have := List.inj_on_of_nodup_map h.nodup (mem_calls.2 h1) (mem_calls.2 h2) rfl
  exact (Prod.mk.inj this).2

/-- A linearization holds no more calls than were made. -/
theorem length_le {H : List (Event Id O R)} {L : List (Entry Id O R)} (hn : (L.map Entry.id).Nodup)
    (hi : ∀ e ∈ L, Event.inv e.id e.op ∈ H) : L.length ≤ (calls H).length := by
  have hs : pairs L ⊆ calls H := by
    intro c hc
    obtain ⟨e, he, rfl⟩ := List.mem_map.1 hc
    exact mem_calls.2 (hi e he)
  have := ((pairs_nodup hn).subperm hs).length_le
  simpa [pairs] using this

/-- A linearization of a complete history holds all calls. -/
theorem pairs_perm {H : List (Event Id O R)} {L : List (Entry Id O R)} (hw : WellFormed H) (hc : Complete H)
    (hn : (L.map Entry.id).Nodup) (hi : ∀ e ∈ L, Event.inv e.id e.op ∈ H)
    (hr : ∀ i r, Event.res i r ∈ H → ∃ op, Entry.mk i op r ∈ L) : (pairs L).Perm (calls H) := by
  refine (List.perm_ext_iff_of_nodup (pairs_nodup hn) (calls_nodup hw)).2 ?_
  rintro ⟨i, op⟩
  constructor
  · intro h
    obtain ⟨e, he, e'⟩ := List.mem_map.1 h
    cases e'
    exact mem_calls.2 (hi e he)
  · intro h
    obtain ⟨r, hr'⟩ := hc i op (mem_calls.1 h)
    obtain ⟨o, ho⟩ := hr i r hr'
    have := inv_unique hw (mem_calls.1 h) (hi _ ho)
    simp only at this
    subst this
    exact List.mem_map.2 ⟨_, ho, rfl⟩

/-! ### One object among many -/

theorem before_filterMap {α β : Type} {f : α → Option β} {l : List α} {x y : β} (h : Before (l.filterMap f) x y) :
    ∃ a b, f a = some x ∧ f b = some y ∧ Before l a b := by
  obtain ⟨l₁, l₂, l₃, e⟩ := h
  obtain ⟨p, q, rfl, e1, e2⟩ := List.filterMap_eq_append_iff.1 e
  obtain ⟨q₁, a, q₂, rfl, -, ha, e3⟩ := List.filterMap_eq_cons_iff.1 e2
  obtain ⟨r, s, rfl, e4, e5⟩ := List.filterMap_eq_append_iff.1 e3
  obtain ⟨s₁, b, s₂, rfl, -, hb, e6⟩ := List.filterMap_eq_cons_iff.1 e5
  exact ⟨a, b, ha, hb, p ++ q₁, r ++ s₁, s₂, by simp⟩

theorem before_filterMap_of {α β : Type} {f : α → Option β} {l : List α} {a b : α} {x y : β} (h : Before l a b)
    (ha : f a = some x) (hb : f b = some y) : Before (l.filterMap f) x y := by
  obtain ⟨l₁, l₂, l₃, rfl⟩ := h
  exact ⟨l₁.filterMap f, l₂.filterMap f, l₃.filterMap f, by simp [List.filterMap_append, ha, hb]⟩

section
variable {Addr : Type}

theorem inv_onObject {a : Addr} {H : List (Event Id (Addr × O) R)} {i : Id} {op : O} :
    Event.inv i op ∈ onObject a H ↔ Event.inv i (a, op) ∈ H := by
  simp only [onObject, List.mem_filterMap]
  constructor
  · rintro ⟨e, he, h⟩
    cases e with
    | inv j o =>
      simp only [Option.ite_none_right_eq_some, Option.some.injEq, Event.inv.injEq] at h
      obtain ⟨h1, rfl, rfl⟩ := h
      subst h1; exact he
    | res j r => simp at h
  · intro h; exact ⟨_, h, by simp⟩

theorem res_onObject {a : Addr} {H : List (Event Id (Addr × O) R)} {i : Id} {r : R} :
    Event.res i r ∈ onObject a H ↔ Event.res i r ∈ H ∧ ∃ op, Event.inv i (a, op) ∈ H := by
  simp only [onObject, List.mem_filterMap]
  constructor
  · rintro ⟨e, he, h⟩
    cases e with
    | inv j o => simp at h
    | res j s =>
      simp only [Option.ite_none_right_eq_some, Option.some.injEq, Event.res.injEq] at h
      obtain ⟨h1, rfl, rfl⟩ := h
      exact ⟨he, h1⟩
  · rintro ⟨h, hop⟩; exact ⟨_, h, by simp [hop]⟩

theorem calls_onObject_sub {a : Addr} (H : List (Event Id (Addr × O) R)) :
    ((calls (onObject a H)).map Prod.fst).Sublist ((calls H).map Prod.fst) := by
  classical
  suffices h : ∀ (P : Id → Prop) (K : List (Event Id (Addr × O) R)),
      ((calls (K.filterMap fun
        | .inv i op => if op.1 = a then some (Event.inv (Ret := R) i op.2) else none
        | .res i r => if P i then some (.res i r) else none)).map Prod.fst).Sublist ((calls K).map Prod.fst) by
    have := h (fun i => ∃ op, Event.inv i (a, op) ∈ H) H
    unfold onObject
    exact this
  intro P K
  induction K with
  | nil => simp [calls]
  | cons e K ih =>
    cases e with
    | inv j o =>
      by_cases ho : o.1 = a
      · simp only [List.filterMap_cons, ho, if_true, calls, List.map_cons]
        exact ih.cons_cons _
      · simp only [List.filterMap_cons, ho, if_false, calls, List.map_cons]
        exact ih.cons _
    | res j r =>
      by_cases hp : P j
      · simp only [List.filterMap_cons, hp, if_true, calls]
        exact ih
      · simp only [List.filterMap_cons, hp, if_false, calls]
        exact ih

theorem wellFormed_onObject {a : Addr} {H : List (Event Id (Addr × O) R)} (h : WellFormed H) :
    WellFormed (onObject a H) := by
  refine ⟨(calls_onObject_sub H).nodup h.nodup, ?_⟩
  intro i r hr
  obtain ⟨-, op, ho⟩ := res_onObject.1 hr
  exact ⟨op, inv_onObject.2 ho⟩

open Classical in
/-- The entries that concern the object at `a`. -/
noncomputable def entriesOn (a : Addr) (L : List (Entry Id (Addr × O) R)) : List (Entry Id O R) :=
  L.filterMap fun e => if e.op.1 = a then some ⟨e.id, e.op.2, e.ret⟩ else none

theorem legal_entriesOn {spec : SeqSpec σ O R} {a : Addr} {s s' : Addr → σ} {L : List (Entry Id (Addr × O) R)}
    (h : Legal (Concurrent.specAll spec) s L s') : Legal spec (s a) (entriesOn a L) (s' a) := by
  induction h with
  | nil => exact .nil _
  | @cons s s₁ s₂ e L hs _ ih =>
    by_cases he : e.op.1 = a
    · simp only [entriesOn, List.filterMap_cons, he, if_true]
      refine .cons ?_ ih
      have := hs.1
      rw [he] at this
      exact this
    · simp only [entriesOn, List.filterMap_cons, he, if_false]
      rw [← hs.2 a (Ne.symm he)]
      exact ih

theorem mem_entriesOn {a : Addr} {L : List (Entry Id (Addr × O) R)} {i : Id} {op : O} {r : R} :
    Entry.mk i op r ∈ entriesOn a L ↔ Entry.mk i (a, op) r ∈ L := by
  simp only [entriesOn, List.mem_filterMap]
  constructor
  · rintro ⟨e, he, h⟩
    simp only [Option.ite_none_right_eq_some, Option.some.injEq, Entry.mk.injEq] at h
    obtain ⟨h1, rfl, rfl, rfl⟩ := h
    subst h1; exact he
  · intro h; exact ⟨_, h, by simp⟩

/-- Locality: if a history of many objects is linearizable, so is its part about each object. -/
theorem linearizable_onObject {spec : SeqSpec σ O R} {s₀ : Addr → σ} {H : List (Event Id (Addr × O) R)}
    (hw : WellFormed H) (h : Linearizable (Concurrent.specAll spec) s₀ H) (a : Addr) :
    Linearizable spec (s₀ a) (onObject a H) := by
  obtain ⟨L, s, hl, hn, hi, hr, hb⟩ := h
  refine ⟨entriesOn a L, s a, legal_entriesOn hl, ?_, ?_, ?_, ?_⟩
  · have : ((entriesOn a L).map Entry.id).Sublist (L.map Entry.id) := by
      clear hl hn hi hr hb
      induction L with
      | nil => simp [entriesOn]
      | cons e L ih =>
        by_cases he : e.op.1 = a
        · simp only [entriesOn, List.filterMap_cons, he, if_true, List.map_cons]; exact ih.cons_cons _
        · simp only [entriesOn, List.filterMap_cons, he, if_false, List.map_cons]; exact ih.cons _
    exact this.nodup hn
  · rintro ⟨i, op, r⟩ he
    exact inv_onObject.2 (hi _ (mem_entriesOn.1 he))
  · intro i r h
    obtain ⟨h1, op, h2⟩ := res_onObject.1 h
    obtain ⟨o, ho⟩ := hr i r h1
    have := inv_unique hw h2 (hi _ ho)
    simp only at this
    subst this
    exact ⟨op, mem_entriesOn.2 ho⟩
  · rintro ⟨i, o, r⟩ ha ⟨j, p, t⟩ hb' h
    have ha := mem_entriesOn.1 ha
    have hb' := mem_entriesOn.1 hb'
    have hB : Before H (Event.res i r) (Event.inv j (a, p)) := by
      obtain ⟨x, y, hx, hy, hxy⟩ := before_filterMap h
      have ex : x = .res i r := by
        cases x with
        | inv k q => simp at hx
        | res k q => simp at hx; obtain ⟨-, rfl, rfl⟩ := hx; rfl
      have ey : y = .inv j (a, p) := by
        cases y with
        | inv k q => simp at hy; obtain ⟨e, rfl, rfl⟩ := hy; rw [← e]
        | res k q => simp at hy
      rw [ex, ey] at hxy; exact hxy
    exact before_filterMap_of (hb _ ha _ hb' hB) (by simp) (by simp)

end
end

/-! ### Counters -/

section
variable {Id : Type} {N : Nat}

theorem legal_total {s s' : BitVec N} {L : List (Entry Id (Op N) (Ret N))} (h : Legal Integral.spec s L s')
    (ha : ∀ e ∈ L, (addend e.op).isSome) :
    s' = s + (L.filterMap fun e => addend e.op).foldr (· + ·) 0 := by
  induction h with
  | nil => simp
  | @cons s s₁ s₂ e L hs _ ih =>
    obtain ⟨i, op, r⟩ := e
    have h1 := ha _ (List.mem_cons_self ..)
    have ih := ih fun e he => ha e (List.mem_cons_of_mem _ he)
    obtain ⟨d, hd⟩ := Option.isSome_iff_exists.1 h1
    simp only at hd
    have hs1 : s₁ = s + d := by
      cases op <;> simp_all [addend, Integral.spec, BitVec.sub_eq_add_neg]
    simp only [List.filterMap_cons, hd, List.foldr_cons]
    rw [ih, hs1, BitVec.add_assoc]

theorem foldr_perm {l l' : List (BitVec N)} (h : l.Perm l') :
    l.foldr (· + ·) 0 = l'.foldr (· + ·) 0 := by
  induction h with
  | nil => rfl
  | cons x _ ih => simp only [List.foldr_cons, ih]
  | swap x y l => simp only [List.foldr_cons]; rw [← BitVec.add_assoc, ← BitVec.add_assoc, BitVec.add_comm y x]
  | trans _ _ h1 h2 => exact h1.trans h2

theorem foldr_append (l l' : List (BitVec N)) :
    (l ++ l').foldr (· + ·) 0 = l.foldr (· + ·) 0 + l'.foldr (· + ·) 0 := by
  induction l with
  | nil => simp
  | cons x l ih => simp only [List.cons_append, List.foldr_cons, ih, BitVec.add_assoc]

/-- A chain of `op`s, where `op` moves the value by `d`. -/
theorem legal_chain {s s' d : BitVec N} {op : Op N} {f : BitVec N → Ret N}
    (hop : ∀ s s' r, Integral.spec s op s' r → s' = s + d ∧ r = f s)
    {L : List (Entry Id (Op N) (Ret N))} (h : Legal Integral.spec s L s') (ha : ∀ e ∈ L, e.op = op) :
    ∀ k (hk : k < L.length), L[k].ret = f (s + BitVec.ofNat N k * d) := by
  induction h with
  | nil => intro k hk; simp at hk
  | @cons s s₁ s₂ e L hs _ ih =>
    have ho := ha _ (List.mem_cons_self ..)
    rw [ho] at hs
    obtain ⟨h1, h2⟩ := hop _ _ _ hs
    intro k hk
    cases k with
    | zero => simpa using h2
    | succ k =>
      have := ih (fun e he => ha e (List.mem_cons_of_mem _ he)) k (by simpa using hk)
      simp only [List.getElem_cons_succ]
      rw [this, h1]
      congr 1
      rw [show BitVec.ofNat N (k + 1) = BitVec.ofNat N k + 1#N by rw [BitVec.ofNat_add], BitVec.add_mul, BitVec.one_mul,
        BitVec.add_assoc, BitVec.add_comm d]

end

theorem Legal.split {Id O R σ : Type} {spec : SeqSpec σ O R} {s s' : σ} {L K : List (Entry Id O R)}
    (h : Legal spec s (L ++ K) s') : ∃ m, Legal spec s L m ∧ Legal spec m K s' := by
  induction L generalizing s with
  | nil => exact ⟨s, .nil _, h⟩
  | cons e L ih =>
    cases h with
    | cons h1 h2 =>
      obtain ⟨m, h3, h4⟩ := ih h2
      exact ⟨m, .cons h1 h3, h4⟩

/-- Whatever the implementation, the history of an object is well formed and linearizable. -/
theorem produced_lin {Id : Type} [DecidableEq Id] {b : Integral.Backend} {sgn : Bool} {N : Nat} (hN : 0 < N)
    (hb : b.Fits N) {v₀ : BitVec N} {H : List (Event Id (Op N) (Ret N))} (h : Produced b sgn v₀ H) :
    WellFormed H ∧ Linearizable Integral.spec v₀ H := by
  have e : Integral.construct sgn N v₀ = v₀ := Integral.ext_self _
  have hc := Concurrent.native_correct b sgn hN hb
  have key : ∀ {Sh : Type} {M : Machine Sh (Op N) (Ret N)} {sh₀ : Sh} {sys : Sys Id M} {H},
      M.IsLinearizable Integral.spec sh₀ v₀ → Exec M sh₀ sys H → WellFormed H ∧ Linearizable Integral.spec v₀ H :=
    fun hl hx => ⟨wellFormed_of_exec hx, hl _ _ _ hx⟩
  cases h with
  | cas hx => rw [e] at hx; exact key (Concurrent.cas_linearizable hc trivial) hx
  | one hx => rw [e] at hx; exact key (Concurrent.one_linearizable hc trivial) hx
  | loadByCas hx => rw [e] at hx; exact key (Concurrent.cas_linearizable (Concurrent.viaCas_correct _ hc) trivial) hx
  | helper hx => rw [e] at hx; exact key (Concurrent.kh_linearizable hc trivial) hx
  | @llsc ver _ _ hx => rw [e] at hx; exact key (Concurrent.ll_linearizable (m₀ := ⟨v₀, ver⟩) hc trivial) hx
  | @llscAll ver _ _ hx =>
    rw [e] at hx; exact key (Concurrent.ll_linearizable (m₀ := ⟨v₀, ver⟩) (Concurrent.viaRmw_correct hc) trivial) hx
  | @mix ver _ _ hx => rw [e] at hx; exact key (Concurrent.mix_linearizable (m₀ := ⟨v₀, ver⟩) hc trivial) hx
  | @lock Addr _ idx v a sys H ha hx =>
    have hw := wellFormed_of_exec hx
    have h₀ : ∀ x, ∃ w, (⟨fun x => .whole (Integral.construct sgn N (v x)), fun _ => false⟩ :
        Concurrent.LkMem Addr (BitVec N)).cell x = .whole w ∧ True := fun x => ⟨_, rfl, trivial⟩
    have hl := Concurrent.lk_linearizable (idx := idx) hc h₀ _ _ _ hx
    refine ⟨wellFormed_onObject hw, ?_⟩
    have := linearizable_onObject hw hl a
    have e' : Concurrent.cellAbs (fun w => w) (⟨fun x => .whole (Integral.construct sgn N (v x)), fun _ => false⟩ :
        Concurrent.LkMem Addr (BitVec N)) a = v a := Integral.ext_self _
    rw [e', ha] at this
    exact this

/-! ### Lemmas for the individual uses -/

section
variable {Id : Type} [DecidableEq Id] {b : Integral.Backend} {sgn : Bool} {N : Nat} {v₀ : BitVec N}
  {H : List (Event Id (Op N) (Ret N))}

omit [DecidableEq Id] in
/-- Where the entries of a history of equal calls stand in its linearization. -/
theorem index_of {L : List (Entry Id (Op N) (Ret N))} {e : Entry Id (Op N) (Ret N)} (h : e ∈ L) :
    ∃ k, ∃ hk : k < L.length, L[k] = e := by
  obtain ⟨k, hk, he⟩ := List.mem_iff_getElem.1 h
  exact ⟨k, hk, he⟩

omit [DecidableEq Id] in
theorem before_index {L : List (Entry Id (Op N) (Ret N))} (hn : (L.map Entry.id).Nodup) {k m : Nat}
    {hk : k < L.length} {hm : m < L.length} (h : Before L L[k] L[m]) : k < m := by
  by_contra hlt
  rcases Nat.lt_or_eq_of_le (Nat.le_of_not_lt hlt) with h1 | h1
  · have : Before L L[m] L[k] := by
      have e1 : L = L.take m ++ L[m] :: L.drop (m + 1) := by simp
      have e2 : L.drop (m + 1) = (L.drop (m + 1)).take (k - (m + 1)) ++ L[k] :: L.drop (k + 1) := by
        have hk' : k - (m + 1) < (L.drop (m + 1)).length := by rw [List.length_drop]; omega
        have e3 := List.take_append_drop (k - (m + 1)) (L.drop (m + 1))
        rw [List.drop_eq_getElem_cons hk'] at e3
        have e4 : (L.drop (m + 1))[k - (m + 1)] = L[k] := by
          rw [List.getElem_drop]; congr 1; omega
        have e5 : (L.drop (m + 1)).drop (k - (m + 1) + 1) = L.drop (k + 1) := by
          rw [List.drop_drop]; congr 1; omega
        rw [e4, e5] at e3
        exact e3.symm
      exact ⟨L.take m, (L.drop (m + 1)).take (k - (m + 1)), L.drop (k + 1), by rw [← e2]; exact e1⟩
    exact before_asymm hn h this
  · subst h1; exact before_asymm hn h h

theorem fetchAdd_one (s s' : BitVec N) (r : Ret N) (h : Integral.spec s (.fetchAdd 1) s' r) :
    s' = s + 1 ∧ r = .val s := h

theorem ticket_toNat {k : Nat} (hk : k < 2 ^ N) (v : BitVec N) :
    (v + BitVec.ofNat N k * 1 - v).toNat = k := by
  rw [show (1 : BitVec N) = 1#N from rfl, BitVec.mul_one, BitVec.add_comm, BitVec.add_sub_cancel, BitVec.toNat_ofNat,
    Nat.mod_eq_of_lt hk]

theorem down_toNat {k : Nat} (hk : k ≤ v₀.toNat) :
    (v₀ + BitVec.ofNat N k * (-1#N)).toNat = v₀.toNat - k := by
  have h2 := v₀.isLt
  rw [BitVec.mul_neg, BitVec.mul_one, ← BitVec.sub_eq_add_neg, BitVec.toNat_sub, BitVec.toNat_ofNat,
    Nat.mod_eq_of_lt (show k < 2 ^ N by omega)]
  rw [show 2 ^ N - k + v₀.toNat = 2 ^ N + (v₀.toNat - k) by omega, Nat.add_mod_left, Nat.mod_eq_of_lt (by omega)]

/-- The common part of the two theorems below: calls that count down and report `last` when they took the last unit. -/
theorem countdown (hN : 0 < N) (hb : b.Fits N) (hp : Produced b sgn v₀ H) {op : Op N} {f : BitVec N → Ret N}
    {last : Ret N} (hop : ∀ s s' r, Integral.spec s op s' r → s' = s + (-1#N) ∧ r = f s)
    (hf : ∀ s : BitVec N, f s = last ↔ s.toNat = 1)
    (ho : Only op H) (hcount : (calls H).length ≤ v₀.toNat) :
    (∀ i j, Event.res i last ∈ H → Event.res j last ∈ H → i = j) ∧
    (∀ i, Event.res i last ∈ H → (calls H).length = v₀.toNat) ∧
    (Complete H → (calls H).length = v₀.toNat → H ≠ [] → ∃ i, Event.res i last ∈ H) := by
  obtain ⟨hw, L, s, hl, hn, hinv, hres, hrt⟩ := produced_lin hN hb hp
  have hop' : ∀ e ∈ L, e.op = op := fun e he => ho _ _ (hinv e he)
  have hch := legal_chain (f := f) hop hl hop'
  have hlen := length_le hn hinv
  have hidx : ∀ i, Event.res i last ∈ H → ∃ hk : v₀.toNat - 1 < L.length, L[v₀.toNat - 1].id = i ∧ v₀.toNat ≤ L.length := by
    intro i h
    obtain ⟨o, h1⟩ := hres i _ h
    obtain ⟨k, hk, he⟩ := index_of h1
    have h2 := hch k hk
    rw [he] at h2
    have h3 := (hf _).1 h2.symm
    rw [down_toNat (by omega)] at h3
    have h4 : k = v₀.toNat - 1 := by omega
    subst h4
    exact ⟨hk, by rw [he], by omega⟩
  refine ⟨?_, ?_, ?_⟩
  · intro i j h1 h2
    obtain ⟨_, e1, -⟩ := hidx i h1
    obtain ⟨_, e2, -⟩ := hidx j h2
    rw [← e1, ← e2]
  · intro i h
    obtain ⟨_, -, h1⟩ := hidx i h
    omega
  · intro hc he hne
    have hperm := (pairs_perm hw hc hn hinv hres).length_eq
    simp only [pairs, List.length_map] at hperm
    have hpos : 0 < (calls H).length := by
      cases H with
      | nil => exact absurd rfl hne
      | cons e H' =>
        have : ∃ i o, Event.inv i o ∈ e :: H' := by
          cases e with
          | inv i o => exact ⟨i, o, by simp⟩
          | res i r => obtain ⟨o, h⟩ := hw.res i r (by simp); exact ⟨i, o, h⟩
        obtain ⟨i, o, h⟩ := this
        exact List.length_pos_of_mem (mem_calls.2 h)
    have hk : v₀.toNat - 1 < L.length := by omega
    have h1 := hch _ hk
    have h2 := (hf (v₀ + BitVec.ofNat N (v₀.toNat - 1) * (-1#N))).2 (by rw [down_toNat (by omega)]; omega)
    rw [h2] at h1
    have hm := List.getElem_mem hk
    obtain ⟨r, hr⟩ := hc _ _ (hinv _ hm)
    obtain ⟨o, h3⟩ := hres _ _ hr
    have h4 := eq_of_id hn hm h3 rfl
    have h5 : L[v₀.toNat - 1].ret = r := by rw [h4]
    exact ⟨L[v₀.toNat - 1].id, by rw [← h1, h5]; exact hr⟩


omit [DecidableEq Id] in
theorem legal_exchange {s s' : BitVec N} {L : List (Entry Id (Op N) (Ret N))} (h : Legal Integral.spec s L s')
    {x : Id → BitVec N} (ha : ∀ e ∈ L, e.op = .exchange (x e.id)) :
    L.map Entry.ret = ((s :: L.map fun e => x e.id).take L.length).map Ret.val := by
  induction h with
  | nil => simp
  | @cons s s₁ s₂ e L hs _ ih =>
    have h1 := ha e (by simp)
    rw [h1] at hs
    obtain ⟨h2, h3⟩ : s₁ = x e.id ∧ e.ret = .val s := hs
    simp only [List.map_cons, List.length_cons, List.take_succ_cons, h3]
    rw [ih fun e he => ha e (by simp [he]), h2]

omit [DecidableEq Id] in
theorem legal_bits_set {s s' : BitVec N} {L : List (Entry Id (Op N) (Ret N))} (h : Legal Integral.spec s L s')
    (ha : ∀ e ∈ L, ∃ c, e.op = .bitTestAndSet c) {c : Fin N} (hc : s.getLsbD c = true) :
    ∀ e ∈ L, e.op = .bitTestAndSet c → e.ret = .flag true := by
  induction h with
  | nil => simp
  | @cons s s₁ s₂ e L hs _ ih =>
    obtain ⟨d, hd⟩ := ha e (by simp)
    rw [hd] at hs
    obtain ⟨h1, h2⟩ := hs
    have hc' : s₁.getLsbD c = true := by rw [h1 c]; split <;> simp_all
    intro e' he' ho
    rcases List.mem_cons.1 he' with rfl | he'
    · rw [hd, Op.bitTestAndSet.injEq] at ho
      rw [h2, ho, hc]
    · exact ih (fun e he => ha e (by simp [he])) hc' e' he' ho

omit [DecidableEq Id] in
theorem legal_bits {s s' : BitVec N} {L : List (Entry Id (Op N) (Ret N))} (h : Legal Integral.spec s L s')
    (ha : ∀ e ∈ L, ∃ c, e.op = .bitTestAndSet c) {c : Fin N} (hc : s.getLsbD c = false) :
    (∀ e ∈ L, e.op ≠ .bitTestAndSet c) ∨
    ∃ w ∈ L, w.op = .bitTestAndSet c ∧ w.ret = .flag false ∧
      ∀ e ∈ L, e.op = .bitTestAndSet c → e.ret = .flag false → e = w := by
  induction h with
  | nil => simp
  | @cons s s₁ s₂ e L hs hl ih =>
    obtain ⟨d, hd⟩ := ha e (by simp)
    have ha' : ∀ e ∈ L, ∃ c, e.op = .bitTestAndSet c := fun e he => ha e (by simp [he])
    rw [hd] at hs
    obtain ⟨h1, h2⟩ := hs
    by_cases hcd : c = d
    · subst hcd
      right
      refine ⟨e, by simp, hd, by rw [h2, hc], ?_⟩
      intro e' he' ho hr
      rcases List.mem_cons.1 he' with h | he'
      · exact h
      · have := legal_bits_set hl ha' (c := c) (by rw [h1 c]; simp) e' he' ho
        rw [this] at hr
        simp at hr
    · have hc' : s₁.getLsbD c = false := by rw [h1 c, if_neg hcd, hc]
      have hne : e.op ≠ .bitTestAndSet c := by rw [hd]; intro h; exact hcd (Op.bitTestAndSet.inj h).symm
      rcases ih ha' hc' with h | ⟨w, hw, ho, hr, hu⟩
      · left
        intro e' he'
        rcases List.mem_cons.1 he' with rfl | he'
        · exact hne
        · exact h e' he'
      · right
        refine ⟨w, by simp [hw], ho, hr, ?_⟩
        intro e' he' ho' hr'
        rcases List.mem_cons.1 he' with rfl | he'
        · exact absurd ho' hne
        · exact hu e' he' ho' hr'

omit [DecidableEq Id] in
theorem legal_cas_lost {s s' e₀ : BitVec N} {L : List (Entry Id (Op N) (Ret N))} (h : Legal Integral.spec s L s')
    {x : Id → BitVec N} (ha : ∀ e ∈ L, e.op = .casStrong e₀ (x e.id)) (hs : s ≠ e₀) :
    ∀ e ∈ L, e.ret = .cas false s := by
  induction h with
  | nil => simp
  | @cons s s₁ s₂ e L h1 _ ih =>
    rw [ha e (by simp)] at h1
    rcases h1 with ⟨h2, -, -⟩ | ⟨-, h2, h3⟩
    · exact absurd h2 hs
    · subst h2
      intro e' he'
      rcases List.mem_cons.1 he' with rfl | he'
      · exact h3
      · exact ih (fun e he => ha e (by simp [he])) hs e' he'

end

end Verif.Use
