import Verif.Sleep.Demo

/-
The execution of `Verif.Sleep.Demo` follows the code.
-/

namespace Verif.Sleep

open Verif.Order Verif.Mca Verif.Mca.Run Verif.Locked

set_option synthInstance.maxSize 1024

theorem demo_found {K : Fin 12} {x v : Nat} {l : List Nat}
    (h : founds demo 3 demoSrc demoValues (demoTake K) (demoGive K) x = l) :
    SectionFound demo demo.ReadsFrom demoValues (demoTake K) (demoGive K) x v ↔ v ∈ l := found_iff demo_table h

theorem demo_left {K : Fin 12} {x v : Nat} {l : List Nat}
    (h : lefts demo 3 demoValues (demoTake K) (demoGive K) x = l) :
    SectionLeft demo demoValues (demoTake K) (demoGive K) x v ↔ v ∈ l := left_iff demo_table h

theorem demo_reads {r : Pos} {s : Option Pos} (h : s = demoSrc r)
    (hr : r ∈ ((demo.all 3).filter fun z => z.2.ins.has .rd).map Prod.fst) : demo.ReadsFrom r s := reads_at demo_table h hr

/-- What an operation reads from. -/
theorem demo_ret {id : OpId} {r : Pos} {s : Option Pos} {l : List Pos} (h : rets demo 3 id = l)
    (hr : demo.Ret id r) (hs : demo.ReadsFrom r s)
    (hl : ∀ r ∈ l, r ∈ ((demo.all 3).filter fun z => z.2.ins.has .rd).map Prod.fst) : r ∈ l ∧ s = demoSrc r := by
  have hr' := (mem_rets demo_end).1 hr
  rw [h] at hr'
  exact ⟨hr', Notify.reads_unique demo_valid hs (demo_reads rfl (hl r hr'))⟩

theorem demo_pub {id : OpId} {w : Pos} {l : List Pos} (h : pubs demo 3 id = l) : demo.Pub id w ↔ w ∈ l := by
  rw [mem_pubs demo_end, h]

/-- What happens in a section happens before what another thread does after it has taken the same lock. -/
theorem demo_sync {e f w r : Pos} {id id' : OpId} {it it' : Item} {x y : Ev} {o o' : MO}
    (hw : demo.Within w id it) (hx : demo.Is w x) (hpub : x.ins.pub = true) (hwr : x.ins.has .wr = true)
    (hwo : it.writeOrder = some o) (ho : o.isRelease = true)
    (hr : demo.Within r id' it') (hy : demo.Is r y) (hret : y.ins.ret = true) (hrd : y.ins.has .rd = true)
    (hro : it'.readOrder = some o') (ho' : o'.isAcquire = true) (hne : r.1 ≠ w.1) (hrf : demo.ReadsFrom r (some w))
    (he : Before e w) (hf : Before r f) : demo.HappensBefore e f := by
  obtain ⟨pre, -, -, hi⟩ := hw
  obtain ⟨pre', -, -, hi'⟩ := hr
  exact .sync ⟨w, w, r, .inl ⟨⟨pre, it, o, x, hi, hx, hpub, hwo, ho⟩, .inr he⟩, ⟨x, hx, hwr⟩, .head, hrf, ⟨y, hy, hrd⟩, hne,
    .inl ⟨⟨pre', it', o', y, hi', hy, hret, hro, ho'⟩, .inr hf⟩⟩

theorem demo_waits : Waits demo demo.ReadsFrom demo.HappensBefore demoValues demoGuard demoSections 0 5 7 demoCalls := by
  obtain ⟨hch, f8, l8, f6, l6, f7, l7, f11, l11, f4, l4⟩ := demo_queue
  have calls : ∀ {K : Fin 12} {c}, demoCalls K = some c → (K = 4 ∧ c = .signal 3) ∨ (K = 6 ∧ c = .requeue 5 (0, 10)) ∨
      (K = 7 ∧ c = .signal 5) ∨ (K = 8 ∧ c = .park 1 (2, 0)) ∨ (K = 11 ∧ c = .signal 10) := by
    intro K c h
    match K with
    | 4 | 6 | 7 | 8 | 11 => cases h; simp
    | 0 | 1 | 2 | 3 | 5 | 9 | 10 => cases h
  refine ⟨?_, ?_, ?_, rfl, ?_, ?_, ?_, ?_, ?_, ?_, ?_, ?_, ?_⟩
  · intro S hS
    exact did_of demo_table ((by decide +kernel : ∀ S : Fin 12, demoMutex S = 0 → ∀ r ∈ rets demo 3 (demoTake S),
      r ∈ ((demo.all 3).filter fun z => z.2.ins.has .rd).map Prod.fst ∧ ∀ w ∈ pubs demo 3 (demoTake S),
      demoValues.val w = takenWord (demoValues.of 0 (demoSrc r))) S hS)
  · intro S hS
    exact did_of demo_table ((by decide +kernel : ∀ S : Fin 12, demoMutex S = 0 → ∀ r ∈ rets demo 3 (demoGive S),
      r ∈ ((demo.all 3).filter fun z => z.2.ins.has .rd).map Prod.fst ∧ ∀ w ∈ pubs demo 3 (demoGive S),
      demoValues.val w = givenWord (demoValues.of 0 (demoSrc r))) S hS)
  · intro id it r w s hit hM hr hw hs
    rcases demo_mark hit hM with h | ⟨-, rfl | rfl | rfl⟩
    · cases h
    · obtain ⟨h1, rfl⟩ := demo_ret (l := [(0, 17)]) (by decide +kernel) hr hs (by decide +kernel)
      have h2 := (demo_pub (l := [(0, 18)]) (by decide +kernel)).1 hw
      simp only [List.mem_cons, List.not_mem_nil, or_false] at h1 h2
      subst h1 h2
      left; decide
    · obtain ⟨h1, rfl⟩ := demo_ret (l := [(1, 42)]) (by decide +kernel) hr hs (by decide +kernel)
      have h2 := (demo_pub (l := [(1, 43)]) (by decide +kernel)).1 hw
      simp only [List.mem_cons, List.not_mem_nil, or_false] at h1 h2
      subst h1 h2
      right
      exact ⟨by decide, (3 : Fin 12), (4 : Fin 12), (1, 34), rfl, (demo_found f4).2 (by simp), ⟨by decide, by decide⟩,
        (demo_pub (l := [(1, 34)]) (by decide +kernel)).2 (by simp), by decide⟩
    · obtain ⟨h1, rfl⟩ := demo_ret (l := [(2, 0)]) (by decide +kernel) hr hs (by decide +kernel)
      have h2 := (demo_pub (l := [(2, 1)]) (by decide +kernel)).1 hw
      simp only [List.mem_cons, List.not_mem_nil, or_false] at h1 h2
      subst h1 h2
      left; decide
  · intro K c h
    rcases calls h with ⟨rfl, -⟩ | ⟨rfl, -⟩ | ⟨rfl, -⟩ | ⟨rfl, -⟩ | ⟨rfl, -⟩ <;> rfl
  · intro K v hK h
    obtain ⟨-, hne⟩ := hch K hK v ((mem_lefts demo_table).1 h)
    obtain ⟨u, hu⟩ := List.exists_mem_of_ne_nil _ hne
    exact ⟨u, (mem_founds demo_table).2 hu⟩
  · intro K v hK h e
    have := (hch K hK v ((mem_lefts demo_table).1 h)).1
    rw [e] at this; cases this
  · intro K k a h
    rcases calls h with ⟨-, e⟩ | ⟨-, e⟩ | ⟨-, e⟩ | ⟨rfl, e⟩ | ⟨-, e⟩ <;> cases e
    refine ⟨rfl, by decide, ⟨(2, 1), (2, 5), some (2, 1), _, ⟨⟨_, rfl, _, _, _, by simp, rfl⟩, (2, 0), some (0, 2), ?_, ?_,
      demo_reads rfl (by decide +kernel), by decide, by decide⟩,
      Notify.inside_at 2 rfl rfl (by decide) (by decide) (by decide) (by decide), ⟨_, rfl, rfl⟩, rfl, rfl,
      demo_reads rfl (by decide +kernel), rfl⟩, 0, 2, (demo_found f8).2 (by simp), (demo_left l8).2 (by simp),
      fun i => bits_plus (by decide) i⟩
    · exact (mem_rets demo_end).2 (by decide +kernel)
    · exact (mem_pubs demo_end).2 (by decide +kernel)
  · intro K N a h
    rcases calls h with ⟨-, e⟩ | ⟨rfl, e⟩ | ⟨-, e⟩ | ⟨-, e⟩ | ⟨-, e⟩ <;> cases e
    refine ⟨rfl, rfl, by decide, ⟨by decide, by decide⟩, ⟨by decide, by decide, by decide⟩, ⟨(0, 18), ⟨_, rfl, _, _, _, by simp, rfl⟩, (0, 17), some (2, 1), ?_, ?_,
      demo_reads rfl (by decide +kernel), trivial, by decide⟩, 2, 3, (demo_found f6).2 (by simp), (demo_left l6).2 (by simp),
      fun i hi => ?_⟩
    · exact (mem_rets demo_end).2 (by decide +kernel)
    · exact (mem_pubs demo_end).2 (by decide +kernel)
    · rw [bits_plus (v := 2) (v' := 3) (j := 0) (by decide) i, hi]; rfl
  · intro K S h
    rcases calls h with ⟨rfl, e⟩ | ⟨-, e⟩ | ⟨rfl, e⟩ | ⟨-, e⟩ | ⟨rfl, e⟩ <;> cases e
    · exact ⟨rfl, ⟨by decide, by decide⟩, 0, (demo_found f4).2 (by simp), .inl ⟨rfl, fun v' hv' => by
        simpa using (demo_left l4).1 hv'⟩⟩
    · exact ⟨rfl, ⟨by decide, by decide⟩, 3, (demo_found f7).2 (by simp), .inr ⟨1, 1, rfl, (demo_left l7).2 (by simp),
        fun i => bits_minus (by decide) rfl i⟩⟩
    · exact ⟨rfl, ⟨by decide, by decide⟩, 1, (demo_found f11).2 (by simp), .inr ⟨0, 0, rfl, (demo_left l11).2 (by simp),
        fun i => bits_minus (by decide) rfl i⟩⟩
  · intro K k h
    rcases calls h with ⟨-, e⟩ | ⟨-, e⟩ | ⟨-, e⟩ | ⟨-, e⟩ | ⟨-, e⟩ <;> cases e
  · intro S hS r s hr hs hc
    have key : ∀ S : Fin 12, demoMutex S = 0 → ∀ r ∈ rets demo 3 (demoGive S),
        r ∈ ((demo.all 3).filter fun z => z.2.ins.has .rd).map Prod.fst ∧ (demoValues.of 0 (demoSrc r) &&& contended ≠ 0 →
          S = 3 ∨ S = 5 ∨ S = 10) := by decide +kernel
    obtain ⟨hr', rfl⟩ := demo_ret (id := demoGive S) rfl hr hs (fun r hr => (key S hS r hr).1)
    rcases (key S hS r hr').2 hc with h | h | h
    · exact ⟨(4 : Fin 12), by rw [h]; rfl⟩
    · exact ⟨(7 : Fin 12), by rw [h]; rfl⟩
    · exact ⟨(11 : Fin 12), by rw [h]; rfl⟩
  · intro K S j h hj
    obtain ⟨-, v, v', hf, hl, -⟩ := hj
    rcases calls h with ⟨rfl, e⟩ | ⟨-, e⟩ | ⟨rfl, e⟩ | ⟨-, e⟩ | ⟨rfl, e⟩ <;> cases e
    · exact absurd ((demo_left l4).1 hl) (by simp)
    · refine ⟨(2, 9), ?_, .inl ⟨(10 : Fin 12), rfl, rfl⟩⟩
      intro e f it he hf
      obtain ⟨b1, -, b3⟩ := Notify.inside_bounds he
      obtain ⟨c1, c2, -⟩ := hf.bounds
      have b3 : e.2 < 27 := b3
      have c2 : 18 ≤ f.2 := c2
      exact demo_sync (w := (0, 29)) (r := (2, 11)) (id := (0, 15)) (id' := (2, 6))
        (within_of_bounds rfl rfl (by decide) (by decide)) rfl rfl rfl rfl rfl
        (within_of_bounds rfl rfl (by decide) (by decide)) rfl rfl rfl rfl rfl (by decide)
        (demo_reads rfl (by decide +kernel)) ⟨b1, by simp; omega⟩ ⟨c1.symm, by simp; omega⟩
    · refine ⟨(1, 15), ?_, .inl ⟨(3 : Fin 12), rfl, rfl⟩⟩
      intro e f it he hf
      obtain ⟨b1, -, b3⟩ := Notify.inside_bounds he
      obtain ⟨c1, c2, -⟩ := hf.bounds
      have b3 : e.2 < 29 := b3
      have c2 : 27 ≤ f.2 := c2
      exact demo_sync (w := (2, 31)) (r := (1, 19)) (id := (2, 14)) (id' := (1, 11))
        (within_of_bounds rfl rfl (by decide) (by decide)) rfl rfl rfl rfl rfl
        (within_of_bounds rfl rfl (by decide) (by decide)) rfl rfl rfl rfl rfl (by decide)
        (demo_reads rfl (by decide +kernel)) ⟨b1, by simp; omega⟩ ⟨c1.symm, by simp; omega⟩

/-- The entry of the object, the queue of the condition, and the variables that nothing uses. -/
theorem demo_entry : founds demo 3 demoSrc demoValues (demoTake 0) (demoGive 0) 2 = [0] ∧
    lefts demo 3 demoValues (demoTake 0) (demoGive 0) 2 = [65] ∧
    founds demo 3 demoSrc demoValues (demoTake 3) (demoGive 3) 2 = [65] ∧
    lefts demo 3 demoValues (demoTake 3) (demoGive 3) 2 = [64] ∧
    founds demo 3 demoSrc demoValues (demoTake 5) (demoGive 5) 2 = [65] ∧
    (∀ S : Fin 12, S ≠ 0 → S ≠ 3 → lefts demo 3 demoValues (demoTake S) (demoGive S) 2 = []) ∧
    (∀ S : Fin 12, lefts demo 3 demoValues (demoTake S) (demoGive S) 100 = []) ∧
    founds demo 3 demoSrc demoValues (demoTake 1) (demoGive 1) 6 = [0] ∧
    lefts demo 3 demoValues (demoTake 1) (demoGive 1) 6 = [1] ∧
    founds demo 3 demoSrc demoValues (demoTake 6) (demoGive 6) 6 = [1] ∧
    lefts demo 3 demoValues (demoTake 6) (demoGive 6) 6 = [0] ∧
    (∀ S : Fin 12, lefts demo 3 demoValues (demoTake S) (demoGive S) 6 ≠ [] →
      founds demo 3 demoSrc demoValues (demoTake S) (demoGive S) 6 ≠ []) ∧
    ∀ S : Fin 12, lefts demo 3 demoValues (demoTake S) (demoGive S) 101 = [] := by
  refine ⟨?_, ?_, ?_, ?_, ?_, ?_, ?_, ?_, ?_, ?_, ?_, ?_, ?_⟩ <;> decide +kernel

theorem demo_uses {S : Fin 12} {x : Nat} {u : Use} (h : demoUses S x = some u) : x = 1 ∧
    ((S = 0 ∧ u = .enter none 0 0 4 0) ∨ (S = 3 ∧ u = .leave 0) ∨ (S = 5 ∧ u = .notifyAll)) := by
  unfold demoUses at h
  split at h
  · refine ⟨‹_›, ?_⟩
    match S with
    | 0 | 3 | 5 => cases h; simp
    | 1 | 2 | 4 | 6 | 7 | 8 | 9 | 10 | 11 => cases h
  · cases h

theorem demo_does {S : Fin 12} {c : Nat} {u : Notify.Call} (h : demoDoes S c = some u) : c = 4 ∧
    ((S = 1 ∧ u = .wait 0 0) ∨ (S = 6 ∧ u = .notifyAll)) := by
  unfold demoDoes at h
  split at h
  · refine ⟨‹_›, ?_⟩
    match S with
    | 1 | 6 => cases h; simp
    | 0 | 2 | 3 | 4 | 5 | 7 | 8 | 9 | 10 | 11 => cases h
  · cases h

theorem demo_conditions : Conditions demo demo.ReadsFrom demoValues demoGuard demoSections demoEntry (fun v => v % 16)
    (fun v => v / 16) demoUses demoDoes := by
  obtain ⟨f0, l0, f3, l3, f5, lo, lz, -⟩ := demo_entry
  have other : ∀ {S : Fin 12} {x v : Nat}, SectionLeft demo demoValues (demoTake S) (demoGive S) (demoEntry x) v →
      x = 1 ∧ (S = 0 ∨ S = 3) := by
    intro S x v h
    unfold demoEntry at h
    split at h
    · refine ⟨‹_›, ?_⟩
      by_cases e0 : S = 0
      · exact .inl e0
      · by_cases e3 : S = 3
        · exact .inr e3
        · exact absurd ((demo_left (lo S e0 e3)).1 h) (by simp)
    · exact absurd ((demo_left (lz S)).1 h) (by simp)
  refine ⟨?_, ?_, ?_, ?_, ?_, ?_⟩
  · intro S x u h
    obtain ⟨rfl, ⟨rfl, -⟩ | ⟨rfl, -⟩ | ⟨rfl, -⟩⟩ := demo_uses h <;> rfl
  · intro S x v _ h
    obtain ⟨rfl, rfl | rfl⟩ := other h
    · exact ⟨0, (demo_found f0).2 (by simp)⟩
    · exact ⟨65, (demo_found f3).2 (by simp)⟩
  · intro S x v v' _ _ h h1 h2
    obtain ⟨rfl, rfl | rfl⟩ := other h
    · exact absurd rfl (h1 none 0 0 4 0)
    · exact absurd rfl (h2 0)
  · intro S x j k old c p h
    obtain ⟨rfl, ⟨rfl, e⟩ | ⟨-, e⟩ | ⟨-, e⟩⟩ := demo_uses h <;> cases e
    refine ⟨⟨0, 65, (demo_found f0).2 (by simp), (demo_left l0).2 (by simp), fun i => ?_, rfl, fun h => absurd rfl h⟩,
      ⟨(1, 3), none, _, Notify.inside_at 1 rfl rfl (by decide) (by decide) (by decide) (by decide), ⟨_, rfl, rfl⟩, rfl, rfl,
        demo_reads rfl (by decide +kernel), rfl⟩,
      ⟨(1, 5), none, _, Notify.inside_at 3 rfl rfl (by decide) (by decide) (by decide) (by decide), ⟨_, rfl, rfl⟩, rfl, rfl,
        demo_reads rfl (by decide +kernel), rfl⟩⟩
    simpa using bits_plus (v := 0) (v' := 1) (j := 0) (by decide) i
  · intro S x k h v v' hf hl
    obtain ⟨rfl, ⟨-, e⟩ | ⟨rfl, e⟩ | ⟨-, e⟩⟩ := demo_uses h <;> cases e
    have h1 := (demo_found f3).1 hf
    have h2 := (demo_left l3).1 hl
    simp only [List.mem_cons, List.not_mem_nil, or_false] at h1 h2
    subst h1 h2
    exact ⟨fun i => bits_minus (by decide) rfl i, fun h => absurd rfl h⟩
  · intro S x h
    have : S = (5 : Fin 12) ∧ x = 1 := by
      rcases h with h | h <;> obtain ⟨rfl, ⟨rfl, e⟩ | ⟨rfl, e⟩ | ⟨rfl, e⟩⟩ := demo_uses h <;> cases e
      exact ⟨rfl, rfl⟩
    obtain ⟨rfl, rfl⟩ := this
    refine ⟨65, (demo_found f5).2 (by simp), fun _ => ⟨(0, 3), (6 : Fin 12), (0, 5), (0, 6), none, _,
      ⟨by decide, by decide, by decide⟩, (mem_rets demo_end).2 (by decide +kernel), (mem_pubs demo_end).2 (by decide +kernel),
      ⟨_, rfl, rfl⟩, rfl, rfl, demo_reads rfl (by decide +kernel), by decide, by decide, by decide,
      ⟨by decide, by decide, by decide⟩, rfl⟩⟩

theorem demo_records : Notify.Records demo demo.ReadsFrom demoValues demoGuard demoSections.mutex demoSections.take
    demoSections.give demoQueue demoDoes := by
  obtain ⟨-, -, -, -, -, -, -, f1, l1, f6, l6, lo, lz⟩ := demo_entry
  refine ⟨?_, ?_, ?_, ?_, ?_⟩
  · intro S x u h
    obtain ⟨rfl, ⟨rfl, -⟩ | ⟨rfl, -⟩⟩ := demo_does h <;> rfl
  · intro S x v h
    unfold demoQueue at h ⊢
    split at h
    · rename_i e
      rw [if_pos e]
      obtain ⟨u, hu⟩ := List.exists_mem_of_ne_nil _ (lo S fun e => absurd ((demo_left e).1 h) (by simp))
      exact ⟨u, (mem_founds demo_table).2 hu⟩
    · exact absurd ((demo_left (lz S)).1 h) (by simp)
  · intro S x k old h
    obtain ⟨rfl, ⟨rfl, e⟩ | ⟨-, e⟩⟩ := demo_does h <;> cases e
    exact ⟨⟨1, (demo_left l1).2 (by simp), rfl⟩,
      ⟨(1, 13), none, _, Notify.inside_at 7 rfl rfl (by decide) (by decide) (by decide) (by decide), ⟨_, rfl, rfl⟩, rfl, rfl,
        demo_reads rfl (by decide +kernel), rfl⟩⟩
  · intro S x h
    obtain ⟨rfl, ⟨-, e⟩ | ⟨-, e⟩⟩ := demo_does h <;> cases e
  · intro S x h
    obtain ⟨rfl, ⟨-, e⟩ | ⟨rfl, e⟩⟩ := demo_does h <;> cases e
    exact ⟨1, (demo_found f6).2 (by simp), .inr ((demo_left l6).2 (by simp))⟩

theorem demo_passes : Passes demo demo.ReadsFrom demoValues (fun w w' => demo.time w .wr < demo.time w' .wr) 4 0 := by
  intro r s w y z _ _ _ _ _ hz hl hw _
  have := writes_in demo_end (l := [(0, 6)]) hz hl hw (by decide +kernel)
  simp only [List.mem_cons, List.not_mem_nil, or_false] at this
  subst this
  decide

theorem demo_settles : Notify.Settles demo demoValues (fun w w' => demo.time w .wr < demo.time w' .wr) 1 0 (0, 0) := by
  refine ⟨⟨_, rfl, rfl⟩, ⟨_, rfl, rfl⟩, by decide, ?_⟩
  intro w y hy hl hw _
  have := writes_in demo_end (l := [(0, 0)]) hy hl hw (by decide +kernel)
  simp only [List.mem_cons, List.not_mem_nil, or_false] at this
  subst this
  decide

theorem demo_precedes : Notify.Precedes demo demo.HappensBefore (0, 0) (demoTake 5) :=
  ⟨(0, 0), (0, 0), _, within_of_bounds rfl rfl (by decide) (by decide), rfl, by decide, .inl rfl⟩

theorem demo_code {P : Item → Prop} (h : ∀ l ∈ demoItems, ∀ it ∈ l, P it) (t : Nat) : ∀ it ∈ demo.prog t, P it := by
  intro it hit
  have e : demo.prog t = demoItems.getD t [] := rfl
  rw [e, List.getD_eq_getElem?_getD] at hit
  cases ht : demoItems[t]? with
  | none => rw [ht] at hit; cases hit
  | some l => rw [ht] at hit; exact h l (List.mem_of_getElem? ht) it hit

end Verif.Sleep
