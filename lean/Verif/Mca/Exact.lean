import Verif.Mca.Props

/-
Every exception of C50 is real: for every operation that is left out of C50_happens_before_partial there is an execution in
which the guarantee fails because of it.
-/

namespace Verif.Mca

open Verif.Order Run

/-- Moments for a publication: the data is read before the first thread does anything, and before all but the first `n`
instructions of the operation that reads the flag. -/
def late (n : Nat) (A B : Item) : List (List (Nat × Nat)) :=
  [(0, 30) :: (List.range A.events.length).map fun i => (2 * i + 32, 2 * i + 33),
    (List.range B.events.length).map (fun i => if i < n then (2 * i + 1, 2 * i + 2) else (2 * i + 60, 2 * i + 61)) ++ [(29, 0)]]

/-- This is an execution in which the flag is seen and the data is not. -/
def Spoils (cpu : Cpu) (n : Nat) (A B : Item) : Prop :=
  let R := publication cpu (late n A B) A B
  R.Check 2 ∧
  ∃ w ∈ R.all 2, ∃ r ∈ R.all 2, w.1.1 = 0 ∧ 1 ≤ w.1.2 ∧ w.2.ins.pub = true ∧ w.2.ins.wr = true ∧
    r.1.1 = 1 ∧ r.1.2 < B.code.length ∧ r.2.ins.ret = true ∧ r.2.ins.rd = true ∧ r.2.loc = w.2.loc ∧
    R.time w.1 .wr < R.time r.1 .rd ∧
    (∀ v ∈ R.all 2, v.2.ins.wr = true → r.2.loc = v.2.loc →
      (R.time v.1 .wr < R.time r.1 .rd ∨ (v.1.1 = r.1.1 ∧ v.1.2 < r.1.2)) → R.time v.1 .wr ≤ R.time w.1 .wr) ∧
    (∀ v ∈ R.all 2, v.2.ins.wr = true → 0 = v.2.loc →
      ¬ (R.time v.1 .wr < R.time (1, B.code.length) .rd ∨ (v.1.1 = 1 ∧ v.1.2 < B.code.length)))

set_option synthInstance.maxHeartbeats 400000 in
set_option synthInstance.maxSize 1024 in
instance (cpu : Cpu) (n : Nat) (A B : Item) : Decidable (Spoils cpu n A B) := by
  unfold Spoils; infer_instance

theorem Spoils.spec {cpu : Cpu} {n : Nat} {A B : Item} {o o' : MO} (h : Spoils cpu n A B) (hA : A.writeOrder = some o) (ho : o.isRelease = true)
    (hB : B.readOrder = some o') (ho' : o'.isAcquire = true) :
    (publication cpu (late n A B) A B).Valid ∧ ¬ (publication cpu (late n A B) A B).actions.Coherent := by
  obtain ⟨h1, ⟨⟨t, w⟩, x⟩, hw, ⟨⟨t', r⟩, y⟩, hr, e1, a1, a2, a3, e2, b1, b2, b3, hl, ht, hv, hd⟩ := h
  simp only at e1 e2 a1 a2 a3 b1 b2 b3 hl ht hv
  subst e1 e2
  have hlast : (publication cpu (late n A B) A B).Is (1, B.code.length) ⟨userLoad, 0, none⟩ := by
    simp [Is, code, publication, Run.of, events, Item.events, Item.code, Item.loc, Item.pairOf]
  refine ⟨Check.valid publication_end h1, ?_⟩
  refine not_coherent ((mem_all publication_end).1 hw) a2 a3 a1 hA ho ((mem_all publication_end).1 hr) b2 b3 b1 hB ho' ?_ ?_
  · exact readsFrom_some publication_end ((mem_all publication_end).1 hr) ((mem_all publication_end).1 hw) a3 hl (.inl ht) hv
  · exact readsFrom_none publication_end hlast hd

/-- All orders, and all kinds of operations. -/
def orders : List MO := [.relaxed, .consume, .acquire, .release, .acqRel, .seqCst]

def kinds : List Kind := [.load, .store, .rmw, .loop] ++ orders.map .casOk ++ orders.map .casFail

theorem mem_orders (o : MO) : o ∈ orders := by cases o <;> decide

theorem mem_kinds (k : Kind) : k ∈ kinds := by
  have := mem_orders
  cases k <;> simp [kinds, this]

theorem spoils_op (b : Backend) (k : Kind) (o : MO) (hacc : k.accepts o = true) (ho : (k.readOrder o).isAcquire = true)
    (hb : acquireBroken b k o = true) : Spoils b.cpu (if b = .linuxArm then 3 else 0) (.op b .store .release 0 1) (.op b k o 0 1) := by
  have table : ∀ b ∈ [Backend.sparc, .aarch64 false false, .aarch64 false true, .aarch64 true false, .aarch64 true true, .aarch64Wide,
      .aarch32 false, .aarch32 true, .linuxArm], ∀ k ∈ kinds, ∀ o ∈ orders, k.accepts o = true → (k.readOrder o).isAcquire = true →
      acquireBroken b k o = true → Spoils b.cpu (if b = .linuxArm then 3 else 0) (.op b .store .release 0 1) (.op b k o 0 1) := by decide +kernel
  refine table b ?_ k (mem_kinds k) o (mem_orders o) hacc ho hb
  cases b <;> first
    | (cases hb; done)
    | decide
    | (cases ‹Bool› <;> decide)
    | (cases ‹Bool› <;> cases ‹Bool› <;> decide)

theorem spoils_exchange (b : Backend) (o : MO) (h : (Item.exchange b o 0 1).broken = true) :
    Spoils b.cpu 0 (.op b .store .release 0 1) (.exchange b o 0 1) := by
  have key : ∀ o ∈ orders, (Item.exchange .sparc o 0 1).broken = true →
      Spoils .sparc 0 (.op .sparc .store .release 0 1) (.exchange .sparc o 0 1) := by decide +kernel
  simp only [Item.broken, Bool.and_eq_true] at h
  cases b with
  | sparc => exact key o (mem_orders o) (by simpa [Item.broken, Bool.and_eq_true] using h)
  | _ => exact absurd h.2 (by simp [acquireBroken])

/-- The execution has the operation `it` of the back end `b`; it consists of operations of `b` with accepted orders, and no
other one of them is left out of C50. -/
structure Blames {cpu : Cpu} (R : Run cpu) (b : Backend) (it : Item) : Prop where
  valid : R.Valid
  only : R.Only b
  accepts : ∀ t, ∀ it ∈ R.prog t, it.accepts = true
  has : ∃ t, it ∈ R.prog t
  alone : ∀ t, ∀ it' ∈ R.prog t, it'.broken = true → it' = it

theorem blames {b : Backend} {n : Nat} {B : Item} {o : MO} (h : Spoils b.cpu n (.op b .store .release 0 1) B) (hb : B.backend = some b)
    (hacc : B.accepts = true) (hB : B.readOrder = some o) (ho : o.isAcquire = true) :
    ∃ R : Run b.cpu, Blames R b B ∧ ¬ R.actions.Coherent := by
  have items : ∀ {Q : Item → Prop}, Q (.user userStore 0) → Q (.op b .store .release 0 1) → Q B → Q (.user userLoad 0) →
      ∀ t, ∀ it ∈ (publication b.cpu (late n (.op b .store .release 0 1) B) (.op b .store .release 0 1) B).prog t, Q it := by
    intro Q h1 h2 h3 h4 t it h
    match t with
    | 0 => simp [publication, Run.of] at h; rcases h with rfl | rfl <;> assumption
    | 1 => simp [publication, Run.of] at h; rcases h with rfl | rfl <;> assumption
    | t + 2 => simp [publication, Run.of] at h
  obtain ⟨hv, hc⟩ := h.spec rfl rfl hB ho
  refine ⟨_, ⟨hv, ?_, items rfl rfl hacc rfl, ⟨1, by simp [publication, Run.of]⟩, ?_⟩, hc⟩
  · exact items (Q := fun it => ∀ b', it.backend = some b' → b' = b) nofun (by rintro _ ⟨⟩; rfl)
      (fun b' h => by rw [hb] at h; exact (Option.some.inj h).symm) nofun
  · exact items (Q := fun it => it.broken = true → it = B) nofun (fun h => by simp [Item.broken, Kind.readOrder, MO.isAcquire] at h)
      (fun _ => rfl) nofun

/-- For every operation of every back end and all orders that are left out of C50 there is a program, in which nothing else is
left out, with an execution that violates the guarantee. -/
theorem C50_exact_operation (b : Backend) (k : Kind) (o : MO) (hacc : k.accepts o = true) (h : (Item.op b k o 0 1).broken = true) :
    ∃ R : Run b.cpu, Blames R b (.op b k o 0 1) ∧ ¬ R.actions.Coherent := by
  simp only [Item.broken, Bool.and_eq_true] at h
  refine blames (spoils_op b k o hacc h.1 h.2) rfl hacc (o := k.readOrder o) ?_ h.1
  cases k <;> first | rfl | (cases o <;> first | (cases hacc; done) | exact absurd h.1 (by decide))

/-- Such operations exist: on SPARC an `exchange`, and on the back ends for ARM a compare_exchange that fails. -/
example : (Item.op .sparc .rmw .acquire 0 1).broken = true ∧ (Item.exchange .sparc .acquire 0 1).broken = true ∧
    (Item.op (.aarch64 false true) (.casFail .acquire) .release 0 1).broken = true ∧
    (Item.op .linuxArm (.casFail .seqCst) .seqCst 0 1).broken = true := by decide

/-- The same for `exchange`. -/
theorem C50_exact_exchange (b : Backend) (o : MO) (h : (Item.exchange b o 0 1).broken = true) :
    ∃ R : Run b.cpu, Blames R b (.exchange b o 0 1) ∧ ¬ R.actions.Coherent := by
  refine blames (spoils_exchange b o h) rfl rfl (o := o) rfl ?_
  simp only [Item.broken, Bool.and_eq_true] at h
  exact h.1.2

/-- The program of `C50_consume_fence_violated`: the consume fence of the inline assembly for x86 between a relaxed load of the
flag and the load of the data. -/
theorem C50_exact_consume_fence :
    ∃ R : Run .x86, R.Valid ∧ R.prog 0 = [.user userStore 0, .op .gccX86 .store .release 0 1] ∧
      R.prog 1 = [.op .gccX86 .load .relaxed 0 1, .fence .gccX86 .consume, .user userLoad 0] ∧ (∀ t, 2 ≤ t → R.prog t = []) ∧
      ¬ R.actions.Coherent := by
  let R : Run .x86 := Run.of .x86
    [[.user userStore 0, .op .gccX86 .store .release 0 1], [.op .gccX86 .load .relaxed 0 1, .fence .gccX86 .consume, .user userLoad 0]]
    [[(0, 2), (0, 0), (0, 3)], [(4, 0), (1, 0)]]
  have hn : ∀ t, 2 ≤ t → R.prog t = [] := fun t h => by simp [R, Run.of, h]
  refine ⟨R, Check.valid (n := 2) hn (by decide +kernel), rfl, rfl, hn, fun hc => ?_⟩
  have hrf : R.ReadsFrom (1, 0) (some (0, 2)) :=
    readsFrom_some (n := 2) hn rfl rfl rfl rfl (by decide) (by decide +kernel)
  have hd : R.ReadsFrom (1, 1) none := readsFrom_none (n := 2) hn rfl (by decide +kernel)
  have hb : R.HappensBefore (0, 0) (1, 1) := by
    refine .sync ⟨(0, 2), (0, 2), (1, 0), .inl ⟨?_, .inr ⟨rfl, by decide⟩⟩, ⟨_, rfl, rfl⟩, .head, hrf,
      ⟨_, rfl, rfl⟩, by decide, .inr ⟨rfl, [.op .gccX86 .load .relaxed 0 1], .gccX86, .consume, _, rfl, rfl, by decide, by decide⟩⟩
    exact ⟨[.user userStore 0], .op .gccX86 .store .release 0 1, .release, _, ⟨⟨[], rfl⟩, by decide, by decide⟩, rfl,
      rfl, rfl, rfl⟩
  have := hc.writeRead (0, 0) (1, 1) none hb ⟨_, rfl, rfl⟩ ⟨_, rfl, rfl⟩ rfl hd
  simp at this

end Verif.Mca
