import Verif.Asm.Spec
import Verif.Asm.Attr

/-
Proof method for assembly blocks.

1. Interference only shows in what instructions find outside the core (`AReach`).
2. A static check (`Block.safe`) guarantees that a legal register assignment cannot be told from
   the one in which every operand has a register of its own (`sim`).
3. In the latter, it suffices to look at single passes through the block, from the entry or the
   target of a backward jump to the next such target or to the end (`pass_rule`).
4. Likewise for a core that is left alone (`wpA`).
-/

namespace Verif.Asm

variable {R M : Nat} {Op Ret : Type}

/-! ### Interference -/

/-- Executions seen from inside the core. -/
inductive AReach (prog : List (Ins R M)) (ρ : Slot → Nat) (c₀ : Cpu R M) : Cpu R M → Prop where
  | start : AReach prog ρ c₀ c₀
  | step {c i} (o : Orc R M) : AReach prog ρ c₀ c → prog[c.pc]? = some i →
      (∀ x, c.link = some (o.ver, x) → x = o.val) →
      (o.ok = true → c.link.map Prod.fst = some o.ver) → AReach prog ρ c₀ (exec ρ i o c).1

/-- An instruction leaves the monitor alone, clears it or sets it; and if the object is stored to, the
monitor is not set by the same instruction. -/
theorem exec_link (ρ : Slot → Nat) (i : Ins R M) (o : Orc R M) (c : Cpu R M) :
    ((exec ρ i o c).1.link = c.link ∨ (exec ρ i o c).1.link = none) ∨
      ((exec ρ i o c).1.link = some (o.ver, o.val) ∧ (exec ρ i o c).2 = none) := by
  cases i with
  | label | comp | havoc | store | jump => exact .inl (.inl rfl)
  | load addr link whole ws f =>
    cases link
    · exact .inl (.inl rfl)
    · exact .inr ⟨rfl, rfl⟩
    · simp only [exec, Link.after]
      split
      · exact .inl (.inl rfl)
      · exact .inl (.inr rfl)
  | sc addr cond rs ws apart g st =>
    left
    simp only [exec]
    split
    · split <;> exact .inr rfl
    · exact .inl rfl
  | rmw addr rs ws f =>
    left; left
    simp only [exec]
    split <;> rfl

theorem reach_areach {prog : List (Ins R M)} {ρ : Slot → Nat} {c₀ : Cpu R M} {m : Cell M} {c : Cpu R M}
    (h : Reach prog ρ c₀ m c) :
    AReach prog ρ c₀ c ∧ ∀ v x, c.link = some (v, x) → v ≤ m.ver ∧ (v = m.ver → x = m.val) := by
  induction h with
  | start m h => exact ⟨.start, h⟩
  | @step m c m' c' _ hs ih =>
    obtain ⟨i, o, hi, hv, hver, hok, rfl, rfl⟩ := hs
    obtain ⟨ih, hl⟩ := ih
    refine ⟨.step o ih hi (fun x hx => ?_) (fun h => hver ▸ hok h), ?_⟩
    · rw [hver] at hx
      rw [hv]
      exact (hl _ _ hx).2 rfl
    · intro v x hc
      rcases exec_link ρ i o c with (h1 | h1) | ⟨h1, h2⟩
      · rw [h1] at hc
        cases hw : (exec ρ i o c).2 with
        | none => exact hl v x hc
        | some w => exact ⟨by have := (hl v x hc).1; simp only; omega,
            fun h => by have := (hl v x hc).1; simp only at h; omega⟩
      · rw [h1] at hc; cases hc
      · rw [h1] at hc
        rw [h2]
        cases hc
        exact ⟨Nat.le_of_eq hver, fun _ => hv⟩
  | @env m c v k _ ih =>
    refine ⟨ih.1, fun w x hc => ?_⟩
    have := (ih.2 w x hc).1
    exact ⟨by simp only; omega, fun h => by simp only at h; omega⟩

/-! ### Register assignments -/

/-- Operands an instruction reads, including its address. -/
def Ins.reads : Ins R M → List Slot
  | .label _ | .havoc _ => []
  | .comp rs _ _ => rs
  | .load a _ _ _ _ => [a]
  | .store a rs _ => a :: rs
  | .sc a _ rs _ _ _ _ => a :: rs
  | .rmw a rs _ _ => a :: rs
  | .jump rs _ _ _ _ _ => rs

/-- Operands an instruction may write. -/
def Ins.writes : Ins R M → List Slot
  | .label _ | .store _ _ _ | .jump _ _ _ _ _ _ => []
  | .comp _ ws _ => ws
  | .havoc ws => ws
  | .load _ _ _ ws _ => ws
  | .sc _ _ _ ws _ _ _ => ws
  | .rmw _ _ ws _ => ws

/-- Operands an instruction always writes. -/
def Ins.kills : Ins R M → List Slot
  | .sc _ _ _ _ _ _ _ => []
  | i => i.writes

/-- Pairs of operands that must not share a register. -/
def Ins.aparts : Ins R M → List (Slot × Slot)
  | .sc _ _ _ _ ap _ _ => ap
  | _ => []

/-- Instructions that may follow instruction number `n`. -/
def Ins.succs (n : Nat) : Ins R M → List Nat
  | .jump _ _ t _ _ _ => [t, n + 1]
  | _ => [n + 1]

/-- Slots that are in different registers under every legal assignment. -/
def Block.separate (b : Block R M) (s t : Slot) : Bool :=
  s != t &&
    ((b.opnds.any fun p => p.1 == s && b.opnds.any fun q => q.1 == t && p.2.apart q.2) ||
      (b.fixed.any fun p => p.1 == s && b.fixed.any fun q => q.1 == t && p.2 != q.2) ||
      b.differ.any fun p => p == (s, t) || p == (t, s))

theorem differ_ne {b : Block R M} {ρ : Slot → Nat} (h : b.Legal ρ) {s t : Slot}
    (hd : b.separate s t = true) : ρ s ≠ ρ t := by
  simp only [Block.separate, Bool.and_eq_true, Bool.or_eq_true, bne_iff_ne, ne_eq, List.any_eq_true,
    beq_iff_eq] at hd
  obtain ⟨hne, (⟨p, hp, rfl, q, hq, rfl, ha⟩ | ⟨p, hp, rfl, q, hq, rfl, ha⟩) | ⟨p, hp, rfl | rfl⟩⟩ := hd
  · exact h.apart p hp q hq hne ha
  · rw [h.fixed p hp, h.fixed q hq]
    exact ha
  · exact h.differ _ hp
  · exact (h.differ _ hp).symm

/-- One round of the liveness analysis. -/
def liveRound (b : Block R M) (L : List (List Slot)) : List (List Slot) :=
  (b.prog.zipIdx.map fun (i, n) =>
    (i.reads ++ ((i.succs n).flatMap fun j => L.getD j []).filter fun s => !i.kills.contains s).eraseDups)
    ++ [b.results]

/-- Iterate the liveness analysis. -/
def liveIter (b : Block R M) : Nat → List (List Slot)
  | 0 => List.replicate b.prog.length [] ++ [b.results]
  | n + 1 => liveRound b (liveIter b n)

/-- The check of one instruction against a table of live operands. -/
def insOk (b : Block R M) (L : List (List Slot)) (i : Ins R M) (n : Nat) : Bool :=
  (i.reads.all fun s => (L.getD n []).contains s) &&
  ((i.succs n).all fun j => (L.getD j []).all fun s =>
    (i.kills.contains s || (L.getD n []).contains s) &&
    i.writes.all fun w => w == s || b.separate w s) &&
  (i.writes.all fun w => i.writes.all fun s => w == s || b.separate w s) &&
  (i.aparts.all fun p => b.separate p.1 p.2)

/-- The static check: with the given table of live operands no instruction destroys an operand that
is still needed. -/
def Block.safeWith (b : Block R M) (L : List (List Slot)) : Bool :=
  (b.prog.zipIdx.all fun (i, n) => insOk b L i n) && L.getD b.prog.length [] == b.results

/-- The static check with the table computed by the liveness analysis. -/
def Block.safe (b : Block R M) : Bool := b.safeWith (liveIter b (2 * b.prog.length))

/-- Agreement of a core with one whose operands all have registers of their own. -/
structure Agree (ρ : Slot → Nat) (live : List Slot) (c d : Cpu R M) : Prop where
  pc : c.pc = d.pc
  fl : c.fl = d.fl
  link : c.link = d.link
  base : c.base = d.base
  seen : c.seen = d.seen
  wrote : c.wrote = d.wrote
  bad : c.bad = d.bad
  reg : ∀ s ∈ live, c.reg (ρ s) = d.reg s

theorem rd_agree {ρ : Slot → Nat} {live : List Slot} {r r' : Nat → BitVec R}
    (h : ∀ s ∈ live, r (ρ s) = r' s) {rs : List Slot} (hs : ∀ s ∈ rs, s ∈ live) :
    rd ρ r rs = rd id r' rs :=
  List.map_congr_left fun s hm => h s (hs s hm)

theorem wr_agree {ρ : Slot → Nat} (s : Slot) : ∀ (ws : List Slot) (r r' : Nat → BitVec R)
    (vs : List (BitVec R)), (∀ w ∈ ws, w = s ∨ ρ w ≠ ρ s) → (s ∈ ws ∨ r (ρ s) = r' s) →
    wr ρ r ws vs (ρ s) = wr id r' ws vs s
  | [], r, r', vs, _, h => by
    rcases h with h | h
    · cases h
    · exact h
  | w :: ws, r, r', vs, hw, h => by
    refine wr_agree s ws _ _ _ (fun x hx => hw x (List.mem_cons_of_mem _ hx)) ?_
    by_cases hs : s = w
    · subst hs; right; simp [upd]
    · rcases h with h | h
      · rcases List.mem_cons.1 h with h | h
        · exact absurd h hs
        · exact .inl h
      · right
        have : ρ w ≠ ρ s := (hw w (List.mem_cons_self ..)).resolve_left (Ne.symm hs)
        simp [upd, hs, this.symm, h]

/-- One instruction preserves agreement, and stores the same. -/
theorem exec_agree {b : Block R M} {ρ : Slot → Nat} (hl : b.Legal ρ) {L : List (List Slot)}
    {i : Ins R M} {c d : Cpu R M} (o : Orc R M)
    (ha : Agree ρ (L.getD c.pc []) c d) (hi : insOk b L i c.pc = true) :
    Agree ρ (L.getD (exec ρ i o c).1.pc []) (exec ρ i o c).1 (exec id i o d).1 ∧
      (exec ρ i o c).2 = (exec id i o d).2 := by
  simp only [insOk, Bool.and_eq_true, List.all_eq_true, Bool.or_eq_true, List.contains_iff_mem,
    beq_iff_eq] at hi
  obtain ⟨⟨⟨h1, h2⟩, h3⟩, h4⟩ := hi
  obtain ⟨hpc, hfl, hlink, hbase, hseen, hwrote, hbad, hreg⟩ := ha
  have key : ∀ j ∈ i.succs c.pc, ∀ s ∈ L.getD j [], ∀ (vs : List (BitVec R)),
      wr ρ c.reg i.kills vs (ρ s) = wr id d.reg i.kills vs s := by
    intro j hj s hs vs
    obtain ⟨h5, h6⟩ := h2 j hj s hs
    refine wr_agree s _ _ _ _ ?_ ?_
    · intro w hw
      have hw' : w ∈ i.writes := by
        cases i <;> simp_all [Ins.kills]
      rcases h6 w hw' with h | h
      · exact .inl h
      · exact .inr (differ_ne hl h)
    · rcases h5 with h | h
      · exact .inl h
      · exact .inr (hreg s h)
  have rdok : rd ρ c.reg i.reads = rd id d.reg i.reads := rd_agree hreg h1
  cases i with
  | label n =>
    refine ⟨⟨?_, hfl, hlink, hbase, hseen, hwrote, hbad, ?_⟩, rfl⟩
    · simp [exec, hpc]
    · intro s hs; exact key (c.pc + 1) (by simp [Ins.succs]) s hs []
  | comp rs ws f =>
    simp only [Ins.reads] at rdok
    refine ⟨⟨?_, ?_, hlink, hbase, hseen, hwrote, hbad, ?_⟩, rfl⟩
    · simp [exec, hpc]
    · simp [exec, rdok, hfl]
    · intro s hs
      simp only [exec] at hs ⊢
      rw [rdok, hfl]
      exact key (c.pc + 1) (by simp [Ins.succs]) s hs _
  | havoc ws =>
    refine ⟨⟨?_, hfl, hlink, hbase, hseen, hwrote, hbad, ?_⟩, rfl⟩
    · simp [exec, hpc]
    · intro s hs
      exact key (c.pc + 1) (by simp [Ins.succs]) s hs _
  | load a lk wh ws f =>
    have ra := hreg a (h1 a (by simp [Ins.reads]))
    refine ⟨⟨?_, hfl, ?_, hbase, ?_, hwrote, ?_, ?_⟩, rfl⟩
    · simp [exec, hpc]
    · simp [exec, hlink]
    · simp [exec, hseen]
    · simp [exec, hbad, ra, hbase]
    · intro s hs
      exact key (c.pc + 1) (by simp [Ins.succs]) s hs _
  | store a rs g =>
    have ra := hreg a (h1 a (by simp [Ins.reads]))
    have rdok' : rd ρ c.reg rs = rd id d.reg rs :=
      rd_agree hreg fun s hs => h1 s (List.mem_cons_of_mem _ hs)
    refine ⟨⟨?_, hfl, hlink, hbase, hseen, ?_, ?_, ?_⟩, by simp [exec, rdok']⟩
    · simp [exec, hpc]
    · simp [exec, rdok', hwrote]
    · simp [exec, hbad, ra, hbase]
    · intro s hs
      exact key (c.pc + 1) (by simp [Ins.succs]) s hs []
  | sc a cond rs ws ap g st =>
    have ra := hreg a (h1 a (by simp [Ins.reads]))
    have rdok' : rd ρ c.reg rs = rd id d.reg rs :=
      rd_agree hreg fun s hs => h1 s (List.mem_cons_of_mem _ hs)
    have hap : (ap.any fun p => ρ p.1 == ρ p.2) = (ap.any fun p => id p.1 == id p.2) := by
      have e1 : (ap.any fun p => ρ p.1 == ρ p.2) = false := by
        rw [List.any_eq_false]
        intro p hp
        simpa using differ_ne hl (h4 p hp)
      have e2 : (ap.any fun p => id p.1 == id p.2) = false := by
        rw [List.any_eq_false]
        intro p hp
        have := h4 p hp
        simp only [Block.separate, Bool.and_eq_true, bne_iff_ne] at this
        simpa using this.1
      rw [e1, e2]
    have kw : ∀ s ∈ L.getD (c.pc + 1) [], ∀ vs : List (BitVec R),
        wr ρ c.reg ws vs (ρ s) = wr id d.reg ws vs s := by
      intro s hs vs
      obtain ⟨h5, h6⟩ := h2 (c.pc + 1) (by simp [Ins.succs]) s hs
      refine wr_agree s _ _ _ _ ?_ ?_
      · intro w hw
        rcases h6 w hw with h | h
        · exact .inl h
        · exact .inr (differ_ne hl h)
      · rcases h5 with h | h
        · simp [Ins.kills] at h
        · exact .inr (hreg s h)
    have hb : (c.bad || c.reg (ρ a) != c.base || ap.any fun p => ρ p.1 == ρ p.2) =
        (d.bad || d.reg (id a) != d.base || ap.any fun p => id p.1 == id p.2) := by
      rw [hbad, ra, hbase, hap]; rfl
    simp only [exec]
    rw [← hfl, ← hlink, hb]
    split
    · split
      · refine ⟨⟨by simp [hpc], by simp, by simp, by simp [hbase], by simp [hseen],
          by simp [rdok', hwrote], rfl, ?_⟩, by simp [rdok']⟩
        intro s hs; exact kw s hs _
      · refine ⟨⟨by simp [hpc], by simp, by simp, by simp [hbase], by simp [hseen],
          by simp [hwrote], rfl, ?_⟩, rfl⟩
        intro s hs; exact kw s hs _
    · refine ⟨⟨by simp [hpc], by simp, by simp, by simp [hbase], by simp [hseen], by simp [hwrote],
        by simpa using hbad, ?_⟩, rfl⟩
      intro s hs
      obtain ⟨h5, _⟩ := h2 (c.pc + 1) (by simp [Ins.succs]) s hs
      rcases h5 with h | h
      · simp [Ins.kills] at h
      · exact hreg s h
  | rmw a rs ws f =>
    have ra := hreg a (h1 a (by simp [Ins.reads]))
    have rdok' : rd ρ c.reg rs = rd id d.reg rs :=
      rd_agree hreg fun s hs => h1 s (List.mem_cons_of_mem _ hs)
    simp only [exec]
    rw [← rdok', ← hfl]
    rcases hf : f o.val (rd ρ c.reg rs) c.fl with ⟨_ | v, vs, fl⟩
    · refine ⟨⟨by simp [hpc], by simp, by simp [hlink], by simp [hbase], by simp [hseen],
        by simp [hwrote], by simp [hbad, ra, hbase], ?_⟩, rfl⟩
      intro s hs
      exact key (c.pc + 1) (by simp [Ins.succs]) s hs _
    · refine ⟨⟨by simp [hpc], by simp, by simp [hlink], by simp [hbase], by simp [hseen],
        by simp [hwrote], by simp [hbad, ra, hbase], ?_⟩, rfl⟩
      intro s hs
      exact key (c.pc + 1) (by simp [Ins.succs]) s hs _
  | jump rs cond t lab fwd off =>
    simp only [Ins.reads] at rdok
    refine ⟨⟨?_, hfl, hlink, hbase, hseen, hwrote, hbad, ?_⟩, rfl⟩
    · simp [exec, hpc, rdok, hfl]
    · intro s hs
      simp only [exec] at hs ⊢
      refine key (if cond (rd ρ c.reg rs) c.fl then t else c.pc + 1) ?_ s hs []
      split <;> simp [Ins.succs]

theorem safe_ins {b : Block R M} {L : List (List Slot)} (hs : b.safeWith L = true) {n : Nat} {i : Ins R M}
    (hi : b.prog[n]? = some i) : insOk b L i n = true := by
  simp only [Block.safeWith, Bool.and_eq_true, List.all_eq_true] at hs
  exact hs.1 (i, n) (by rw [List.mem_zipIdx_iff_getElem?]; exact hi)

/-- Under a legal assignment a checked block behaves as if every operand had its own register. -/
theorem sim {b : Block R M} {L : List (List Slot)} (hs : b.safeWith L = true) {ρ : Slot → Nat}
    (hl : b.Legal ρ) {base : BitVec R} {reg : Nat → BitVec R} {fl : Flags}
    {link : Option (Nat × BitVec M)} {c : Cpu R M} (h : AReach b.prog ρ (entry base reg fl link) c) :
    ∃ d, AReach b.prog id (entry base (fun s => reg (ρ s)) fl link) d ∧
      Agree ρ (L.getD c.pc []) c d := by
  induction h with
  | start => exact ⟨_, .start, ⟨rfl, rfl, rfl, rfl, rfl, rfl, rfl, fun _ _ => rfl⟩⟩
  | @step c i o _ hi hv ho ih =>
    obtain ⟨d, hd, ha⟩ := ih
    exact ⟨_, .step o hd (ha.pc ▸ hi) (by rw [← ha.link]; exact hv) (by rw [← ha.link]; exact ho),
      (exec_agree hl o ha (safe_ins hs hi)).1⟩

/-- The same for a core that is left alone. -/
theorem sim_alone {b : Block R M} {L : List (List Slot)} (hs : b.safeWith L = true) {ρ : Slot → Nat}
    (hl : b.Legal ρ) (junk : Slot → BitVec R) : ∀ (n : Nat) (m : Cell M) (c d : Cpu R M),
    Agree ρ (L.getD c.pc []) c d →
      (alone b.prog ρ junk n (m, c)).2.pc = (alone b.prog id junk n (m, d)).2.pc
  | 0, _, _, _, ha => ha.pc
  | n + 1, m, c, d, ha => by
    simp only [alone]
    rw [← ha.pc, ← ha.link]
    cases hi : b.prog[c.pc]? with
    | none => exact ha.pc
    | some i =>
      obtain ⟨h1, h2⟩ := exec_agree hl ⟨m.val, m.ver, decide (c.link.map Prod.fst = some m.ver), junk⟩ ha
        (safe_ins hs hi)
      simp only [h2]
      exact sim_alone hs hl junk n _ _ _ h1

/-- A register no instruction writes keeps its contents. -/
theorem frame {prog : List (Ins R M)} {ρ : Slot → Nat} {c₀ c : Cpu R M} {k : Nat}
    (hk : ∀ i ∈ prog, ∀ w ∈ i.writes, ρ w ≠ k) (h : AReach prog ρ c₀ c) : c.reg k = c₀.reg k := by
  have wr_other : ∀ (ws : List Slot) (r : Nat → BitVec R) (vs : List (BitVec R)),
      (∀ w ∈ ws, ρ w ≠ k) → wr ρ r ws vs k = r k := by
    intro ws
    induction ws with
    | nil => intros; rfl
    | cons w ws ih =>
      intro r vs h
      rw [wr, ih _ _ fun x hx => h x (List.mem_cons_of_mem _ hx)]
      simp [upd, (h w (List.mem_cons_self ..)).symm]
  induction h with
  | start => rfl
  | @step c i o _ hi _ _ ih =>
    have h1 := hk i (List.mem_of_getElem? hi)
    rw [← ih]
    cases i with
    | label | store | jump => rfl
    | comp rs ws f => exact wr_other ws _ _ h1
    | havoc ws => exact wr_other ws _ _ h1
    | load a l w ws f => exact wr_other ws _ _ h1
    | sc a cond rs ws ap g st =>
      simp only [exec]
      split
      · split <;> exact wr_other ws _ _ h1
      · rfl
    | rmw a rs ws f =>
      simp only [exec]
      split <;> exact wr_other ws _ _ h1

/-! ### Passes -/

/-- `K` holds after the instruction, whatever it finds outside the core. -/
def insWp (i : Ins R M) (c : Cpu R M) (K : Cpu R M → Prop) : Prop :=
  match i with
  | .label _ => K { c with pc := c.pc + 1 }
  | .comp rs ws f => K { c with
      pc := c.pc + 1, reg := wr id c.reg ws (f (rd id c.reg rs) c.fl).1
      fl := (f (rd id c.reg rs) c.fl).2 }
  | .havoc ws => ∀ junk : Slot → BitVec R, K { c with
      pc := c.pc + 1, reg := wr id c.reg ws (ws.map junk) }
  | .load a .plain whole ws f => ∀ val, K { c with
      pc := c.pc + 1, reg := wr id c.reg ws (f val)
      seen := if whole then c.seen ++ [val] else c.seen
      bad := c.bad || c.reg a != c.base }
  | .load a .set whole ws f => ∀ ver val, K { c with
      pc := c.pc + 1, reg := wr id c.reg ws (f val)
      link := some (ver, val)
      seen := if whole then c.seen ++ [val] else c.seen
      bad := c.bad || c.reg a != c.base }
  | .load a .keep whole ws f =>
    (∀ v x, c.link = some (v, x) → K { c with
      pc := c.pc + 1, reg := wr id c.reg ws (f x)
      seen := if whole then c.seen ++ [x] else c.seen
      bad := c.bad || c.reg a != c.base }) ∧
    (∀ val, K { c with
      pc := c.pc + 1, reg := wr id c.reg ws (f val), link := none
      seen := if whole then c.seen ++ [val] else c.seen
      bad := c.bad || c.reg a != c.base })
  | .store a rs g => ∀ val, K { c with
      pc := c.pc + 1, wrote := c.wrote ++ [(val, g (rd id c.reg rs))]
      bad := c.bad || c.reg a != c.base }
  | .sc a cond rs ws apart g st =>
    (cond c.fl = true →
      (∀ v x, c.link = some (v, x) → K { c with
        pc := c.pc + 1, reg := wr id c.reg ws (st true c.fl).1, fl := (st true c.fl).2, link := none
        wrote := c.wrote ++ [(x, g (rd id c.reg rs))]
        bad := c.bad || c.reg a != c.base || apart.any fun p => p.1 == p.2 }) ∧
      K { c with
        pc := c.pc + 1, reg := wr id c.reg ws (st false c.fl).1, fl := (st false c.fl).2, link := none
        bad := c.bad || c.reg a != c.base || apart.any fun p => p.1 == p.2 }) ∧
    (cond c.fl = false → K { c with pc := c.pc + 1 })
  | .rmw a rs ws f => ∀ val,
    (∀ v, (f val (rd id c.reg rs) c.fl).1 = some v → K { c with
        pc := c.pc + 1, reg := wr id c.reg ws (f val (rd id c.reg rs) c.fl).2.1
        fl := (f val (rd id c.reg rs) c.fl).2.2, wrote := c.wrote ++ [(val, v)]
        bad := c.bad || c.reg a != c.base }) ∧
    ((f val (rd id c.reg rs) c.fl).1 = none → K { c with
        pc := c.pc + 1, reg := wr id c.reg ws (f val (rd id c.reg rs) c.fl).2.1
        fl := (f val (rd id c.reg rs) c.fl).2.2, seen := c.seen ++ [val]
        bad := c.bad || c.reg a != c.base })
  | .jump rs cond t _ _ _ =>
    (cond (rd id c.reg rs) c.fl = true → K { c with pc := t }) ∧
    (cond (rd id c.reg rs) c.fl = false → K { c with pc := c.pc + 1 })

theorem insWp_sound {i : Ins R M} {c : Cpu R M} {K : Cpu R M → Prop} (h : insWp i c K) {o : Orc R M}
    (hv : ∀ x, c.link = some (o.ver, x) → x = o.val)
    (ho : o.ok = true → c.link.map Prod.fst = some o.ver) : K (exec id i o c).1 := by
  cases i with
  | label | comp => exact h
  | havoc => exact h _
  | load a l w ws f =>
    cases l with
    | plain => exact h _
    | set => exact h _ _
    | keep =>
      obtain ⟨h1, h2⟩ := h
      simp only [exec, Link.after]
      split
      · rename_i hl
        obtain ⟨⟨v, x⟩, h3, h4⟩ := Option.map_eq_some_iff.1 hl
        simp only at h4
        subst h4
        have := hv x h3
        subst this
        exact h1 _ _ h3
      · exact h2 _
  | store => exact h _
  | sc a cond rs ws ap g st =>
    simp only [exec]
    by_cases hc : cond c.fl = true
    · rw [if_pos hc]
      obtain ⟨h1, h2⟩ := h.1 hc
      split
      · rename_i p hl hok
        obtain ⟨v, x⟩ := p
        have h3 := ho hok
        rw [hl] at h3
        simp only [Option.map_some, Option.some.injEq] at h3
        subst h3
        have := hv x hl
        subst this
        exact h1 _ _ hl
      · exact h2
    · rw [if_neg hc]
      exact h.2 (by simpa using hc)
  | rmw a rs ws f =>
    have := h o.val
    simp only [exec]
    split <;> simp_all
  | jump rs cond t lab fwd off =>
    simp only [exec]
    by_cases hc : cond (rd id c.reg rs) c.fl = true
    · rw [if_pos hc]; exact h.1 hc
    · rw [if_neg hc]; exact h.2 (by simpa using hc)

/-- `Q` holds when control, starting from `c`, reaches one of `cuts` or leaves the block (within `n`
instructions). -/
def wp (prog : List (Ins R M)) (cuts : List Nat) (Q : Cpu R M → Prop) : Nat → Cpu R M → Prop
  | 0, c => Q c
  | n + 1, c =>
    match prog[c.pc]? with
    | none => Q c
    | some i => insWp i c fun c' => if cuts.contains c'.pc then Q c' else wp prog cuts Q n c'

/-- Records only grow. -/
theorem exec_mono (ρ : Slot → Nat) (i : Ins R M) (o : Orc R M) (c : Cpu R M) :
    (c.bad = true → (exec ρ i o c).1.bad = true) ∧ ∃ l, (exec ρ i o c).1.wrote = c.wrote ++ l := by
  cases i with
  | label | comp | havoc | jump => exact ⟨id, [], by simp [exec]⟩
  | load => exact ⟨fun h => by simp [exec, h], [], by simp [exec]⟩
  | store => exact ⟨fun h => by simp [exec, h], _, rfl⟩
  | sc addr cond rs ws apart g st =>
    simp only [exec]
    split
    · split
      · exact ⟨fun h => by simp [h], _, rfl⟩
      · exact ⟨fun h => by simp [h], [], by simp⟩
    · exact ⟨id, [], by simp⟩
  | rmw addr rs ws f =>
    simp only [exec]
    split
    · exact ⟨fun h => by simp [h], _, rfl⟩
    · exact ⟨fun h => by simp [h], [], by simp⟩

/-- Some behaviour of the rest of the system. -/
def orc0 (c : Cpu R M) : Orc R M := ⟨0, match c.link with | some (v, _) => v + 1 | none => 0, false, fun _ => 0⟩

theorem orc0_ok (c : Cpu R M) : ∀ x, c.link = some ((orc0 c).ver, x) → x = (orc0 c).val := by
  intro x h
  simp only [orc0] at h
  cases hc : c.link with
  | none => rw [hc] at h; cases h
  | some p =>
    obtain ⟨v, y⟩ := p
    rw [hc] at h
    simp only [Option.some.injEq, Prod.mk.injEq] at h
    omega

theorem wp_mono {prog : List (Ins R M)} {cuts : List Nat} {Q : Cpu R M → Prop} :
    ∀ (n : Nat) (c : Cpu R M), wp prog cuts Q n c →
      ∃ c', Q c' ∧ (c.bad = true → c'.bad = true) ∧ ∃ l, c'.wrote = c.wrote ++ l
  | 0, c, h => ⟨c, h, id, [], by simp⟩
  | n + 1, c, h => by
    unfold wp at h
    split at h
    · exact ⟨c, h, id, [], by simp⟩
    · rename_i i hi
      have h1 := insWp_sound h (o := orc0 c) (orc0_ok c) (by simp [orc0])
      obtain ⟨m1, l1, m2⟩ := exec_mono id i (orc0 c) c
      split at h1
      · exact ⟨_, h1, m1, l1, m2⟩
      · obtain ⟨c', q, m3, l2, m4⟩ := wp_mono n _ h1
        exact ⟨c', q, fun h => m3 (m1 h), l1 ++ l2, by rw [m4, m2, List.append_assoc]⟩

/-- The result is correct for the store that was made, or else for the last value seen. -/
def Last (spec : SeqSpec (BitVec M) Op Ret) (op : Op) (seen : List (BitVec M))
    (wrote : List (BitVec M × BitVec M)) (r : Ret) : Prop :=
  match wrote with
  | [] => match seen.getLast? with
    | some m => spec m op m r
    | none => False
  | [(m, m')] => spec m op m' r
  | _ => False

theorem Last.explains {spec : SeqSpec (BitVec M) Op Ret} {op : Op} {c : Cpu R M} {r : Ret}
    (h : Last spec op c.seen c.wrote r) : Explains spec op c r := by
  unfold Last at h
  split at h
  · rename_i hw
    split at h
    · rename_i m hm
      exact .inr ⟨hw, m, List.mem_of_getLast? hm, h⟩
    · exact h.elim
  · rename_i m m' hw
    exact .inl ⟨m, m', hw, h⟩
  · exact h.elim

/-- What must hold after a pass: the core is back at a cut with the operands still in place and without
having stored, or the block is finished, the result is correct (`fin`) and the operands in `restored` are as
before. -/
def After (prog : List (Ins R M)) (cuts : List Nat)
    (fin : List (BitVec M) → List (BitVec M × BitVec M) → Ret → Prop)
    (inv : Nat → (Slot → BitVec R) → (Slot → BitVec R) → Prop) (restored : List Slot) (base : BitVec R)
    (x : Slot → BitVec R) (ret : (Slot → BitVec R) → Ret)
    (c : Cpu R M) : Prop :=
  (c.pc = prog.length ∧ c.bad = false ∧ fin c.seen c.wrote (ret c.reg) ∧
    ∀ s ∈ restored, c.reg s = x s) ∨
    (c.pc < prog.length ∧ cuts.contains c.pc = true ∧ c.bad = false ∧ c.wrote = [] ∧ c.base = base ∧
      inv c.pc x c.reg)

/-- The rule for blocks whose operands all have registers of their own. -/
theorem pass_rule {prog : List (Ins R M)} (cuts : List Nat) {spec : SeqSpec (BitVec M) Op Ret} {op : Op}
    (inv : Nat → (Slot → BitVec R) → (Slot → BitVec R) → Prop) (restored : List Slot) {base : BitVec R}
    {x : Slot → BitVec R} {ret : (Slot → BitVec R) → Ret}
    {fin : List (BitVec M) → List (BitVec M × BitVec M) → Ret → Prop}
    (hfin : ∀ (c : Cpu R M) r, fin c.seen c.wrote r → Explains spec op c r)
    (N : Nat)
    (hpass : ∀ c, c.pc < prog.length → cuts.contains c.pc = true → c.bad = false → c.wrote = [] →
      c.base = base → inv c.pc x c.reg →
      wp prog cuts (After prog cuts fin inv restored base x ret) (N + 1) c)
    {c₀ : Cpu R M} (h₀ : After prog cuts fin inv restored base x ret c₀) {c : Cpu R M}
    (h : AReach prog id c₀ c) :
    c.bad = false ∧ c.pc ≤ prog.length ∧
      (c.wrote = [] ∨ ∃ m m', c.wrote = [(m, m')] ∧ ∃ r, spec m op m' r) ∧
      (c.pc = prog.length → Explains spec op c (ret c.reg) ∧ ∀ s ∈ restored, c.reg s = x s) := by
  have J : ∃ n, wp prog cuts (After prog cuts fin inv restored base x ret) n c := by
    induction h with
    | start => exact ⟨0, h₀⟩
    | @step c i o hr hi hv ho ih =>
      have step : ∀ n, wp prog cuts (After prog cuts fin inv restored base x ret) (n + 1) c →
          ∃ n, wp prog cuts (After prog cuts fin inv restored base x ret) n (exec id i o c).1 := by
        intro n hn
        simp only [wp, hi] at hn
        have := insWp_sound hn hv ho
        split at this
        · exact ⟨0, this⟩
        · exact ⟨n, this⟩
      have hlt : c.pc < prog.length := (List.getElem?_eq_some_iff.1 hi).1
      obtain ⟨n, hn⟩ := ih
      cases n with
      | succ n => exact step n hn
      | zero =>
        rcases hn with ⟨h1, _⟩ | ⟨h1, h2, h3, h4, h5, h6⟩
        · omega
        · exact step N (hpass c h1 h2 h3 h4 h5 h6)
  obtain ⟨n, hn⟩ := J
  have hstuck : prog.length ≤ c.pc → After prog cuts fin inv restored base x ret c := by
    intro h
    cases n with
    | zero => exact hn
    | succ n => simpa [wp, List.getElem?_eq_none h] using hn
  obtain ⟨c', hc', mb, l, ml⟩ := wp_mono n c hn
  have hbad : c.bad = false := by
    cases hb : c.bad with
    | false => rfl
    | true =>
      have := mb hb
      rcases hc' with ⟨_, h2, _⟩ | ⟨_, _, h3, _⟩
      · rw [this] at h2; cases h2
      · rw [this] at h3; cases h3
  refine ⟨hbad, ?_, ?_, ?_⟩
  · by_cases h : c.pc ≤ prog.length
    · exact h
    · rcases hstuck (by omega) with ⟨h1, _⟩ | ⟨h1, _⟩ <;> omega
  · rcases hc' with ⟨_, _, h3, _⟩ | ⟨_, _, _, h4, _⟩
    · rcases (hfin _ _ h3) with ⟨m, m', h5, h6⟩ | ⟨h5, _⟩
      · rw [h5] at ml
        cases hw : c.wrote with
        | nil => exact .inl rfl
        | cons a t =>
          rw [hw] at ml
          right
          simp only [List.cons_append, List.cons.injEq] at ml
          obtain ⟨rfl, h7⟩ := ml
          have : t = [] := (List.append_eq_nil_iff.1 h7.symm).1
          subst this
          exact ⟨m, m', rfl, _, h6⟩
      · rw [h5] at ml
        exact .inl (List.append_eq_nil_iff.1 ml.symm).1
    · rw [h4] at ml
      exact .inl (List.append_eq_nil_iff.1 ml.symm).1
  · intro h
    rcases hstuck (by omega) with ⟨_, _, h3, h4⟩ | ⟨h1, _⟩
    · exact ⟨(hfin _ _ h3), h4⟩
    · omega

/-! ### A core that is left alone -/

/-- `K` holds after the instruction, for a core that is left alone. -/
def insA (junk : Slot → BitVec R) (i : Ins R M) (m : Cell M) (c : Cpu R M)
    (K : Cell M → Cpu R M → Prop) : Prop :=
  match i with
  | .label _ => K m { c with pc := c.pc + 1 }
  | .comp rs ws f => K m { c with
      pc := c.pc + 1, reg := wr id c.reg ws (f (rd id c.reg rs) c.fl).1
      fl := (f (rd id c.reg rs) c.fl).2 }
  | .havoc ws => K m { c with
      pc := c.pc + 1, reg := wr id c.reg ws (ws.map junk) }
  | .load a l whole ws f => K m { c with
      pc := c.pc + 1, reg := wr id c.reg ws (f m.val)
      link := l.after c.link m.ver m.val
      seen := if whole then c.seen ++ [m.val] else c.seen
      bad := c.bad || c.reg a != c.base }
  | .store a rs g => K ⟨g (rd id c.reg rs), m.ver + 1⟩ { c with
      pc := c.pc + 1, wrote := c.wrote ++ [(m.val, g (rd id c.reg rs))]
      bad := c.bad || c.reg a != c.base }
  | .sc a cond rs ws apart g st =>
    (cond c.fl = true →
      (c.link.map Prod.fst = some m.ver → K ⟨g (rd id c.reg rs), m.ver + 1⟩ { c with
        pc := c.pc + 1, reg := wr id c.reg ws (st true c.fl).1, fl := (st true c.fl).2, link := none
        wrote := c.wrote ++ [(m.val, g (rd id c.reg rs))]
        bad := c.bad || c.reg a != c.base || apart.any fun p => p.1 == p.2 }) ∧
      (c.link.map Prod.fst ≠ some m.ver → K m { c with
        pc := c.pc + 1, reg := wr id c.reg ws (st false c.fl).1, fl := (st false c.fl).2, link := none
        bad := c.bad || c.reg a != c.base || apart.any fun p => p.1 == p.2 })) ∧
    (cond c.fl = false → K m { c with pc := c.pc + 1 })
  | .rmw a rs ws f =>
    (∀ v, (f m.val (rd id c.reg rs) c.fl).1 = some v → K ⟨v, m.ver + 1⟩ { c with
        pc := c.pc + 1, reg := wr id c.reg ws (f m.val (rd id c.reg rs) c.fl).2.1
        fl := (f m.val (rd id c.reg rs) c.fl).2.2, wrote := c.wrote ++ [(m.val, v)]
        bad := c.bad || c.reg a != c.base }) ∧
    ((f m.val (rd id c.reg rs) c.fl).1 = none → K m { c with
        pc := c.pc + 1, reg := wr id c.reg ws (f m.val (rd id c.reg rs) c.fl).2.1
        fl := (f m.val (rd id c.reg rs) c.fl).2.2, seen := c.seen ++ [m.val]
        bad := c.bad || c.reg a != c.base })
  | .jump rs cond t _ _ _ =>
    (cond (rd id c.reg rs) c.fl = true → K m { c with pc := t }) ∧
    (cond (rd id c.reg rs) c.fl = false → K m { c with pc := c.pc + 1 })

/-- The core reaches the end within `n` instructions. -/
def wpA (prog : List (Ins R M)) (junk : Slot → BitVec R) : Nat → Cell M → Cpu R M → Prop
  | 0, _, c => c.pc = prog.length
  | n + 1, m, c =>
    match prog[c.pc]? with
    | none => c.pc = prog.length
    | some i => insA junk i m c fun m' c' => wpA prog junk n m' c'

theorem insA_sound {junk : Slot → BitVec R} {i : Ins R M} {m : Cell M} {c : Cpu R M}
    {K : Cell M → Cpu R M → Prop} (h : insA junk i m c K) :
    let r := exec id i ⟨m.val, m.ver, decide (c.link.map Prod.fst = some m.ver), junk⟩ c
    K (match r.2 with | some v => ⟨v, m.ver + 1⟩ | none => m) r.1 := by
  cases i with
  | label | comp | havoc | load | store => exact h
  | sc a cond rs ws ap g st =>
    simp only [exec]
    by_cases hc : cond c.fl = true
    · simp only [if_pos hc]
      obtain ⟨h1, h2⟩ := h.1 hc
      by_cases hm : c.link.map Prod.fst = some m.ver
      · obtain ⟨p, hp, hq⟩ := Option.map_eq_some_iff.1 hm
        simp only [hp, Option.map_some, hq, decide_true]
        exact h1 hm
      · cases hl : c.link with
        | none => exact h2 hm
        | some p =>
          have : decide (p.1 = m.ver) = false := by
            rw [hl] at hm; simpa using hm
          simp only [Option.map_some, Option.some.injEq, this]
          exact h2 hm
    · simp only [if_neg hc]
      exact h.2 (by simpa using hc)
  | rmw a rs ws f =>
    simp only [insA] at h
    simp only [exec]
    rcases hf : f m.val (rd id c.reg rs) c.fl with ⟨_ | v, vs, fl⟩ <;> simp_all
  | jump rs cond t lab fwd off =>
    simp only [exec]
    by_cases hc : cond (rd id c.reg rs) c.fl = true
    · simp only [if_pos hc]; exact h.1 hc
    · simp only [if_neg hc]; exact h.2 (by simpa using hc)

theorem wpA_sound {prog : List (Ins R M)} {junk : Slot → BitVec R} : ∀ (n : Nat) (m : Cell M) (c : Cpu R M),
    wpA prog junk n m c → (alone prog id junk n (m, c)).2.pc = prog.length
  | 0, _, _, h => h
  | n + 1, m, c, h => by
    simp only [wpA] at h
    simp only [alone]
    cases hi : prog[c.pc]? with
    | none => rw [hi] at h; exact h
    | some i =>
      rw [hi] at h
      exact wpA_sound n _ _ (insA_sound h)

/-! Equations for evaluation.  They are not used as definitional equations, on which the kernel would spend time
exponential in the number of instructions. -/

section
variable {junk : Slot → BitVec R} {m : Cell M} {c : Cpu R M} {K : Cell M → Cpu R M → Prop} {prog : List (Ins R M)}
theorem insA_label {n : Nat} : insA junk (.label n) m c K = K m { c with pc := c.pc + 1 } := by simp [insA]
theorem insA_comp {rs ws : List Slot} {f : List (BitVec R) → Flags → List (BitVec R) × Flags} :
    insA junk (.comp rs ws f) m c K = K m { c with
      pc := c.pc + 1, reg := wr id c.reg ws (f (rd id c.reg rs) c.fl).1
      fl := (f (rd id c.reg rs) c.fl).2 } := by simp [insA]
theorem insA_havoc {ws : List Slot} : insA junk (.havoc ws) m c K = K m { c with
      pc := c.pc + 1, reg := wr id c.reg ws (ws.map junk) } := by simp [insA]
theorem insA_load {a : Slot} {l : Link} {whole : Bool} {ws : List Slot} {f : BitVec M → List (BitVec R)} :
    insA junk (.load a l whole ws f) m c K = K m { c with
      pc := c.pc + 1, reg := wr id c.reg ws (f m.val)
      link := l.after c.link m.ver m.val
      seen := if whole then c.seen ++ [m.val] else c.seen
      bad := c.bad || c.reg a != c.base } := by simp [insA]
theorem insA_store {a : Slot} {rs : List Slot} {g : List (BitVec R) → BitVec M} :
    insA junk (.store a rs g) m c K = K ⟨g (rd id c.reg rs), m.ver + 1⟩ { c with
      pc := c.pc + 1, wrote := c.wrote ++ [(m.val, g (rd id c.reg rs))]
      bad := c.bad || c.reg a != c.base } := by simp [insA]
theorem insA_sc {a : Slot} {cond : Flags → Bool} {rs ws : List Slot} {apart : List (Slot × Slot)}
    {g : List (BitVec R) → BitVec M} {st : Bool → Flags → List (BitVec R) × Flags} :
    insA junk (.sc a cond rs ws apart g st) m c K =
    ((cond c.fl = true →
      (c.link.map Prod.fst = some m.ver → K ⟨g (rd id c.reg rs), m.ver + 1⟩ { c with
        pc := c.pc + 1, reg := wr id c.reg ws (st true c.fl).1, fl := (st true c.fl).2, link := none
        wrote := c.wrote ++ [(m.val, g (rd id c.reg rs))]
        bad := c.bad || c.reg a != c.base || apart.any fun p => p.1 == p.2 }) ∧
      (c.link.map Prod.fst ≠ some m.ver → K m { c with
        pc := c.pc + 1, reg := wr id c.reg ws (st false c.fl).1, fl := (st false c.fl).2, link := none
        bad := c.bad || c.reg a != c.base || apart.any fun p => p.1 == p.2 })) ∧
    (cond c.fl = false → K m { c with pc := c.pc + 1 })) := by simp only [insA]
theorem insA_rmw {a : Slot} {rs ws : List Slot}
    {f : BitVec M → List (BitVec R) → Flags → Option (BitVec M) × List (BitVec R) × Flags} :
    insA junk (.rmw a rs ws f) m c K =
    ((∀ v, (f m.val (rd id c.reg rs) c.fl).1 = some v → K ⟨v, m.ver + 1⟩ { c with
        pc := c.pc + 1, reg := wr id c.reg ws (f m.val (rd id c.reg rs) c.fl).2.1
        fl := (f m.val (rd id c.reg rs) c.fl).2.2, wrote := c.wrote ++ [(m.val, v)]
        bad := c.bad || c.reg a != c.base }) ∧
    ((f m.val (rd id c.reg rs) c.fl).1 = none → K m { c with
        pc := c.pc + 1, reg := wr id c.reg ws (f m.val (rd id c.reg rs) c.fl).2.1
        fl := (f m.val (rd id c.reg rs) c.fl).2.2, seen := c.seen ++ [m.val]
        bad := c.bad || c.reg a != c.base })) := by simp only [insA]
theorem insA_jump {rs : List Slot} {cond : List (BitVec R) → Flags → Bool} {t l : Nat} {fwd : Bool} {off : Option Int} :
    insA junk (.jump rs cond t l fwd off) m c K =
    ((cond (rd id c.reg rs) c.fl = true → K m { c with pc := t }) ∧
    (cond (rd id c.reg rs) c.fl = false → K m { c with pc := c.pc + 1 })) := by simp only [insA]
theorem wpA_zero : wpA prog junk 0 m c = (c.pc = prog.length) := by simp [wpA]
theorem wpA_end {n : Nat} (h : prog[c.pc]? = none) : wpA prog junk (n + 1) m c = (c.pc = prog.length) := by
  simp [wpA, h]
theorem wpA_step {n : Nat} {i : Ins R M} (h : prog[c.pc]? = some i) :
    wpA prog junk (n + 1) m c = insA junk i m c fun m' c' => wpA prog junk n m' c' := by
  simp [wpA, h]
end

/-! ### The rule -/

/-- The static check that the block writes only operands declared as outputs, or restores them. -/
def Block.tidy (b : Block R M) (restored : List Slot) : Bool :=
  (b.prog.all fun i => i.writes.all fun w =>
    (b.opnds.any fun p => p.1 == w && p.2.written) || restored.contains w) &&
  restored.all fun s => b.results.contains s

/-- As `correct_of`, with any sufficient condition `fin` for the result to be correct. -/
theorem correct_of_fin {b : Block R M} {spec : SeqSpec (BitVec M) Op Ret} {op : Op}
    {pre : (Slot → BitVec R) → Prop} {ret : (Slot → BitVec R) → Ret}
    {fin : List (BitVec M) → List (BitVec M × BitVec M) → Ret → Prop}
    (hfin : ∀ (c : Cpu R M) r, fin c.seen c.wrote r → Explains spec op c r)
    (cuts : List Nat) (inv : Nat → (Slot → BitVec R) → (Slot → BitVec R) → Prop) (restored : List Slot)
    (N : Nat)
    (hlab : (b.labelled && b.addressed) = true) (hs : b.safe = true) (ht : b.tidy restored = true)
    (hinv : ∀ x : Slot → BitVec R, inv 0 x x) (hcut : cuts.contains 0 = true) (hlen : 0 < b.prog.length)
    (hret : ∀ r r' : Slot → BitVec R, (∀ s ∈ b.results, r s = r' s) → ret r = ret r') (hload : b.Loads pre)
    (hpass : ∀ base, ∀ x : Slot → BitVec R, base ≠ 0 → pre x → (∀ s ∈ b.addr, x s = base) →
      ∀ pc ∈ cuts, ∀ reg fl link seen, inv pc x reg →
      wp b.prog cuts (After b.prog cuts fin inv restored base x ret) (b.prog.length + 1)
        { pc := pc, reg := reg, fl := fl, link := link, base := base, seen := seen, wrote := []
          bad := false })
    (hend : ∀ base, ∀ x : Slot → BitVec R, base ≠ 0 → pre x → (∀ s ∈ b.addr, x s = base) →
      ∀ fl link (m : Cell M) junk, (∀ v x, link = some (v, x) → v ≤ m.ver) →
      wpA b.prog junk N m (entry base x fl link)) :
    Correct b spec op pre ret := by
  have hlast : (liveIter b (2 * b.prog.length)).getD b.prog.length [] = b.results := by
    simp only [Block.safe, Block.safeWith, Bool.and_eq_true, beq_iff_eq] at hs
    exact hs.2
  refine ⟨hlab, hload, ?_, ?_⟩
  · intro ρ hl base reg fl link hb0 hpre haddr m c hr
    have har := (reach_areach hr).1
    obtain ⟨d, hd, ha⟩ := sim hs hl har
    have h0 : After b.prog cuts fin inv restored base (fun s => reg (ρ s)) ret
        (entry base (fun s => reg (ρ s)) fl link) :=
      .inr ⟨hlen, hcut, rfl, rfl, rfl, hinv _⟩
    obtain ⟨h1, h2, h3, h4⟩ := pass_rule cuts inv restored hfin (b.prog.length) (by
      intro c _ hc hb hw hbase hk
      obtain ⟨pc, reg', fl', link', base', seen, wrote, bad⟩ := c
      simp only at hc hb hw hk hbase
      subst hb hw hbase
      exact hpass _ _ hb0 hpre haddr pc (List.contains_iff_mem.1 hc) _ _ _ _ hk) h0 hd
    refine ⟨ha.bad ▸ h1, ha.pc ▸ h2, ha.wrote ▸ h3, fun h => ?_, fun h k hk => ?_⟩
    · have h5 := (h4 (ha.pc ▸ h)).1
      have : ret (fun s => c.reg (ρ s)) = ret d.reg := by
        refine hret _ _ fun s hm => ha.reg s ?_
        rw [h, hlast]
        exact hm
      rw [this]
      unfold Explains
      rw [ha.wrote, ha.seen]
      exact h5
    · simp only [Block.tidy, Bool.and_eq_true, List.all_eq_true, Bool.or_eq_true, List.any_eq_true,
        beq_iff_eq, List.contains_iff_mem] at ht
      by_cases hw : ∃ i ∈ b.prog, ∃ w ∈ i.writes, ρ w = k
      · obtain ⟨i, hi, w, hw, rfl⟩ := hw
        rcases ht.1 i hi w hw with ⟨p, hp, rfl, hpw⟩ | h5
        · exact absurd rfl (hk p hp hpw)
        · rw [ha.reg w (by rw [h, hlast]; exact ht.2 w h5)]
          exact (h4 (ha.pc ▸ h)).2 w h5
      · exact frame (fun i hi w hw' e => hw ⟨i, hi, w, hw', e⟩) har
  · intro ρ hl base reg fl link hb0 hpre haddr m junk hlk
    refine ⟨N, ?_⟩
    rw [sim_alone hs hl junk N m (entry base reg fl link) (entry base (fun s => reg (ρ s)) fl link)
      ⟨rfl, rfl, rfl, rfl, rfl, rfl, rfl, fun _ _ => rfl⟩]
    exact wpA_sound _ _ _ (hend base _ hb0 hpre haddr fl link m junk hlk)

/-- The rule for blocks: the static checks, and every pass from a cut ends well; a core left alone
reaches the end. -/
theorem correct_of {b : Block R M} {spec : SeqSpec (BitVec M) Op Ret} {op : Op}
    {pre : (Slot → BitVec R) → Prop} {ret : (Slot → BitVec R) → Ret}
    (cuts : List Nat) (inv : Nat → (Slot → BitVec R) → (Slot → BitVec R) → Prop) (restored : List Slot)
    (N : Nat)
    (hlab : (b.labelled && b.addressed) = true) (hs : b.safe = true) (ht : b.tidy restored = true)
    (hinv : ∀ x : Slot → BitVec R, inv 0 x x) (hcut : cuts.contains 0 = true) (hlen : 0 < b.prog.length)
    (hret : ∀ r r' : Slot → BitVec R, (∀ s ∈ b.results, r s = r' s) → ret r = ret r') (hload : b.Loads pre)
    (hpass : ∀ base, ∀ x : Slot → BitVec R, base ≠ 0 → pre x → (∀ s ∈ b.addr, x s = base) →
      ∀ pc ∈ cuts, ∀ reg fl link seen, inv pc x reg →
      wp b.prog cuts (After b.prog cuts (Last spec op) inv restored base x ret) (b.prog.length + 1)
        { pc := pc, reg := reg, fl := fl, link := link, base := base, seen := seen, wrote := []
          bad := false })
    (hend : ∀ base, ∀ x : Slot → BitVec R, base ≠ 0 → pre x → (∀ s ∈ b.addr, x s = base) →
      ∀ fl link (m : Cell M) junk, (∀ v x, link = some (v, x) → v ≤ m.ver) →
      wpA b.prog junk N m (entry base x fl link)) :
    Correct b spec op pre ret :=
  correct_of_fin (fun _ _ => Last.explains) cuts inv restored N hlab hs ht hinv hcut hlen hret hload hpass hend

/-- Operands whose contents differ are in different registers. -/
theorem correct_differ {b : Block R M} {spec : SeqSpec (BitVec M) Op Ret} {op : Op}
    {pre : (Slot → BitVec R) → Prop} {ret : (Slot → BitVec R) → Ret} (D : List (Slot × Slot))
    (hD : ∀ base, ∀ x : Slot → BitVec R, base ≠ 0 → pre x → (∀ s ∈ b.addr, x s = base) →
      ∀ p ∈ D, x p.1 ≠ x p.2)
    (h : Correct { b with differ := D ++ b.differ } spec op pre ret) : Correct b spec op pre ret := by
  have legal : ∀ ρ : Slot → Nat, b.Legal ρ → ∀ (base : BitVec R) (reg : Nat → BitVec R), base ≠ 0 →
      pre (fun s => reg (ρ s)) → (∀ s ∈ b.addr, reg (ρ s) = base) →
      ({ b with differ := D ++ b.differ } : Block R M).Legal ρ :=
    fun ρ hl base reg h0 hp ha => ⟨hl.apart, hl.fixed, fun p hm e => by
      rcases List.mem_append.1 hm with hm | hm
      · exact hD base _ h0 hp ha p hm (by simp only [e])
      · exact hl.differ p hm e⟩
  exact ⟨h.labels, h.loads, fun ρ hl base reg fl link h0 hp ha => h.sound ρ (legal ρ hl base reg h0 hp ha) base reg fl link h0 hp ha,
    fun ρ hl base reg fl link h0 hp ha => h.ends ρ (legal ρ hl base reg h0 hp ha) base reg fl link h0 hp ha⟩

/-! ### Operands that may share a register -/

/-- The instruction with its operands renamed (except for `havoc`, whose operands have values of their
own). -/
def Ins.rename (f : Slot → Slot) : Ins R M → Ins R M
  | .label n => .label n
  | .comp rs ws g => .comp (rs.map f) (ws.map f) g
  | .havoc ws => .havoc ws
  | .load a l w ws g => .load (f a) l w (ws.map f) g
  | .store a rs g => .store (f a) (rs.map f) g
  | .sc a c rs ws ap g st => .sc (f a) c (rs.map f) (ws.map f) (ap.map fun p => (f p.1, f p.2)) g st
  | .rmw a rs ws g => .rmw (f a) (rs.map f) (ws.map f) g
  | .jump rs c t l fw off => .jump (rs.map f) c t l fw off

/-- `t` renamed to `s`. -/
def merge (s t u : Slot) : Slot := if u == t then s else u

/-- The block with operand `t` replaced by operand `s`. -/
def Block.merge (b : Block R M) (s t : Slot) : Block R M where
  prog := b.prog.map (Ins.rename (Asm.merge s t))
  opnds := b.opnds.filter fun p => p.1 != t
  fixed := b.fixed.filter fun p => p.1 != t
  addr := b.addr.map (Asm.merge s t)
  results := b.results.map (Asm.merge s t)
  differ := b.differ.filter fun p => p.1 != t && p.2 != t

theorem rd_rename {ρ : Slot → Nat} {f : Slot → Slot} (h : ∀ u, ρ (f u) = ρ u) (reg : Nat → BitVec R)
    (rs : List Slot) : rd ρ reg (rs.map f) = rd ρ reg rs := by
  simp [rd, List.map_map, Function.comp_def, h]

theorem wr_rename {ρ : Slot → Nat} {f : Slot → Slot} (h : ∀ u, ρ (f u) = ρ u) :
    ∀ (ws : List Slot) (reg : Nat → BitVec R) (vs : List (BitVec R)),
      wr ρ reg (ws.map f) vs = wr ρ reg ws vs
  | [], _, _ => rfl
  | s :: ws, reg, vs => by simp only [List.map_cons, wr, h]; exact wr_rename h ws _ _

theorem exec_rename {ρ : Slot → Nat} {f : Slot → Slot} (h : ∀ u, ρ (f u) = ρ u) (i : Ins R M)
    (o : Orc R M) (c : Cpu R M) : exec ρ (i.rename f) o c = exec ρ i o c := by
  cases i <;> simp only [Ins.rename, exec, rd_rename h, wr_rename h, h, List.any_map, Function.comp_def]

theorem reach_rename {prog : List (Ins R M)} {ρ : Slot → Nat} {f : Slot → Slot} (h : ∀ u, ρ (f u) = ρ u)
    {c₀ : Cpu R M} {m : Cell M} {c : Cpu R M} (hr : Reach prog ρ c₀ m c) :
    Reach (prog.map (Ins.rename f)) ρ c₀ m c := by
  induction hr with
  | start m hm => exact .start m hm
  | step _ hs ih =>
    obtain ⟨i, o, hi, h1, h2, h3, h4, h5⟩ := hs
    refine .step ih ⟨i.rename f, o, ?_, h1, h2, h3, ?_, ?_⟩
    · rw [List.getElem?_map, hi]; rfl
    · rw [exec_rename h]; exact h4
    · rw [exec_rename h]; exact h5
  | env v k _ ih => exact .env v k ih

theorem alone_rename {prog : List (Ins R M)} {ρ : Slot → Nat} {f : Slot → Slot} (h : ∀ u, ρ (f u) = ρ u)
    (junk : Slot → BitVec R) : ∀ (n : Nat) (s : Cell M × Cpu R M),
      alone (prog.map (Ins.rename f)) ρ junk n s = alone prog ρ junk n s
  | 0, _ => rfl
  | n + 1, (m, c) => by
    simp only [alone, List.getElem?_map]
    cases hp : prog[c.pc]? with
    | none => rfl
    | some i => simp only [Option.map_some, exec_rename h]; exact alone_rename h junk n _

/-- If `s` and `t` may share a register, the block is correct if it is when they do not and when `t` is
replaced by `s`. -/
theorem correct_share {b : Block R M} {spec : SeqSpec (BitVec M) Op Ret} {op : Op}
    {pre : (Slot → BitVec R) → Prop} {ret : (Slot → BitVec R) → Ret} (s t : Slot)
    (h1 : Correct { b with differ := (s, t) :: b.differ } spec op pre ret)
    (h2 : Correct (b.merge s t) spec op (fun x => pre fun u => x (merge s t u))
      (fun x => ret fun u => x (merge s t u))) : Correct b spec op pre ret := by
  have legal : ∀ {ρ : Slot → Nat}, b.Legal ρ → ρ s ≠ ρ t →
      ({ b with differ := (s, t) :: b.differ } : Block R M).Legal ρ := fun hl hn =>
    ⟨hl.apart, hl.fixed, fun p hm => by
      rcases List.mem_cons.1 hm with rfl | hm
      · exact hn
      · exact hl.differ p hm⟩
  have legal' : ∀ {ρ : Slot → Nat}, b.Legal ρ → (b.merge s t).Legal ρ := fun hl =>
    ⟨fun p hp q hq => hl.apart p (List.mem_filter.1 hp).1 q (List.mem_filter.1 hq).1,
      fun p hp => hl.fixed p (List.mem_filter.1 hp).1, fun p hp => hl.differ p (List.mem_filter.1 hp).1⟩
  have ren : ∀ {ρ : Slot → Nat}, ρ s = ρ t → ∀ u, ρ (merge s t u) = ρ u := fun he u => by
    simp only [merge]
    split
    · next h => rw [he, beq_iff_eq.1 h]
    · rfl
  have hlen : (b.merge s t).prog.length = b.prog.length := List.length_map _
  have addr : ∀ {ρ : Slot → Nat} {base : BitVec R} {reg : Nat → BitVec R}, ρ s = ρ t →
      (∀ u ∈ b.addr, reg (ρ u) = base) → ∀ u ∈ (b.merge s t).addr, reg (ρ u) = base := fun he ha u hu => by
    obtain ⟨w, hw, rfl⟩ := List.mem_map.1 hu
    rw [ren he]
    exact ha w hw
  refine ⟨h1.labels, h1.loads, ?_, ?_⟩
  · intro ρ hl base reg fl link h0 hp ha m c hr
    by_cases he : ρ s = ρ t
    · have := h2.sound ρ (legal' hl) base reg fl link h0 (by simpa only [ren he] using hp) (addr he ha) m c
        (reach_rename (ren he) hr)
      rw [hlen] at this
      simp only [ren he] at this
      exact ⟨this.1, this.2.1, this.2.2.1, this.2.2.2.1, fun hc k hk =>
        this.2.2.2.2 hc k fun p hp => hk p (List.mem_filter.1 hp).1⟩
    · exact h1.sound ρ (legal hl he) base reg fl link h0 hp ha m c hr
  · intro ρ hl base reg fl link h0 hp ha m junk hv
    by_cases he : ρ s = ρ t
    · obtain ⟨n, hn⟩ := h2.ends ρ (legal' hl) base reg fl link h0 (by simpa only [ren he] using hp)
        (addr he ha) m junk hv
      exact ⟨n, by rw [← alone_rename (ren he), ← hlen]; exact hn⟩
    · exact h1.ends ρ (legal hl he) base reg fl link h0 hp ha m junk hv

/-- What follows from the initial contents of the operands may be assumed. -/
theorem correct_assume {b : Block R M} {spec : SeqSpec (BitVec M) Op Ret} {op : Op}
    {pre : (Slot → BitVec R) → Prop} {ret : (Slot → BitVec R) → Ret} (hlab : (b.labelled && b.addressed) = true) (P : Prop)
    (hp : ∀ x, pre x → P) (h : P → Correct b spec op pre ret) : Correct b spec op pre ret :=
  ⟨hlab, fun x x' e hx => (h (hp _ hx)).loads x x' e hx, fun ρ hl base reg fl link h0 hx => (h (hp _ hx)).sound ρ hl base reg fl link h0 hx,
    fun ρ hl base reg fl link h0 hx => (h (hp _ hx)).ends ρ hl base reg fl link h0 hx⟩

end Verif.Asm
