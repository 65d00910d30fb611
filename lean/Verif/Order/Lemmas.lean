import Verif.Order.Model

/-! Helper lemmas for the ordering properties. -/

namespace Verif.Order

/-- `P x b` for every split of the list at `x` with rest `b`. -/
def AfterAll (P : Instr → List Instr → Prop) : List Instr → Prop
  | [] => True
  | x :: b => P x b ∧ AfterAll P b

theorem afterAll_iff {P l} : AfterAll P l ↔ ∀ a x b, l = a ++ x :: b → P x b := by
  induction l with
  | nil => simp [AfterAll]
  | cons c l ih =>
    rw [AfterAll, ih]
    constructor
    · rintro ⟨h, h'⟩ a x b e
      cases a with
      | nil => simp at e; rw [← e.1, ← e.2]; exact h
      | cons a0 a => simp at e; exact h' a x b e.2
    · intro h
      exact ⟨h [] c l rfl, fun a x b e => h (c :: a) x b (by simp [e])⟩

/-- `P a x` for every split of the list at `x`, `a` being `pre` followed by what precedes `x`. -/
def BeforeAll (P : List Instr → Instr → Prop) : List Instr → List Instr → Prop
  | _, [] => True
  | pre, x :: b => P pre x ∧ BeforeAll P (pre ++ [x]) b

theorem beforeAll_iff {P pre l} :
    BeforeAll P pre l ↔ ∀ a x b, l = a ++ x :: b → P (pre ++ a) x := by
  induction l generalizing pre with
  | nil => simp [BeforeAll]
  | cons c l ih =>
    rw [BeforeAll, ih]
    constructor
    · rintro ⟨h, h'⟩ a x b e
      cases a with
      | nil => simp at e; rw [← e.1]; simpa using h
      | cons a0 a => simp at e; have := h' a x b e.2; rw [e.1] at this; simpa using this
    · intro h
      refine ⟨by simpa using h [] c l rfl, fun a x b e => ?_⟩
      have := h (c :: a) x b (by simp [e])
      simpa using this

theorem afterAll_append {P l r} :
    AfterAll P (l ++ r) ↔ AfterAll (fun x b => P x (b ++ r)) l ∧ AfterAll P r := by
  induction l with
  | nil => simp [AfterAll]
  | cons c l ih => simp [AfterAll, ih, and_assoc]

theorem beforeAll_append {P pre l r} :
    BeforeAll P pre (l ++ r) ↔ BeforeAll P pre l ∧ BeforeAll P (pre ++ l) r := by
  induction l generalizing pre with
  | nil => simp [BeforeAll]
  | cons c l ih => simp [BeforeAll, ih, and_assoc]

theorem afterAll_skip {P l} (h : ∀ x ∈ l, ∀ b, P x b) : AfterAll P l := by
  rw [afterAll_iff]; rintro a x b rfl; exact h x (by simp) b

theorem beforeAll_skip {P pre l} (h : ∀ x ∈ l, ∀ b, P b x) : BeforeAll P pre l := by
  rw [beforeAll_iff]; rintro a x b rfl; exact h x (by simp) _

theorem afterAll_mono {P Q : Instr → List Instr → Prop} (h : ∀ x b, P x b → Q x b) {l} :
    AfterAll P l → AfterAll Q l := by
  simp only [afterAll_iff]; exact fun H a x b e => h x b (H a x b e)

theorem beforeAll_mono {P Q : List Instr → Instr → Prop} (h : ∀ b x, P b x → Q b x) {pre l} :
    BeforeAll P pre l → BeforeAll Q pre l := by
  simp only [beforeAll_iff]; exact fun H a x b e => h _ _ (H a x b e)

/-- Sufficient: nothing later overtakes the read of `x`. -/
def AcqGood (hw : Hw) (x : Instr) (b : List Instr) : Prop :=
  (x.clob = true ∨ ∃ z ∈ b, z.clob = true) ∧
  ((hw = .tso) ∨ x.acq = true ∨ x.full = true ∨ (∃ z ∈ b, z.ll = true ∧ z.ls = true) ∨
    (x.ctrl = true ∧ ∃ z ∈ b, z.isync = true))

theorem AcqGood.ordered {hw x b} (h : AcqGood hw x b) (mid y q) :
    Ordered hw x .rd (b ++ mid) y q := by
  obtain ⟨hc, hh⟩ := h
  refine .direct ?_ ?_
  · rcases hc with h | ⟨z, hz, h⟩
    · exact .inl h
    · exact .inr (.inr (.inl ⟨z, by simp [hz], h⟩))
  · rcases hh with rfl | h | h | ⟨z, hz, h1, h2⟩ | ⟨h, z, hz, h'⟩
    · left; cases q <;> rfl
    · exact .inr (.inl ⟨h, rfl⟩)
    · exact .inr (.inr (.inr (.inl (.inl h))))
    · exact .inr (.inr (.inr (.inr (.inr (.inl ⟨z, by simp [hz], by cases q <;> simp [Instr.bars, *]⟩)))))
    · exact .inr (.inr (.inr (.inr (.inr (.inr ⟨h, rfl, z, by simp [hz], h'⟩)))))

/-- Sufficient: the write of `x` overtakes nothing earlier. -/
def RelGood (hw : Hw) (a : List Instr) (x : Instr) : Prop :=
  (x.clob = true ∨ ∃ z ∈ a, z.clob = true) ∧
  ((hw = .tso) ∨ x.rel = true ∨ x.full = true ∨ (∃ z ∈ a, z.ls = true ∧ z.ss = true))

theorem RelGood.ordered {hw x a} (h : RelGood hw a x) (mid y p) :
    Ordered hw y p (mid ++ a) x .wr := by
  obtain ⟨hc, hh⟩ := h
  refine .direct ?_ ?_
  · rcases hc with h | ⟨z, hz, h⟩
    · exact .inr (.inl h)
    · exact .inr (.inr (.inl ⟨z, by simp [hz], h⟩))
  · rcases hh with rfl | h | h | ⟨z, hz, h1, h2⟩
    · left; cases p <;> rfl
    · exact .inr (.inr (.inl ⟨h, rfl⟩))
    · exact .inr (.inr (.inr (.inl (.inr h))))
    · exact .inr (.inr (.inr (.inr (.inr (.inl ⟨z, by simp [hz], by cases p <;> simp [Instr.bars, *]⟩)))))

/-- A full barrier. -/
def Instr.isFullBar (z : Instr) : Bool := z.full || (z.ll && z.ls && z.sl && z.ss)

theorem Instr.isFullBar.bars {z : Instr} (h : z.isFullBar = true) (p q) : z.bars p q = true := by
  simp only [isFullBar, Bool.or_eq_true, Bool.and_eq_true] at h
  rcases h with h | ⟨⟨⟨h1, h2⟩, h3⟩, h4⟩ <;> cases p <;> cases q <;> simp [Instr.bars, *]

theorem ordered_no_access {hw x p b y q} (h : Ordered hw x p b y q)
    (hb : ∀ z ∈ b, z.rd = false ∧ z.wr = false) : CompKeeps x b y ∧ HwKeeps hw x p b y q := by
  cases h with
  | direct h1 h2 => exact ⟨h1, h2⟩
  | @trans _ _ _ m r _ _ _ hm =>
    have := hb m (by simp)
    cases r <;> simp [Instr.has, this] at hm

/-! ### Instantiation for all back ends -/

/-- The unsuccessful rounds of a retry loop are an insertion of instructions that neither deliver the
result nor make the modification. -/
theorem trace_split (be : Backend) (k : Kind) (o : MO) (n : Nat) :
    ∃ pre H core, trace be k o n = pre ++ H ++ core ∧ trace be k o 0 = pre ++ core ∧
      ∀ x ∈ H, x.ret = false ∧ x.pub = false := by
  have triv : ∀ t : List Instr, ∃ pre H core, t = pre ++ H ++ core ∧ t = pre ++ core ∧
      ∀ x ∈ H, x.ret = false ∧ x.pub = false := fun t => ⟨t, [], [], by simp, by simp, by simp⟩
  have rep : ∀ (c : Instr) (core : List Instr), c.ret = false → c.pub = false →
      ∃ pre H core', List.replicate n c ++ core = pre ++ H ++ core' ∧ core = pre ++ core' ∧
      ∀ x ∈ H, x.ret = false ∧ x.pub = false := fun c core h1 h2 =>
    ⟨[], List.replicate n c, core, rfl, rfl, fun x hx => by rw [List.eq_of_mem_replicate hx]; exact ⟨h1, h2⟩⟩
  have rep' : ∀ (pre : List Instr) (c : Instr) (core : List Instr), c.ret = false → c.pub = false →
      ∃ pre' H core', pre ++ List.replicate n c ++ core = pre' ++ H ++ core' ∧
      pre ++ [] ++ core = pre' ++ core' ∧
      ∀ x ∈ H, x.ret = false ∧ x.pub = false := fun pre c core h1 h2 =>
    ⟨pre, List.replicate n c, core, rfl, by simp,
      fun x hx => by rw [List.eq_of_mem_replicate hx]; exact ⟨h1, h2⟩⟩
  have rnd : ∀ (pre : Instr) (l : List Instr) (core : List Instr),
      (∀ x ∈ l, x.ret = false ∧ x.pub = false) →
      ∃ pre' H core', pre :: rounds n l ++ core = pre' ++ H ++ core' ∧
      pre :: ([] ++ core) = pre' ++ core' ∧
      ∀ x ∈ H, x.ret = false ∧ x.pub = false := fun pre l core h =>
    ⟨[pre], rounds n l, core, by simp, by simp, fun x hx => by
      simp only [rounds, List.mem_flatten, List.mem_replicate] at hx
      obtain ⟨_, ⟨_, rfl⟩, hx⟩ := hx
      exact h x hx⟩
  have loop := rnd plainRead ((call be (.casFail .relaxed) o 0).map fun x => { x with ret := false })
    (call be (.casOk .relaxed) o 0) ?_
  rotate_left
  · clear triv rep rep' rnd
    cases be <;> (try cases ‹Bool›) <;> (try cases ‹Bool›) <;> cases o <;> decide
  cases be <;> cases k
  case gccX86.rmw => exact rep _ _ rfl rfl
  case msvcX86.rmw => exact rep _ _ rfl rfl
  case ppc64.rmw => exact rep' _ _ _ rfl rfl
  case ppc64.casOk => exact rep' _ _ _ rfl rfl
  case ppc64.casFail => exact rep' _ _ _ rfl rfl
  case ppc32.rmw => exact rep' _ _ _ rfl rfl
  case ppc32.casOk => exact rep' _ _ _ rfl rfl
  case ppc32.casFail => exact rep' _ _ _ rfl rfl
  case gccArm.rmw => exact rep' _ _ _ rfl rfl
  case gccArm.casOk => exact rep' _ _ _ rfl rfl
  case gccArm.casFail => exact rep' _ _ _ rfl rfl
  case alpha.rmw => exact rep' _ _ _ rfl rfl
  case alpha.casOk => exact rep' _ _ _ rfl rfl
  case alpha.casFail => exact rep' _ _ _ rfl rfl
  case msvcArm.rmw => cases o <;> exact rep _ _ rfl rfl
  case aarch64.rmw lse _ => cases lse; exact rep _ _ rfl rfl; exact triv _
  case aarch64.casOk lse _ _ => cases lse; exact rep _ _ rfl rfl; exact triv _
  case aarch64.casFail lse _ _ => cases lse; exact rep _ _ rfl rfl; exact triv _
  case aarch32.store wide => cases wide; exact triv _; exact rep _ _ rfl rfl
  case aarch32.rmw => exact rep _ _ rfl rfl
  case aarch32.casOk => exact rep _ _ rfl rfl
  case aarch32.casFail => exact rep _ _ rfl rfl
  case gccArmWide.store => exact rep' _ _ _ rfl rfl
  case gccArmWide.rmw => exact rep' _ _ _ rfl rfl
  case gccArmWide.casOk => exact rep' _ _ _ rfl rfl
  case gccArmWide.casFail => exact rep' _ _ _ rfl rfl
  case aarch64Wide.load => exact rep _ _ rfl rfl
  case aarch64Wide.store => exact rep _ _ rfl rfl
  case aarch64Wide.rmw => exact rep _ _ rfl rfl
  case aarch64Wide.casOk => exact rep _ _ rfl rfl
  case aarch64Wide.casFail => exact rep _ _ rfl rfl
  case gccSyncWide.rmw => exact rep _ _ rfl rfl
  case x86Wide.rmw => exact rep' [plainRead] _ _ rfl rfl
  case x86Wide.store msvc vec =>
    cases vec
    · exact rep' [plainRead] _ _ rfl rfl
    · cases o <;> first | exact triv _ | exact rep' [plainRead] _ _ rfl rfl
  case sparc.rmw =>
    refine cast ?_ (rnd vload (sparcFailRound o)
      (sparcBefore o ++ (sparcCas true).asRet.asPub :: sparcAfter o) ?_)
    · simp [trace, call, rounds]
    · cases o <;> decide
  case gccSync.rmw => exact rep _ _ rfl rfl
  case linuxArm.rmw =>
    refine cast ?_ (rnd vload khFailRound [fullFence, (sparcCas true).asRet.asPub, fullFence] ?_)
    · simp [trace, call, rounds]
    · decide
  case windows.rmw => exact rep _ _ rfl rfl
  case gccAtomic.rmw => exact rep _ _ rfl rfl
  case gccAtomicX86.rmw => exact rep _ _ rfl rfl
  all_goals first | exact loop | exact triv _

/-- Computable forms of the sufficient conditions. -/
def acqB (hw : Hw) (x : Instr) (b : List Instr) : Bool :=
  (x.clob || b.any (·.clob)) &&
  (hw.base .rd .rd || x.acq || x.full || b.any (fun z => z.ll && z.ls) || (x.ctrl && b.any (·.isync)))

theorem acqB_good {hw x b} (h : acqB hw x b = true) : AcqGood hw x b := by
  simp only [acqB, Bool.and_eq_true, Bool.or_eq_true, List.any_eq_true] at h
  obtain ⟨h1, h2⟩ := h
  refine ⟨h1, ?_⟩
  rcases h2 with (((h | h) | h) | h) | h
  · left; cases hw; rfl; simp [Hw.base] at h
  · exact .inr (.inl h)
  · exact .inr (.inr (.inl h))
  · exact .inr (.inr (.inr (.inl h)))
  · exact .inr (.inr (.inr (.inr h)))

def relB (hw : Hw) (a : List Instr) (x : Instr) : Bool :=
  (x.clob || a.any (·.clob)) &&
  (hw.base .rd .rd || x.rel || x.full || a.any (fun z => z.ls && z.ss))

theorem relB_good {hw x a} (h : relB hw a x = true) : RelGood hw a x := by
  simp only [relB, Bool.and_eq_true, Bool.or_eq_true, List.any_eq_true] at h
  obtain ⟨h1, h2⟩ := h
  refine ⟨h1, ?_⟩
  rcases h2 with ((h | h) | h) | h
  · left; cases hw; rfl; simp [Hw.base] at h
  · exact .inr (.inl h)
  · exact .inr (.inr (.inl h))
  · exact .inr (.inr (.inr h))

def afterB (P : Instr → List Instr → Bool) : List Instr → Bool
  | [] => true
  | x :: b => P x b && afterB P b

def beforeB (P : List Instr → Instr → Bool) : List Instr → List Instr → Bool
  | _, [] => true
  | pre, x :: b => P pre x && beforeB P (pre ++ [x]) b

theorem afterB_iff {P l} : afterB P l = true ↔ AfterAll (fun x b => P x b = true) l := by
  induction l with
  | nil => simp [afterB, AfterAll]
  | cons c l ih => simp [afterB, AfterAll, ih]

theorem beforeB_iff {P pre l} : beforeB P pre l = true ↔ BeforeAll (fun b x => P b x = true) pre l := by
  induction l generalizing pre with
  | nil => simp [beforeB, BeforeAll]
  | cons c l ih => simp [beforeB, BeforeAll, ih]

theorem afterAll_insert {P : Instr → List Instr → Prop} {pre H core : List Instr}
    (mono : ∀ x b b', (∀ z ∈ b, z ∈ b') → P x b → P x b') (hH : ∀ x ∈ H, ∀ b, P x b)
    (h : AfterAll P (pre ++ core)) : AfterAll P (pre ++ H ++ core) := by
  rw [afterAll_append] at h
  rw [List.append_assoc, afterAll_append, afterAll_append]
  refine ⟨afterAll_mono ?_ h.1, afterAll_skip (fun x hx b => hH x hx _), h.2⟩
  intro x b; apply mono; intro z; simp only [List.mem_append]; rintro (h | h) <;> simp [h]

theorem beforeAll_insert {P : List Instr → Instr → Prop} {pre H core : List Instr}
    (mono : ∀ x b b', (∀ z ∈ b, z ∈ b') → P b x → P b' x) (hH : ∀ x ∈ H, ∀ b, P b x)
    (h : BeforeAll P [] (pre ++ core)) : BeforeAll P [] (pre ++ H ++ core) := by
  rw [beforeAll_append] at h
  rw [List.append_assoc, beforeAll_append, beforeAll_append]
  refine ⟨h.1, beforeAll_skip (fun x hx b => hH x hx _), ?_⟩
  have := h.2
  rw [beforeAll_iff] at this ⊢
  intro a x b e
  refine mono _ _ _ ?_ (this a x b e)
  intro z; simp only [List.mem_append]; rintro ((h | h) | h) <;> simp [h]

theorem AcqGood.mono {hw x b b'} (hb : ∀ z ∈ b, z ∈ b') (h : AcqGood hw x b) : AcqGood hw x b' := by
  obtain ⟨h1, h2⟩ := h
  refine ⟨h1.imp id fun ⟨z, hz, h⟩ => ⟨z, hb z hz, h⟩, ?_⟩
  rcases h2 with h | h | h | ⟨z, hz, h⟩ | ⟨h, z, hz, h'⟩
  · exact .inl h
  · exact .inr (.inl h)
  · exact .inr (.inr (.inl h))
  · exact .inr (.inr (.inr (.inl ⟨z, hb z hz, h⟩)))
  · exact .inr (.inr (.inr (.inr ⟨h, z, hb z hz, h'⟩)))

theorem RelGood.mono {hw x b b'} (hb : ∀ z ∈ b, z ∈ b') (h : RelGood hw b x) : RelGood hw b' x := by
  obtain ⟨h1, h2⟩ := h
  refine ⟨h1.imp id fun ⟨z, hz, h⟩ => ⟨z, hb z hz, h⟩, ?_⟩
  rcases h2 with h | h | h | ⟨z, hz, h⟩
  · exact .inl h
  · exact .inr (.inl h)
  · exact .inr (.inr (.inl h))
  · exact .inr (.inr (.inr ⟨z, hb z hz, h⟩))

theorem acq_good (be : Backend) (k : Kind) (o : MO) (n : Nat)
    (hacc : k.accepts o = true) (ho : (k.readOrder o).isAcquire = true)
    (hok : acquireBroken be k o = false) :
    AfterAll (fun x b => x.ret = true → AcqGood be.hw x b) (trace be k o n) := by
  obtain ⟨pre, H, core, e, e0, hH⟩ := trace_split be k o n
  rw [e]
  refine afterAll_insert (fun x b b' hb h hx => (h hx).mono hb)
    (fun x hx b h => absurd h (by simp [(hH x hx).1])) ?_
  rw [← e0]
  have : afterB (fun x b => !x.ret || acqB be.hw x b) (trace be k o 0) = true := by
    clear e e0 hH
    revert hacc ho hok
    cases be <;> cases k <;> cases o <;> (try cases ‹MO›) <;> (try cases ‹Bool›) <;>
      (try cases ‹Bool›) <;> decide
  refine afterAll_mono ?_ (afterB_iff.1 this)
  intro x b h hx
  exact acqB_good (by simpa [hx] using h)

theorem rel_good (be : Backend) (k : Kind) (o : MO) (n : Nat)
    (hacc : k.accepts o = true) (ho : o.isRelease = true) :
    BeforeAll (fun b x => x.pub = true → RelGood be.hw b x) [] (trace be k o n) := by
  obtain ⟨pre, H, core, e, e0, hH⟩ := trace_split be k o n
  rw [e]
  refine beforeAll_insert (fun x b b' hb h hx => (h hx).mono hb)
    (fun x hx b h => absurd h (by simp [(hH x hx).2])) ?_
  rw [← e0]
  have : beforeB (fun b x => !x.pub || relB be.hw b x) [] (trace be k o 0) = true := by
    clear e e0 hH
    revert hacc ho
    cases be <;> cases k <;> cases o <;> (try cases ‹MO›) <;> (try cases ‹Bool›) <;>
      (try cases ‹Bool›) <;> decide
  refine beforeAll_mono ?_ (beforeB_iff.1 this)
  intro x b h hx
  exact relB_good (by simpa [hx] using h)

/-- Computable sufficient condition for keeping the main effects of two operations in order. -/
def scB (hw : Hw) (x : Instr) (p : Part) (b : List Instr) (a : List Instr) (y : Instr) (q : Part) :
    Bool :=
  (x.vol && y.vol || x.clob || y.clob || b.any (·.clob) || a.any (·.clob)) &&
  (hw.base p q || (x.acq && p == .rd) || (y.rel && q == .wr) || x.full || y.full ||
   (x.rel && x.sc && p == .wr && y.acq && y.sc && q == .rd) ||
   b.any (·.isFullBar) || a.any (·.isFullBar))

theorem scB_ordered {hw x p b a y q} (h : scB hw x p b a y q = true) (b' mid a')
    (hb : ∀ z ∈ b, z ∈ b') (ha : ∀ z ∈ a, z ∈ a') : Ordered hw x p (b' ++ mid ++ a') y q := by
  simp only [scB, Bool.and_eq_true, Bool.or_eq_true, List.any_eq_true, beq_iff_eq] at h
  obtain ⟨hc, h⟩ := h
  refine .direct ?_ ?_
  · rcases hc with (((h | h) | h) | ⟨z, hz, h⟩) | ⟨z, hz, h⟩
    · exact .inr (.inr (.inr h))
    · exact .inl h
    · exact .inr (.inl h)
    · exact .inr (.inr (.inl ⟨z, by simp [hb z hz], h⟩))
    · exact .inr (.inr (.inl ⟨z, by simp [ha z hz], h⟩))
  rcases h with ((((((h | h) | h) | h) | h) | h) | ⟨z, hz, h⟩) | ⟨z, hz, h⟩
  · exact .inl h
  · exact .inr (.inl h)
  · exact .inr (.inr (.inl h))
  · exact .inr (.inr (.inr (.inl (.inl h))))
  · exact .inr (.inr (.inr (.inl (.inr h))))
  · refine .inr (.inr (.inr (.inr (.inl ?_))))
    obtain ⟨⟨⟨⟨⟨h1, h2⟩, h3⟩, h4⟩, h5⟩, h6⟩ := h
    exact ⟨h1, h2, h3, h4, h5, h6⟩
  · exact .inr (.inr (.inr (.inr (.inr (.inl ⟨z, by simp [hb z hz], Instr.isFullBar.bars h p q⟩)))))
  · exact .inr (.inr (.inr (.inr (.inr (.inl ⟨z, by simp [ha z hz], Instr.isFullBar.bars h p q⟩)))))

/-- Computable check over all main effects of two traces. -/
def inOrderB (hw : Hw) (t₁ t₂ : List Instr) : Bool :=
  afterB (fun x b => beforeB (fun a y =>
    [Part.rd, .wr].all fun p => [Part.rd, .wr].all fun q =>
      !x.main p || !y.main q || scB hw x p b a y q) [] t₂) t₁

/-- A split of a list with an insertion is, for an element outside the insertion, a split of the
original list with smaller parts. -/
theorem split_insert {pre H core a : List Instr} {x : Instr} {b : List Instr}
    (e : pre ++ H ++ core = a ++ x :: b) (hx : x ∉ H) :
    ∃ a' b', pre ++ core = a' ++ x :: b' ∧ (∀ z ∈ a', z ∈ a) ∧ (∀ z ∈ b', z ∈ b) := by
  rw [List.append_assoc, List.append_eq_append_iff] at e
  rcases e with ⟨c, rfl, h⟩ | ⟨c, h, h'⟩
  · rw [List.append_eq_append_iff] at h
    rcases h with ⟨d, rfl, h⟩ | ⟨d, h1, h2⟩
    · refine ⟨pre ++ d, b, by simp [h], ?_, fun z h => h⟩
      intro z; simp only [List.mem_append]; rintro (h | h) <;> simp [h]
    · cases d with
      | nil => simp at h1 h2; exact ⟨pre, b, by simp [h2], by simp +contextual, by simp⟩
      | cons d0 d =>
        simp at h2; exact absurd (by rw [h1, h2.1]; simp) hx
  · cases c with
    | nil =>
      simp at h h'
      cases H with
      | nil => simp at h'; exact ⟨a, b, by simp [h, h'], by simp, by simp⟩
      | cons h0 H => simp at h'; exact absurd (by simp [h'.1]) hx
    | cons c0 c =>
      simp at h'
      refine ⟨a, c ++ core, by simp [h, h'.1], by simp, ?_⟩
      rw [h'.2]; intro z; simp only [List.mem_append]; rintro (h | h) <;> simp [h]

/-- `l` is `l₀` with a part inserted that neither delivers the result nor makes the modification. -/
def Grown (l l₀ : List Instr) : Prop :=
  ∃ pre H core, l = pre ++ H ++ core ∧ l₀ = pre ++ core ∧ ∀ x ∈ H, x.ret = false ∧ x.pub = false

theorem Grown.refl (l : List Instr) : Grown l l := ⟨[], [], l, by simp, by simp, by simp⟩

theorem inOrder_of_B {hw : Hw} {l₁ l₂ m₁ m₂ : List Instr} (g₁ : Grown l₁ m₁) (g₂ : Grown l₂ m₂)
    (h : inOrderB hw m₁ m₂ = true)
    {a₁ x b₁} (e₁ : l₁ = a₁ ++ x :: b₁) {p} (hp : x.main p = true)
    {a₂ y b₂} (e₂ : l₂ = a₂ ++ y :: b₂) {q} (hq : y.main q = true) (mid) :
    Ordered hw x p (b₁ ++ mid ++ a₂) y q := by
  obtain ⟨pre, H, core, e, e0, hH⟩ := g₁
  obtain ⟨pre', H', core', e', e0', hH'⟩ := g₂
  have hx : x ∉ H := fun h => by cases p <;> simp [Instr.main, hH x h] at hp
  have hy : y ∉ H' := fun h => by cases q <;> simp [Instr.main, hH' y h] at hq
  obtain ⟨a, b, es, -, hb⟩ := split_insert (e ▸ e₁) hx
  obtain ⟨a', b', es', ha, -⟩ := split_insert (e' ▸ e₂) hy
  have := afterAll_iff.1 (afterB_iff.1 h) a x b (e0 ▸ es)
  have := beforeAll_iff.1 (beforeB_iff.1 this) a' y b' (e0' ▸ es')
  have hs : scB hw x p b a' y q = true := by
    cases p <;> cases q <;> simp_all
  exact scB_ordered hs _ _ _ hb ha

theorem trace_grown (b : Backend) (k : Kind) (o : MO) (n : Nat) : Grown (trace b k o n) (trace b k o 0) :=
  trace_split b k o n

/-- The seq_cst operations, without the arguments that make no difference. -/
def scKinds : List Kind := [.load, .store, .rmw, .loop, .casOk .seqCst, .casFail .seqCst]

theorem sc_kind (b : Backend) {k : Kind} {o : MO} (h : k.isSeqCst o = true) :
    ∃ k' ∈ scKinds, trace b k o 0 = trace b k' .seqCst 0 ∧ scBroken b k' = scBroken b k := by
  cases k with
  | casOk f =>
    simp [Kind.isSeqCst] at h; subst h
    exact ⟨.casOk .seqCst, by simp [scKinds], by cases b <;> first | rfl | (cases f <;> rfl), by cases b <;> rfl⟩
  | casFail f =>
    simp [Kind.isSeqCst] at h; obtain ⟨rfl, rfl⟩ := h
    exact ⟨.casFail .seqCst, by simp [scKinds], rfl, rfl⟩
  | load => simp [Kind.isSeqCst] at h; subst h; exact ⟨.load, by simp [scKinds], rfl, rfl⟩
  | store => simp [Kind.isSeqCst] at h; subst h; exact ⟨.store, by simp [scKinds], rfl, rfl⟩
  | rmw => simp [Kind.isSeqCst] at h; subst h; exact ⟨.rmw, by simp [scKinds], rfl, rfl⟩
  | loop => simp [Kind.isSeqCst] at h; subst h; exact ⟨.loop, by simp [scKinds], rfl, rfl⟩

theorem sc_table (cpu : Cpu) (b₁ b₂ : Backend) (h₁ : cpu.runs b₁ = true) (h₂ : cpu.runs b₂ = true) :
    (scKinds.all fun k₁ => scKinds.all fun k₂ => scBroken b₁ k₁ ||
      inOrderB cpu.hw (trace b₁ k₁ .seqCst 0) (trace b₂ k₂ .seqCst 0)) = true := by
  cases cpu <;> cases b₁ <;> (try cases ‹Bool›) <;> (try cases ‹Bool›) <;> (try (exact absurd h₁ (by decide))) <;>
    cases b₂ <;> (try cases ‹Bool›) <;> (try cases ‹Bool›) <;> (try (exact absurd h₂ (by decide))) <;>
    decide +kernel

theorem sc_inOrderB {cpu : Cpu} {b₁ b₂ : Backend} (c₁ : cpu.runs b₁ = true) (c₂ : cpu.runs b₂ = true)
    {k₁ k₂ : Kind} {o₁ o₂ : MO} (h₁ : k₁.isSeqCst o₁ = true) (h₂ : k₂.isSeqCst o₂ = true)
    (hb : scBroken b₁ k₁ = false) :
    inOrderB cpu.hw (trace b₁ k₁ o₁ 0) (trace b₂ k₂ o₂ 0) = true := by
  obtain ⟨k, hk, e, es⟩ := sc_kind b₁ h₁
  obtain ⟨k', hk', e', -⟩ := sc_kind b₂ h₂
  have := List.all_eq_true.1 (List.all_eq_true.1 (sc_table cpu b₁ b₂ c₁ c₂) k hk) k' hk'
  rw [es, hb] at this
  rw [e, e']
  simpa using this

theorem Backend.cpu_runs (b : Backend) : b.cpu.runs b = true ∧ b.cpu.hw = b.hw := by
  cases b <;> (try cases ‹Bool›) <;> exact ⟨rfl, rfl⟩

theorem Cpu.runs_hw {cpu : Cpu} {b : Backend} (h : cpu.runs b = true) : b.hw = cpu.hw := by
  cases cpu <;> cases b <;> (try cases ‹Bool›) <;> first | rfl | cases h

end Verif.Order
