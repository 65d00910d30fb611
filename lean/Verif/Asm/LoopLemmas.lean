import Verif.Asm.Loop
import Verif.Asm.OpsLemmas

/-
Functions that repeat correct blocks implement a linearizable object.
-/

namespace Verif.Asm

variable {R N : Nat} {Op : Type}

/-- What one execution of the block contributes to the operation `op`: nothing if it is repeated, and
otherwise its whole effect. -/
def Attempt (spec : SeqSpec (BitVec N) Op (Integral.Ret N)) (f : Routine R N) (op : Op) :
    SeqSpec (BitVec N) Unit (Integral.Ret N) := fun m _ m' r =>
  match f.next r with
  | .inl _ => m' = m
  | .inr r => spec m op m' r

/-- Every execution of the block is correct. -/
def Routine.Does (f : Routine R N) (spec : SeqSpec (BitVec N) Op (Integral.Ret N)) (op : Op) : Prop :=
  ∀ old, Correct (f.code old).block (Attempt spec f op) () (f.code old).pre (f.code old).ret

/-- What is known about a call in state `l` while the object is `m`. -/
def RLocalOk (f : Routine R N) (base : BitVec R) (m : Cell N) : RLocal R N → Prop
  | .running old ρ c => (f.code old).block.Legal ρ ∧ ∃ reg fl link,
      (f.code old).pre (fun s => reg (ρ s)) ∧ (∀ s ∈ (f.code old).block.addr, reg (ρ s) = base) ∧
      Reach (f.code old).block.prog ρ (entry base reg fl link) m c
  | _ => True

theorem RLocalOk.env {f : Routine R N} {base m l} (h : RLocalOk f base m l)
    {m' : Cell N} (hm : m' = m ∨ ∃ v, m' = ⟨v, m.ver + 0 + 1⟩) : RLocalOk f base m' l := by
  rcases hm with rfl | ⟨v, rfl⟩
  · exact h
  · cases l with
    | running =>
      obtain ⟨h2, reg, fl, link, h3, h4, h5⟩ := h
      exact ⟨h2, reg, fl, link, h3, h4, .env v 0 h5⟩
    | _ => exact h

/-- The result of the operation to which an execution of the block that returns `r` leads. -/
def Routine.out (f : Routine R N) (r : Integral.Ret N) : Option (Integral.Ret N) :=
  match f.next r with
  | .inl _ => none
  | .inr r => some r

/-- The results a call may be committed to. -/
def RMay (spec : SeqSpec (BitVec N) Op (Integral.Ret N)) (f : Routine R N) (op : Op) :
    RLocal R N → Option (Integral.Ret N) → Prop
  | .called, t => t = none
  | .ready _, t => t = none
  | .finished r, t => t = some r
  | .running _ _ c, t =>
    (c.wrote = [] ∧ (t = none ∨ ∃ m ∈ c.seen, ∃ r, t = f.out r ∧ Attempt spec f op m () m r)) ∨
    (∃ m m', c.wrote = [(m, m')] ∧ ∃ r, t = f.out r ∧ Attempt spec f op m () m' r) ∨
    ((∀ m m', c.wrote = [(m, m')] → ¬ ∃ r, Attempt spec f op m () m' r) ∧ c.wrote ≠ [])

theorem attempt_none {spec : SeqSpec (BitVec N) Op (Integral.Ret N)} {f : Routine R N} {op : Op} {m m' r}
    (h : Attempt spec f op m () m' r) (hn : f.out r = none) : m' = m := by
  unfold Attempt at h
  unfold Routine.out at hn
  split at h
  · exact h
  · rename_i e; simp [e] at hn

theorem attempt_some {spec : SeqSpec (BitVec N) Op (Integral.Ret N)} {f : Routine R N} {op : Op} {m m' r r'}
    (h : Attempt spec f op m () m' r) (hn : f.out r = some r') : spec m op m' r' := by
  unfold Attempt at h
  unfold Routine.out at hn
  split at h
  · rename_i e; simp [e] at hn
  · rename_i e; simp only [e, Option.some.injEq] at hn; rw [← hn]; exact h

theorem linearizable_of_routines {f : Op → Routine R N} {spec : SeqSpec (BitVec N) Op (Integral.Ret N)}
    (h : ∀ op, (f op).Does spec op) {base : BitVec R} (hb : base ≠ 0) (v₀ : BitVec N) :
    (routineMachine f base).IsLinearizable spec ⟨v₀, 0⟩ v₀ := by
  intro Id _ sys H hex
  let Inv : Sys Id (routineMachine f base) → Prop := fun sys =>
    ∀ i op l, sys.calls i = .run op l → RLocalOk (f op) base sys.sh l
  have hInv : ∀ sys H, Exec (routineMachine f base) ⟨v₀, 0⟩ sys H → Inv sys := by
    intro sys H hex
    induction hex with
    | init => intro i op l hc; simp at hc
    | @invoke sys H i op hex hi ih =>
      intro j op' l hc
      by_cases hj : j = i
      · subst hj
        simp at hc
        obtain ⟨rfl, rfl⟩ := hc
        trivial
      · simp only [upd_other _ _ hj] at hc
        exact ih j op' l hc
    | @step sys H i op l sh' l' hex hi hst ih =>
      have key : (sh' = sys.sh ∨ ∃ v, sh' = ⟨v, sys.sh.ver + 0 + 1⟩) ∧ RLocalOk (f op) base sh' l' := by
        have hl := ih i op l hi
        cases hst with
        | start => exact ⟨.inl rfl, trivial⟩
        | enter old ρ reg fl link h1 h2 h3 h4 =>
          exact ⟨.inl rfl, h1, reg, fl, link, h2, h3, .start _ h4⟩
        | exec old ρ c _ c' hs =>
          obtain ⟨h2, reg, fl, link, h3, h4, h5⟩ := hl
          exact ⟨hs.cell, h2, reg, fl, link, h3, h4, .step h5 hs⟩
        | again => exact ⟨.inl rfl, trivial⟩
        | finish => exact ⟨.inl rfl, trivial⟩
      intro j op' l'' hc
      by_cases hj : j = i
      · subst hj
        simp at hc
        obtain ⟨rfl, rfl⟩ := hc
        exact key.2
      · simp only [upd_other _ _ hj] at hc
        exact (ih j op' l'' hc).env key.1
    | @ret sys H i op l r hex hi hr ih =>
      intro j op' l'' hc
      by_cases hj : j = i
      · subst hj; simp at hc
      · simp only [upd_other _ _ hj] at hc
        exact ih j op' l'' hc
  have S : Sim (Id := Id) (routineMachine f base) spec ⟨v₀, 0⟩ v₀ Inv :=
    { abs := Cell.val
      may := fun op => RMay spec (f op) op
      abs_init := rfl
      may_ne := by
        intro op l
        cases l with
        | called => exact ⟨none, rfl⟩
        | ready => exact ⟨none, rfl⟩
        | finished r => exact ⟨some r, rfl⟩
        | running _ _ c =>
          by_cases hw : c.wrote = []
          · exact ⟨none, .inl ⟨hw, .inl rfl⟩⟩
          · by_cases hx : ∃ m m', c.wrote = [(m, m')] ∧ ∃ r, Attempt spec (f op) op m () m' r
            · obtain ⟨m, m', h1, r, h2⟩ := hx
              exact ⟨(f op).out r, .inr (.inl ⟨m, m', h1, r, rfl, h2⟩)⟩
            · exact ⟨none, .inr (.inr ⟨fun m m' h1 h2 => hx ⟨m, m', h1, h2⟩, hw⟩)⟩
      start_none := by intro op t ht; exact ht
      step_ok := by
        intro sys i op l sh' l' t' hinv hi hst ht
        have hl := hinv i op l hi
        cases hst with
        | start old => exact ⟨none, rfl, .inl ⟨Eq.symm ht, rfl⟩⟩
        | enter old ρ reg fl link h1 h2 h3 h4 =>
          refine ⟨none, rfl, .inl ⟨?_, rfl⟩⟩
          have : t' = none := by simpa [RMay, entry] using ht
          exact this.symm
        | again old ρ c v hpc hn =>
          obtain ⟨h2, reg, fl, link, h3, h4, h5⟩ := hl
          have ht : t' = none := ht
          subst ht
          refine ⟨none, ?_, .inl ⟨rfl, rfl⟩⟩
          have s := (h op old).sound ρ h2 base reg fl link hb h3 h4 _ _ h5
          have ho : none = (f op).out (((f op).code old).ret fun s => c.reg (ρ s)) := by simp [Routine.out, hn]
          rcases s.2.2.2.1 hpc with ⟨m, m', w, hs⟩ | ⟨w, m, hm, hs⟩
          · exact .inr (.inl ⟨m, m', w, _, ho, hs⟩)
          · exact .inl ⟨w, .inl rfl⟩
        | finish old ρ c r hpc hn =>
          obtain ⟨h2, reg, fl, link, h3, h4, h5⟩ := hl
          have ht : t' = some r := ht
          subst ht
          refine ⟨some r, ?_, .inl ⟨rfl, rfl⟩⟩
          have s := (h op old).sound ρ h2 base reg fl link hb h3 h4 _ _ h5
          have ho : some r = (f op).out (((f op).code old).ret fun s => c.reg (ρ s)) := by simp [Routine.out, hn]
          rcases s.2.2.2.1 hpc with ⟨m, m', w, hs⟩ | ⟨w, m, hm, hs⟩
          · exact .inr (.inl ⟨m, m', w, _, ho, hs⟩)
          · exact .inl ⟨w, .inr ⟨m, hm, _, ho, hs⟩⟩
        | exec old ρ c _ c' hs =>
          obtain ⟨h2, reg, fl, link, h3, h4, h5⟩ := hl
          have s0 := ((h op old).sound ρ h2 base reg fl link hb h3 h4 _ _ h5).2.2.1
          have s1 := ((h op old).sound ρ h2 base reg fl link hb h3 h4 _ _ (.step h5 hs)).2.2.1
          obtain ⟨ins, o, _, hval, _, _, hc', hm'⟩ := hs
          rcases exec_records ρ ins o c with ⟨e1, e2, e3⟩ | ⟨v, e1, e2, e3⟩
          · -- no store
            simp only [e1] at hm'
            subst hm'
            rw [← hc'] at e2 e3
            rcases ht with ⟨w, ht⟩ | ⟨m, m', w, r, rfl, hr⟩ | ⟨ht, w⟩
            · rw [e2] at w
              rcases ht with rfl | ⟨m, hm, r, rfl, hr⟩
              · exact ⟨none, .inl ⟨w, .inl rfl⟩, .inl ⟨rfl, rfl⟩⟩
              · by_cases hms : m ∈ c.seen
                · exact ⟨(f op).out r, .inl ⟨w, .inr ⟨m, hms, r, rfl, hr⟩⟩, .inl ⟨rfl, rfl⟩⟩
                · have : m = o.val := by
                    rcases e3 with e3 | e3 <;> rw [e3] at hm
                    · exact absurd hm hms
                    · simpa [hms] using hm
                  subst this
                  cases ho : (f op).out r with
                  | none => exact ⟨none, .inl ⟨w, .inl rfl⟩, .inl ⟨rfl, rfl⟩⟩
                  | some r' =>
                    refine ⟨none, .inl ⟨w, .inl rfl⟩, .inr ⟨rfl, r', rfl, ?_⟩⟩
                    rw [← hval]
                    exact attempt_some hr ho
            · rw [e2] at w
              exact ⟨(f op).out r, .inr (.inl ⟨m, m', w, r, rfl, hr⟩), .inl ⟨rfl, rfl⟩⟩
            · rcases s1 with s1 | ⟨x, x', s1, r, hr⟩
              · exact absurd s1 w
              · exact absurd ⟨r, hr⟩ (ht x x' s1)
          · -- a store
            rw [e1] at hm'
            subst hm'
            rw [← hc'] at e2 e3
            have w0 : c.wrote = [] := by
              rcases s1 with s1 | ⟨x, x', s1, r, hr⟩
              · rw [e2] at s1; simp at s1
              · rw [e2] at s1
                cases hw : c.wrote with
                | nil => rfl
                | cons a b => rw [hw] at s1; simp at s1
            rw [w0] at e2
            simp only [List.nil_append] at e2
            refine ⟨none, .inl ⟨w0, .inl rfl⟩, ?_⟩
            rcases ht with ⟨w, _⟩ | ⟨m, m', w, r, rfl, hr⟩ | ⟨ht, w⟩
            · rw [e2] at w; simp at w
            · rw [e2] at w
              simp only [List.cons.injEq, Prod.mk.injEq, and_true] at w
              obtain ⟨rfl, rfl⟩ := w
              cases ho : (f op).out r with
              | none => exact .inl ⟨rfl, by rw [attempt_none hr ho]; exact hval⟩
              | some r' => exact .inr ⟨rfl, r', rfl, by rw [← hval]; exact attempt_some hr ho⟩
            · rcases s1 with s1 | ⟨x, x', s1, r, hr⟩
              · exact absurd s1 w
              · exact absurd ⟨r, hr⟩ (ht x x' s1)
      ret_ok := by
        intro sys i op l r hinv hi hr
        cases l with
        | finished r' => simp only [routineMachine, Option.some.injEq] at hr; exact congrArg some hr.symm
        | _ => simp [routineMachine] at hr }
  exact Sim.linearizable S hInv hex

theorem Correct.weaken' {b : Block R N} {Op' Ret : Type} {s : SeqSpec (BitVec N) Op Ret} {s' : SeqSpec (BitVec N) Op' Ret}
    {op : Op} {op' : Op'} {pre : (Slot → BitVec R) → Prop} {ret : (Slot → BitVec R) → Ret} (h : Correct b s op pre ret)
    (hs : ∀ m m' r, s m op m' r → s' m op' m' r) : Correct b s' op' pre ret where
  labels := h.labels
  loads := h.loads
  ends := h.ends
  sound := by
    intro ρ hρ base reg fl link hb hp ha m c' hr
    obtain ⟨h1, h2, h3, h4, h5⟩ := h.sound ρ hρ base reg fl link hb hp ha m c' hr
    refine ⟨h1, h2, ?_, ?_, h5⟩
    · rcases h3 with h3 | ⟨x, x', h3, r, hr⟩
      · exact .inl h3
      · exact .inr ⟨x, x', h3, r, hs _ _ _ hr⟩
    · intro hpc
      rcases h4 hpc with ⟨m, m', hw, hr⟩ | ⟨hw, m, hm, hr⟩
      · exact .inl ⟨m, m', hw, hs _ _ _ hr⟩
      · exact .inr ⟨hw, m, hm, hs _ _ _ hr⟩

theorem Code.Does.once {c : Code R N (Integral.Ret N)} {op : Integral.Op N} (h : c.Does op) :
    (Routine.once c).Does Integral.spec op := fun _ => Correct.weaken' h fun _ _ _ hs => hs

/-- A weak compare-and-exchange may be a strong one. -/
theorem Code.Does.weak {c : Code R N (Integral.Ret N)} {e d : BitVec N} (h : c.Does (.casStrong e d)) :
    c.Does (.casWeak e d) :=
  Correct.weaken' h fun _ _ _ hs => hs.imp id fun hs => hs.2

theorem does_loop {attempt : BitVec N → Code R N (Integral.Ret N)} {done : BitVec N → Integral.Ret N}
    {op : Integral.Op N} (g : BitVec N → BitVec N) (h : ∀ e, (attempt e).Does (.casWeak e (g e)))
    (hg : ∀ m, Integral.spec m op (g m) (done m)) : (Routine.loop attempt done).Does Integral.spec op :=
  fun old => Correct.weaken' (h old) fun m m' r hs => by
    rcases hs with ⟨rfl, rfl, rfl⟩ | ⟨rfl, rfl⟩
    · exact hg _
    · exact rfl

theorem Routine.Does.map {f : Routine R N} {op op' : Integral.Op N} (h : f.Does Integral.spec op)
    {g : Integral.Ret N → Integral.Ret N}
    (hg : ∀ m m' r, Integral.spec m op m' r → Integral.spec m op' m' (g r)) : (f.map g).Does Integral.spec op' := by
  cases f with
  | once c =>
    have h' : c.Does op := Correct.weaken' (h 0) fun _ _ _ hs => hs
    exact (h'.map hg).once
  | loop attempt done =>
    intro old
    refine Correct.weaken' (h old) fun m m' r hs => ?_
    cases r with
    | cas ok v =>
      cases ok
      · exact hs
      · exact hg _ _ _ hs
    | _ => exact hg _ _ _ hs

/-- The functions of the back end are correct. -/
structure Core.Ok (p : Core R N) : Prop where
  load : p.load.Does Integral.spec .load
  store : ∀ v, (p.store v).Does Integral.spec (.store v)
  exchange : ∀ v, (p.exchange v).Does Integral.spec (.exchange v)
  casWeak : ∀ e d, (p.casWeak e d).Does (.casWeak e d)
  casStrong : ∀ e d, (p.casStrong e d).Does (.casStrong e d)
  fetchAdd : ∀ v, (p.fetchAdd v).Does Integral.spec (.fetchAdd v)
  fetchSub : ∀ v, (p.fetchSub v).Does Integral.spec (.fetchSub v)
  fetchAnd : ∀ v, (p.fetchAnd v).Does Integral.spec (.fetchAnd v)
  fetchOr : ∀ v, (p.fetchOr v).Does Integral.spec (.fetchOr v)
  fetchXor : ∀ v, (p.fetchXor v).Does Integral.spec (.fetchXor v)

theorem casBased_ok {load : Routine R N} {store exchange : BitVec N → Routine R N}
    {cas : BitVec N → BitVec N → Code R N (Integral.Ret N)} (hl : load.Does Integral.spec .load)
    (hs : ∀ v, (store v).Does Integral.spec (.store v)) (hx : ∀ v, (exchange v).Does Integral.spec (.exchange v))
    (hc : ∀ e d, (cas e d).Does (.casStrong e d)) : (casBased load store exchange cas).Ok where
  load := hl
  store := hs
  exchange := hx
  casWeak e d := (hc e d).weak
  casStrong := hc
  fetchAdd v := does_loop (· + v) (fun e => (hc e (e + v)).weak) fun _ => ⟨rfl, rfl⟩
  fetchSub v := does_loop (· - v) (fun e => (hc e (e - v)).weak) fun _ => ⟨rfl, rfl⟩
  fetchAnd v := does_loop (· &&& v) (fun e => (hc e (e &&& v)).weak) fun _ => ⟨rfl, rfl⟩
  fetchOr v := does_loop (· ||| v) (fun e => (hc e (e ||| v)).weak) fun _ => ⟨rfl, rfl⟩
  fetchXor v := does_loop (· ^^^ v) (fun e => (hc e (e ^^^ v)).weak) fun _ => ⟨rfl, rfl⟩

theorem casExchange_ok {cas : BitVec N → BitVec N → Code R N (Integral.Ret N)}
    (hc : ∀ e d, (cas e d).Does (.casStrong e d)) (v : BitVec N) : (casExchange cas v).Does Integral.spec (.exchange v) :=
  does_loop (fun _ => v) (fun e => (hc e v).weak) fun _ => ⟨rfl, rfl⟩

theorem Core.Ok.newOr {p : Core R N} (h : p.Ok) (cas : Bool) {fetch : Routine R N} {f : BitVec N → BitVec N}
    {op op' : Integral.Op N} (hf : fetch.Does Integral.spec op)
    (h1 : ∀ m m' r, Integral.spec m op m' r → m' = f m ∧ r = .val m)
    (h2 : ∀ m, Integral.spec m op' (f m) (.val (f m))) : (p.newOr cas fetch f).Does Integral.spec op' := by
  cases cas
  · refine hf.map fun m m' r hs => ?_
    obtain ⟨rfl, rfl⟩ := h1 m m' r hs
    exact h2 m
  · exact does_loop f (fun e => h.casWeak e (f e)) h2

theorem Core.Ok.routine {p : Core R N} (h : p.Ok) (cas : Bool) (op : Integral.Op N) :
    (p.routine cas op).Does Integral.spec op := by
  have add v : (p.add cas v).Does Integral.spec (.add v) := h.newOr cas (h.fetchAdd v) (fun _ _ _ hs => hs) fun _ => ⟨rfl, rfl⟩
  have sub v : (p.sub cas v).Does Integral.spec (.sub v) := h.newOr cas (h.fetchSub v) (fun _ _ _ hs => hs) fun _ => ⟨rfl, rfl⟩
  have and v : (p.bitwiseAnd cas v).Does Integral.spec (.bitwiseAnd v) :=
    h.newOr cas (h.fetchAnd v) (fun _ _ _ hs => hs) fun _ => ⟨rfl, rfl⟩
  have or v : (p.bitwiseOr cas v).Does Integral.spec (.bitwiseOr v) :=
    h.newOr cas (h.fetchOr v) (fun _ _ _ hs => hs) fun _ => ⟨rfl, rfl⟩
  have xor v : (p.bitwiseXor cas v).Does Integral.spec (.bitwiseXor v) :=
    h.newOr cas (h.fetchXor v) (fun _ _ _ hs => hs) fun _ => ⟨rfl, rfl⟩
  have neg : (p.fetchBy (- ·)).Does Integral.spec .fetchNegate := does_loop (- ·) (fun e => h.casWeak e (-e)) fun _ => ⟨rfl, rfl⟩
  have neg' : (p.newBy (- ·)).Does Integral.spec .negate := does_loop (- ·) (fun e => h.casWeak e (-e)) fun _ => ⟨rfl, rfl⟩
  have cpl : (p.fetchXor (BitVec.allOnes N)).Does Integral.spec .fetchComplement := by
    intro old
    refine Correct.weaken' (h.fetchXor (BitVec.allOnes N) old) fun m m' r hs => ?_
    unfold Attempt at hs ⊢
    split <;> rename_i e <;> simp only [e] at hs
    · exact hs
    · exact ⟨by rw [hs.1, BitVec.xor_allOnes], hs.2⟩
  have cpl' : (p.bitwiseXor cas (BitVec.allOnes N)).Does Integral.spec .bitwiseComplement := by
    intro old
    refine Correct.weaken' (xor (BitVec.allOnes N) old) fun m m' r hs => ?_
    unfold Attempt at hs ⊢
    split <;> rename_i e <;> simp only [e] at hs
    · exact hs
    · exact ⟨by rw [hs.1, BitVec.xor_allOnes], hs.2⟩
  cases op with
  | load => exact h.load
  | store => exact h.store _
  | exchange => exact h.exchange _
  | casWeak => exact (h.casWeak _ _).once
  | casStrong => exact (h.casStrong _ _).once
  | fetchAdd => exact h.fetchAdd _
  | fetchSub => exact h.fetchSub _
  | fetchAnd => exact h.fetchAnd _
  | fetchOr => exact h.fetchOr _
  | fetchXor => exact h.fetchXor _
  | fetchNegate => exact neg
  | fetchComplement => exact cpl
  | add => exact add _
  | sub => exact sub _
  | negate => exact neg'
  | bitwiseAnd => exact and _
  | bitwiseOr => exact or _
  | bitwiseXor => exact xor _
  | bitwiseComplement => exact cpl'
  | opaqueAdd => exact (h.fetchAdd _).map fun _ _ _ hs => ⟨hs.1, rfl⟩
  | opaqueSub => exact (h.fetchSub _).map fun _ _ _ hs => ⟨hs.1, rfl⟩
  | opaqueNegate => exact neg.map fun _ _ _ hs => ⟨hs.1, rfl⟩
  | opaqueAnd => exact (h.fetchAnd _).map fun _ _ _ hs => ⟨hs.1, rfl⟩
  | opaqueOr => exact (h.fetchOr _).map fun _ _ _ hs => ⟨hs.1, rfl⟩
  | opaqueXor => exact (h.fetchXor _).map fun _ _ _ hs => ⟨hs.1, rfl⟩
  | opaqueComplement => exact cpl.map fun _ _ _ hs => ⟨hs.1, rfl⟩
  | addAndTest => exact (add _).map fun _ _ _ hs => ⟨hs.1, by rw [hs.2]; simp [test, value]; rfl⟩
  | subAndTest => exact (sub _).map fun _ _ _ hs => ⟨hs.1, by rw [hs.2]; simp [test, value]; rfl⟩
  | negateAndTest => exact neg'.map fun _ _ _ hs => ⟨hs.1, by rw [hs.2]; simp [test, value]; rfl⟩
  | andAndTest => exact (and _).map fun _ _ _ hs => ⟨hs.1, by rw [hs.2]; simp [test, value]; rfl⟩
  | orAndTest => exact (or _).map fun _ _ _ hs => ⟨hs.1, by rw [hs.2]; simp [test, value]; rfl⟩
  | xorAndTest => exact (xor _).map fun _ _ _ hs => ⟨hs.1, by rw [hs.2]; simp [test, value]; rfl⟩
  | complementAndTest => exact cpl'.map fun _ _ _ hs => ⟨hs.1, by rw [hs.2]; simp [test, value]; rfl⟩
  | bitTestAndSet b =>
    exact (h.fetchOr _).map fun m _ _ hs => ⟨by rw [hs.1]; exact Integral.setsBit_or m b, by
      rw [hs.2]; simp only [testBit, value, bit, bit_and]⟩
  | bitTestAndReset b =>
    exact (h.fetchAnd _).map fun m _ _ hs => ⟨by rw [hs.1]; exact Integral.setsBit_reset m b, by
      rw [hs.2]; simp only [testBit, value, bit, bit_and]⟩
  | bitTestAndComplement b =>
    exact (h.fetchXor _).map fun m _ _ hs => ⟨by rw [hs.1]; exact Integral.setsBit_xor m b, by
      rw [hs.2]; simp only [testBit, value, bit, bit_and]⟩

theorem atomicByLoops_of_ok {p : Core R N} (h : p.Ok) (cas : Bool) : AtomicByLoops p cas := by
  intro base v₀ hb
  exact linearizable_of_routines (h.routine cas) hb v₀

end Verif.Asm
