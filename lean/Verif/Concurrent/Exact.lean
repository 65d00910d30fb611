import Verif.Integral.Exact
import Verif.Concurrent.Props

/-
C01, C02  which operations on a value emulated in a wider word are linearizable, exactly: those of
`EmulSafe`, on CAS loops and on LL/SC loops alike.  For every other operation there is a program that
makes its calls one after the other and gets results which no order of the calls explains.
-/

namespace Verif.Concurrent

open Verif.Integral (Op Ret spec construct emulated EmulSafe ext trunc Canon Runs)

/-! ### Histories of calls made one after the other -/

section
variable {σ O R : Type}

/-- The calls of `tr`, numbered from `k`. -/
def number : Nat → List (Entry Unit O R) → List (Entry Nat O R)
  | _, [] => []
  | k, e :: tr => ⟨k, e.op, e.ret⟩ :: number (k + 1) tr

/-- What is observed when the calls are made one after the other. -/
def oneByOne : Nat → List (Entry Unit O R) → List (Event Nat O R)
  | _, [] => []
  | k, e :: tr => .inv k e.op :: .res k e.ret :: oneByOne (k + 1) tr

theorem mem_number_id {tr : List (Entry Unit O R)} : ∀ {k e}, e ∈ number k tr → k ≤ e.id := by
  induction tr with
  | nil => intro k e h; simp [number] at h
  | cons x tr ih =>
    intro k e h
    rw [number, List.mem_cons] at h
    rcases h with rfl | h
    · exact Nat.le_refl _
    · have := ih h; omega

theorem number_inj {tr : List (Entry Unit O R)} : ∀ {k a b}, a ∈ number k tr → b ∈ number k tr →
    a.id = b.id → a = b := by
  induction tr with
  | nil => intro k a b h; simp [number] at h
  | cons x tr ih =>
    intro k a b ha hb e
    rw [number, List.mem_cons] at ha hb
    rcases ha with rfl | ha <;> rcases hb with rfl | hb
    · rfl
    · have := mem_number_id hb; simp only at e; omega
    · have := mem_number_id ha; simp only at e; omega
    · exact ih ha hb e

theorem inv_mem {tr : List (Entry Unit O R)} : ∀ {k i o}, Event.inv i o ∈ oneByOne k tr →
    ∃ r, Entry.mk i o r ∈ number k tr := by
  induction tr with
  | nil => intro k i o h; simp [oneByOne] at h
  | cons x tr ih =>
    intro k i o h
    simp only [oneByOne, List.mem_cons, Event.inv.injEq, reduceCtorEq, false_or] at h
    rcases h with ⟨rfl, rfl⟩ | h
    · exact ⟨x.ret, by simp [number]⟩
    · obtain ⟨r, hr⟩ := ih h
      exact ⟨r, by rw [number, List.mem_cons]; exact .inr hr⟩

theorem res_mem {tr : List (Entry Unit O R)} : ∀ {k e}, e ∈ number k tr →
    Event.res e.id e.ret ∈ oneByOne k tr ∧ Event.inv e.id e.op ∈ oneByOne k tr := by
  induction tr with
  | nil => intro k e h; simp [number] at h
  | cons x tr ih =>
    intro k e h
    rw [number, List.mem_cons] at h
    rcases h with rfl | h
    · simp [oneByOne]
    · have := ih h
      simp only [oneByOne, List.mem_cons]
      exact ⟨.inr (.inr this.1), .inr (.inr this.2)⟩

theorem number_before {tr : List (Entry Unit O R)} : ∀ {k a b}, a ∈ number k tr → b ∈ number k tr →
    a.id < b.id → Before (oneByOne k tr) (.res a.id a.ret) (.inv b.id b.op) := by
  induction tr with
  | nil => intro k a b h; simp [number] at h
  | cons x tr ih =>
    intro k a b ha hb hlt
    rw [number, List.mem_cons] at ha hb
    rcases hb with rfl | hb
    · rcases ha with rfl | ha
      · simp only at hlt; omega
      · have := mem_number_id ha; simp only at hlt; omega
    · rcases ha with rfl | ha
      · obtain ⟨l₁, l₂, e⟩ := List.append_of_mem (res_mem hb).2
        exact ⟨[.inv k x.op], l₁, l₂, by simp [oneByOne, e]⟩
      · obtain ⟨l₁, l₂, l₃, e⟩ := ih ha hb hlt
        exact ⟨.inv k x.op :: .res k x.ret :: l₁, l₂, l₃, by simp [oneByOne, e]⟩

/-- A list that holds the numbered calls and no others, each once and in the order of their numbers, is the
list of the numbered calls. -/
theorem eq_number {tr : List (Entry Unit O R)} : ∀ {k} {L : List (Entry Nat O R)}, (L.map Entry.id).Nodup →
    (∀ e, e ∈ L ↔ e ∈ number k tr) → (∀ a ∈ L, ∀ b ∈ L, a.id < b.id → Before L a b) → L = number k tr := by
  induction tr with
  | nil =>
    intro k L _ hm _
    exact List.eq_nil_iff_forall_not_mem.2 fun e he => by simpa [number] using (hm e).1 he
  | cons x tr ih =>
    intro k L hn hm hb
    cases L with
    | nil => exact absurd ((hm ⟨k, x.op, x.ret⟩).2 (by simp [number])) (by simp)
    | cons y L =>
      have hy := (hm y).1 (by simp)
      have hx := (hm ⟨k, x.op, x.ret⟩).2 (by simp [number])
      have e : y = ⟨k, x.op, x.ret⟩ := by
        rw [number, List.mem_cons] at hy
        rcases hy with hy | hy
        · exact hy
        · have hid := mem_number_id hy
          have hne : y ≠ ⟨k, x.op, x.ret⟩ := fun e => by rw [e] at hid; simp only at hid; omega
          have hB := hb _ hx y (by simp) (by simp only; omega)
          rw [List.mem_cons] at hx
          rcases hx with hx | hx
          · exact absurd hx.symm hne
          · obtain ⟨l₁, l₂, rfl⟩ := List.append_of_mem hx
            exact absurd hB (before_asymm hn ⟨[], l₁, l₂, rfl⟩)
      subst e
      rw [List.map_cons, List.nodup_cons] at hn
      rw [number, ih (k := k + 1) hn.2]
      · intro e
        constructor
        · intro he
          have := (hm e).1 (List.mem_cons_of_mem _ he)
          rw [number, List.mem_cons] at this
          rcases this with rfl | h
          · exact absurd (List.mem_map.2 ⟨_, he, rfl⟩) hn.1
          · exact h
        · intro he
          have := (hm e).2 (by rw [number, List.mem_cons]; exact .inr he)
          rw [List.mem_cons] at this
          rcases this with rfl | h
          · have := mem_number_id he; simp only at this; omega
          · exact h
      · intro a ha b hb' hlt
        obtain ⟨l₁, l₂, l₃, e⟩ := hb a (List.mem_cons_of_mem _ ha) b (List.mem_cons_of_mem _ hb') hlt
        cases l₁ with
        | nil =>
          rw [List.nil_append, List.cons.injEq] at e
          exact absurd (List.mem_map.2 ⟨_, ha, by rw [← e.1]⟩) hn.1
        | cons z l =>
          rw [List.cons_append, List.cons.injEq] at e
          exact ⟨l, l₂, l₃, e.2⟩

theorem legal_number {spec : SeqSpec σ O R} {tr : List (Entry Unit O R)} :
    ∀ {k s s'}, Legal spec s (number k tr) s' → Legal spec s tr s' := by
  induction tr with
  | nil => intro k s s' h; cases h; exact .nil _
  | cons x tr ih =>
    intro k s s' h
    cases h with
    | cons a h => exact .cons a (ih h)

/-- Calls made one after the other are explained by their own order only. -/
theorem legal_of_oneByOne {spec : SeqSpec σ O R} {s₀ : σ} {tr : List (Entry Unit O R)} {k : Nat}
    (h : Linearizable spec s₀ (oneByOne k tr)) : ∃ s, Legal spec s₀ tr s := by
  obtain ⟨L, s, hl, hn, hi, hr, hb⟩ := h
  have sub : ∀ e, e ∈ number k tr → e ∈ L := by
    intro e he
    obtain ⟨o, ho⟩ := hr _ _ (res_mem he).1
    obtain ⟨r, h1⟩ := inv_mem (hi _ ho)
    have := number_inj h1 he rfl
    have e1 : o = e.op := by rw [← this]
    rw [e1] at ho
    exact ho
  have idinj : ∀ a ∈ L, ∀ b ∈ L, a.id = b.id → a = b := by
    intro a ha b hb' e
    refine Classical.byContradiction fun hne => ?_
    have key : ∀ {a b : Entry Nat O R}, Before L a b → a.id ≠ b.id := by
      rintro a b ⟨l₁, l₂, l₃, rfl⟩ e
      simp [List.nodup_append, e] at hn
    rcases before_of_mem ha hb' hne with h | h
    · exact key h e
    · exact key h e.symm
  have hm : ∀ e, e ∈ L ↔ e ∈ number k tr := by
    refine fun e => ⟨fun he => ?_, sub e⟩
    obtain ⟨r, h1⟩ := inv_mem (hi e he)
    have := idinj _ (sub _ h1) _ he rfl
    rw [← this]
    exact h1
  have := eq_number hn hm fun a ha b hb' hlt =>
    hb a ha b hb' (number_before ((hm a).1 ha) ((hm b).1 hb') hlt)
  rw [this] at hl
  exact ⟨s, legal_number hl⟩

/-! ### Machines that can run a call alone -/

/-- From any state, a call that has not been made yet can be made, run alone as the sequential code does
and return. -/
def RunsAlone {Sh W : Type} (M : Machine Sh O R) (word : Sh → W) (code : O → Code W R) : Prop :=
  ∀ (sh₀ : Sh) (sys : Sys Nat M) (H : List (Event Nat O R)) (i : Nat) (op : O) (w' : W) (r : R),
    Exec M sh₀ sys H → sys.calls i = .idle → (code op).Run (word sys.sh) w' r →
    ∃ sys', Exec M sh₀ sys' (H ++ [.inv i op, .res i r]) ∧ word sys'.sh = w' ∧
      ∀ j, j ≠ i → sys'.calls j = sys.calls j

theorem exec_oneByOne {Sh W : Type} {M : Machine Sh O R} {word : Sh → W} {code : O → Code W R}
    (hM : RunsAlone M word code) {sh₀ : Sh} {tr : List (Entry Unit O R)} :
    ∀ {w w' : W} {k : Nat} {sys : Sys Nat M} {H : List (Event Nat O R)}, Runs code w tr w' →
      Exec M sh₀ sys H → (∀ j, k ≤ j → sys.calls j = .idle) → word sys.sh = w →
      ∃ sys', Exec M sh₀ sys' (H ++ oneByOne k tr) := by
  induction tr with
  | nil => intro w w' k sys H _ he _ _; exact ⟨sys, by simpa [oneByOne] using he⟩
  | cons x tr ih =>
    intro w w' k sys H hr he hid hw
    cases hr with
    | cons h1 h2 =>
      subst hw
      obtain ⟨s1, e1, w1, c1⟩ := hM _ _ _ k _ _ _ he (hid k (Nat.le_refl _)) h1
      obtain ⟨s2, e2⟩ := ih (k := k + 1) h2 e1
        (fun j hj => by rw [c1 j (by omega)]; exact hid j (by omega)) w1
      exact ⟨s2, by simpa [oneByOne] using e2⟩

/-- If a machine that can run calls alone is linearizable, its sequential code is right. -/
theorem legal_of_linearizable {Sh W : Type} {M : Machine Sh O R} {word : Sh → W} {code : O → Code W R}
    (hM : RunsAlone M word code) {spec : SeqSpec σ O R} {sh₀ : Sh} {s₀ : σ}
    (hlin : M.IsLinearizable spec sh₀ s₀) {tr : List (Entry Unit O R)} {w' : W}
    (hr : Runs code (word sh₀) tr w') : ∃ s, Legal spec s₀ tr s := by
  obtain ⟨sys, he⟩ := exec_oneByOne hM (k := 0) hr Exec.init (fun _ _ => rfl) rfl
  exact legal_of_oneByOne (hlin Nat sys _ he)

theorem finish {Sh : Type} {M : Machine Sh O R} {sh₀ : Sh} {sys : Sys Nat M} {H : List (Event Nat O R)}
    {i : Nat} {op : O} {l : M.Loc} {r : R} {calls : Nat → CallSt O M.Loc R}
    (he : Exec M sh₀ sys (H ++ [.inv i op])) (hc : sys.calls i = .run op l) (hr : M.result l = some r)
    (ho : ∀ j, j ≠ i → sys.calls j = calls j) :
    ∃ sys', Exec M sh₀ sys' (H ++ [.inv i op, .res i r]) ∧ sys'.sh = sys.sh ∧
      ∀ j, j ≠ i → sys'.calls j = calls j := by
  refine ⟨⟨sys.sh, upd sys.calls i (.done op r)⟩, by simpa using he.ret i op l r hc hr, rfl, fun j hj => ?_⟩
  simp only [upd_other _ _ hj]
  exact ho j hj

theorem alone1 {Sh : Type} {M : Machine Sh O R} {sh₀ : Sh} {sys : Sys Nat M} {H : List (Event Nat O R)}
    {i : Nat} {op : O} {l : M.Loc} {r : R} {sh' : Sh}
    (he : Exec M sh₀ sys H) (hi : sys.calls i = .idle) (h1 : M.step op sys.sh (M.start op) sh' l)
    (hr : M.result l = some r) :
    ∃ sys', Exec M sh₀ sys' (H ++ [.inv i op, .res i r]) ∧ sys'.sh = sh' ∧
      ∀ j, j ≠ i → sys'.calls j = sys.calls j :=
  finish ((he.invoke i op hi).step i op _ _ _ (upd_same ..) h1) (upd_same ..) hr
    fun j hj => by simp only [upd_other _ _ hj]

theorem alone2 {Sh : Type} {M : Machine Sh O R} {sh₀ : Sh} {sys : Sys Nat M} {H : List (Event Nat O R)}
    {i : Nat} {op : O} {l l' : M.Loc} {r : R} {sh' sh'' : Sh}
    (he : Exec M sh₀ sys H) (hi : sys.calls i = .idle) (h1 : M.step op sys.sh (M.start op) sh' l)
    (h2 : M.step op sh' l sh'' l') (hr : M.result l' = some r) :
    ∃ sys', Exec M sh₀ sys' (H ++ [.inv i op, .res i r]) ∧ sys'.sh = sh'' ∧
      ∀ j, j ≠ i → sys'.calls j = sys.calls j :=
  finish (((he.invoke i op hi).step i op _ _ _ (upd_same ..) h1).step i op _ _ _ (upd_same ..) h2)
    (upd_same ..) hr fun j hj => by simp only [upd_other _ _ hj]

theorem cas_runsAlone {W : Type} (code : O → Code W R) : RunsAlone (casMachine code) (fun w => w) code := by
  intro sh₀ sys H i op w' r he hi hr
  generalize hc : code op = c at hr
  cases hr with
  | load => exact alone1 he hi (CasStep.load hc) rfl
  | store => exact alone1 he hi (CasStep.store hc) rfl
  | weakOk => exact alone1 he hi (CasStep.weakOk hc) rfl
  | weakFail => exact alone1 he hi (CasStep.weakFail hc) rfl
  | strongOk => exact alone1 he hi (CasStep.strongOk hc) rfl
  | strongFail hne => exact alone1 he hi (CasStep.strongFail hc hne) rfl
  | rmw => exact alone2 he hi (CasStep.snapshot sys.sh hc) (CasStep.loopOk hc) rfl

theorem withWord {Sh W : Type} {M : Machine Sh O R} {word : Sh → W} {sh₀ sh' : Sh} {H : List (Event Nat O R)}
    {c : Nat → CallSt O M.Loc R} {i : Nat} {w' : W} (hw : word sh' = w')
    (h : ∃ sys', Exec M sh₀ sys' H ∧ sys'.sh = sh' ∧ ∀ j, j ≠ i → sys'.calls j = c j) :
    ∃ sys', Exec M sh₀ sys' H ∧ word sys'.sh = w' ∧ ∀ j, j ≠ i → sys'.calls j = c j := by
  obtain ⟨s, a, b, d⟩ := h
  exact ⟨s, a, by rw [b, hw], d⟩

theorem ll_runsAlone {W : Type} (code : O → Code W R) : RunsAlone (llMachine code) LlMem.word code := by
  intro sh₀ sys H i op w' r he hi hr
  generalize hc : code op = c at hr
  generalize hw : sys.sh.word = w at hr
  cases hr with
  | load => exact withWord hw (alone1 he hi (LlStep.load hc) (by rw [← hw]; rfl))
  | store => exact withWord rfl (alone1 he hi (LlStep.store hc) rfl)
  | weakOk =>
    subst hw
    exact withWord rfl (alone2 he hi (LlStep.weakLink hc) (LlStep.weakSc hc) rfl)
  | @weakFail e d k w =>
    subst hw
    by_cases h : sys.sh.word = e
    · subst h
      exact withWord rfl (alone2 he hi (LlStep.weakLink hc) (LlStep.weakScFail hc) rfl)
    · exact withWord rfl (alone1 he hi (LlStep.weakMiss hc h) rfl)
  | strongOk =>
    subst hw
    exact withWord rfl (alone2 he hi (LlStep.strongLink hc) (LlStep.strongSc hc) rfl)
  | strongFail hne =>
    subst hw
    exact withWord rfl (alone1 he hi (LlStep.strongMiss hc hne) rfl)
  | rmw =>
    subst hw
    exact withWord rfl (alone2 he hi (LlStep.rmwLink hc) (LlStep.rmwSc hc) rfl)

theorem mix_runsAlone {W : Type} (code : O → Code W R) : RunsAlone (mixMachine code) LlMem.word code :=
  fun _ _ _ _ _ _ _ he hi hr => withWord rfl (alone1 he hi (MixStep.one hr) rfl)

end

/-! ### One operation together with load and compare_exchange_strong -/

/-- The operations a program uses: `op`, `load` and `compare_exchange_strong`. -/
abbrev Using {N : Nat} (op : Op N) := {o : Op N // o = op ∨ o = .load ∨ ∃ x d, o = .casStrong x d}

/-- The emulated table for these operations. -/
def emulatedUsing (cb sgn : Bool) (N W : Nat) (op : Op N) (o : Using op) : Code (BitVec W) (Ret N) :=
  emulated cb sgn N W o.1

/-- The specification for these operations. -/
def specUsing {N : Nat} (op : Op N) : SeqSpec (BitVec N) (Using op) (Ret N) := fun s o s' r => spec s o.1 s' r

theorem using_safe {cb sgn : Bool} {N : Nat} {op : Op N} (hs : EmulSafe cb sgn op) (o : Using op) :
    EmulSafe cb sgn o.1 := by
  rcases o.2 with e | e | ⟨x, d, e⟩ <;> rw [e]
  · exact hs
  · trivial
  · trivial

theorem using_correct {cb sgn : Bool} {N W : Nat} (hN : 0 < N) (h : N ≤ W) {op : Op N}
    (hs : EmulSafe cb sgn op) :
    Correct (emulatedUsing cb sgn N W op) (Canon sgn N) (trunc N) (specUsing op) :=
  fun o w w' r hc hr => Integral.emulated_implements cb sgn hN h o.1 w w' r (using_safe hs o) hc hr

theorem runs_using {cb sgn : Bool} {N W : Nat} {op : Op N} {tr : List (Entry Unit (Op N) (Ret N))} :
    ∀ {w w' : BitVec W}, (∀ e ∈ tr, e.op = op ∨ e.op = .load ∨ ∃ x d, e.op = .casStrong x d) →
      Runs (emulated cb sgn N W) w tr w' → ∃ tr' : List (Entry Unit (Using op) (Ret N)),
        Runs (emulatedUsing cb sgn N W op) w tr' w' ∧
        ∀ s s', Legal (specUsing op) s tr' s' → Legal spec s tr s' := by
  induction tr with
  | nil =>
    intro w w' _ hr
    cases hr
    exact ⟨[], .nil _, fun s s' h => by cases h; exact .nil _⟩
  | cons x tr ih =>
    intro w w' ho hr
    cases hr with
    | @cons _ _ _ o r _ h1 h2 =>
      obtain ⟨tr', hr', hl⟩ := ih (fun e he => ho e (List.mem_cons_of_mem _ he)) h2
      refine ⟨⟨(), ⟨o, ho _ List.mem_cons_self⟩, r⟩ :: tr', .cons h1 hr', fun s s' h => ?_⟩
      cases h with
      | cons a h => exact .cons a (hl _ _ h)

theorem safe_of_linearizable {Sh : Type} {cb sgn : Bool} {N W : Nat} (hN : 0 < N) (h : N < W) {op : Op N}
    {M : Machine Sh (Using op) (Ret N)} {word : Sh → BitVec W}
    (hM : RunsAlone M word (emulatedUsing cb sgn N W op)) (mem : BitVec W → Sh) (hm : ∀ w, word (mem w) = w)
    (hlin : ∀ v₀, M.IsLinearizable (specUsing op) (mem (construct sgn W v₀)) v₀) : EmulSafe cb sgn op := by
  rw [Integral.C06_emulated_exact cb sgn hN h op]
  intro v₀ tr w ho hr
  obtain ⟨tr', hr', hl⟩ := runs_using ho hr
  rw [← hm (construct sgn W v₀)] at hr'
  obtain ⟨s, hs⟩ := legal_of_linearizable hM (hlin v₀) hr'
  exact ⟨s, hl _ _ hs⟩

/-- C01 for values emulated in a wider word, exactly: the histories of a program that uses one operation
together with `load` and `compare_exchange_strong` on a CAS-loop back end are all linearizable if and only
if the operation is in `EmulSafe`. -/
theorem C01_emulated_exact (cb sgn : Bool) {N W : Nat} (hN : 0 < N) (h : N < W) (op : Op N) :
    EmulSafe cb sgn op ↔ ∀ v₀ : BitVec N,
      (casMachine (emulatedUsing cb sgn N W op)).IsLinearizable (specUsing op) (construct sgn W v₀) v₀ := by
  constructor
  · intro hs v₀
    have := cas_linearizable (using_correct hN (Nat.le_of_lt h) hs) (w₀ := ext sgn W v₀)
      (Integral.canon_ext (Nat.le_of_lt h) v₀)
    rw [Integral.trunc_ext (Nat.le_of_lt h)] at this
    exact this
  · exact safe_of_linearizable hN h (cas_runsAlone _) (fun w => w) fun _ => rfl

/-- C02 for values emulated in a wider word, exactly: the same on LL/SC loops. -/
theorem C02_emulated_exact (cb sgn : Bool) {N W : Nat} (hN : 0 < N) (h : N < W) (op : Op N) (ver : Nat) :
    EmulSafe cb sgn op ↔ ∀ v₀ : BitVec N,
      (llMachine (emulatedUsing cb sgn N W op)).IsLinearizable (specUsing op)
        ⟨construct sgn W v₀, ver⟩ v₀ := by
  constructor
  · intro hs v₀
    have := ll_linearizable (using_correct hN (Nat.le_of_lt h) hs) (m₀ := ⟨ext sgn W v₀, ver⟩)
      (Integral.canon_ext (Nat.le_of_lt h) v₀)
    simp only [Integral.trunc_ext (Nat.le_of_lt h)] at this
    exact this
  · exact safe_of_linearizable hN h (ll_runsAlone _) (fun w => ⟨w, ver⟩) fun _ => rfl

/-- C01 for values emulated in a wider word, exactly: the same when single instructions, CAS loops and LL/SC loops are
mixed on one object. -/
theorem C01_mixed_emulated_exact (cb sgn : Bool) {N W : Nat} (hN : 0 < N) (h : N < W) (op : Op N) (ver : Nat) :
    EmulSafe cb sgn op ↔ ∀ v₀ : BitVec N,
      (mixMachine (emulatedUsing cb sgn N W op)).IsLinearizable (specUsing op)
        ⟨construct sgn W v₀, ver⟩ v₀ := by
  constructor
  · intro hs v₀
    have := mix_linearizable (using_correct hN (Nat.le_of_lt h) hs) (m₀ := ⟨ext sgn W v₀, ver⟩)
      (Integral.canon_ext (Nat.le_of_lt h) v₀)
    simp only [Integral.trunc_ext (Nat.le_of_lt h)] at this
    exact this
  · exact safe_of_linearizable hN h (mix_runsAlone _) (fun w => ⟨w, ver⟩) fun _ => rfl

/-- C01 fails in full: `add(1)` on an emulated `int8_t` of a CAS-only back end is not linearizable. -/
theorem C01_emulated_violated : ∃ v₀ : BitVec 8, ¬ (casMachine (emulatedUsing true true 8 32 (.add 1))).IsLinearizable
    (specUsing (.add 1)) (construct true 32 v₀) v₀ := by
  refine Classical.byContradiction fun hn => ?_
  have := (C01_emulated_exact true true (by decide) (by decide) (.add (1 : BitVec 8)) (W := 32)).2
    fun v₀ => Classical.byContradiction fun h => hn ⟨v₀, h⟩
  simp [EmulSafe] at this

/-- C02 fails in full: `add_and_test(-128)` on an emulated `int8_t` is not linearizable on LL/SC loops. -/
theorem C02_emulated_violated : ∃ v₀ : BitVec 8,
    ¬ (llMachine (emulatedUsing false true 8 32 (.addAndTest (-128)))).IsLinearizable
      (specUsing (.addAndTest (-128))) ⟨construct true 32 v₀, 0⟩ v₀ := by
  refine Classical.byContradiction fun hn => ?_
  have := (C02_emulated_exact false true (by decide) (by decide) (.addAndTest (-128 : BitVec 8)) (W := 32) 0).2
    fun v₀ => Classical.byContradiction fun h => hn ⟨v₀, h⟩
  revert this
  simp only [EmulSafe]
  decide

/-- Non-vacuity: `fetch_add(1)` is on the other side, on both machines. -/
example (v₀ : BitVec 8) : (casMachine (emulatedUsing true true 8 32 (.fetchAdd 1))).IsLinearizable
      (specUsing (.fetchAdd 1)) (construct true 32 v₀) v₀ ∧
    (llMachine (emulatedUsing false true 8 32 (.fetchAdd 1))).IsLinearizable
      (specUsing (.fetchAdd 1)) ⟨construct true 32 v₀, 0⟩ v₀ :=
  ⟨(C01_emulated_exact true true (by decide) (by decide) (.fetchAdd 1)).1 trivial v₀,
    (C02_emulated_exact false true (by decide) (by decide) (.fetchAdd 1) 0).1 trivial v₀⟩

end Verif.Concurrent
