import Verif.Tso.Lemmas

/-! Property theorems C20, C21 on the x86 store-buffer machine. -/

set_option linter.unusedSectionVars false

namespace Verif.Tso

open Verif.Order (MO)

variable {T L V : Type} [DecidableEq T] [DecidableEq L] {init : L → V}

/-- An execution of `n` steps, with its states and labels numbered by time. -/
structure Exec (T L V : Type) [DecidableEq T] [DecidableEq L] (init : L → V) (n : Nat) where
  st : Nat → State T L V
  lab : Nat → Label T L V
  start : st 0 = State.start
  step : ∀ i < n, Step init (st i) (lab i) (st (i + 1))

/-- At time `i` thread `t` executes an operation on `l` that writes `w`. -/
def Exec.Writes {n} (x : Exec T L V init n) (i : Nat) (t : T) (l : L) (w : Write T L V) : Prop :=
  i < n ∧ ∃ op r, x.lab i = .op t l op r (some w)

/-- At time `i` thread `t` executes a load or read-modify-write of `l` that reads from the write `r`
(`none`: the initial value). -/
def Exec.Reads {n} (x : Exec T L V init n) (i : Nat) (t : T) (l : L) (r : Option (Write T L V)) : Prop :=
  i < n ∧ ((∃ o w, x.lab i = .op t l (.load o) r w) ∨ (∃ o f w, x.lab i = .op t l (.rmw o f) r w))

/-- At time `i` thread `t` executes a seq_cst fence, a seq_cst store or any read-modify-write. -/
def Exec.Barrier {n} (x : Exec T L V init n) (i : Nat) (t : T) : Prop :=
  i < n ∧ (x.lab i = .fence t .seqCst ∨ (∃ l v r w, x.lab i = .op t l (.store .seqCst v) r w) ∨
    (∃ l o f r w, x.lab i = .op t l (.rmw o f) r w))

theorem Exec.run {n} (x : Exec T L V init n) {i j : Nat} (hij : i ≤ j) (hj : j ≤ n) :
    ∃ es, Run init (x.st i) es (x.st j) := by
  obtain ⟨k, rfl⟩ := Nat.exists_eq_add_of_le hij
  clear hij
  induction k with
  | zero => exact ⟨[], .nil⟩
  | succ k ih =>
    obtain ⟨es, h⟩ := ih (by omega)
    exact ⟨es ++ [_], run_append h (.cons (x.step (i + k) (by omega)) .nil)⟩

theorem Exec.inv {n} (x : Exec T L V init n) {i : Nat} (hi : i ≤ n) : Inv (x.st i) := by
  obtain ⟨es, h⟩ := x.run (Nat.zero_le i) hi
  rw [x.start] at h
  exact Inv.start.run h

theorem Exec.read_eq {n} (x : Exec T L V init n) {i t l r} (h : x.Reads i t l r) :
    r = newest l ((x.st i).view t) := by
  obtain ⟨hi, h⟩ := h
  have hs := x.step i hi
  rw [← Verif.Tso.read_eq]
  generalize x.st i = s at hs ⊢
  generalize x.st (i + 1) = s' at hs
  rcases h with ⟨o, w, e⟩ | ⟨o, f, w, e⟩ <;> rw [e] at hs <;> cases hs <;> rfl

theorem Exec.write_view {n} (x : Exec T L V init n) {i t l w} (h : x.Writes i t l w) {j} (hij : i < j)
    (hj : j ≤ n) : w ∈ (x.st j).view t ∧ w.tid = t ∧ w.loc = l ∧ w.id = (x.st i).next := by
  obtain ⟨hi, op, r, e⟩ := h
  have hs := x.step i hi
  rw [e] at hs
  obtain ⟨h1, h2, h3, h4, -⟩ := step_write hs
  obtain ⟨es, hr⟩ := x.run (i := i + 1) hij hj
  exact ⟨(run_view hr t).subset h1, h2, h3, h4⟩

/-- If a write of `t` is committed, so are the earlier writes of `t`. -/
theorem Exec.prefix_committed {n} (x : Exec T L V init n) {i i' t l l' w w'} (h : x.Writes i t l w)
    (h' : x.Writes i' t l' w') (hlt : i < i') {j} (hj : j ≤ n) (hj' : i' < j)
    (hc : w' ∈ (x.st j).log) : w ∈ (x.st j).log := by
  obtain ⟨h1, h2, h3, h4⟩ := x.write_view h (Nat.lt_trans hlt hj') hj
  obtain ⟨-, h2', -, h4'⟩ := x.write_view h' hj' hj
  rw [State.view, List.mem_append, List.mem_reverse] at h1
  refine h1.resolve_right fun hb => ?_
  have hs := (x.inv hj).sorted t
  rw [State.view, List.filter_append, List.pairwise_append] at hs
  have := hs.2.2 w' (List.mem_filter.2 ⟨List.mem_reverse.2 hc, by simp [h2']⟩) w
    (List.mem_filter.2 ⟨hb, by simp [h2]⟩)
  have hid : w.id < w'.id := by
    rw [h4, h4']
    obtain ⟨hi, op, r, e⟩ := h
    have hst := x.step i hi
    rw [e] at hst
    have := (step_write hst).2.2.2.2
    obtain ⟨es, hr⟩ := x.run (i := i + 1) (j := i') hlt (by omega)
    have := run_next hr
    omega
  omega

theorem Exec.committed_later {n} (x : Exec T L V init n) {i j : Nat} (hij : i ≤ j) (hj : j ≤ n)
    {w} (hc : w ∈ (x.st i).log) : w ∈ (x.st j).log := by
  obtain ⟨es, hr⟩ := x.run hij hj
  obtain ⟨l, hl⟩ := run_log hr
  rw [hl]; simp [hc]

/-- C21: if thread `t` writes `d` and later writes the flag `f` (with whatever operations), and thread `u`
reads the flag and gets that write, then every later read of `d` – by `u`, and if `u` is not `t` by any
thread `v` – returns that write to `d` or a newer one (newer in the order in which `v` sees the writes,
which `C21_coherence` shows to be the same for all threads). -/
theorem C21_publication {n} (x : Exec T L V init n) {i₁ i₂ i₃ i₄ : Nat} {t u v : T} {d f : L}
    {wd wf : Write T L V} {r : Option (Write T L V)}
    (hd : x.Writes i₁ t d wd) (h12 : i₁ < i₂) (hf : x.Writes i₂ t f wf) (h23 : i₂ < i₃)
    (hu : x.Reads i₃ u f (some wf)) (h34 : i₃ < i₄) (hv : x.Reads i₄ v d r) (huv : v = u ∨ u ≠ t) :
    ∃ w, r = some w ∧ w.loc = d ∧ AtOrAfter ((x.st i₄).view v) wd w := by
  have hi₄ := hv.1
  have key : wd ∈ (x.st i₄).view v := by
    obtain ⟨hmem, -, -, -⟩ := x.write_view hd (Nat.lt_trans h12 (Nat.lt_trans h23 h34)) (Nat.le_of_lt hi₄)
    by_cases hut : u = t
    · rcases huv with h | h
      · rw [h, hut]; exact hmem
      · exact absurd hut h
    · have hwf := x.read_eq hu
      obtain ⟨-, a, b, e, -⟩ := newest_some hwf.symm
      have hm : wf ∈ (x.st i₃).view u := by rw [e]; simp
      obtain ⟨-, htid, -, -⟩ := x.write_view hf h23 (by omega)
      rw [State.view, List.mem_append, List.mem_reverse] at hm
      have hlog : wf ∈ (x.st i₃).log := hm.resolve_right fun hb => by
        have := (x.inv (show i₃ ≤ n by omega)).bufTid u wf hb
        exact hut (this ▸ htid)
      have := x.prefix_committed hd hf h12 (by omega) h23 hlog
      have := x.committed_later (Nat.le_of_lt h34) (Nat.le_of_lt hi₄) this
      rw [State.view, List.mem_append, List.mem_reverse]; exact .inl this
  have hloc := (x.write_view hd (Nat.lt_trans h12 (Nat.lt_trans h23 h34)) (Nat.le_of_lt hi₄)).2.2.1
  rw [x.read_eq hv]
  obtain ⟨w, h1, h2, h3⟩ := newest_atOrAfter key hloc
  exact ⟨w, h1, h2, h3⟩

/-- The order in which a thread sees two writes is the order in which they reach memory: once the later
one is committed the earlier one is committed before it, in every later state. -/
theorem C21_coherence {n} (x : Exec T L V init n) {i j : Nat} (hij : i ≤ j) (hj : j ≤ n) {v : T}
    {w w' : Write T L V} (h : AtOrAfter ((x.st i).view v) w w') (hc : w' ∈ (x.st j).log) :
    AtOrAfter (x.st j).log.reverse w w' := by
  obtain ⟨es, hr⟩ := x.run hij hj
  obtain ⟨es', hr'⟩ := x.run (Nat.zero_le j) hj
  rw [x.start] at hr'
  have hn := nodup_run Inv.start (by simp [State.view, State.start]) hr' v
  exact atOrAfter_left hn (List.mem_reverse.2 hc) (atOrAfter_sublist (run_view hr v) h)

/-- C20, mixed programs: after thread `t` executed a seq_cst fence, a seq_cst store or a read-modify-write,
every write it made before is seen by every later read of every thread. -/
theorem C20_fence_publishes {n} (x : Exec T L V init n) {i₁ i₂ i₃ : Nat} {t v : T} {d : L}
    {wd : Write T L V} {r : Option (Write T L V)}
    (hd : x.Writes i₁ t d wd) (h12 : i₁ < i₂) (hb : x.Barrier i₂ t) (h23 : i₂ < i₃)
    (hv : x.Reads i₃ v d r) :
    ∃ w, r = some w ∧ w.loc = d ∧ AtOrAfter ((x.st i₃).view v) wd w := by
  obtain ⟨hi₂, hb⟩ := hb
  have hi₃ := hv.1
  have hbuf : (x.st i₂).buf t = [] := by
    have hs := x.step i₂ hi₂
    generalize x.st i₂ = s at hs ⊢
    generalize x.st (i₂ + 1) = s' at hs
    rcases hb with e | ⟨l, v, r, w, e⟩ | ⟨l, o, f, r, w, e⟩ <;> rw [e] at hs
    · cases hs; rename_i h; exact h rfl
    · cases hs
      · rename_i h; exact absurd rfl h
      · assumption
    · cases hs <;> assumption
  obtain ⟨hm, -, hloc, -⟩ := x.write_view hd h12 (Nat.le_of_lt hi₂)
  rw [State.view, hbuf, List.append_nil, List.mem_reverse] at hm
  have := x.committed_later (Nat.le_of_lt h23) (Nat.le_of_lt hi₃) hm
  rw [x.read_eq hv]
  obtain ⟨w, h1, h2, h3⟩ := newest_atOrAfter (l := d) (ws := (x.st i₃).view v) (w := wd)
    (by rw [State.view, List.mem_append, List.mem_reverse]; exact .inl this) hloc
  exact ⟨w, h1, h2, h3⟩

/-- C20, Dekker: two threads each write their own location, execute a seq_cst fence (or seq_cst store, or
read-modify-write) and then read the other's location.  At least one of them sees the other's write or a
newer one.  `dx`, `dy` are the locations, `i…` the times of thread `t`, `j…` those of thread `u`. -/
theorem C20_store_buffering {n} (x : Exec T L V init n) {t u : T} (htu : t ≠ u) {dx dy : L}
    {i₁ i₂ i₃ j₁ j₂ j₃ : Nat} {wx wy : Write T L V} {ry rx : Option (Write T L V)}
    (hx : x.Writes i₁ t dx wx) (hi12 : i₁ < i₂) (hbt : x.Barrier i₂ t) (hi23 : i₂ < i₃)
    (hry : x.Reads i₃ t dy ry)
    (hy : x.Writes j₁ u dy wy) (hj12 : j₁ < j₂) (hbu : x.Barrier j₂ u) (hj23 : j₂ < j₃)
    (hrx : x.Reads j₃ u dx rx) :
    (∃ w, ry = some w ∧ w.loc = dy ∧ AtOrAfter ((x.st i₃).view t) wy w) ∨
    (∃ w, rx = some w ∧ w.loc = dx ∧ AtOrAfter ((x.st j₃).view u) wx w) := by
  rcases Nat.lt_trichotomy i₂ j₂ with h | h | h
  · exact .inr (C20_fence_publishes x hx hi12 hbt (by omega) hrx)
  · exfalso
    subst h
    obtain ⟨-, hbt⟩ := hbt
    obtain ⟨-, hbu⟩ := hbu
    rcases hbt with e | ⟨l, v, r, w, e⟩ | ⟨l, o, f, r, w, e⟩ <;> rw [e] at hbu <;>
      simp at hbu
    · exact htu hbu
    · exact htu hbu
    · exact htu hbu
  · exact .inl (C20_fence_publishes x hy hj12 hbu (by omega) hry)

/-- C20: let `A` be a set of objects to which all stores are seq_cst (loads and read-modify-writes of any
order; other locations may be used in any way).  In every execution the observations on `A`, in the order
in which they were executed, form a sequentially consistent execution. -/
theorem C20_seq_cst (A : L → Bool) {es : List (Label T L V)} {s : State T L V}
    (h : Run init State.start es s)
    (hA : ∀ t l o v r w, Label.op t l (.store o v) r w ∈ es → A l = true → o = .seqCst) :
    ∃ m, Sc init ((es.filterMap (Label.obs init)).filter (fun e => A e.loc)) m ∧
      ∀ l, A l = true → m l = valOf init l (newest l s.log.reverse) := by
  have main : ∀ {s₀ : State T L V} {es s}, Run init s₀ es s →
      (∀ t l o v r w, Label.op t l (.store o v) r w ∈ es → A l = true → o = .seqCst) →
      (∀ t, ∀ w ∈ s₀.buf t, A w.loc = false) →
      ∀ m₀ : L → V, (∀ l, A l = true → m₀ l = valOf init l (newest l s₀.log.reverse)) →
      ∃ m, Sc m₀ ((es.filterMap (Label.obs init)).filter (fun e => A e.loc)) m ∧
        ∀ l, A l = true → m l = valOf init l (newest l s.log.reverse) := by
    intro s₀ es s h
    induction h with
    | nil => intro _ _ m₀ hm; exact ⟨m₀, .nil, hm⟩
    | @cons s₁ e s₂ es s₃ hs hr ih =>
      intro hA hb m₀ hm
      have hA' : ∀ t l o v r w, Label.op t l (.store o v) r w ∈ es → A l = true → o = .seqCst :=
        fun t l o v r w h => hA t l o v r w (List.mem_cons_of_mem _ h)
      have hread : ∀ t l, A l = true → valOf init l (s₁.read t l) = m₀ l := by
        intro t l hl
        rw [hm l hl, State.read]
        have : newest l (s₁.buf t) = none := by
          cases hn : newest l (s₁.buf t) with
          | none => rfl
          | some w =>
            obtain ⟨h1, a, b, e, -⟩ := newest_some hn
            have := hb t w (by rw [e]; simp)
            rw [h1, hl] at this; cases this
        rw [this]
      have hpush : ∀ (w : Write T L V), A w.loc = true → ∀ l, A l = true →
          (fun k => if k = w.loc then w.val else m₀ k) l =
            valOf init l (newest l (w :: s₁.log).reverse) := by
        intro w hw l hl
        rw [List.reverse_cons, newest_append]
        by_cases hlw : l = w.loc
        · simp [newest, hlw, valOf]
        · have : ¬ w.loc = l := fun h => hlw h.symm
          rw [show newest l [w] = none by simp [newest, this]]
          simpa [hlw] using hm l hl
      have hpush' : ∀ (w : Write T L V), A w.loc = false → ∀ l, A l = true →
          m₀ l = valOf init l (newest l (w :: s₁.log).reverse) := by
        intro w hw l hl
        rw [List.reverse_cons, newest_append]
        have : ¬ w.loc = l := fun h => by rw [h, hl] at hw; cases hw
        rw [show newest l [w] = none by simp [newest, this]]
        simpa using hm l hl
      cases hs with
      | @load t l o =>
        obtain ⟨m, h1, h2⟩ := ih hA' hb m₀ hm
        by_cases hl : A l = true
        · refine ⟨m, ?_, h2⟩
          simp only [List.filterMap_cons, Label.obs, List.filter_cons, Obs.loc, hl, if_true]
          rw [hread t l hl]
          exact .load h1
        · refine ⟨m, ?_, h2⟩
          simpa [Label.obs, Obs.loc, hl] using h1
      | @store t l o v ho =>
        have hl : A l = false := by
          cases hl : A l with
          | false => rfl
          | true => exact absurd (hA t l o v _ _ (List.mem_cons_self ..) hl) ho
        have hb' : ∀ t', ∀ w ∈ setBuf s₁.buf t (s₁.buf t ++ [⟨s₁.next, t, l, v⟩]) t', A w.loc = false := by
          intro t' w hw
          simp only [setBuf] at hw
          split at hw
          · rw [List.mem_append, List.mem_singleton] at hw
            rcases hw with hw | rfl
            · exact hb t w hw
            · exact hl
          · exact hb t' w hw
        obtain ⟨m, h1, h2⟩ := ih hA' hb' m₀ hm
        refine ⟨m, ?_, h2⟩
        simpa [Label.obs, Obs.loc, hl] using h1
      | @storeSc t l v hbt =>
        by_cases hl : A l = true
        · obtain ⟨m, h1, h2⟩ := ih hA' hb _ (hpush ⟨s₁.next, t, l, v⟩ hl)
          refine ⟨m, ?_, h2⟩
          simp only [List.filterMap_cons, Label.obs, List.filter_cons, Obs.loc, hl, if_true]
          exact .store h1
        · have hl' : A l = false := by simpa using hl
          obtain ⟨m, h1, h2⟩ := ih hA' hb m₀ (hpush' ⟨s₁.next, t, l, v⟩ hl')
          refine ⟨m, ?_, h2⟩
          simpa [Label.obs, Obs.loc, hl] using h1
      | @rmw t l o f v' hbt hf =>
        by_cases hl : A l = true
        · obtain ⟨m, h1, h2⟩ := ih hA' hb _ (hpush ⟨s₁.next, t, l, v'⟩ hl)
          refine ⟨m, ?_, h2⟩
          simp only [List.filterMap_cons, Label.obs, List.filter_cons, Obs.loc, hl, if_true]
          rw [hread t l hl]
          exact .rmw h1
        · have hl' : A l = false := by simpa using hl
          obtain ⟨m, h1, h2⟩ := ih hA' hb m₀ (hpush' ⟨s₁.next, t, l, v'⟩ hl')
          refine ⟨m, ?_, h2⟩
          simpa [Label.obs, Obs.loc, hl] using h1
      | @rmwFail t l o f hbt hf =>
        obtain ⟨m, h1, h2⟩ := ih hA' hb m₀ hm
        by_cases hl : A l = true
        · refine ⟨m, ?_, h2⟩
          simp only [List.filterMap_cons, Label.obs, List.filter_cons, Obs.loc, hl, if_true]
          rw [hread t l hl]
          exact .load h1
        · refine ⟨m, ?_, h2⟩
          simpa [Label.obs, Obs.loc, hl] using h1
      | fence =>
        obtain ⟨m, h1, h2⟩ := ih hA' hb m₀ hm
        exact ⟨m, by rw [List.filterMap_cons_none rfl]; exact h1, h2⟩
      | @flush t w b hbt =>
        have hw : A w.loc = false := hb t w (by rw [hbt]; simp)
        have hb' : ∀ t', ∀ z ∈ setBuf s₁.buf t b t', A z.loc = false := by
          intro t' z hz
          simp only [setBuf] at hz
          split at hz
          · exact hb t z (by rw [hbt]; simp [hz])
          · exact hb t' z hz
        obtain ⟨m, h1, h2⟩ := ih hA' hb' m₀ (hpush' w hw)
        exact ⟨m, by rw [List.filterMap_cons_none rfl]; exact h1, h2⟩
  exact main h hA (by simp [State.start]) init (by simp [State.start, newest, valOf])

/-! ### The hypotheses can be met, and the machine is really weaker than sequential consistency -/

/-- Dekker with relaxed stores and no fence: both threads read the initial value 0, which no sequentially
consistent execution does. -/
theorem C20_relaxed_store_buffering_possible :
    ∃ (es : List (Label Bool Bool Nat)) (s : State Bool Bool Nat), Run (fun _ => 0) State.start es s ∧
      es.filterMap (Label.obs fun _ => 0) =
        [.store false false 1, .store true true 1, .load false true 0, .load true false 0] ∧
      ¬ ∃ m, Sc (fun _ => 0) (es.filterMap (Label.obs fun _ => 0)) m := by
  refine ⟨_, _, .cons (.store (t := false) (l := false) (o := .relaxed) (v := 1) (by decide))
    (.cons (.store (t := true) (l := true) (o := .relaxed) (v := 1) (by decide))
    (.cons (.load (t := false) (l := true) (o := .seqCst))
    (.cons (.load (t := true) (l := false) (o := .seqCst)) .nil))), rfl, ?_⟩
  rintro ⟨m, h⟩
  have h : Sc (fun _ : Bool => 0) [Obs.store false false 1, .store true true 1, .load false true 0,
    .load true false 0] m := h
  cases h with
  | store h => cases h with
    | store h =>
      generalize hm : (fun k : Bool => if k = true then 1 else if k = false then 1 else 0) = m₁ at h
      generalize hv : 0 = v at h
      cases h with
      | load h => subst hm; simp at hv

/-- With seq_cst stores the premises of `C20_seq_cst` hold for a run of two threads on two objects. -/
example : ∃ (es : List (Label Bool Bool Nat)) (s : State Bool Bool Nat),
    Run (fun _ => 0) State.start es s ∧
    (∀ t l o v r w, Label.op t l (.store o v) r w ∈ es → (fun _ => true) l = true → o = .seqCst) ∧
    es.filterMap (Label.obs fun _ => 0) =
        [.store false false 1, .store true true 1, .load false true 1, .load true false 1] := by
  refine ⟨_, _, .cons (.storeSc (t := false) (l := false) (v := 1) rfl)
    (.cons (.storeSc (t := true) (l := true) (v := 1) rfl)
    (.cons (.load (t := false) (l := true) (o := .seqCst))
    (.cons (.load (t := true) (l := false) (o := .seqCst)) .nil))), ?_, rfl⟩
  intro t l o v r w h _
  simp at h
  rcases h with h | h
  · exact h.2.2.1.1
  · exact h.2.2.1.1

/-- The premises of `C21_publication` hold for a message-passing run: data, flag, both flushed, flag read,
data read. -/
example : ∃ (x : Exec Bool Bool Nat (fun _ => 0) 6) (wd wf : Write Bool Bool Nat),
    x.Writes 0 false false wd ∧ x.Writes 1 false true wf ∧ x.Reads 4 true true (some wf) ∧
    x.Reads 5 true false (some wd) := by
  let wd : Write Bool Bool Nat := ⟨0, false, false, 7⟩
  let wf : Write Bool Bool Nat := ⟨1, false, true, 1⟩
  let b (l : List (Write Bool Bool Nat)) : Bool → List (Write Bool Bool Nat) :=
    fun t => if t = false then l else []
  let st : Nat → State Bool Bool Nat := fun i => match i with
    | 0 => ⟨[], b [], 0⟩ | 1 => ⟨[], b [wd], 1⟩ | 2 => ⟨[], b [wd, wf], 2⟩ | 3 => ⟨[wd], b [wf], 2⟩
    | _ => ⟨[wf, wd], b [], 2⟩
  let lab : Nat → Label Bool Bool Nat := fun i => match i with
    | 0 => .op false false (.store .relaxed 7) none (some wd)
    | 1 => .op false true (.store .release 1) none (some wf)
    | 2 => .flush false | 3 => .flush false
    | 4 => .op true true (.load .acquire) (some wf) none
    | _ => .op true false (.load .relaxed) (some wd) none
  have hset : ∀ l l', setBuf (b l) false l' = b l' := by
    intro l l'; funext t; cases t <;> simp [setBuf, b]
  have e0 : st 0 = State.start := by
    simp only [st, State.start]; congr 1; funext t; simp [b]
  refine ⟨⟨st, lab, e0, ?_⟩, wd, wf, ⟨by decide, _, _, rfl⟩, ⟨by decide, _, _, rfl⟩,
    ⟨by decide, .inl ⟨_, _, rfl⟩⟩, ⟨by decide, .inl ⟨_, _, rfl⟩⟩⟩
  intro i hi
  match i, hi with
  | 0, _ =>
    have := Step.store (init := fun _ : Bool => 0) (s := st 0) (t := false) (l := false)
      (o := MO.relaxed) (v := 7) (by decide)
    simp only [st, hset] at this ⊢; exact this
  | 1, _ =>
    have := Step.store (init := fun _ : Bool => 0) (s := st 1) (t := false) (l := true)
      (o := MO.release) (v := 1) (by decide)
    simp only [st, hset] at this ⊢; exact this
  | 2, _ =>
    have := Step.flush (init := fun _ : Bool => 0) (s := st 2) (t := false) (w := wd) (b := [wf]) rfl
    simp only [st, hset] at this ⊢; exact this
  | 3, _ =>
    have := Step.flush (init := fun _ : Bool => 0) (s := st 3) (t := false) (w := wf) (b := []) rfl
    simp only [st, hset] at this ⊢; exact this
  | 4, _ => exact Step.load
  | 5, _ => exact Step.load

end Verif.Tso
