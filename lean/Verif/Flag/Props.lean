import Verif.Flag.Lemmas
import Verif.Wait.Props

/-!
C34  atomic_flag
C40  waiting on an atomic_flag
The specification is `Verif.Flag.Spec`.
-/

namespace Verif.Flag

open Verif.Concurrent Verif.Wait

section
variable (b : Backend) {n : Nat} (hn : 1 ≤ n) (hb : ∀ be tv, b = .intrinsic be tv → tv ≠ 0)
include hn hb

/-- C34: every history of `test`, `test_and_set` and `clear` calls on a flag is linearizable with respect to a
boolean that is initially clear: on machines with atomic instructions, CAS loops, CAS-only loads and stores, the ARM
kernel helper, LL/SC loops and mixtures, for every storage width, byte order and representation of "set". -/
theorem C34_linearizable (j : BitVec (8 * n)) (ver : Nat) :
    (casMachine (table b n)).IsLinearizable spec (construct n) false ∧
    (oneMachine (table b n)).IsLinearizable spec (construct n) false ∧
    (casMachine fun op => viaCas j (table b n op)).IsLinearizable spec (construct n) false ∧
    (khMachine (table b n)).IsLinearizable spec (construct n) false ∧
    (llMachine (table b n)).IsLinearizable spec ⟨construct n, ver⟩ false ∧
    (llMachine fun op => viaRmw (table b n op)).IsLinearizable spec ⟨construct n, ver⟩ false ∧
    (mixMachine (table b n)).IsLinearizable spec ⟨construct n, ver⟩ false := by
  have hc := table_correct b hn hb
  have h0 : Ok b (construct n) := .inl rfl
  have e : (fun w : BitVec (8 * n) => decide (w ≠ 0)) (construct n) = false := by simp [construct]
  rw [← e]
  exact ⟨cas_linearizable hc h0, one_linearizable hc h0, cas_linearizable (viaCas_correct j hc) h0,
    kh_linearizable hc h0, ll_linearizable (m₀ := ⟨construct n, ver⟩) hc h0,
    ll_linearizable (m₀ := ⟨construct n, ver⟩) (viaRmw_correct hc) h0,
    mix_linearizable (m₀ := ⟨construct n, ver⟩) hc h0⟩

/-- C34: the same for flags implemented with the lock pool, all of them together. -/
theorem C34_lock_based_linearizable {Addr : Type} [DecidableEq Addr] (idx : Addr → Nat) :
    (lkMachine idx (table b n)).IsLinearizable (specAll spec)
      ⟨fun _ => .whole (construct n), fun _ => false⟩ (fun _ => false) := by
  have hc := table_correct b hn hb
  have h₀ : ∀ a : Addr, ∃ w, (⟨fun _ => .whole (construct n), fun _ => false⟩ : LkMem Addr (BitVec (8 * n))).cell a
      = .whole w ∧ Ok b w := fun a => ⟨_, rfl, .inl rfl⟩
  have := lk_linearizable (idx := idx) hc h₀
  have e : cellAbs (fun w : BitVec (8 * n) => decide (w ≠ 0))
      (⟨fun _ => .whole (construct n), fun _ => false⟩ : LkMem Addr (BitVec (8 * n))) = fun _ => false := by
    funext a; simp [cellAbs, construct]
  rwa [e] at this

end

/-- Both kinds of back end in use: x86 with assembler, GCC on s390x. -/
example : (∀ be tv, Backend.exchange = .intrinsic be tv → tv ≠ 0) ∧
    (∀ be tv, Backend.intrinsic true 1 = .intrinsic be tv → tv ≠ 0) :=
  ⟨(fun _ _ h => nomatch h), (fun _ _ h => by cases h; decide)⟩

/-! ### Mutual exclusion -/

section
variable {Id Sh : Type} [DecidableEq Id] {M : Machine Sh Op Ret} {sh₀ : Sh} {sys : Sys Id M}
  {H : List (Event Id Op Ret)}

/-- C34: if two `test_and_set` calls both return false, a `clear` call took effect between them: it was not over
before the first of them began, and not begun after the second was over.  (`M` is any of the machines above.) -/
theorem C34_one_winner (hM : M.IsLinearizable spec sh₀ false) (h : Exec M sh₀ sys H) {i j : Id} (hij : i ≠ j)
    (hi : Event.inv i .testAndSet ∈ H) (hj : Event.inv j .testAndSet ∈ H)
    (ri : Event.res i (.flag false) ∈ H) (rj : Event.res j (.flag false) ∈ H) :
    ∃ k, Event.inv k .clear ∈ H ∧
      ((¬ Before H (.res k .unit) (.inv i .testAndSet) ∧ ¬ Before H (.res j (.flag false)) (.inv k .clear)) ∨
       (¬ Before H (.res k .unit) (.inv j .testAndSet) ∧ ¬ Before H (.res i (.flag false)) (.inv k .clear))) := by
  obtain ⟨L, s, hL, hnd, hinv, hres, hrt⟩ := hM Id sys H h
  have hist := h.hist
  have op_eq : ∀ {i r}, Event.inv i .testAndSet ∈ H → Event.res i r ∈ H → (⟨i, .testAndSet, r⟩ : Entry Id Op Ret) ∈ L := by
    intro i r h1 h2
    obtain ⟨op, hm⟩ := hres i r h2
    have := inv_unique hist h1 (hinv _ hm)
    cases this
    exact hm
  have key : ∀ {i j : Id} (mi : (⟨i, .testAndSet, .flag false⟩ : Entry Id Op Ret) ∈ L)
      (mj : (⟨j, .testAndSet, .flag false⟩ : Entry Id Op Ret) ∈ L)
      (hB : Before L ⟨i, .testAndSet, .flag false⟩ ⟨j, .testAndSet, .flag false⟩),
      ∃ k, Event.inv k .clear ∈ H ∧ ¬ Before H (.res k .unit) (.inv i .testAndSet) ∧
        ¬ Before H (.res j (.flag false)) (.inv k .clear) := by
    intro i j mi mj hB
    obtain ⟨l₁, l₂, l₃, rfl⟩ := hB
    obtain ⟨e, he, ho⟩ := clear_between hL rfl rfl rfl
    have me : e ∈ l₁ ++ ⟨i, .testAndSet, .flag false⟩ :: (l₂ ++ ⟨j, .testAndSet, .flag false⟩ :: l₃) := by
      simp [he]
    have er : e.ret = .unit := by
      obtain ⟨m₁, m₂, rfl⟩ := List.append_of_mem he
      obtain ⟨_, -, h1⟩ := legal_append hL
      cases h1 with
      | cons _ h1 =>
        rw [List.append_assoc, List.cons_append] at h1
        obtain ⟨_, -, h2⟩ := legal_append h1
        cases h2 with
        | cons h3 _ => rw [ho] at h3; exact h3.2
    have e1 : Event.inv e.id .clear ∈ H := by have := hinv _ me; rwa [ho] at this
    refine ⟨e.id, e1, fun hb => ?_, fun hb => ?_⟩
    · have h1 := hrt e me _ mi (by rw [er]; exact hb)
      obtain ⟨m₁, m₂, rfl⟩ := List.append_of_mem he
      refine before_asymm hnd h1 ⟨l₁, m₁, m₂ ++ ⟨j, .testAndSet, .flag false⟩ :: l₃, by simp⟩
    · have h1 := hrt _ mj e me (by rw [ho]; exact hb)
      obtain ⟨m₁, m₂, rfl⟩ := List.append_of_mem he
      exact before_asymm hnd h1 ⟨l₁ ++ ⟨i, .testAndSet, .flag false⟩ :: m₁, m₂, l₃, by simp⟩
  have mi := op_eq hi ri
  have mj := op_eq hj rj
  rcases before_of_mem mi mj (fun h => hij (congrArg Entry.id h)) with hB | hB
  · obtain ⟨k, h1, h2⟩ := key mi mj hB
    exact ⟨k, h1, .inl h2⟩
  · obtain ⟨k, h1, h2⟩ := key mj mi hB
    exact ⟨k, h1, .inr h2⟩

/-- C34: among `test_and_set` calls on a clear flag that have all returned, with no `clear`, exactly one
returned false. -/
theorem C34_exactly_one (hM : M.IsLinearizable spec sh₀ false) (h : Exec M sh₀ sys H)
    (hc : ∀ k, Event.inv k .clear ∉ H) (hall : ∀ i, Event.inv i .testAndSet ∈ H → ∃ r, Event.res i r ∈ H)
    (hsome : ∃ i, Event.inv i .testAndSet ∈ H) :
    ∃ i, Event.inv i .testAndSet ∈ H ∧ Event.res i (.flag false) ∈ H ∧
      ∀ j, Event.inv j .testAndSet ∈ H → j ≠ i → Event.res j (.flag true) ∈ H := by
  have hlin := hM Id sys H h
  obtain ⟨L, s, hL, hnd, hinv, hres, hrt⟩ := hlin
  have hist := h.hist
  have mem : ∀ i, Event.inv i .testAndSet ∈ H →
      ∃ b, Event.res i (.flag b) ∈ H ∧ (⟨i, .testAndSet, .flag b⟩ : Entry Id Op Ret) ∈ L := by
    intro i hi
    obtain ⟨r, hr⟩ := hall i hi
    obtain ⟨op, hm⟩ := hres i r hr
    have := inv_unique hist hi (hinv _ hm)
    subst this
    obtain ⟨l₁, l₂, rfl⟩ := List.append_of_mem hm
    obtain ⟨t, -, h2⟩ := legal_append hL
    cases h2 with
    | cons h3 _ =>
      obtain ⟨-, h4⟩ := h3
      simp only at h4
      subst h4
      exact ⟨t, hr, hm⟩
  -- one call returned false
  have hwin : ∃ i, Event.inv i .testAndSet ∈ H ∧ Event.res i (.flag false) ∈ H := by
    obtain ⟨i, hi⟩ := hsome
    obtain ⟨b, _, hm⟩ := mem i hi
    -- the first test_and_set of the sequence
    obtain ⟨l₁, e, l₂, rfl, ho, hfirst⟩ := first_set ⟨_, hm, rfl⟩
    have he : Event.inv e.id .testAndSet ∈ H := by have := hinv e (by simp); rwa [ho] at this
    obtain ⟨c, hr, hm'⟩ := mem e.id he
    refine ⟨e.id, he, ?_⟩
    have : e = ⟨e.id, .testAndSet, .flag c⟩ := eq_of_id hnd (by simp) hm' rfl
    cases c with
    | false => exact hr
    | true =>
      obtain ⟨x, hx, hxo⟩ := set_before hL ho (by rw [this])
      exact absurd hxo (hfirst x hx)
  obtain ⟨i, hi, ri⟩ := hwin
  refine ⟨i, hi, ri, fun j hj hji => ?_⟩
  obtain ⟨b, rj, _⟩ := mem j hj
  cases b with
  | true => exact rj
  | false =>
    obtain ⟨k, hk, _⟩ := C34_one_winner hM h hji hj hi rj ri
    exact absurd hk (hc k)

end

/-- Two calls on a clear flag (x86): one returns false, the other true. -/
example : ∃ sys, Exec (oneMachine (table .exchange 4)) (construct 4) sys
    [.inv 0 .testAndSet, .inv (1 : Nat) .testAndSet, .res 0 (.flag true), .res 1 (.flag false)] := by
  have h0 := Exec.init (Id := Nat) (M := oneMachine (table .exchange 4)) (sh₀ := construct 4)
  have h1 := h0.invoke 0 .testAndSet rfl
  have h2 := h1.invoke 1 .testAndSet rfl
  have h3 := h2.step 1 Op.testAndSet _ _ _ rfl ⟨rfl, Ret.flag false, by exact Code.Run.rmw, rfl⟩
  have h4 := h3.step 0 Op.testAndSet _ _ _ rfl ⟨rfl, Ret.flag true, by exact Code.Run.rmw, rfl⟩
  have h5 := h4.ret 0 .testAndSet _ _ rfl rfl
  have h6 := h5.ret 1 .testAndSet _ _ rfl rfl
  exact ⟨_, h6⟩

/-! ### Waiting -/

/-- C40: if a set flag is stored as 1, every word of the flag stands for the same boolean in `test` and in the
comparison made by the waiting operations. -/
theorem C40_storage_canonical (b : Backend) (hb : b.Plain) {n : Nat} (hn : 1 ≤ n) {Id : Type} [DecidableEq Id]
    {sys : Sys Id (oneMachine (table b n))} {H} (h : Exec (oneMachine (table b n)) (construct n) sys H) :
    ∃ v, sys.sh = ofBool n v := by
  have hb' : ∀ be tv, b = .intrinsic be tv → tv ≠ 0 := by
    rintro be tv rfl; rw [hb.2]; decide
  rcases one_inv (table_correct b hn hb') (.inl rfl) h with h | h
  · exact ⟨false, h⟩
  · exact ⟨true, by rw [h, plain_setWord hb]⟩

theorem ofBool_ne {n : Nat} (hn : 1 ≤ n) (b : Bool) : decide (ofBool n b ≠ 0) = b := by
  cases b
  · simp [ofBool]
  · have := setWord_ne .exchange hn (fun _ _ h => nomatch h)
    exact decide_eq_true this

section
variable {n : Nat} (hn : 1 ≤ n) (W : World (BitVec (8 * n))) (state : Nat → Bool)
  (hW : ∀ t, W.val t = ofBool n (state t)) {old : Bool} {i j : Nat} {tr : List (Ev (BitVec (8 * n)))}
include hn hW

theorem flag_of_waitOk {v : BitVec (8 * n)} (h : WaitOk W (ofBool n old) i j v) :
    FlagWaitOk state old i j (decide (v ≠ 0)) := by
  obtain ⟨h1, t, h2, h3, rfl⟩ := h
  rw [hW t] at h1 ⊢
  rw [ofBool_ne hn]
  exact ⟨fun h => h1 (by rw [h]), t, h2, h3, rfl⟩

theorem flag_of_timedOk {passed : Nat → Prop} {v : BitVec (8 * n)} {to : Bool}
    (h : TimedOk W (ofBool n old) passed i j v to) :
    FlagTimedOk state old passed i j (decide (v ≠ 0)) to := by
  obtain ⟨⟨t, h2, h3, rfl⟩, h4, h5⟩ := h
  rw [hW t] at h4 h5 ⊢
  rw [ofBool_ne hn]
  refine ⟨⟨t, h2, h3, rfl⟩, fun h h' => h4 h (by rw [h']), fun h => ?_⟩
  obtain ⟨k1, a, c, k2, k3, k4, k5, k6⟩ := h5 h
  have inj : ∀ {x y : Bool}, ofBool n x = ofBool n y → x = y := fun {x y} h => by
    rw [← ofBool_ne hn x, h, ofBool_ne hn]
  refine ⟨inj k1, a, c, k2, k3, k4, k5, inj ?_⟩
  rw [← hW c, k6]

/-- C40: `wait(old)` on a flag, with native waiting or with the lock pool, returns the other state, and the flag
was in that state during the call. -/
theorem C40_wait_partial (pool : Pool) {v : Bool}
    (h : Runs W (wait n nativeWait old) i j tr v ∨ Runs W (wait n (emulatedWait pool) old) i j tr v ∨
      Runs W (wait n (genericWait pool) old) i j tr v) :
    FlagWaitOk state old i j v := by
  rcases h with h | h | h <;>
  · obtain ⟨w, k, t1, t2, h1, ⟨rfl, -, rfl⟩, -⟩ := h
    first
    | exact flag_of_waitOk hn W state hW (C26_wait_native W _ h1)
    | exact flag_of_waitOk hn W state hW (C26_wait_emulated W _ pool h1)
    | exact flag_of_waitOk hn W state hW (C26_wait_generic W _ pool h1)

/-- C40: timed waits on a flag, natively and with the lock pool. -/
theorem C40_wait_until_partial (pool : Pool) (u : Conv) (lim : Int → Int) (timeout : Int) {v to : Bool}
    (h : Runs W (timedWait n (fun o => relWaitUntil u lim o timeout) old) i j tr (v, to) ∨
      Runs W (timedWait n (fun o => poolWaitUntil pool u o timeout) old) i j tr (v, to)) :
    FlagTimedOk state old (fun t => timeout ≤ W.clk .user t) i j v to := by
  rcases h with h | h <;>
  · obtain ⟨⟨w, to'⟩, k, t1, t2, h1, ⟨rfl, -, h2⟩, -⟩ := h
    cases h2
    first
    | exact flag_of_timedOk hn W state hW (C26_wait_until_native W _ u lim timeout h1)
    | exact flag_of_timedOk hn W state hW (C26_wait_until_pool W _ pool u timeout h1)

end

/-- The state of a flag that is cleared at time 3. -/
def exState (t : Nat) : Bool := decide (t < 3)

def exWorld : World (BitVec (8 * 4)) where
  val t := ofBool 4 (exState t)
  clk _ t := t
  posix _ t := ⟨t, 0⟩
  posix_ok _ t := ⟨⟨by simp, by simp⟩, by simp⟩

example : (∀ t, exWorld.val t = ofBool 4 (exState t)) ∧
    Runs exWorld (wait 4 nativeWait true) 0 5 [.load 1 1, .block .none 1, .load 5 0] false := by
  refine ⟨fun _ => rfl, 0, 5, [.load 1 1, .block .none 1, .load 5 0], [], ?_, ⟨rfl, rfl, rfl⟩, rfl⟩
  refine ⟨1, 1, [.load 1 1], [.block .none 1, .load 5 0], ⟨by decide, rfl, rfl⟩, ?_, rfl⟩
  refine LoopRuns.next (s' := (0 : BitVec (8 * 4))) (tr := [.block .none 1, .load 5 0]) (tr' := []) (j := 5) ?_
    (.done ?_)
  · show Runs exWorld (if (1 : BitVec (8 * 4)) = ofBool 4 true then _ else _) _ _ _ _
    rw [if_pos (by decide)]
    exact ⟨.ok, 4, [.block .none 1], [.load 5 0], ⟨by decide, rfl, nofun⟩,
      ⟨0, 5, [.load 5 0], [], ⟨by decide, rfl, rfl⟩, ⟨rfl, rfl, rfl⟩, rfl⟩, rfl⟩
  · show Runs exWorld (if (0 : BitVec (8 * 4)) = ofBool 4 true then _ else _) _ _ _ _
    rw [if_neg (by decide)]
    exact ⟨rfl, rfl, rfl⟩

/-- C40 fails for waiting on big-endian machines with the GCC intrinsics (core_ops_gcc_atomic.hpp:149 sets only the
byte at the lowest address, atomic_flag_impl.hpp:102 waits for the word to differ from 1): on a flag that is set and
stays set, `wait(true)` always returns at once, with `true`, without ever blocking. -/
theorem C40_big_endian_wait_violated (W : World (BitVec (8 * 4)))
    (hW : ∀ t, W.val t = setByte0 true (construct 4) 1) {i j : Nat} {tr : List (Ev (BitVec (8 * 4)))} {v : Bool}
    (h : Runs W (wait 4 nativeWait true) i j tr v) : v = true ∧ NeverBlocks tr := by
  obtain ⟨w, k, t1, t2, ⟨x, k', t3, t4, ⟨h1, rfl, rfl⟩, h2, rfl⟩, ⟨-, rfl, rfl⟩, rfl⟩ := h
  have hne : setByte0 true (construct 4) 1 ≠ ofBool 4 true := by decide
  have hloop : ∀ {y : BitVec (8 * 4)} {a c tr r}, y ≠ ofBool 4 true →
      LoopRuns (fun s i j tr r => Runs W (if s = ofBool 4 true then do
          let _ ← Prog.kwait .none
          let v ← Prog.load
          return .inl v
        else return .inr s) i j tr r) y a c tr r → r = y ∧ tr = [] := by
    intro y a c tr r hy hl
    cases hl with
    | done h => rw [if_neg hy] at h; obtain ⟨-, rfl, h⟩ := h; cases h; exact ⟨rfl, rfl⟩
    | next h _ => rw [if_neg hy] at h; obtain ⟨-, -, h⟩ := h; cases h
  obtain ⟨rfl, rfl⟩ := hloop (by rw [hW]; exact hne) h2
  refine ⟨by rw [hW]; decide, fun l t hm => ?_⟩
  simp at hm

/-- The word above is what `test_and_set` on a clear flag leaves on such a machine, and there are such runs. -/
example : (table (.intrinsic true 1) 4 .testAndSet).Run (construct 4) (setByte0 true (construct 4) 1) (.flag false) ∧
    ∃ W : World (BitVec (8 * 4)), (∀ t, W.val t = setByte0 true (construct 4) 1) ∧
      ∃ j tr v, Runs W (wait 4 nativeWait true) 0 j tr v := by
  refine ⟨?_, ⟨fun _ => setByte0 true (construct 4) 1, fun _ t => t, fun _ t => ⟨t, 0⟩,
    fun _ t => ⟨⟨by simp, by simp⟩, by simp⟩⟩, fun _ => rfl, 0, [.load 0 (setByte0 true (construct 4) 1)], true, ?_⟩
  · have : (table (.intrinsic true 1) 4 .testAndSet).Run (construct 4) (setByte0 true (construct 4) 1)
        (.flag (decide (byte0 true (construct 4) ≠ 0))) := .rmw
    exact this
  · refine ⟨setByte0 true (construct 4) 1, 0, [.load 0 _], [], ?_, ⟨rfl, rfl, rfl⟩, rfl⟩
    refine ⟨_, 0, [.load 0 _], [], ⟨by decide, rfl, rfl⟩, LoopRuns.done ?_, rfl⟩
    show Runs _ (if setByte0 true (construct 4) 1 = ofBool 4 true then _ else _) _ _ _ _
    rw [if_neg (by decide)]
    exact ⟨rfl, rfl, rfl⟩

end Verif.Flag
