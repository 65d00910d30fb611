import Verif.Order.Lemmas

/-! Property theorems about memory orders: C18, C19, C22. -/

namespace Verif.Order

/-! ### C18: failure orders of compare-exchange -/

/-- The order a one-order compare-exchange uses for its failing case is always allowed for a read, never
asks for more than the given order, passes the library's own assertions, and is the strongest such
order: any other order that is allowed for a read and asks for no more than `o` asks for no more than
the deduced one. -/
theorem C18_deduced_failure_order (o : MO) :
    (deduceFailureOrder o).okForLoad = true ∧
    MO.WeakerEq (deduceFailureOrder o) o ∧
    casAsserts o (deduceFailureOrder o) = true ∧
    ∀ f : MO, f.okForLoad = true → MO.WeakerEq f o → MO.WeakerEq f (deduceFailureOrder o) := by
  refine ⟨by cases o <;> rfl, ?_, by cases o <;> rfl, ?_⟩
  · cases o <;> constructor
  · intro f hf hw
    cases o <;> cases f <;> first | (exact absurd hf (by decide)) | constructor | (cases hw)

/-- The assertions accept exactly the pairs where the failure order is allowed for a read and is no
stronger than the success order, and besides these the pairs (release, consume) and (release, acquire). -/
theorem C18_assertion_exact (s f : MO) :
    casAsserts s f = true ↔
      f.okForLoad = true ∧ (MO.WeakerEq f s ∨ (s = .release ∧ (f = .consume ∨ f = .acquire))) := by
  constructor
  · intro h
    cases s <;> cases f <;>
      first
        | (exact absurd h (by decide))
        | (exact ⟨rfl, .inl (by constructor)⟩)
        | (exact ⟨rfl, .inr ⟨rfl, by simp⟩⟩)
  · rintro ⟨h1, h2 | ⟨rfl, rfl | rfl⟩⟩
    · cases s <;> cases f <;> first | rfl | (exact absurd h1 (by decide)) | (cases h2)
    · rfl
    · rfl

/-- Loads and waits accept exactly the orders allowed for a read, stores exactly those allowed for a
write. -/
theorem C18_load_store_asserts (o : MO) :
    loadAsserts o = o.okForLoad ∧ storeAsserts o = o.okForStore := by
  cases o <;> exact ⟨rfl, rfl⟩

/-- The bit tests of the back ends recognise exactly the acquire and the release orders. -/
theorem C18_bit_tests (o : MO) : acqBit o = o.isAcquire ∧ relBit o = o.isRelease := by
  cases o <;> exact ⟨rfl, rfl⟩

/-- No two orders are confused on the way to the compiler's intrinsics, and stronger orders stay
stronger. -/
theorem C18_gcc_constants (a b : MO) : (toGcc a = toGcc b → a = b) ∧
    (MO.WeakerEq a b → toGcc a ≤ toGcc b) := by
  constructor
  · cases a <;> cases b <;> simp [toGcc]
  · intro h; cases h <;> first | (simp [toGcc]; done) | (cases a <;> simp [toGcc]) | (cases b <;> simp [toGcc])

example : deduceFailureOrder .acqRel = .acquire ∧ deduceFailureOrder .release = .relaxed := ⟨rfl, rfl⟩
example : casAsserts .acquire .seqCst = false ∧ casAsserts .release .acquire = true := ⟨rfl, rfl⟩

/-! ### C19: every back end gives each order its meaning -/

/-- Acquire: whatever the program does after the operation takes place after the operation's read, for
every continuation of the program. -/
def AcquireHolds (hw : Hw) (t : List Instr) : Prop :=
  ∀ a x b, t = a ++ x :: b → x.ret = true →
    ∀ (mid : List Instr) (y : Instr) (q : Part), y.has q = true → Ordered hw x .rd (b ++ mid) y q

/-- Release: whatever the program did before the operation has taken place when the operation's write
does, for every preceding program. -/
def ReleaseHolds (hw : Hw) (t : List Instr) : Prop :=
  ∀ a x b, t = a ++ x :: b → x.pub = true →
    ∀ (mid : List Instr) (y : Instr) (p : Part), y.has p = true → Ordered hw y p (mid ++ a) x .wr

/-- Sequential consistency, per thread: the effects of a first operation come before those of a second
one, whatever the program does between the two. -/
def InOrder (hw : Hw) (t₁ t₂ : List Instr) : Prop :=
  ∀ a₁ x b₁, t₁ = a₁ ++ x :: b₁ → ∀ p, x.main p = true →
    ∀ a₂ y b₂, t₂ = a₂ ++ y :: b₂ → ∀ q, y.main q = true →
      ∀ mid : List Instr, Ordered hw x p (b₁ ++ mid ++ a₂) y q

/-- On every back end and for every accepted order with acquire meaning, nothing that follows a load,
read-modify-write or compare-exchange can take effect before its read, however many rounds its retry
loop took – except in the cases listed in `acquireBroken`. -/
theorem C19_acquire_partial (be : Backend) (k : Kind) (o : MO) (n : Nat)
    (hacc : k.accepts o = true) (ho : (k.readOrder o).isAcquire = true)
    (hok : acquireBroken be k o = false) : AcquireHolds be.hw (trace be k o n) := by
  intro a x b e hx mid y q _
  exact (afterAll_iff.1 (acq_good be k o n hacc ho hok) a x b e hx).ordered mid y q

/-- On every back end and for every accepted order with release meaning, everything that precedes a
store, read-modify-write or successful compare-exchange has taken effect before its write. -/
theorem C19_release (be : Backend) (k : Kind) (o : MO) (n : Nat)
    (hacc : k.accepts o = true) (ho : o.isRelease = true) : ReleaseHolds be.hw (trace be k o n) := by
  intro a x b e hx mid y p _
  have := beforeAll_iff.1 (rel_good be k o n hacc ho) a x b e hx
  exact RelGood.ordered (by simpa using this) mid y p

/-- Two seq_cst operations of one thread, on whatever objects and with code of whatever back ends of one processor, keep
their effects in program order (this includes the store-then-load case) – except when the first is a failed
compare-exchange of the kernel-helper back end or a store of `__sync` into an object wider than a pointer. -/
theorem C19_seq_cst_partial {cpu : Cpu} {b₁ b₂ : Backend} (c₁ : cpu.runs b₁ = true) (c₂ : cpu.runs b₂ = true)
    (k₁ k₂ : Kind) (o₁ o₂ : MO) (n₁ n₂ : Nat)
    (h₁ : k₁.isSeqCst o₁ = true) (h₂ : k₂.isSeqCst o₂ = true) (hb : scBroken b₁ k₁ = false) :
    InOrder cpu.hw (trace b₁ k₁ o₁ n₁) (trace b₂ k₂ o₂ n₂) := by
  intro a₁ x b₁ e₁ p hp a₂ y b₂ e₂ q hq mid
  exact inOrder_of_B (trace_grown ..) (trace_grown ..) (sc_inOrderB c₁ c₂ h₁ h₂ hb) e₁ hp e₂ hq mid

/-- Every back end runs on some processor, with the order of this processor. -/
theorem C19_every_backend (b : Backend) : ∃ cpu : Cpu, cpu.runs b = true ∧ cpu.hw = b.hw :=
  ⟨b.cpu, b.cpu_runs⟩

/-- `exchange`, `test_and_set` and `clear` of the `__sync` back end have the acquire and release
meaning of their order. -/
theorem C19_gcc_sync_exchange (o : MO) :
    AcquireHolds .weak (gccSyncExchange o) ∧
    (o.isRelease = true → ReleaseHolds .weak (gccSyncExchange o)) ∧
    ReleaseHolds .weak (gccSyncClear o) := by
  refine ⟨?_, ?_, ?_⟩
  · intro a x b e hx mid y q _
    have : AfterAll (fun x b => x.ret = true → AcqGood .weak x b) (gccSyncExchange o) := by
      have : afterB (fun x b => !x.ret || acqB .weak x b) (gccSyncExchange o) = true := by
        cases o <;> decide
      refine afterAll_mono ?_ (afterB_iff.1 this)
      intro x b h hx
      exact acqB_good (by simpa [hx] using h)
    exact (afterAll_iff.1 this a x b e hx).ordered mid y q
  · intro ho a x b e hx mid y q _
    have : BeforeAll (fun b x => x.pub = true → RelGood .weak b x) [] (gccSyncExchange o) := by
      have : beforeB (fun b x => !x.pub || relB .weak b x) [] (gccSyncExchange o) = true := by
        cases o <;> first | (exact absurd ho (by decide)) | decide
      refine beforeAll_mono ?_ (beforeB_iff.1 this)
      intro x b h hx
      exact relB_good (by simpa [hx] using h)
    have := beforeAll_iff.1 this a x b e hx
    exact RelGood.ordered (by simpa using this) mid y q
  · intro a x b e hx mid y q _
    have : BeforeAll (fun b x => x.pub = true → RelGood .weak b x) [] (gccSyncClear o) := by
      have : beforeB (fun b x => !x.pub || relB .weak b x) [] (gccSyncClear o) = true := by
        cases o <;> decide
      refine beforeAll_mono ?_ (beforeB_iff.1 this)
      intro x b h hx
      exact relB_good (by simpa [hx] using h)
    have := beforeAll_iff.1 this a x b e hx
    exact RelGood.ordered (by simpa using this) mid y q

/-! #### The exceptions are real -/

/-- A plain (non-atomic) load in the user's program. -/
def userLoad : Instr := { rd := true }

/-- In every case listed in `acquireBroken` acquire semantics is indeed missing: some continuation of the
program (a plain load right after the operation) may take effect before the operation's read.
This covers: SPARC in RMO mode (`membar #StoreStore | #LoadStore` where `#LoadLoad | #LoadStore` is
needed); AArch64/AArch32 compare-exchange with orders (release, acquire) or (release, consume) when it
fails; AArch32 8-byte acquire loads (no compiler barrier); a failing compare-exchange of the kernel-helper
back end. -/
theorem C19_acquire_violated (be : Backend) (k : Kind) (o : MO) (n : Nat)
    (hacc : k.accepts o = true) (ho : (k.readOrder o).isAcquire = true)
    (hbad : acquireBroken be k o = true) : ¬ AcquireHolds be.hw (trace be k o n) := by
  intro H
  have key : ∀ a x b, trace be k o n = a ++ x :: b → x.ret = true →
      (∀ z ∈ b, z.rd = false ∧ z.wr = false) →
      CompKeeps x b userLoad ∧ HwKeeps be.hw x .rd b userLoad .rd := by
    intro a x b e hx hb
    have := H a x b e hx [] userLoad .rd rfl
    rw [List.append_nil] at this
    exact ordered_no_access this hb
  have sp : ∀ r : MO, r.isAcquire = true → r ≠ .seqCst → ∀ ok : Bool,
      ¬ HwKeeps .weak { sparcCas ok with ret := true, pub := ok } .rd (sparcAfter r) userLoad .rd := by
    intro r hr hr' ok
    cases r <;> simp [MO.isAcquire] at hr hr' <;>
      simp [HwKeeps, sparcAfter, when, acqBit, MO.val, sparcCas, userLoad, Hw.base, membar, Instr.bars]
  have spv : ∀ r : MO, r.isAcquire = true → r ≠ .seqCst →
      ¬ HwKeeps .weak vload.asRet .rd (sparcAfter r) userLoad .rd := by
    intro r hr hr'
    cases r <;> simp [MO.isAcquire] at hr hr' <;>
      simp [HwKeeps, sparcAfter, when, acqBit, MO.val, vload, Instr.asRet, userLoad, Hw.base, membar,
        Instr.bars]
  have nacc : ∀ r : MO, ∀ z ∈ sparcAfter r, z.rd = false ∧ z.wr = false := by
    intro r; cases r <;> decide
  cases be with
  | sparc =>
    cases k with
    | load =>
      have hne : o ≠ .seqCst := by simpa [acquireBroken, Kind.readOrder] using hbad
      exact spv o ho hne (key [] _ _ rfl rfl (nacc o)).2
    | store =>
      have hne : o ≠ .seqCst := by simpa [acquireBroken, Kind.readOrder] using hbad
      cases o <;> simp [Kind.accepts, storeAsserts, Kind.readOrder, MO.isAcquire] at hacc ho hne
    | rmw =>
      have hne : o ≠ .seqCst := by simpa [acquireBroken, Kind.readOrder] using hbad
      exact sp o ho hne true
        (key (vload :: rounds n (sparcFailRound o) ++ sparcBefore o) _ (sparcAfter o)
          (by simp [trace, call]; rfl) rfl (nacc o)).2
    | loop =>
      have hne : o ≠ .seqCst := by simpa [acquireBroken, Kind.readOrder] using hbad
      exact sp o ho hne true
        (key (plainRead :: rounds n ((call .sparc (.casFail .relaxed) o 0).map fun x => { x with ret := false }) ++
          sparcBefore o) _ (sparcAfter o) (by simp [trace, call]; rfl) rfl (nacc o)).2
    | casOk f =>
      have hne : o ≠ .seqCst := by simpa [acquireBroken, Kind.readOrder] using hbad
      exact sp o ho hne true (key (sparcBefore o) _ (sparcAfter o) rfl rfl (nacc o)).2
    | casFail f =>
      have hne : f ≠ .seqCst := by simpa [acquireBroken, Kind.readOrder] using hbad
      exact sp f ho hne false (key (sparcBefore o) _ (sparcAfter f) rfl rfl (nacc f)).2
  | aarch64 useLse rcpc =>
    cases k with
    | casFail f =>
      simp only [acquireBroken, Bool.and_eq_true, beq_iff_eq] at hbad
      obtain ⟨rfl, -⟩ := hbad
      cases useLse with
      | true =>
        have := (key [] _ [] rfl rfl (by simp)).2
        simp [HwKeeps, Hw.base, Backend.hw, userLoad, lse, moSwitchA, moSwitchL] at this
      | false =>
        have := (key (List.replicate n (ldx false)) _ [] rfl rfl (by simp)).2
        simp [HwKeeps, Hw.base, Backend.hw, userLoad, Instr.asRet, ldx, moSwitchA] at this
    | _ => simp [acquireBroken] at hbad
  | aarch64Wide =>
    cases k with
    | casFail f =>
      simp only [acquireBroken, Bool.and_eq_true, beq_iff_eq] at hbad
      obtain ⟨rfl, -⟩ := hbad
      have := (key (List.replicate n (ldx false)) _ [] rfl rfl (by simp)).2
      simp [HwKeeps, Hw.base, Backend.hw, userLoad, Instr.asRet, ldx, moSwitchA] at this
    | _ => simp [acquireBroken] at hbad
  | aarch32 wide =>
    cases k with
    | casFail f =>
      simp only [acquireBroken, Bool.and_eq_true, beq_iff_eq] at hbad
      obtain ⟨rfl, -⟩ := hbad
      have := (key (List.replicate n (ldx false)) _ [] rfl rfl (by simp)).2
      simp [HwKeeps, Hw.base, Backend.hw, userLoad, Instr.asRet, ldx, moSwitchA] at this
    | load =>
      simp only [acquireBroken] at hbad
      subst hbad
      have hab : acqBit o = true := by rw [(C18_bit_tests o).1]; exact ho
      have := (key [] { rd := true, ret := true, vol := true, clob := false, acq := true, sc := true } []
        (by simp [trace, call, hab]) rfl (by simp)).1
      simp [CompKeeps, userLoad] at this
    | _ => simp [acquireBroken] at hbad
  | linuxArm =>
    cases k with
    | casFail f =>
      have := (key (khCas false) _ [] rfl rfl (by simp)).2
      simp [HwKeeps, Hw.base, Backend.hw, userLoad, Instr.asRet, vload] at this
    | _ => simp [acquireBroken] at hbad
  | _ => simp [acquireBroken] at hbad

/-- The same for two seq_cst operations: after a failed seq_cst compare-exchange of the kernel-helper back
end, a following seq_cst load may read before the value reported by the compare-exchange was read. -/
theorem C19_seq_cst_violated :
    ¬ InOrder (Backend.linuxArm).hw (trace .linuxArm (.casFail .seqCst) .seqCst 0)
        (trace .linuxArm .load .seqCst 0) := by
  intro H
  have := H (khCas false) vload.asRet [] rfl .rd rfl [] vload.asRet [fullFence] rfl .rd rfl []
  have := (ordered_no_access this (by simp)).2
  simp [HwKeeps, Hw.base, Backend.hw, Instr.asRet, vload] at this

/-- Reading GCC's documentation of `__sync_lock_test_and_set` ("not a full barrier, but rather an acquire
barrier") literally, a seq_cst `exchange` followed by a seq_cst load is not kept in order by the `__sync`
back end. -/
theorem C19_gcc_sync_exchange_seq_cst_violated :
    ¬ InOrder .weak (gccSyncExchange .seqCst) (trace .gccSync .load .seqCst 0) := by
  intro H
  have := H [fullFence] lockTestAndSet.asRet.asPub [] rfl .wr rfl [] vload.asRet [fullFence] rfl .rd rfl []
  have := (ordered_no_access this (by simp)).2
  simp [HwKeeps, Hw.base, Instr.asRet, Instr.asPub, vload, lockTestAndSet] at this

/-- The same for a seq_cst store into an object wider than a pointer, which is this `exchange`. -/
theorem C19_gcc_sync_wide_store_violated :
    ¬ InOrder (Backend.gccSyncWide).hw (trace .gccSyncWide .store .seqCst 0) (trace .gccSync .load .seqCst 0) := by
  intro H
  have := H [fullFence] lockTestAndSet.asPub [] rfl .wr rfl [] vload.asRet [fullFence] rfl .rd rfl []
  have := (ordered_no_access this (by simp)).2
  simp [HwKeeps, Hw.base, Backend.hw, Instr.asRet, Instr.asPub, vload, lockTestAndSet] at this

/-- The hypotheses are satisfiable for acquire loads, failing compare-exchange and read-modify-write. -/
example : (Kind.casFail .acquire).accepts .acqRel = true ∧
    ((Kind.casFail .acquire).readOrder .acqRel).isAcquire = true ∧
    acquireBroken (.aarch64 false true) (.casFail .acquire) .acqRel = false := ⟨rfl, rfl, rfl⟩
example : (Kind.casFail .acquire).accepts .release = true ∧
    acquireBroken (.aarch64 false true) (.casFail .acquire) .release = true := ⟨rfl, rfl⟩
/-- A relaxed load gives no such guarantee (so the predicate is not trivially true). -/
example : ¬ AcquireHolds (Backend.gccArm).hw (trace .gccArm .load .relaxed 0) := by
  intro H
  have := H [] vload.asRet [] rfl rfl [] userLoad .rd rfl
  have := (ordered_no_access this (by simp)).2
  simp [HwKeeps, Hw.base, Backend.hw, userLoad, Instr.asRet, vload] at this

/-! ### C22: fences -/

/-- Acquire fence: a read before the fence comes before everything after the fence. -/
def FenceAcquires (hw : Hw) (t : List Instr) : Prop :=
  ∀ (x y : Instr) (q : Part) (mid₁ mid₂ : List Instr), x.has .rd = true → y.has q = true →
    Ordered hw x .rd (mid₁ ++ t ++ mid₂) y q

/-- Release fence: everything before the fence comes before a write after the fence. -/
def FenceReleases (hw : Hw) (t : List Instr) : Prop :=
  ∀ (x y : Instr) (p : Part) (mid₁ mid₂ : List Instr), x.has p = true → y.has .wr = true →
    Ordered hw x p (mid₁ ++ t ++ mid₂) y .wr

/-- Full fence: everything before comes before everything after. -/
def FenceFull (hw : Hw) (t : List Instr) : Prop :=
  ∀ (x y : Instr) (p q : Part) (mid₁ mid₂ : List Instr), x.has p = true → y.has q = true →
    Ordered hw x p (mid₁ ++ t ++ mid₂) y q

/-- `atomic_thread_fence` with an acquire, release or seq_cst order has that meaning on every back end,
for every program around it, except the cases of `fenceBroken`. -/
theorem C22_thread_fence_partial (be : Backend) (o : MO) (hok : fenceBroken be o = false) :
    (o.isAcquire = true → FenceAcquires be.hw (threadFence be o)) ∧
    (o.isRelease = true → FenceReleases be.hw (threadFence be o)) ∧
    (o = .seqCst → FenceFull be.hw (threadFence be o)) := by
  have gen : ∀ p q : Part,
      ((threadFence be o).any (·.clob) &&
        (be.hw.base p q || (threadFence be o).any (·.bars p q))) = true →
      ∀ x y mid₁ mid₂, Ordered be.hw x p (mid₁ ++ threadFence be o ++ mid₂) y q := by
    intro p q h x y mid₁ mid₂
    simp only [Bool.and_eq_true, Bool.or_eq_true, List.any_eq_true] at h
    obtain ⟨⟨z, hz, hc⟩, h⟩ := h
    refine .direct (.inr (.inr (.inl ⟨z, by simp [hz], hc⟩))) ?_
    rcases h with h | ⟨z, hz, h⟩
    · exact .inl h
    · exact .inr (.inr (.inr (.inr (.inr (.inl ⟨z, by simp [hz], h⟩)))))
  refine ⟨?_, ?_, ?_⟩
  · intro ho x y q mid₁ mid₂ _ _
    apply gen
    revert hok ho
    cases be <;> cases o <;> (try cases ‹Bool›) <;> (try cases ‹Bool›) <;> cases q <;> decide
  · intro ho x y p mid₁ mid₂ _ _
    apply gen
    revert hok ho
    cases be <;> cases o <;> (try cases ‹Bool›) <;> (try cases ‹Bool›) <;> cases p <;> decide
  · rintro rfl x y p q mid₁ mid₂ _ _
    apply gen
    clear hok gen
    cases be <;> (try cases ‹Bool›) <;> (try cases ‹Bool›) <;> cases p <;> cases q <;> decide

/-- `atomic_signal_fence` with any order but relaxed: the compiler moves no access across it. -/
theorem C22_signal_fence (be : Backend) (o : MO) (ho : o ≠ .relaxed) (x y : Instr)
    (mid₁ mid₂ : List Instr) : CompKeeps x (mid₁ ++ signalFence be o ++ mid₂) y := by
  refine .inr (.inr (.inl ⟨cbar, ?_, rfl⟩))
  cases o <;> simp [signalFence, when] at ho ⊢

/-- A plain (non-atomic) store in the user's program. -/
def userStore : Instr := { wr := true }

/-- The exceptions are real: the inline-assembly x86 back end emits nothing for a consume fence, although
it has to act as an acquire fence, and the compiler may then move a later load before an earlier one. -/
theorem C22_x86_consume_fence_violated : ¬ FenceAcquires (Backend.gccX86).hw (threadFence .gccX86 .consume) := by
  intro H
  have := H userLoad userLoad .rd [] [] rfl rfl
  have := (ordered_no_access this (by decide)).1
  revert this
  simp [CompKeeps, userLoad, threadFence, when, MO.val]

/-- The Windows back end emits no processor barrier for acquire, release and acq_rel fences, which is not
enough on processors that reorder loads or stores. -/
theorem C22_windows_fence_violated :
    (∀ o, o.isAcquire = true → o ≠ .seqCst →
      ¬ FenceAcquires (Backend.windows false).hw (threadFence (.windows false) o)) ∧
    (∀ o, o.isRelease = true → o ≠ .seqCst →
      ¬ FenceReleases (Backend.windows false).hw (threadFence (.windows false) o)) := by
  constructor
  · intro o ho hne H
    have := H userLoad userLoad .rd [] [] rfl rfl
    have := (ordered_no_access this (by cases o <;> decide)).2
    revert this
    cases o <;> simp [MO.isAcquire] at ho hne <;>
      simp [HwKeeps, userLoad, threadFence, when, Backend.hw, Hw.base, cbar, Instr.bars]
  · intro o ho hne H
    have := H userStore userStore .wr [] [] rfl rfl
    have := (ordered_no_access this (by cases o <;> decide)).2
    revert this
    cases o <;> simp [MO.isRelease] at ho hne <;>
      simp [HwKeeps, userStore, threadFence, when, Backend.hw, Hw.base, cbar, Instr.bars]

example : fenceBroken .ppc64 .acquire = false ∧ MO.acquire.isAcquire = true := ⟨rfl, rfl⟩

end Verif.Order
