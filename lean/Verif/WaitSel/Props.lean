import Verif.WaitSel.Lemmas

/-
Property theorems C47: the waiting and the notifying operations that are selected for an object fit together, those of
interprocess objects are address-free, and what the library reports about them.
-/

namespace Verif.WaitSel

open Verif.Select Spec

/-! ### Examples -/

/-- Linux, FreeBSD 13 and 7 on 64-bit machines, macOS 12, DragonFly BSD, Windows, and a system without support. -/
def exLinux : Os := { hasFutex := true, futexPrivate := true }
def exFreeBSD : Os :=
  { freebsd := true, freebsd7 := true, umtxWait := true, umtxWaitUint := true, umtxPrivate := true }
def exFreeBSD7 : Os := { freebsd := true, freebsd7 := true, umtxWait := true }
def exMac : Os := { apple := true, darwin16 := true, darwin19 := true }
def exDragonFly : Os := { dragonfly := true }
def exWindows : Os := { windows := true, sizeofLong := 4 }
def exOther : Os := {}

example : exLinux.Ok ∧ exFreeBSD.Ok ∧ exFreeBSD7.Ok ∧ exMac.Ok ∧ exDragonFly.Ok ∧ exWindows.Ok ∧ exOther.Ok := by
  unfold Os.Ok; decide

/-! ### Waiting and notifying fit together -/

/-- C47.  A thread blocked in a waiting operation of an object is in the queue from which the notifying operations of
the same object in the same process release threads, for every operating system, storage size and lock-freedom.
Excluded are only objects that poll, which nobody has to wake (C37), and functions that cannot be instantiated
(`C47_ipc_requires_lock_free`). -/
theorem C47_notify_reaches (s : Os) (o : Ops) (ipc : Bool) (M : Mapping) (proc va : Nat)
    (hp : (s.waitOps o ipc).sleep ≠ .poll) (hr : (s.waitOps o ipc).sleep ≠ .rejected) :
    ∃ q, sleepQueue M proc va (s.waitOps o ipc).sleep = some q ∧
      wakeQueue M proc va (s.waitOps o ipc).notifyOne = some q ∧
      wakeQueue M proc va (s.waitOps o ipc).notifyAll = some q := by
  rcases waitOps_cases s o ipc with ⟨_, e⟩ | ⟨_, _, e⟩ | ⟨_, h⟩
  · rw [e] at hp hr ⊢
    cases ipc
    · exact ⟨_, rfl, rfl, rfl⟩
    · exact absurd rfl hr
  · rw [e] at hp hr ⊢
    cases ipc
    · exact ⟨_, rfl, rfl, rfl⟩
    · exact absurd rfl hp
  · rcases spec_cases h with ⟨_, e⟩ | ⟨_, e⟩ | ⟨_, e⟩ | ⟨_, e⟩ | ⟨_, e⟩ | ⟨_, e⟩ | ⟨_, e⟩ <;> rw [e]
    · exact ⟨_, rfl, rfl, rfl⟩
    · exact ⟨_, rfl, rfl, rfl⟩
    · exact ⟨_, rfl, rfl, rfl⟩
    · exact ⟨_, rfl, rfl, rfl⟩
    · unfold uintUmtx
      cases s.umtxPrivate
      · exact ⟨_, rfl, rfl, rfl⟩
      · cases ipc
        · exact ⟨_, rfl, rfl, rfl⟩
        · exact ⟨_, rfl, rfl, rfl⟩
    · exact ⟨_, rfl, rfl, rfl⟩
    · exact ⟨_, rfl, rfl, rfl⟩

example : exLinux.waitOps (exX64.ops 4) false = ⟨true, .futex true, .futex true 1, .futex true 2147483647⟩ ∧
    exLinux.waitOps (exX64.ops 8) false = ⟨false, .pool, .pool false, .pool true⟩ ∧
    exFreeBSD.waitOps (exX64.ops 4) false =
      ⟨true, .umtx .wait_uint_private, .umtx .wake_private 1, .umtx .wake_private 2147483647⟩ ∧
    exFreeBSD7.waitOps (exX64.ops 8) false = ⟨true, .umtx .wait, .umtx .wake 1, .umtx .wake 2147483647⟩ ∧
    exMac.waitOps (exX64.ops 8) true = ulockOps .compare_and_wait64_shared ∧
    exDragonFly.waitOps (exX64.ops 4) true = ⟨true, .umtxSleep, .umtxWakeup 1, .umtxWakeup 0⟩ ∧
    exWindows.waitOps (exX64.ops 1) false = windowsOps 1 ∧
    exOther.waitOps (exX64.ops 4) true = ⟨false, .poll, .nothing, .nothing⟩ := by decide

/-- C47.  Interprocess objects are address-free: whatever processes the waiting and the notifying threads belong to and
wherever the memory is mapped there, if both addresses denote the same memory, then the notifying operations release
threads from the queue in which the waiting thread is, or the waiting operation polls. -/
theorem C47_ipc_address_free (s : Os) (o : Ops) (hlf : o.is_always_lock_free = true) (M : Mapping)
    (proc va proc' va' : Nat) (hM : M proc va = M proc' va') :
    (s.waitOps o true).sleep = .poll ∨
    ∃ q, sleepQueue M proc va (s.waitOps o true).sleep = some q ∧
      wakeQueue M proc' va' (s.waitOps o true).notifyOne = some q ∧
      wakeQueue M proc' va' (s.waitOps o true).notifyAll = some q := by
  rcases waitOps_cases s o true with ⟨h, _⟩ | ⟨_, _, e⟩ | ⟨_, h⟩
  · rw [hlf] at h; cases h
  · rw [e]; exact Or.inl rfl
  · refine Or.inr ?_
    rcases spec_cases h with ⟨hf, _⟩ | ⟨_, e⟩ | ⟨_, e⟩ | ⟨_, e⟩ | ⟨_, e⟩ | ⟨_, e⟩ | ⟨_, e⟩
    · cases hf
    all_goals rw [e]
    · refine ⟨_, rfl, ?_, ?_⟩ <;> simp [futexOps, wakeQueue, hM]
    · refine ⟨_, rfl, ?_, ?_⟩ <;> simp [ulockOps, wakeQueue, ulockKey, hM]
    · refine ⟨_, rfl, ?_, ?_⟩ <;> simp [ulockOps, wakeQueue, ulockKey, hM]
    · unfold uintUmtx
      cases s.umtxPrivate
      · refine ⟨_, rfl, ?_, ?_⟩ <;> simp [umtxOps, wakeQueue, hM]
      · refine ⟨_, rfl, ?_, ?_⟩ <;> simp [umtxOps, wakeQueue, hM]
    · refine ⟨_, rfl, ?_, ?_⟩ <;> simp [ulongUmtx, umtxOps, wakeQueue, hM]
    · refine ⟨_, rfl, ?_, ?_⟩ <;> simp [dragonflyOps, wakeQueue, hM]

/-- Process 2 sees the memory of process 1 at addresses higher by 4096. -/
example : let M : Mapping := fun proc va => if proc = 2 then va - 4096 else va
    M 1 100 = M 2 4196 ∧ (exX64.ops 4).is_always_lock_free = true ∧
    sleepQueue M 1 100 (exLinux.waitOps (exX64.ops 4) true).sleep = some (.futex, .physical 100) ∧
    wakeQueue M 2 4196 (exLinux.waitOps (exX64.ops 4) true).notifyOne = some (.futex, .physical 100) ∧
    -- with an object that is not interprocess the notification is lost
    sleepQueue M 1 100 (exLinux.waitOps (exX64.ops 4) false).sleep ≠
      wakeQueue M 2 4196 (exLinux.waitOps (exX64.ops 4) false).notifyOne := by decide

/-- C47.  Waiting and notifying operations cannot be instantiated exactly for interprocess objects that are not lock-free. -/
theorem C47_ipc_requires_lock_free (s : Os) (o : Ops) (ipc : Bool) :
    ((s.waitOps o ipc).sleep = .rejected ↔ ipc = true ∧ o.is_always_lock_free = false) ∧
    ((s.waitOps o ipc).notifyOne = .rejected ↔ ipc = true ∧ o.is_always_lock_free = false) ∧
    ((s.waitOps o ipc).notifyAll = .rejected ↔ ipc = true ∧ o.is_always_lock_free = false) := by
  rcases waitOps_cases s o ipc with ⟨hl, e⟩ | ⟨hl, _, e⟩ | ⟨hl, h⟩
  · rw [e, hl]; cases ipc <;> simp [emulatedOps]
  · rw [e, hl]; cases ipc <;> simp [genericOps]
  · rw [hl]
    rcases spec_cases h with ⟨_, e⟩ | ⟨_, e⟩ | ⟨_, e⟩ | ⟨_, e⟩ | ⟨_, e⟩ | ⟨_, e⟩ | ⟨_, e⟩ <;> rw [e] <;>
      simp [windowsOps, futexOps, ulockOps, uintUmtx, ulongUmtx, umtxOps, dragonflyOps]
    cases s.umtxPrivate <;> simp

example : (exX64.ops 32).is_always_lock_free = false ∧ (exLinux.waitOps (exX64.ops 32) true).sleep = .rejected := by
  decide

/-- C47.  With fewer than 2³¹ blocked threads, `notify_all` releases all of them and `notify_one` exactly one if
there is one, for every object that does not poll. -/
theorem C47_released (s : Os) (hs : s.Ok) (o : Ops) (ipc : Bool) (n : Nat) (hn : n < 2 ^ 31)
    (hp : (s.waitOps o ipc).sleep ≠ .poll) (hr : (s.waitOps o ipc).sleep ≠ .rejected) :
    released n (s.waitOps o ipc).notifyAll = n ∧ released n (s.waitOps o ipc).notifyOne = min n 1 := by
  have hm : counted n (halfMax s.sizeofInt) = n := by rw [hs.1]; unfold halfMax counted; split <;> omega
  have h1 : counted n 1 = min n 1 := by simp [counted]
  rcases waitOps_cases s o ipc with ⟨_, e⟩ | ⟨_, _, e⟩ | ⟨_, h⟩
  · rw [e] at hr ⊢
    cases ipc
    · exact ⟨rfl, rfl⟩
    · exact absurd rfl hr
  · rw [e] at hp ⊢
    cases ipc
    · exact ⟨rfl, rfl⟩
    · exact absurd rfl hp
  · rcases spec_cases h with ⟨_, e⟩ | ⟨_, e⟩ | ⟨_, e⟩ | ⟨_, e⟩ | ⟨_, e⟩ | ⟨_, e⟩ | ⟨_, e⟩ <;> rw [e]
    · exact ⟨rfl, rfl⟩
    · exact ⟨hm, h1⟩
    · exact ⟨rfl, rfl⟩
    · exact ⟨rfl, rfl⟩
    · unfold uintUmtx; cases s.umtxPrivate <;> exact ⟨hm, h1⟩
    · exact ⟨hm, h1⟩
    · exact ⟨rfl, rfl⟩

example : released 5 (exLinux.waitOps (exX64.ops 4) false).notifyAll = 5 ∧
    released 5 (exDragonFly.waitOps (exX64.ops 4) false).notifyAll = 5 ∧
    released 5 (exDragonFly.waitOps (exX64.ops 4) false).notifyOne = 1 ∧
    released 0 (exLinux.waitOps (exX64.ops 8) false).notifyOne = 0 := by decide

/-- C47.  With `BOOST_ATOMIC_FORCE_FALLBACK` no object uses a blocking primitive of the operating system, and all macros say so. -/
theorem C47_force_fallback (s : Os) (h : s.forceFallback = true) (p : Platform) (o : Ops) (n : Nat) (ipc : Bool) :
    ¬ OfSystem (s.waitOps o ipc).sleep ∧ (s.waitOps o ipc).native = false ∧ waitMacro s p n ipc = 0 := by
  have hb : s.backend = .generic := by simp [Os.backend, h]
  have hn : s.specsFor o.sizeofStorage ipc = [] := by simp [Os.specsFor, Os.specs, hb]
  refine ⟨?_, ?_, by simp [waitMacro, hb]⟩ <;> unfold Os.waitOps <;> rw [hn] <;> split <;>
    cases ipc <;> simp [genericOps, emulatedOps, OfSystem]

/-- Linux with the fallback forced: the lock pool instead of a futex. -/
example : ({ exLinux with forceFallback := true }).waitOps (exX64.ops 4) false = ⟨false, .pool, .pool false, .pool true⟩ := by
  decide

/-- C47.  Where the system decides whether to block by comparing memory, it compares exactly the bytes of the object's
storage. -/
theorem C47_compares_storage (s : Os) (o : Ops) (ipc : Bool) (k : Nat)
    (h : comparedBytes s (s.waitOps o ipc).sleep = some k) : k = o.sizeofStorage := by
  rcases waitOps_cases s o ipc with ⟨_, e⟩ | ⟨_, _, e⟩ | ⟨_, hm⟩
  · rw [e] at h; cases ipc <;> cases h
  · rw [e] at h; cases ipc <;> cases h
  · -- the size of the specialization decides
    unfold Os.specs at hm
    split at hm
    · simp at hm
    · simp at hm
      rcases hm with ⟨hn, _, e⟩ | ⟨hn, _, e⟩ | ⟨hn, _, e⟩ | ⟨hn, _, e⟩ <;> rw [e] at h <;> rw [hn] <;>
        simp [windowsOps, comparedBytes] at h <;> omega
    · simp at hm
      rcases hm with ⟨hn, _, e⟩ | ⟨hn, _, e⟩ <;> rw [e] at h <;> rw [hn] <;>
        simp [futexOps, comparedBytes] at h <;> omega
    · cases hd : s.darwin19 <;> simp [hd] at hm
      · obtain ⟨hn, _, e⟩ := hm
        rw [e] at h; rw [hn]; simp [ulockOps, comparedBytes] at h; omega
      · rcases hm with ⟨hn, _, e⟩ | ⟨hn, _, e⟩ | ⟨hn, _, e⟩ | ⟨hn, _, e⟩ <;> rw [e] at h <;> rw [hn] <;>
          simp [ulockOps, comparedBytes] at h <;> omega
    · rw [List.mem_append] at hm
      rcases hm with hm | hm
      · split at hm
        · simp at hm
          rcases hm with ⟨hn, _, e⟩ | ⟨hn, _, e⟩ <;> rw [e] at h <;> rw [hn] <;>
            cases hu : s.umtxPrivate <;> simp [uintUmtx, umtxOps, comparedBytes, hu] at h <;> omega
        · simp at hm
      · split at hm
        · simp at hm
          rcases hm with ⟨hn, _, e⟩ | ⟨hn, _, e⟩ <;> rw [e] at h <;> rw [hn] <;>
            simp [ulongUmtx, umtxOps, comparedBytes] at h <;> omega
        · simp at hm
    · simp at hm
      rcases hm with ⟨hn, _, e⟩ | ⟨hn, _, e⟩ <;> rw [e] at h <;> rw [hn] <;>
        simp [dragonflyOps, comparedBytes] at h <;> omega

example : comparedBytes exFreeBSD (exFreeBSD.waitOps (exX64.ops 8) false).sleep = some 8 ∧
    comparedBytes exFreeBSD (exFreeBSD.waitOps (exX64.ops 4) false).sleep = some 4 := by decide

/-- C47.  At most one specialization of the back end matches a class, so the selection is well-formed. -/
theorem C47_unique (s : Os) (n : Nat) (ipc : Bool) : (s.specsFor n ipc).length ≤ 1 := by
  unfold Os.specsFor Os.specs
  cases s.backend
  · simp
  · by_cases h1 : n = 1
    · subst h1; cases ipc <;> simp
    by_cases h2 : n = 2
    · subst h2; cases ipc <;> simp
    by_cases h4 : n = 4
    · subst h4; cases ipc <;> simp
    by_cases h8 : n = 8
    · subst h8; cases ipc <;> simp
    simp [Ne.symm h1, Ne.symm h2, Ne.symm h4, Ne.symm h8]
  · by_cases h4 : n = 4
    · subst h4; cases ipc <;> simp
    · simp [Ne.symm h4]
  · cases s.darwin19
    · by_cases h4 : n = 4
      · subst h4; cases ipc <;> simp
      · simp [Ne.symm h4]
    · by_cases h4 : n = 4
      · subst h4; cases ipc <;> simp
      by_cases h8 : n = 8
      · subst h8; cases ipc <;> simp
      simp [Ne.symm h4, Ne.symm h8]
  · cases s.umtxWaitUint <;> cases s.umtxWait
    · simp
    · by_cases hl : s.sizeofLong = n <;> cases ipc <;> simp [hl]
    · by_cases hl : s.sizeofInt = n <;> cases ipc <;> simp [hl]
    · by_cases hlt : s.sizeofInt < s.sizeofLong
      · by_cases hl : s.sizeofInt = n
        · have : s.sizeofLong ≠ n := by omega
          cases ipc <;> simp [hl, this, hl ▸ hlt]
        · by_cases hl2 : s.sizeofLong = n
          · have h3 := hl2 ▸ hlt
            cases ipc <;> simp [hl, hl2, h3]
          · simp [hl, hl2, hlt]
      · by_cases hl : s.sizeofInt = n <;> cases ipc <;> simp [hl, hlt] <;>
          (have : ¬ n < s.sizeofLong := hl ▸ hlt) <;> simp [this]
  · by_cases hl : s.sizeofInt = n <;> cases ipc <;> simp [hl]

/-! ### What is reported -/

/-- C47.  `has_native_wait_notify` says whether threads are blocked by the operating system. -/
theorem C47_native_iff (s : Os) (o : Ops) (ipc : Bool) :
    (s.waitOps o ipc).native = true ↔ OfSystem (s.waitOps o ipc).sleep := by
  rcases waitOps_cases s o ipc with ⟨_, e⟩ | ⟨_, _, e⟩ | ⟨_, h⟩
  · rw [e]; cases ipc <;> simp [emulatedOps, OfSystem]
  · rw [e]; cases ipc <;> simp [genericOps, OfSystem]
  · have := spec_native h; simp [this.1, this.2]

/-- C47.  Without native support interprocess objects poll and other objects use the lock pool. -/
theorem C47_not_native (s : Os) (o : Ops) (ipc : Bool) (h : (s.waitOps o ipc).native = false) :
    (ipc = false → (s.waitOps o ipc).sleep = .pool) ∧
    (ipc = true → o.is_always_lock_free = true → (s.waitOps o ipc).sleep = .poll) := by
  rcases waitOps_cases s o ipc with ⟨hl, e⟩ | ⟨_, _, e⟩ | ⟨_, hm⟩
  · rw [e, hl]; cases ipc <;> simp [emulatedOps]
  · rw [e]; cases ipc <;> simp [genericOps]
  · have := (spec_native hm).1; rw [this] at h; cases h

example : (exLinux.waitOps (exX64.ops 8) false).native = false ∧ (exLinux.waitOps (exX64.ops 8) true).native = false ∧
    (exLinux.waitOps (exX64.ops 4) true).native = true := by decide

/-- C47, partial.  The macro for an integer type of `n` bytes is 2 if `has_native_wait_notify` of objects of the type is true
and 0 if it is false.

What is missing: types whose lock-freedom macro is 1, and types whose values are kept in wider storage
(`C47_macro_understates_violated`, `C47_macro_overstates_violated`, `C47_macro_sometimes_violated`). -/
theorem C47_macro_partial (s : Os) (hs : s.Ok) (p : Platform) (hp : p.Ok) (hm : p.MacrosOk) (n : Nat) (ipc : Bool)
    (h1 : p.lockFree n ≠ 1) (hsz : (p.ops n).sizeofStorage = n) :
    typeMacro s p n ipc = if (s.waitOps (p.ops n) ipc).native then 2 else 0 := by
  rw [typeMacro_eq s hs]; exact waitMacro_native s hs p hp hm n ipc h1 hsz

example : exLinux.Ok ∧ exX64.lockFree 4 ≠ 1 ∧ (exX64.ops 4).sizeofStorage = 4 ∧ typeMacro exLinux exX64 4 true = 2 ∧
    typeMacro exLinux exX64 8 true = 0 ∧ typeMacro exWindows exX64 1 false = 2 ∧ typeMacro exWindows exX64 1 true = 0 := by
  unfold Os.Ok; decide

/-- C47, partial.  The same for `atomic_flag`. -/
theorem C47_flag_macro_partial (s : Os) (hs : s.Ok) (p : Platform) (hp : p.Ok) (hm : p.MacrosOk) (ipc : Bool)
    (h1 : p.lockFree 4 ≠ 1) (hsz : (flagOps p).sizeofStorage = 4) :
    flagMacro s p ipc = if (s.waitOps (flagOps p) ipc).native then 2 else 0 :=
  waitMacro_native s hs p hp hm 4 ipc h1 hsz

example : exArm6.lockFree 4 ≠ 1 ∧ (flagOps exArm6).sizeofStorage = 4 ∧ flagMacro exLinux exArm6 false = 2 := by decide

/-- C47, partial.  The same for floating point types, whose objects may be larger than their values: the value size is one of 2, 4, 8
and 9 to 16, and the object is not so large that it needs wider storage. -/
theorem C47_float_macro_partial (s : Os) (hs : s.Ok) (p : Platform) (hp : p.Ok) (hm : p.MacrosOk) (v sizeofT : Nat)
    (ipc : Bool) (hv : v = 2 ∨ v = 4 ∨ v = 8 ∨ (8 < v ∧ v ≤ 16)) (hT : storage_size_of sizeofT = storage_size_of v)
    (h1 : p.lockFree (storage_size_of v) ≠ 1) (hsz : (p.atomicOps sizeofT).sizeofStorage = storage_size_of v) :
    floatMacro s p v ipc = if (s.waitOps (p.atomicOps sizeofT) ipc).native then 2 else 0 := by
  unfold Platform.atomicOps at hsz ⊢
  rw [hT] at hsz ⊢
  rw [← waitMacro_native s hs p hp hm _ ipc h1 hsz]
  unfold floatMacro storage_size_of
  rcases hv with rfl | rfl | rfl | ⟨ha, hb⟩
  · rfl
  · rfl
  · rfl
  · have e2 : v ≠ 2 := by omega
    have e3 : v ≠ 3 := by omega
    have e4 : v ≠ 4 := by omega
    have e8 : v ≠ 8 := by omega
    have e5 : ¬ (5 ≤ v ∧ v ≤ 7) := by omega
    by_cases e16 : v = 16
    · subst e16; rfl
    · have e9 : 9 ≤ v ∧ v ≤ 15 := by omega
      simp only [e2, e3, e4, e8, e5, e9, ha, hb, if_false, if_true, and_self]

/-- x87 `long double`: 10 bytes of value in an object of 16 bytes. -/
example : storage_size_of 16 = storage_size_of 10 ∧ (exX64.atomicOps 16).sizeofStorage = 16 ∧
    exX64.lockFree 16 = 2 ∧ floatMacro exLinux exX64 10 false = 0 ∧ floatMacro exLinux exX64 4 false = 2 := by decide

/-- C47, the exception: the macro says that native waiting is not available although the objects report it and use it.  On
Linux on an ARMv6 without byte exclusives 1-byte objects are kept in 4 bytes and wait with a futex. -/
theorem C47_macro_understates_violated :
    ∃ (s : Os) (p : Platform), s.Ok ∧ p.Ok ∧ p.MacrosOk ∧ p.abi.Ok ∧ p.lockFree 1 = 2 ∧
      typeMacro s p 1 false = 0 ∧ (s.waitOps (p.atomicOps 1) false).native = true := by
  refine ⟨exLinux, exArm6, by unfold Os.Ok; decide, trivial, ?_, exArm6_abi, by decide, by decide, by decide⟩
  intro g h; cases h

/-- A compiler that provides `__sync` operations for 8 bytes only. -/
def exSync8 : Platform := ⟨⟨2, 4, 8, 16⟩, .none, .gcc_sync ⟨false, false, false, true, false⟩⟩

/-- C47, the exception in the other direction: if 4-byte objects are kept in 8 bytes, the macro says "always available" and the
objects use the lock pool. -/
theorem C47_macro_overstates_violated :
    ∃ (s : Os) (p : Platform), s.Ok ∧ p.Ok ∧ p.MacrosOk ∧ p.abi.Ok ∧
      typeMacro s p 4 false = 2 ∧ (s.waitOps (p.atomicOps 4) false).native = false := by
  refine ⟨exLinux, exSync8, by unfold Os.Ok; decide, ⟨rfl, by decide⟩, ?_, ?_, by decide, by decide⟩
  · intro g h; cases h
  · constructor <;> (unfold Spec.ValidAlign exSync8; decide)

/-- C47, the exception for sometimes lock-free types: the macro says that availability is determined at run time, but the
static constant says always. -/
theorem C47_macro_sometimes_violated :
    ∃ (s : Os) (p : Platform), s.Ok ∧ p.Ok ∧ p.MacrosOk ∧ p.abi.Ok ∧
      typeMacro s p 8 false = 1 ∧ (s.waitOps (p.atomicOps 8) false).native = true := by
  refine ⟨exWindows, exI486, by unfold Os.Ok; decide, trivial, ?_, ?_, by decide, by decide⟩
  · intro g h; injection h with h; subst h; constructor <;> decide
  · constructor <;> (unfold Spec.ValidAlign exI486; decide)

end Verif.WaitSel
