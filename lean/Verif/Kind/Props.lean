import Verif.Kind.Lemmas

/-
Property theorems C65 (which operations a value type has), C66 (the aliases for lock-free integers) and C67 (the sizes and
capability macros of the named integral types).
-/

namespace Verif.Kind

open Verif.Select Verif.WaitSel Spec

/-! ### C65: operations of a value type -/

/-- C65, partial.  For every value type, with or without top-level `const` and `volatile`, except for qualified `bool` and
qualified pointers to objects, the class `atomic< T >` and the class `atomic_ref< T >` exist and have exactly the operations the
documentation lists for the type, whether or not floating point support is disabled.  Missing: qualified `bool` and pointers to
objects, for which it is not true (`C65_volatile_violated`) except for the common operations (`C65_common`). -/
theorem C65_members_partial (noFloat : Bool) (cv : Cv) (t : Ty) (ht : ValueType t)
    (hcv : cv = {} ∨ (t ≠ .bool ∧ ¬ ObjectPointer t)) :
    ∃ l, members noFloat cv t = some l ∧ ∀ m, m ∈ l ↔ Promised noFloat t m := by
  have key : ∀ (c : Cls) (i o f e : Bool), specialization noFloat cv t (classify noFloat cv t) = some c →
      (Integer t ↔ i = true) → (ObjectPointer t ↔ o = true) → ((Floating t ∧ noFloat = false) ↔ f = true) →
      (Enumeration t ↔ e = true) → _ → ∃ l, members noFloat cv t = some l ∧ ∀ m, m ∈ l ↔ Promised noFloat t m :=
    fun c i o f e hc hI hO hF hE h =>
      ⟨_, members_some c hc, fun m => (members_cls c i o f e h m).trans (promised_iff i o f e hI hO hF hE m).symm⟩
  cases t with
  | void | function => exact ht.elim
  | bool =>
    obtain rfl | h := hcv
    · exact key .bool false false false false rfl (by simp [Integer]) (by simp [ObjectPointer]) (by simp [Floating])
        (by simp [Enumeration]) (by simp)
    · exact absurd rfl h.1
  | integer sz sg =>
    exact key .integer true false false false (by simp [classify, isIntegral, isFloatingPoint, isEnum, specialization])
      (by simp [Integer]) (by simp [ObjectPointer]) (by simp [Floating]) (by simp [Enumeration]) (by simp)
  | floating sz =>
    cases noFloat with
    | false =>
      exact key .floating false false true false (by simp [classify, isIntegral, isFloatingPoint, isEnum, specialization])
        (by simp [Integer]) (by simp [ObjectPointer]) (by simp [Floating]) (by simp [Enumeration]) (by simp)
    | true =>
      exact key .generic false false false false (by simp [classify, isIntegral, isFloatingPoint, isEnum, specialization])
        (by simp [Integer]) (by simp [ObjectPointer]) (by simp [Floating]) (by simp [Enumeration]) (by simp)
  | enum u =>
    exact key .enum false false false true (by simp [classify, isIntegral, isFloatingPoint, isEnum, specialization])
      (by simp [Integer]) (by simp [ObjectPointer]) (by simp [Floating]) (by simp [Enumeration]) (by simp)
  | object | memberPointer u =>
    exact key .generic false false false false (by simp [classify, isIntegral, isFloatingPoint, isEnum, specialization])
      (by simp [Integer]) (by simp [ObjectPointer]) (by simp [Floating]) (by simp [Enumeration]) (by simp)
  | pointer c u =>
    cases u with
    | void | function =>
      exact key .generic false false false false
        (by simp [classify, classify_pointer, isFunction, isIntegral, isFloatingPoint, isEnum, specialization])
        (by simp [Integer]) (by simp [ObjectPointer]) (by simp [Floating]) (by simp [Enumeration]) (by simp)
    | _ =>
      obtain rfl | h := hcv
      · exact key .pointer false true false false rfl (by simp [Integer]) (by simp [ObjectPointer]) (by simp [Floating])
          (by simp [Enumeration]) (by simp)
      · exact absurd (by simp [ObjectPointer]) h.2

/-- Non-vacuity: a pointer to `const int*` can be stepped, a pointer to `const void` and a pointer to a function cannot, an
enumeration has bits but no sum, and without floating point support `double` can still be stored. -/
example : ValueType (.pointer ⟨true, false⟩ (.pointer {} (.integer 4 true))) ∧
    Promised false (.pointer ⟨true, false⟩ (.pointer {} (.integer 4 true))) .op_inc ∧
    (members false {} (.pointer ⟨true, false⟩ (.pointer {} (.integer 4 true)))).any (·.contains .op_inc) = true ∧
    (members false {} (.pointer ⟨true, false⟩ .void)).any (·.contains .op_inc) = false ∧
    (members false {} (.pointer {} .function)).any (·.contains .op_inc) = false ∧
    (members false {} (.enum (.integer 4 false))).map (fun l => (l.contains .fetch_or, l.contains .fetch_add)) = some (true, false) ∧
    (members true {} (.floating 8)).map (fun l => (l.contains .store, l.contains .fetch_add)) = some (true, false) :=
  ⟨trivial, .inr (.inr (.inl ⟨by simp [stepping], .inr ⟨by simp, by simp⟩⟩)), by decide, by decide, by decide, by decide, by decide⟩

/-- C65.  Also for qualified types the class exists and has the operations common to all atomic objects. -/
theorem C65_common (noFloat : Bool) (cv : Cv) (t : Ty) :
    ∃ l, members noFloat cv t = some l ∧ ∀ m ∈ common, m ∈ l := by
  have key : ∀ (c : Cls), specialization noFloat cv t (classify noFloat cv t) = some c →
      ∃ l, members noFloat cv t = some l ∧ ∀ m ∈ common, m ∈ l := by
    intro c hc
    exact ⟨_, by rw [members, hc]; rfl, by cases c <;> decide⟩
  by_cases hcv : cv = ⟨false, false⟩
  · subst hcv
    cases t with
    | void =>
      exact key .generic rfl
    | function =>
      exact key .generic rfl
    | bool =>
      exact key .bool rfl
    | integer _ _ =>
      exact key .integer rfl
    | floating _ =>
      cases noFloat with
      | false =>
        exact key .floating rfl
      | true =>
        exact key .generic rfl
    | enum _ =>
      exact key .enum rfl
    | object =>
      exact key .generic rfl
    | memberPointer _ =>
      exact key .generic rfl
    | pointer c u =>
      cases u with
      | void =>
        exact key .generic rfl
      | function =>
        exact key .generic rfl
      | _ =>
        exact key .pointer rfl
  · cases t with
    | bool =>
      exact key .integer (by simp [classify, isIntegral, isFloatingPoint, isEnum, specialization, hcv])
    | integer _ _ =>
      exact key .integer (by simp [classify, isIntegral, isFloatingPoint, isEnum, specialization, hcv])
    | floating _ =>
      cases noFloat with
      | false =>
        exact key .floating (by simp [classify, isIntegral, isFloatingPoint, isEnum, specialization])
      | true =>
        exact key .generic (by simp [classify, isIntegral, isFloatingPoint, isEnum, specialization])
    | enum _ =>
      exact key .enum (by simp [classify, isIntegral, isFloatingPoint, isEnum, specialization])
    | _ =>
      exact key .generic (by simp [classify, isIntegral, isFloatingPoint, isEnum, specialization, hcv])

example : (⟨false, true⟩ : Cv) ≠ {} ∧ (members false ⟨false, true⟩ (.pointer {} .object)).any (·.contains .wait) = true := by decide

/-- C65 fails for qualified types: `atomic_ref< volatile bool >` has arithmetic, which `bool` is promised not to have, and
`atomic_ref< U* volatile >` has lost the arithmetic of pointers. -/
theorem C65_volatile_violated :
    (∃ l, members false ⟨false, true⟩ .bool = some l ∧ .fetch_add ∈ l ∧ .negate ∈ l ∧ ¬ Promised false .bool .fetch_add) ∧
    ∃ l, members false ⟨false, true⟩ (.pointer {} (.integer 4 true)) = some l ∧ .fetch_add ∉ l ∧
      Promised false (.pointer {} (.integer 4 true)) .fetch_add := by
  refine ⟨⟨_, rfl, by decide, by decide, ?_⟩, ⟨_, rfl, by decide, .inr (.inl ⟨by simp [additive], .inr (.inl ⟨by simp, by simp⟩)⟩)⟩⟩
  simp [Promised, common, additive, stepping, testedSums, signChanging, bitwise, Integer, ObjectPointer, Floating]

/-! ### C66: aliases for lock-free integers -/

/-- C66.  Where the aliases exist, they name integers of 8, 16, 32 or 64 bits that are always lock-free, with operations that
never take a lock. -/
theorem C66_lock_free (s : Os) (p : Platform) (hp : p.Ok) (hm : p.MacrosOk) (n : Nat) (h : lockFreeAlias s p = some n) :
    Candidate n ∧ (p.atomicOps n).is_always_lock_free = true ∧ (p.atomicOps n).kind = .native true := by
  obtain ⟨hc, h2⟩ := alias_mem h
  have h39 := C39_always_lock_free_partial p hp hm n (by omega)
  rw [atomicOps_candidate p hc]
  exact ⟨hc, h39.1.2 h2, h39.2.1 (h39.1.2 h2)⟩

example : lockFreeAlias exLinux exX64 = some 4 ∧ lockFreeAlias exOther exX64 = some 4 ∧ exX64.Ok ∧ exX64.MacrosOk :=
  ⟨by decide, by decide, exX64_ok⟩

/-- C66.  The aliases exist if an integer of one of these sizes has operations that never take a lock. -/
theorem C66_exists (s : Os) (p : Platform) (hp : p.Ok) (hm : p.MacrosOk) (n : Nat) (hn : Candidate n)
    (h : (p.atomicOps n).kind = .native true) : ∃ k, lockFreeAlias s p = some k := by
  rw [atomicOps_candidate p hn] at h
  have h2 := (C39_macro p hp hm n).1.1 h
  unfold lockFreeAlias
  repeat' split
  all_goals first | exact ⟨_, rfl⟩ | skip
  rcases hn with rfl | rfl | rfl | rfl <;> omega

/-- With 8-byte operations only; and there are no aliases without any operations. -/
example : (exSync8.atomicOps 1).kind = .native true ∧ (lockFreeAlias exOther exSync8).isSome = true ∧
    lockFreeAlias exOther { exSync8 with core := .none } = none := by decide

/-- C66, partial.  If a lock-free integer of 8, 16, 32 or 64 bits has native waiting and notifying operations, the integer named
by the aliases has them.  Missing: compilers with `__sync` operations of 16 and not of 8 bytes, where some of these integers are
kept in 16 bytes, see `C66_native_violated`. -/
theorem C66_native_partial (s : Os) (hs : s.Ok) (p : Platform) (hp : p.Ok) (hm : p.MacrosOk)
    (h8 : ∀ n, Candidate n → (p.atomicOps n).kind = .native true → (p.atomicOps n).sizeofStorage ≤ 8)
    (m : Nat) (hc : Candidate m) (hlf : (p.atomicOps m).kind = .native true)
    (hw : (s.waitOps (p.atomicOps m) false).native = true) :
    ∃ n, lockFreeAlias s p = some n ∧ (s.waitOps (p.atomicOps n) false).native = true := by
  have always : ∀ n, p.lockFree n = 2 → (p.ops n).is_always_lock_free = true := fun n h =>
    (C39_always_lock_free_partial p hp hm n (by omega)).1.2 h
  have le8 : ∀ n, Candidate n → p.lockFree n = 2 → (p.ops n).sizeofStorage ≤ 8 := fun n hn h => by
    have := h8 n hn (by rw [atomicOps_candidate p hn]; exact (C39_macro p hp hm n).1.2 h)
    rwa [atomicOps_candidate p hn] at this
  obtain ⟨n, hn⟩ := C66_exists s p hp hm m hc hlf
  obtain ⟨hcn, h2n⟩ := alias_mem hn
  refine ⟨n, hn, ?_⟩
  rw [atomicOps_candidate p hc] at hw hlf
  rw [atomicOps_candidate p hcn, native_iff s _ (always n h2n)]
  have h2 := (C39_macro p hp hm m).1.1 hlf
  rw [native_iff s _ (always m h2)] at hw
  obtain ⟨hck, -, hlk, hkk⟩ := storage_self p hp hm m _ hc h2 rfl (le8 m hc h2)
  obtain ⟨hcj, hnj, hlj, hjj⟩ := storage_self p hp hm n _ hcn h2n rfl (le8 n hcn h2n)
  have hwn := alias_native hck hlk (by rw [waitMacro_eq s hs, if_neg hw]; exact hlk) hn
  rw [waitMacro_eq s hs] at hwn
  have hsn : s.specsFor n false ≠ [] := fun e => by rw [if_pos e] at hwn; cases hwn
  generalize hj : (p.ops n).sizeofStorage = j at *
  generalize hk : (p.ops m).sizeofStorage = k at *
  rcases native_sizes s hs with hall | ⟨e1, e2⟩
  · exact hall j hcj
  · have hn4 : n = 4 ∨ n = 8 := by
      rcases hcn with rfl | rfl | rfl | rfl
      · exact absurd e1 hsn
      · exact absurd e2 hsn
      · exact .inl rfl
      · exact .inr rfl
    have hk4 : k = 4 ∨ k = 8 := by
      rcases hck with rfl | rfl | rfl | rfl
      · exact absurd e1 hw
      · exact absurd e2 hw
      · exact .inl rfl
      · exact .inr rfl
    unfold Candidate at hcj
    rcases hn4 with rfl | rfl
    · have : j = 4 ∨ j = 8 := by omega
      rcases this with rfl | rfl
      · exact hsn
      · rcases hk4 with rfl | rfl
        · omega
        · exact hw
    · have : j = 8 := by omega
      subst this; exact hsn

/-- Windows waits natively on integers of all four sizes, x86-64 has them all; FreeBSD 7 on 8 bytes only; ARMv6 without byte
exclusives keeps bytes in 4 bytes, which wait with a futex on Linux. -/
example : (exX64.atomicOps 1).kind = .native true ∧ (exWindows.waitOps (exX64.atomicOps 1) false).native = true ∧
    lockFreeAlias exWindows exX64 = some 4 ∧ (exFreeBSD7.waitOps (exX64.atomicOps 4) false).native = false ∧
    lockFreeAlias exFreeBSD7 exX64 = some 8 ∧
    (exArm6.atomicOps 1).sizeofStorage = 4 ∧ (exLinux.waitOps (exArm6.atomicOps 1) false).native = true ∧
    lockFreeAlias exLinux exArm6 = some 4 := by decide

/-- C66, partial.  The same, for all compilers but those with `__sync` operations of 16 and not of 8 bytes. -/
theorem C66_native_compilers_partial (s : Os) (hs : s.Ok) (p : Platform) (hp : p.Ok) (hm : p.MacrosOk)
    (hsync : ∀ g, p.core = .gcc_sync g → g.s16 = true → g.s8 = true)
    (m : Nat) (hc : Candidate m) (hlf : (p.atomicOps m).kind = .native true)
    (hw : (s.waitOps (p.atomicOps m) false).native = true) :
    ∃ n, lockFreeAlias s p = some n ∧ (s.waitOps (p.atomicOps n) false).native = true := by
  refine C66_native_partial s hs p hp hm (fun n hn h => ?_) m hc hlf hw
  rw [atomicOps_candidate p hn] at h ⊢
  exact storage_le p hm hsync n hn ((C39_macro p hp hm n).1.1 h)

example : exX64.Ok ∧ (∀ g, exX64.core = .gcc_sync g → g.s16 = true → g.s8 = true) := ⟨exX64_ok.1, fun g h => by cases h⟩

/-- A compiler whose `__sync` operations are 1, 2 and 16 bytes wide: integers of 4 and 8 bytes are kept in 16. -/
def exSyncGap : Platform := { exSync8 with core := .gcc_sync ⟨true, true, false, false, true⟩ }

/-- C66 fails where 4-byte integers are kept in 16 bytes: on Windows with a compiler whose operations are 1, 2 and 16 bytes wide the
aliases name a 32-bit integer that waits without support by the system, though a 16-bit one would have it. -/
theorem C66_native_violated :
    ∃ (s : Os) (p : Platform), s.Ok ∧ p.Ok ∧ p.MacrosOk ∧ p.abi.Ok ∧ lockFreeAlias s p = some 4 ∧
      (p.atomicOps 2).is_always_lock_free = true ∧ (s.waitOps (p.atomicOps 2) false).native = true ∧
      (s.waitOps (p.atomicOps 4) false).native = false := by
  refine ⟨exWindows, exSyncGap, by unfold Os.Ok; decide, ⟨rfl, by decide⟩, ?_, ?_, by decide, by decide, by decide, by decide⟩
  · intro g h; cases h
  · constructor <;> (unfold Spec.ValidAlign exSyncGap exSync8; decide)

/-- C66.  The 32-bit integer is preferred: the aliases name another one only if the macros say that 32-bit integers are not always
lock-free, or have no native waiting while the one named has it. -/
theorem C66_prefers_32 (s : Os) (p : Platform) (n : Nat) (h : lockFreeAlias s p = some n) :
    n = 4 ∨ p.lockFree 4 ≠ 2 ∨ (waitMacro s p 4 false ≠ 2 ∧ waitMacro s p n false = 2) := by
  unfold lockFreeAlias at h
  repeat' split at h
  all_goals first
    | (injection h with h; subst h; omega)
    | cases h

/-- FreeBSD with the older wait call only, on which integers of 8 bytes wait natively and those of 4 bytes do not. -/
example : lockFreeAlias exFreeBSD7 exX64 = some 8 ∧
    waitMacro exFreeBSD7 exX64 4 false = 0 ∧
    waitMacro exFreeBSD7 exX64 8 false = 2 := by decide

/-! ### C67: sizes and macros of the named types -/

/-- C67.  The size of `short`, `int` and `long` that the library works with is never wrong: whether taken from the compiler's macro
or deduced from the limits, it is the size of a type of `k` bytes, and it is found for every size of which there are atomic
operations. -/
theorem C67_int_size (k : Nat) (m : Option Nat) (hm : m = none ∨ m = some k) :
    (∀ n, sizeofInt m (unsignedMax k) = some n → n = k) ∧ (Candidate k → sizeofInt m (unsignedMax k) = some k) := by
  rcases hm with rfl | rfl
  · rw [sizeofInt_max]; exact ⟨fun n h => by split at h <;> cases h; rfl, fun h => if_pos h⟩
  · exact ⟨fun n h => by cases h; rfl, fun _ => rfl⟩

example : sizeofInt none 65535 = some 2 ∧ unsignedMax 2 = 65535 ∧ sizeofInt none (unsignedMax 3) = none := by decide

/-- C67.  The same for `long long`; on HP-UX, where it has 8 bytes, without the limit. -/
theorem C67_llong_size (k : Nat) (m : Option Nat) (hm : m = none ∨ m = some k) (hpux : Bool) (hh : hpux = true → k = 8) :
    (∀ n, sizeofLLong m hpux (some (unsignedMax k)) = some n → n = k) ∧
    (Candidate k → sizeofLLong m hpux (some (unsignedMax k)) = some k) := by
  rcases hm with rfl | rfl
  · cases hpux with
    | false => exact C67_int_size k none (.inl rfl)
    | true => cases hh rfl; exact ⟨fun n h => by cases h; rfl, fun _ => rfl⟩
  · exact ⟨fun n h => by cases h; rfl, fun _ => rfl⟩

example : sizeofLLong none false (some (unsignedMax 8)) = some 8 ∧ sizeofLLong none true none = some 8 ∧
    sizeofLLong none false none = none := by decide

/-- C67.  The same for `wchar_t`, whether signed or unsigned; old Microsoft compilers have 2 bytes. -/
theorem C67_wchar_size (k : Nat) (hk : 0 < k) (m : Option Nat) (hm : m = none ∨ m = some k) (oldMsvc : Bool)
    (ho : oldMsvc = true → k = 2) (max : Nat) (hmax : max = unsignedMax k ∨ max = signedMax k) :
    (∀ n, sizeofWchar m oldMsvc max = some n → n = k) ∧ (Candidate k → sizeofWchar m oldMsvc max = some k) := by
  rcases hm with rfl | rfl
  · cases oldMsvc with
    | false => rw [sizeofWchar_max k max hk hmax]; exact ⟨fun n h => by split at h <;> cases h; rfl, fun h => if_pos h⟩
    | true => cases ho rfl; exact ⟨fun n h => by cases h; rfl, fun _ => rfl⟩
  · exact ⟨fun n h => by cases h; rfl, fun _ => rfl⟩

example : sizeofWchar none false (signedMax 4) = some 4 ∧ signedMax 4 = 2147483647 ∧ sizeofWchar none false (unsignedMax 2) = some 2 := by
  decide

/-- C67.  The same for pointers. -/
theorem C67_pointer_size (k : Nat) (m : Option Nat) (hm : m = none ∨ m = some k) (msvc : Option Bool)
    (hv : ∀ wide, msvc = some wide → k = if wide then 8 else 4) :
    (∀ n, sizeofPointer m msvc (some (unsignedMax k)) = some n → n = k) ∧
    (k = 2 ∨ k = 4 ∨ k = 8 → sizeofPointer m msvc (some (unsignedMax k)) = some k) := by
  rcases hm with rfl | rfl
  · cases msvc with
    | none => rw [sizeofPointer_max]; exact ⟨fun n h => by split at h <;> cases h; rfl, fun h => if_pos h⟩
    | some wide => have := hv wide rfl; subst this; exact ⟨fun n h => by cases h; rfl, fun _ => rfl⟩
  · exact ⟨fun n h => by cases h; rfl, fun _ => rfl⟩

example : sizeofPointer none (some true) none = some 8 ∧ sizeofPointer none none (some (unsignedMax 4)) = some 4 := by decide

/-- The macro of a type whose size is known is that of the integer of its size. -/
theorem intMacro_candidate (p : Platform) {k : Nat} (h : Candidate k) : intMacro p (some k) = p.lockFree k := by
  rcases h with rfl | rfl | rfl | rfl <;> rfl

/-- C67.  `BOOST_ATOMIC_{SHORT,INT,LONG}_LOCK_FREE` is 2 exactly if the operations of atomic objects of the type never take a
lock, and 0 exactly if they use the lock pool. -/
theorem C67_int_macro (p : Platform) (hp : p.Ok) (hm : p.MacrosOk) (k : Nat) (hk : Candidate k) (m : Option Nat)
    (hmk : m = none ∨ m = some k) :
    (intMacro p (sizeofInt m (unsignedMax k)) = 2 ↔ (p.atomicOps k).kind = .native true) ∧
    (intMacro p (sizeofInt m (unsignedMax k)) = 0 ↔ (p.atomicOps k).kind = .locked) := by
  rw [(C67_int_size k m hmk).2 hk, intMacro_candidate p hk, atomicOps_candidate p hk]
  have h := C39_macro p hp hm k
  exact ⟨h.1.symm, h.2.2.symm⟩

example : intMacro exX64 (sizeofInt none (unsignedMax 8)) = 2 ∧ intMacro exArm6 (sizeofInt (some 8) (unsignedMax 8)) = 0 ∧
    intMacro exI486 (sizeofInt none (unsignedMax 8)) = 1 := by decide

/-- C67.  The same for `BOOST_ATOMIC_LLONG_LOCK_FREE`. -/
theorem C67_llong_macro (p : Platform) (hp : p.Ok) (hm : p.MacrosOk) (k : Nat) (hk : Candidate k) (m : Option Nat)
    (hmk : m = none ∨ m = some k) (hpux : Bool) (hh : hpux = true → k = 8) :
    (intMacro p (sizeofLLong m hpux (some (unsignedMax k))) = 2 ↔ (p.atomicOps k).kind = .native true) ∧
    (intMacro p (sizeofLLong m hpux (some (unsignedMax k))) = 0 ↔ (p.atomicOps k).kind = .locked) := by
  rw [(C67_llong_size k m hmk hpux hh).2 hk, intMacro_candidate p hk, atomicOps_candidate p hk]
  have h := C39_macro p hp hm k
  exact ⟨h.1.symm, h.2.2.symm⟩

example : intMacro exX64 (sizeofLLong none true (some (unsignedMax 8))) = 2 := by decide

/-- C67.  The same for `BOOST_ATOMIC_WCHAR_T_LOCK_FREE`. -/
theorem C67_wchar_macro (p : Platform) (hp : p.Ok) (hm : p.MacrosOk) (k : Nat) (hk : Candidate k) (m : Option Nat)
    (hmk : m = none ∨ m = some k) (oldMsvc : Bool) (ho : oldMsvc = true → k = 2) (max : Nat)
    (hmax : max = unsignedMax k ∨ max = signedMax k) :
    (intMacro p (sizeofWchar m oldMsvc max) = 2 ↔ (p.atomicOps k).kind = .native true) ∧
    (intMacro p (sizeofWchar m oldMsvc max) = 0 ↔ (p.atomicOps k).kind = .locked) := by
  have h0 : 0 < k := by unfold Candidate at hk; omega
  rw [(C67_wchar_size k h0 m hmk oldMsvc ho max hmax).2 hk, intMacro_candidate p hk, atomicOps_candidate p hk]
  have h := C39_macro p hp hm k
  exact ⟨h.1.symm, h.2.2.symm⟩

example : intMacro exX64 (sizeofWchar none false (signedMax 4)) = 2 := by decide

/-- C67, partial.  The same for `BOOST_ATOMIC_POINTER_LOCK_FREE`, for pointers of 4 and 8 bytes.  Missing: pointers of 2 bytes,
see `C67_pointer_macro_violated`. -/
theorem C67_pointer_macro_partial (p : Platform) (hp : p.Ok) (hm : p.MacrosOk) (k : Nat) (hk : k = 4 ∨ k = 8) (m : Option Nat)
    (hmk : m = none ∨ m = some k) (msvc : Option Bool) (hv : ∀ wide, msvc = some wide → k = if wide then 8 else 4) :
    (pointerMacro p (sizeofPointer m msvc (some (unsignedMax k))) = 2 ↔ (p.atomicOps k).kind = .native true) ∧
    (pointerMacro p (sizeofPointer m msvc (some (unsignedMax k))) = 0 ↔ (p.atomicOps k).kind = .locked) := by
  have hc : Candidate k := by unfold Candidate; omega
  rw [(C67_pointer_size k m hmk msvc hv).2 (by omega), atomicOps_candidate p hc]
  have h := C39_macro p hp hm k
  rcases hk with rfl | rfl <;> exact ⟨h.1.symm, h.2.2.symm⟩

example : pointerMacro exX64 (sizeofPointer none none (some (unsignedMax 8))) = 2 ∧
    pointerMacro exX64 (sizeofPointer none (some true) none) = 2 := by decide

/-- C67 fails for pointers of 2 bytes: the macro is 0 also if they are always lock-free. -/
theorem C67_pointer_macro_violated :
    ∃ p : Platform, p.Ok ∧ p.MacrosOk ∧ p.abi.Ok ∧ sizeofPointer none none (some (unsignedMax 2)) = some 2 ∧
      pointerMacro p (some 2) = 0 ∧ (p.atomicOps 2).is_always_lock_free = true ∧ (p.atomicOps 2).kind = .native true :=
  ⟨exX64, exX64_ok.1, exX64_ok.2, exX64_abi, by decide, by decide, by decide, by decide⟩

end Verif.Kind
