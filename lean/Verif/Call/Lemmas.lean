import Verif.Call.Model

/-!
What the kernel reads in memory is what was written.
-/

namespace Verif.Call

open Verif.Chrono

theorem signed32_word32 {x : Int} (h0 : 0 ≤ x) (h1 : x < 2147483648) : signed32 (word32 x) = x := by
  unfold signed32 word32; split <;> omega

theorem read64_words64 (big : Bool) (x : Int) :
    ∃ a b, words64 big x = [a, b] ∧ read64 big a b = (x % 18446744073709551616).toNat := by
  cases big
  · refine ⟨_, _, rfl, ?_⟩; simp only [read64]; simp; omega
  · refine ⟨_, _, rfl, ?_⟩; simp only [read64]; simp; omega

theorem signed64_mod {x : Int} (h0 : 0 ≤ x) (h1 : x < 9223372036854775808) :
    signed64 (x % 18446744073709551616).toNat = x := by
  unfold signed64; split <;> omega

theorem signed64_read {big : Bool} {x : Int} {a b : Nat} (h : read64 big a b = (x % 18446744073709551616).toNat)
    (h0 : 0 ≤ x) (h1 : x < 9223372036854775808) : signed64 (read64 big a b) = x := by
  rw [h, signed64_mod h0 h1]

/-- Times that fit in the structure. -/
theorem readTime_futexTimespec (t : Target) {sys : Sys} (hs : t.sys = some sys)
    (hlong : t.long64 = true → t.time64 = true)
    (hmatch : sys = .futex → t.long64 = false → t.time64 = false)
    {pad : Nat} {d : Timespec} (hv : ValidTime d) (hw : d.sec < 2 ^ (t.secWidth - 1)) :
    readTime t sys (t.futexTimespec pad d) = some d := by
  obtain ⟨os, android, long64, time64, big, sf, s64, nr, bs, pr, rt, mo⟩ := t
  obtain ⟨sec, nsec⟩ := d
  obtain ⟨h0, h1, h2⟩ := hv
  simp only at h0 h1 h2 hlong hmatch hw
  obtain ⟨a, b, hab, hr⟩ := read64_words64 big sec
  obtain ⟨a', b', hab', hr'⟩ := read64_words64 big nsec
  have hn64 : nsec < 9223372036854775808 := by omega
  have hn : nsec < 2147483648 := by omega
  have k32 := @signed32_word32 nsec h1 hn
  have k64 := signed64_read hr' h1 hn64
  have k64' : ((read64 big a' b' % 4294967296 : Nat) : Int) = nsec := by rw [hr']; omega
  have fin64 : sec < 9223372036854775808 → signed64 (read64 big a b) = sec := fun h => signed64_read hr h0 h
  have fin32 : sec < 2147483648 → signed32 (word32 sec) = sec := fun h => signed32_word32 h0 h
  clear hr hr'
  cases os <;> cases sf <;> cases s64 <;> cases nr <;> cases time64 <;> cases long64 <;>
    simp [Target.sys] at hs hlong hmatch hw <;> subst hs <;>
    simp [Target.secWidth, Target.futexTime64] at hw hmatch <;>
    simp [Target.futexTimespec, Target.timespec, Target.futexTime64, readTime, hab, hab', k32, k64, k64', fin64, fin32, hw] <;>
    omega

theorem readLimit_futexTimespec (t : Target) {sys : Sys} (hs : t.sys = some sys)
    (hlong : t.long64 = true → t.time64 = true)
    (hmatch : sys = .futex → t.long64 = false → t.time64 = false) (f : Timespec → Limit)
    {pad : Nat} {d : Timespec} (hv : ValidTime d) (hw : d.sec < 2 ^ (t.secWidth - 1)) :
    readLimit t sys f (.mem (t.futexTimespec pad d)) = some (f d) := by
  simp [readLimit, readTime_futexTimespec t hs hlong hmatch hv hw, hv]

theorem flagFor_cases (t : Target) (ipc : Bool) :
    t.flagFor ipc = 0 ∨ (t.flagFor ipc = 128 ∧ ipc = false) := by
  cases ipc <;> simp [Target.flagFor, Target.privateFlag]
  cases t.priv <;> cases t.android <;> simp

/-- The system call belongs to the operating system. -/
theorem sys_cases (t : Target) {sys : Sys} (hs : t.sys = some sys) :
    (t.os = .openbsd ∧ sys = .openbsd) ∨ (t.os = .netbsd ∧ sys = .netbsd) ∨
      (t.os = .linux ∧ (sys = .futex ∨ sys = .futexTime64)) := by
  unfold Target.sys at hs
  split at hs <;> rename_i h
  · right; right; refine ⟨h, ?_⟩
    split at hs
    · exact .inl (Option.some.inj hs).symm
    · split at hs
      · exact .inr (Option.some.inj hs).symm
      · split at hs
        · exact .inl (Option.some.inj hs).symm
        · cases hs
  · exact .inr (.inl ⟨h, (Option.some.inj hs).symm⟩)
  · exact .inl ⟨h, (Option.some.inj hs).symm⟩

/-- The clock, the operation and its flags. -/
theorem selectWait_cases (t : Target) (clock : Option Nat) {op f : Nat} (h : t.selectWait clock = some (op, f)) :
    op = 9 ∧ (t.bitset = true ∨ t.android = true) ∧ ((clock = some 1 ∧ f = 0) ∨ (clock = some 0 ∧ f = 256)) := by
  unfold Target.selectWait at h
  have hb : ∀ op, t.opBitset = some op → op = 9 ∧ (t.bitset = true ∨ t.android = true) := by
    intro op; unfold Target.opBitset
    cases t.bitset <;> cases t.android <;> simp_all
  have hr : ∀ f, t.realtimeFlag = some f → f = 256 := by
    intro f; unfold Target.realtimeFlag
    cases t.realtime <;> cases t.android <;> simp_all
  split at h
  · rename_i h1
    split at h
    · obtain ⟨rfl, rfl⟩ := Prod.mk.inj (Option.some.inj h)
      exact ⟨(hb _ h1).1, (hb _ h1).2, .inl ⟨rfl, rfl⟩⟩
    · cases h
  · rename_i h1
    split at h
    · rename_i f' h2
      obtain ⟨rfl, rfl⟩ := Prod.mk.inj (Option.some.inj h)
      exact ⟨(hb _ h1).1, (hb _ h1).2, .inr ⟨rfl, hr _ h2⟩⟩
    · cases h
  · cases h

end Verif.Call
