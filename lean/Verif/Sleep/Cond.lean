import Verif.Sleep.Mutex

/-
A notification reaches the waiters through the condition of the wait state.
-/

namespace Verif.Sleep

open Verif.Order Verif.Mca Verif.Mca.Run Verif.Locked

variable {cpu : Cpu} {R : Mca.Run cpu} {M : Memory R} {V : Values} {guard : Nat → Option Nat}
  {Z : Sections} {hL : Z.Lawful R.prog guard} {hH : Z.Holds R M.rf V}
  {hcr : ∀ r c, R.CopyOf r c → R.Has c .wr → R.Has r .rd}
  {entry users cond queue : Nat → Nat} {uses : Z.Sec → Nat → Option Use} {does : Z.Sec → Nat → Option Notify.Call}

local notation "𝓛" => locks M hL hH hcr

/-- A later section finds the wait and its condition in the entry. -/
theorem enrolled (hC : Conditions R M.rf V guard Z entry users cond uses does) {S N : Z.Sec} {x k old c p v : Nat}
    {j : Option Nat} (hS : uses S x = some (.enter j k old c p)) (hend : ∀ D, ¬ Use.Ends (uses D x) k)
    (hm : Z.mutex N = Z.mutex S) (hp : Locks.Prior 𝓛 S N)
    (hf : SectionFound R M.rf V (Z.take N) (Z.give N) (entry x) v) : (users v).testBit k = true ∧ cond v = c := by
  have hG : Locks.Guards 𝓛 guard := locks_guards hL hH hcr
  obtain ⟨⟨u, u', hu, hl, hbits, hc, -⟩, -⟩ := hC.enter S x j k old c p hS
  refine persists (L := 𝓛) hG (Q := fun v => (users v).testBit k = true ∧ cond v = c) (S := S)
    (hC.guarded S x _ hS) hl ⟨by rw [hbits]; simp, hc⟩ ?_ _ rfl hm hp hf
  intro T v' hTm _ hl'
  have hgT : guard (entry x) = some (Z.mutex T) := (hC.guarded S x _ hS).trans (congrArg some (Eq.symm hTm))
  obtain ⟨v, hv⟩ := hC.reads T x v' hgT hl'
  refine ⟨v, hv, ?_⟩
  rintro ⟨hb, rfl⟩
  have hne : users v ≠ 0 := by intro e; rw [e] at hb; simp at hb
  have hT := hend T
  by_cases he : ∃ j k old c p, uses T x = some (.enter j k old c p)
  · obtain ⟨j', k', old', c', p', hT'⟩ := he
    obtain ⟨⟨a, a', ha, hla, hba, hca, hca'⟩, -⟩ := hC.enter T x j' k' old' c' p' hT'
    cases found_unique (L := 𝓛) hG (hC.guarded T x _ hT') hv ha
    cases Notify.left_unique hl' hla
    refine ⟨?_, hca.trans (hca' hne).symm⟩
    rw [hba, hb]
    have : some k ≠ j' := by
      rintro rfl
      rw [hT'] at hT
      exact hT rfl
    simp [this]
  by_cases he' : ∃ j, uses T x = some (.leave j)
  · obtain ⟨j', hT'⟩ := he'
    obtain ⟨h1, h2⟩ := hC.leave T x j' hT' v v' hv hl'
    have hkj : k ≠ j' := by
      rintro rfl
      rw [hT'] at hT
      exact hT rfl
    have hb' : (users v').testBit k = true := by rw [h1, hb]; simp [hkj]
    exact ⟨hb', h2 (by intro e; rw [e] at hb'; simp at hb')⟩
  obtain ⟨h1, h2⟩ := hC.changes T x v v' hgT hv hl' (fun j k old c p e => he ⟨j, k, old, c, p, e⟩) (fun k e => he' ⟨k, e⟩)
  exact ⟨by rw [h1]; exact hb, h2 hne⟩

/-- If the notification comes after the wait has entered, its increment settles the condition. -/
theorem incremented (hC : Conditions R M.rf V guard Z entry users cond uses does) {S N : Z.Sec} {x k old c p : Nat}
    {j : Option Nat} (hS : uses S x = some (.enter j k old c p)) (hend : ∀ D, ¬ Use.Ends (uses D x) k)
    (hN : uses N x = some .notifyOne ∨ uses N x = some .notifyAll) (hpass : Passes R M.rf V M.mo c p)
    (hp : Locks.Prior 𝓛 S N) : ∃ K w, does K c = some (if uses N x = some .notifyAll then .notifyAll else .notifyOne) ∧
      Z.Contains N (Z.give K) ∧ Notify.Precedes R M.hb w (Z.take K) ∧ Notify.Settles R V M.mo c p w := by
  have hgN : guard (entry x) = some (Z.mutex N) := by
    rcases hN with h | h <;> exact hC.guarded _ _ _ h
  have hm : Z.mutex N = Z.mutex S := Option.some.inj (hgN.symm.trans (hC.guarded _ _ _ hS))
  obtain ⟨v, hf, hnot⟩ := hC.notify N x hN
  obtain ⟨hb, rfl⟩ := enrolled (hL := hL) (hH := hH) (hcr := hcr) hC hS hend hm hp hf
  obtain ⟨a, K, r, w, s, y, i1, i2, i3, i4, i5, i6, i7, i8, i9, i10, i11, i12⟩ :=
    hnot (by intro e; rw [e] at hb; simp at hb)
  obtain ⟨-, -, rc, sc, yc, hin, hrd, hyc, hycl, hrf, hval⟩ := hC.enter S x j k old (cond v) p hS
  obtain ⟨it, xx, hwi, -, -⟩ := i3
  have hhb : M.hb rc w := Locks.prior_inside (L := 𝓛) hp hin ⟨a, it, hwi, i1.1, i1.2.1, i1.2.2⟩
  have hold : ∀ u, sc = some u → M.mo u w := by
    rintro u rfl
    exact M.readWrite hhb hrd i4 ⟨_, _, hyc, i5, hycl.trans i6.symm⟩ hrf
  refine ⟨K, w, i12, i11, ⟨w, a, it, hwi, i9, i10, .inl rfl⟩, ⟨y, i5, i6⟩, i4,
    hpass rc sc w yc y hyc hycl hrd hrf hval i5 i6 i4 hold, ?_⟩
  intro w' y' hy' hyl' hw' hmo
  exact hpass rc sc w' yc y' hyc hycl hrd hrf hval hy' hyl' hw' fun u hu => M.mo_trans (hold u hu) hmo

/-- If the notification comes before, the wait has compared a recent value. -/
theorem compared_recent (hC : Conditions R M.rf V guard Z entry users cond uses does) {S N : Z.Sec} {x k old c p : Nat}
    {j : Option Nat} (hS : uses S x = some (.enter j k old c p))
    (hN : uses N x = some .notifyOne ∨ uses N x = some .notifyAll) (hp : ¬ Locks.Prior 𝓛 S N) {w : Pos}
    (hpre : Notify.Precedes R M.hb w (Z.take N)) : ¬ Notify.Settles R V M.mo x old w := by
  rintro ⟨⟨y, hy, rfl⟩, hw, hv, hlater⟩
  have hgN : guard (entry y.loc) = some (Z.mutex N) := by
    rcases hN with h | h <;> exact hC.guarded _ _ _ h
  have hm : Z.mutex N = Z.mutex S := Option.some.inj (hgN.symm.trans (hC.guarded _ _ _ hS))
  obtain ⟨-, ⟨r, s, y', hin, hr, hy', hl, hrf, hval⟩, -⟩ := hC.enter S _ j k old c p hS
  have hne : N ≠ S := by rintro rfl; rw [hS] at hN; rcases hN with h | h <;> cases h
  rcases Notify.recent (L := 𝓛) hm hne hp hw hr ⟨y, y', hy, hy', hl.symm⟩ hin hpre hrf with rfl | ⟨w', rfl, h⟩
  · exact hv hval
  · obtain ⟨hw', z, z', hz, hz', he⟩ := M.source hr hrf
    exact hlater w' z' hz' (he.symm.trans ((congrArg Ev.loc (hz.unique hy')).trans hl)) hw' h hval

include hL hH hcr in
theorem not_left (hC : Conditions R M.rf V guard Z entry users cond uses does)
    (hK : Notify.Records R M.rf V guard Z.mutex Z.take Z.give queue does) {S K N : Z.Sec} {x k old c p : Nat}
    (hN : uses N x = some .notifyAll) {w : Pos} (hpre : Notify.Precedes R M.hb w (Z.take N))
    (hset : Notify.Settles R V M.mo x old w) (hpass : Passes R M.rf V M.mo c p) :
    ¬ LeftBlocked R M.rf V guard Z queue uses does S K x k old c p := by
  rintro ⟨⟨j, hS⟩, ⟨hw, -⟩, hkept, hend⟩
  by_cases hp : Locks.Prior 𝓛 S N
  · obtain ⟨K', w', h1, h4, h2, h3⟩ := incremented hC hS hend (.inr hN) hpass hp
    rw [if_pos hN] at h1
    exact Notify.compared (L := 𝓛) (locks_guards hL hH hcr) hK (S := K) (N := K') hw
      (fun B hB h => hkept B ⟨(hK.guarded _ _ _ hw).trans (congrArg some (Eq.symm hB)), h⟩) h1 h2 h3
  · exact compared_recent hC hS (.inr hN) hp hpre hset

include hL hH hcr in
theorem not_left_one (hC : Conditions R M.rf V guard Z entry users cond uses does)
    (hK : Notify.Records R M.rf V guard Z.mutex Z.take Z.give queue does) {S K N : Z.Sec} {x k old c p : Nat}
    (hN : uses N x = some .notifyOne) {w : Pos} (hpre : Notify.Precedes R M.hb w (Z.take N))
    (hset : Notify.Settles R V M.mo x old w) (hpass : Passes R M.rf V M.mo c p)
    (hb : LeftBlocked R M.rf V guard Z queue uses does S K x k old c p) :
    ∃ K' j, does K' c = some .notifyOne ∧ Z.Contains N (Z.give K') ∧ j ≠ k ∧ Removes R M.rf V guard Z K' (queue c) j := by
  obtain ⟨⟨j, hS⟩, ⟨hw, -⟩, hkept, hend⟩ := hb
  by_cases hp : Locks.Prior 𝓛 S N
  · obtain ⟨K', w', h1, h4, h2, h3⟩ := incremented hC hS hend (.inl hN) hpass hp
    rw [if_neg (by rw [hN]; simp)] at h1
    obtain ⟨i, hi, hj⟩ := Notify.compared_one (L := 𝓛) (locks_guards hL hH hcr) hK (S := K) (N := K') hw
      (fun B hB h => hkept B ⟨(hK.guarded _ _ _ hw).trans (congrArg some (Eq.symm hB)), h⟩) h1 h2 h3
    exact ⟨K', i, h1, h4, hi, hK.guarded _ _ _ h1, hj⟩
  · exact absurd hset (compared_recent hC hS (.inl hN) hp hpre)

include hL hH hcr in
theorem not_never {m bucket target : Nat} {calls : Z.Sec → Option (Syscall Z.Sec)}
    (hW : Waits R M.rf M.hb V guard Z m bucket target calls) (hT : NoTurn R V M.mo Z m) {n : Nat}
    (hn : ∀ t, n ≤ t → R.prog t = []) (hm : ∃ S, Z.mutex S = m)
    (hC : Conditions R M.rf V guard Z entry users cond uses does)
    (hK : Notify.Records R M.rf V guard Z.mutex Z.take Z.give queue does) {S K N : Z.Sec} {x k old c p : Nat}
    (hN : uses N x = some .notifyAll) {w : Pos} (hpre : Notify.Precedes R M.hb w (Z.take N))
    (hset : Notify.Settles R V M.mo x old w) (hpass : Passes R M.rf V M.mo c p) :
    ¬ NeverWoken R M.rf V guard Z queue target uses does S K x k old c p := by
  rintro ⟨hent, hblk, hmov, hkept, hin⟩
  by_cases h : ∃ B, Removes R M.rf V guard Z B (queue c) k
  · obtain ⟨B, hB⟩ := h
    obtain ⟨E, hE⟩ := hmov B hB
    obtain ⟨K', -, hK'⟩ := added_removed (hL := hL) (hH := hH) (hcr := hcr) hW hT hn hm hE
    exact hkept K' hK'
  · exact not_left (hL := hL) (hH := hH) (hcr := hcr) hC hK hN hpre hset hpass
      ⟨hent, hblk, fun B hB => h ⟨B, hB⟩, hin⟩

end Verif.Sleep
