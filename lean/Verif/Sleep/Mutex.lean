import Mathlib.Data.List.Perm.Subperm
import Verif.Notify.Lemmas
import Verif.Sleep.Link

/-
No thread is left in the queue of a mutex.
-/

namespace Verif.Sleep

open Verif.Order Verif.Mca Verif.Mca.Run Verif.Locked

variable {cpu : Cpu} {R : Mca.Run cpu} {M : Memory R} {V : Values} {guard : Nat → Option Nat}

/-! ### What stays in a variable -/

/-- What a section has left in a variable and later sections keep is found by later ones. -/
theorem persists {L : Locks M V} (hG : L.Guards guard) {q u : Nat} {Q : Nat → Prop} {S : L.Sec}
    (hg : guard q = some (L.mutex S)) (hl : SectionLeft R V (L.take S) (L.give S) q u) (hu : Q u)
    (hstep : ∀ T v', L.mutex T = L.mutex S → L.Prior S T → SectionLeft R V (L.take T) (L.give T) q v' →
      ∃ v, SectionFound R M.rf V (L.take T) (L.give T) q v ∧ (Q v → Q v')) : ∀ (n : Nat) {N : L.Sec} {v : Nat},
    R.time (L.lw N) .wr = n → L.mutex N = L.mutex S → L.Prior S N →
    SectionFound R M.rf V (L.take N) (L.give N) q v → Q v := by
  intro n
  induction n using Nat.strongRecOn with
  | _ n ih =>
    intro N v hn hm hp hf
    rcases Locks.section_last hG hf (by rw [hm, hg]) with ⟨T, h1, h2, h3, h4⟩ | ⟨-, h⟩
    · rcases h4 S u hm.symm hp hl with rfl | h
      · rw [← Notify.left_unique hl h3]; exact hu
      · obtain ⟨u', hu', hk⟩ := hstep T v (h2.trans hm) h h3
        exact hk (ih _ (hn ▸ Notify.prior_time h2 h1) rfl (h2.trans hm) h hu')
    · exact absurd hl (h S u hm.symm hp)

/-! ### Words -/

theorem bit_contended {v : Nat} : v &&& contended ≠ 0 ↔ v.testBit 1 = true := by
  have h : v &&& contended = if v.testBit 1 then 2 else 0 := by
    apply Nat.eq_of_testBit_eq
    intro i
    rw [Nat.testBit_and, contended, show (2 : Nat) = 2 ^ 1 from rfl, Nat.testBit_two_pow]
    by_cases hi : 1 = i
    · subst hi; cases v.testBit 1 <;> rfl
    · cases v.testBit 1
      · simp [hi]
      · simp only [if_true]
        rw [show (2 : Nat) = 2 ^ 1 from rfl, Nat.testBit_two_pow]; simp [hi]
  rw [h]
  cases v.testBit 1 <;> simp

theorem odd_locked {v : Nat} : v &&& Locked.locked ≠ 0 ↔ v % 2 = 1 := by
  rw [Locked.locked, Nat.and_one_is_mod]; omega

theorem taken_contended (v : Nat) : (takenWord v).testBit 1 = v.testBit 1 := by
  rw [takenWord, Nat.testBit_or, Locked.locked, show (1 : Nat) = 2 ^ 0 from rfl, Nat.testBit_two_pow]; simp

theorem marked_contended (v : Nat) : (markedWord v).testBit 1 = true := by
  rw [markedWord, Nat.testBit_or, contended, show (2 : Nat) = 2 ^ 1 from rfl, Nat.testBit_two_pow]; simp

theorem given_contended (v : Nat) : (givenWord v).testBit 1 = v.testBit 1 := by
  have h : (v &&& compl32 Locked.locked).testBit 1 = v.testBit 1 := by
    rw [Nat.testBit_and]
    have : (compl32 Locked.locked).testBit 1 = true := by decide
    rw [this, Bool.and_true]
  rw [givenWord, counterOne, Nat.testBit_mod_two_pow, ← h]
  simp only [Nat.testBit_eq_decide_div_mod_eq]
  generalize v &&& compl32 Locked.locked = a
  have : (a + 4) / 2 ^ 1 % 2 = a / 2 ^ 1 % 2 := by omega
  rw [this]; simp

/-! ### The mutex -/

variable {Z : Sections} {hL : Z.Lawful R.prog guard} {hH : Z.Holds R M.rf V}
  {hcr : ∀ r c, R.CopyOf r c → R.Has c .wr → R.Has r .rd}

local notation "𝓛" => locks M hL hH hcr

theorem take_access (S : Z.Sec) : Access R (Z.take S) (Z.mutex S) (Locks.lr 𝓛 S) (Locks.lw 𝓛 S) :=
  (Classical.choose_spec (Classical.choose_spec (taking hL S))).1

theorem give_access (S : Z.Sec) : ∃ r, Access R (Z.give S) (Z.mutex S) r (Locks.uw 𝓛 S) :=
  ⟨_, (Classical.choose_spec (Classical.choose_spec (giving hL S))).1⟩

theorem rmw_only {id : OpId} {it : Item} (hit : (R.prog id.1)[id.2]? = some it) (hr : it.isRmw = true) :
    (∀ e f, R.Ret id e → R.Ret id f → e = f) ∧ ∀ e f, R.Pub id e → R.Pub id f → e = f := by
  obtain ⟨k, hk⟩ : ∃ k, it.kind = some k := by
    cases it <;> simp [Item.isRmw] at hr <;> exact ⟨_, rfl⟩
  obtain ⟨r', w', hr', hw'⟩ := rmw_accesses hit hr
  cases facts hit hk with
  | both r w ret rd uniq pub has uniq' pair wr =>
    exact ⟨fun e f h h' => (uniq e h).trans (uniq f h').symm, fun e f h h' => (uniq' e h).trans (uniq' f h').symm⟩
  | reads r ret rd uniq npub wr => exact absurd hw' (npub w')
  | writes w pub has uniq nret wr => exact absurd hr' (nret r')

/-- The operation that gives the mutex back. -/
theorem give_pub (S : Z.Sec) {u : Pos} (h : R.Pub (Z.give S) u) : u = Locks.uw 𝓛 S := by
  obtain ⟨r, hA⟩ := give_access (hL := hL) (hH := hH) (hcr := hcr) S
  obtain ⟨b, n, hi⟩ := hL.give S
  exact (rmw_only hi rfl).2 _ _ h hA.pub

variable {m bucket queue : Nat} {does : Z.Sec → Option (Syscall Z.Sec)}

/-- The operation `id` clears the bit `contended`. -/
def Clears (R : Mca.Run cpu) (rf : Pos → Option Pos → Prop) (V : Values) (Z : Sections) (m queue : Nat)
    (does : Z.Sec → Option (Syscall Z.Sec)) (id : OpId) (s : Option Pos) : Prop :=
  ∃ S K u, does K = some (.signal S) ∧ SectionFound R rf V (Z.take K) (Z.give K) queue 0 ∧ Z.Follows K id ∧
    R.Pub (Z.give S) u ∧ V.of m s = V.val u

include hL hH hcr in
/-- Every modification of the word keeps the bit `contended`, or clears it in the way the code does. -/
theorem word_step (hW : Waits R M.rf M.hb V guard Z m bucket queue does) (hm : ∃ S, Z.mutex S = m) {w : Pos}
    (hw : Locks.On (R := R) m w) : ∃ r s, R.Paired r w ∧ R.Has r .rd ∧ M.rf r s ∧
      (((V.of m s).testBit 1 = true → (V.val w).testBit 1 = true) ∨
        ∃ id it, R.Within w id it ∧ Clears R M.rf V Z m queue does id s) := by
  obtain ⟨hwr, x, hx, hxl⟩ := hw
  obtain ⟨S₀, hS₀⟩ := hm
  obtain ⟨id, it, hin⟩ := exists_within hx
  have hl : it.loc = Z.mutex S₀ := (hin.loc hx).symm.trans (hxl.trans hS₀.symm)
  rcases hL.words id it S₀ hin.item (hin.writes hwr) hl with ⟨S, rfl⟩ | ⟨S, rfl⟩ | h | h
  · have hA := take_access (hL := hL) (hH := hH) (hcr := hcr) S
    cases hA.only _ _ hin hwr
    have hS : Z.mutex S = m := (hA.loc x hx).symm.trans hxl
    obtain ⟨s, h1, h2⟩ := hW.take S hS _ _ hA.ret hA.pub
    exact ⟨_, s, hA.pair, hA.rd, h1, .inl fun h => by rw [h2, taken_contended]; exact h⟩
  · obtain ⟨r, hA⟩ := give_access (hL := hL) (hH := hH) (hcr := hcr) S
    cases hA.only _ _ hin hwr
    have hS : Z.mutex S = m := (hA.loc x hx).symm.trans hxl
    obtain ⟨s, h1, h2⟩ := hW.give S hS _ _ hA.ret hA.pub
    exact ⟨_, s, hA.pair, hA.rd, h1, .inl fun h => by rw [h2, given_contended]; exact h⟩
  · obtain ⟨r, hc⟩ := watch_copy hin.item h hin hwr
    obtain ⟨s, h1, h2⟩ := hH.copies r w x hc hx
    exact ⟨r, s, hc.1, hcr r w hc hwr, h1, .inl fun h => by rw [h2, hxl]; exact h⟩
  · obtain ⟨r, w', h1, h2, h3, h4, h5, h6⟩ := rmw_facts hin.item h.isRmw
    cases h6 w it hin hwr
    rw [hl, hS₀] at h
    obtain ⟨s, hs, -⟩ := hH.mark id it S₀ hin.item (hS₀ ▸ h) r w h1 h3
    refine ⟨r, s, h5, h2, hs, ?_⟩
    rcases hW.mark id it r w s hin.item h h1 h3 hs with e | ⟨-, e⟩
    · exact .inl fun _ => by rw [e]; exact marked_contended _
    · exact .inr ⟨id, it, hin, e⟩

/-- A wait has been added to the queue of the mutex: `w` is the modification of the word that announces it. -/
structure Entered (L : Locks M V) (signals : L.Sec → L.Sec → Prop) (m queue : Nat) (E : L.Sec) (k : Nat) (w : Pos) : Prop where
  on : Locks.On (R := R) m w
  set : (V.val w).testBit 1 = true
  left : ∃ v, SectionLeft R V (L.take E) (L.give E) queue v ∧ v.testBit k = true
  held : ∃ T, L.mutex T = m ∧ L.Open T w
  meets : ∀ S K, signals K S → M.mo w (L.uw S) → L.Prior E K

theorem uw_before {K S : Z.Sec} (h : Z.Follows S (Z.take K)) : ∀ e it, R.Within e (Z.take K) it → M.hb (Locks.uw 𝓛 S) e := by
  intro e it he
  obtain ⟨_, hu⟩ := Locks.uw_in 𝓛 S
  exact M.sb (hu.lt he h.1.symm h.2)

theorem park_entered (hW : Waits R M.rf M.hb V guard Z m bucket queue does) (hT : NoTurn R V M.mo Z m)
    (hm : ∃ S, Z.mutex S = m) {E : Z.Sec} {k : Nat} {a : OpId} (hE : does E = some (.park k a)) :
    ∃ w, (∃ it, R.Within w a it) ∧ Entered 𝓛 (fun K S => does K = some (.signal S)) m queue E k w := by
  obtain ⟨h1, h2, ⟨w, r, s, y, ⟨⟨it, hit, hM⟩, r', s', hr', hw', hrf', hodd, hval⟩, hin, hr, hy, hyl, hrf, hv⟩, v, v', hf, hl, hb⟩ :=
    hW.park E k a hE
  obtain ⟨r₀, w₀, i1, i2, i3, i4, i5, i6⟩ := rmw_facts hit hM.isRmw
  cases (rmw_only hit hM.isRmw).2 _ _ hw' i3
  have hpub := hw'
  obtain ⟨it', x, hinw, hx, -⟩ := hw'
  have := hinw.item; rw [hit] at this; cases this
  have hxl : x.loc = m := (hinw.loc hx).trans hM.loc
  have on : Locks.On (R := R) m w := ⟨i4, x, hx, hxl⟩
  refine ⟨w, ⟨_, hinw⟩, on, by rw [hval]; exact marked_contended _, ⟨v', hl, by rw [hb]; simp⟩, ?_, ?_⟩
  · refine (Locks.exclusion (L := 𝓛) hm _ rfl on).1.1 ?_
    rw [hval, marked_same]; exact odd_locked.1 hodd
  · intro S K hK hmo
    obtain ⟨hS, hfol, -⟩ := hW.signal K S hK
    have hne : E ≠ K := by rintro rfl; rw [hE] at hK; cases hK
    have hmm : Z.mutex E = Z.mutex K := (hW.kernel _ _ hE).trans (hW.kernel _ _ hK).symm
    refine (Locks.prior_total (L := 𝓛) hmm hne).resolve_right fun hp => ?_
    obtain ⟨e, f, jt, jt', k1, k2, k3⟩ := hp
    obtain ⟨id', jt'', l1, l2, l3, l4⟩ := hin
    obtain ⟨_, hk⟩ := Locks.lw_in 𝓛 K
    have hhb : M.hb (Locks.uw 𝓛 S) r :=
      M.trans (uw_before hfol _ _ hk) (M.trans (M.sb (hk.lt k1 (hL.order K).1 (hL.order K).2))
        (M.trans k3 (M.sb (k2.lt l1 l2.symm l3))))
    obtain ⟨_, yu, hyu, hyul⟩ := (show Locks.On (R := R) m (Locks.uw 𝓛 S) from hS ▸ Locks.on_uw (L := 𝓛) S)
    have hwr : R.Has (Locks.uw 𝓛 S) .wr := Locks.uw_wr 𝓛 S
    obtain ⟨ru, hA⟩ := give_access (hL := hL) (hH := hH) (hcr := hcr) S
    rcases M.writeRead hhb hwr hr ⟨_, _, hyu, hy, hyul.trans hyl.symm⟩ hrf with rfl | ⟨p, rfl, hp⟩
    · exact hT w (Locks.uw 𝓛 S) _ x yu S hx hxl i4 hyu hyul hwr hS hA.pub hmo (.inl rfl) hv.symm
    · obtain ⟨hpw, z, z', hz, hz', hzl⟩ := M.source hr hrf
      exact hT w p _ x z' S hx hxl i4 hz' (hzl.symm.trans ((congrArg Ev.loc (hz.unique hy)).trans hyl)) hpw hS hA.pub hmo
        (.inr hp) hv.symm

theorem requeue_entered (hW : Waits R M.rf M.hb V guard Z m bucket queue does)
    {E N : Z.Sec} {k v : Nat} {a : OpId} (hE : does E = some (.requeue N a))
    (hl : SectionLeft R V (Z.take E) (Z.give E) queue v) (hk : v.testBit k = true) :
    ∃ w, Entered 𝓛 (fun K S => does K = some (.signal S)) m queue E k w := by
  obtain ⟨hN, h1, h2, h3, h4, ⟨w, ⟨it, hit, hM⟩, r', s', hr', hw', hrf', -, hval⟩, -⟩ := hW.requeue E N a hE
  obtain ⟨r₀, w₀, i1, i2, i3, i4, i5, i6⟩ := rmw_facts hit hM.isRmw
  cases (rmw_only hit hM.isRmw).2 _ _ hw' i3
  obtain ⟨it', x, hinw, hx, -⟩ := hw'
  have := hinw.item; rw [hit] at this; cases this
  have hxl : x.loc = m := (hinw.loc hx).trans hM.loc
  have on : Locks.On (R := R) m w := ⟨i4, x, hx, hxl⟩
  obtain ⟨_, hlw⟩ := Locks.lw_in 𝓛 N
  obtain ⟨_, huw⟩ := Locks.uw_in 𝓛 N
  have hlo : Locks.On (R := R) m (Locks.lw 𝓛 N) := hN ▸ Locks.on_lw (L := 𝓛) N
  have huo : Locks.On (R := R) m (Locks.uw 𝓛 N) := hN ▸ Locks.on_uw (L := 𝓛) N
  have hopen : Locks.Open 𝓛 N w :=
    ⟨.inr (M.writeWrite (M.sb (hlw.lt hinw h4.1.symm h4.2.1)) hlo.1 i4 (hlo.sameLoc on)),
      M.writeWrite (M.sb (hinw.lt huw (h4.1.trans (hL.order N).1) h4.2.2)) i4 huo.1 (on.sameLoc huo)⟩
  refine ⟨w, on, by rw [hval]; exact marked_contended _, ⟨v, hl, hk⟩, ⟨N, hN, hopen⟩, ?_⟩
  intro S K hK hmo
  obtain ⟨hS, hfol, -⟩ := hW.signal K S hK
  have hEN : (Z.give E).1 = (Z.give N).1 ∧ (Z.give E).2 < (Z.give N).2 :=
    ⟨(hL.order E).1.symm.trans (h1.trans (hL.order N).1), Nat.lt_trans h3.2 h4.2.2⟩
  by_cases hNS : N = S
  · subst hNS
    exact Locks.prior_sb (L := 𝓛) (hEN.1.trans hfol.1.symm) (Nat.lt_trans hEN.2 hfol.2)
  · have hp : Locks.Prior 𝓛 N S := by
      refine (Locks.prior_total (L := 𝓛) (hN.trans hS.symm) hNS).resolve_right fun hp => ?_
      obtain ⟨e, f, jt, jt', k1, k2, k3⟩ := hp
      have hsu : Locks.On (R := R) m (Locks.uw 𝓛 S) := hS ▸ Locks.on_uw (L := 𝓛) S
      have hsl : Locks.On (R := R) m (Locks.lw 𝓛 S) := hS ▸ Locks.on_lw (L := 𝓛) S
      have hso := Locks.lw_mo (L := 𝓛) S
      obtain ⟨_, hsi⟩ := Locks.lw_in 𝓛 S
      -- the other section is over before `w`
      have hb1 : M.hb (Locks.lw 𝓛 S) w :=
        M.trans (M.sb (hsi.lt k1 (hL.order S).1 (hL.order S).2)) (M.trans k3 (M.sb (k2.lt hinw h4.1.symm h4.2.1)))
      have hmo1 := M.writeWrite hb1 hsl.1 i4 (hsl.sameLoc on)
      have := (Locks.exclusion (L := 𝓛) ⟨N, hN⟩ _ rfl on).2 S N hS hN ⟨.inr hmo1, hmo⟩ hopen
      exact hNS this.symm
    obtain ⟨e, f, jt, jt', k1, k2, k3⟩ := hp
    obtain ⟨_, he⟩ := Locks.uw_in 𝓛 E
    obtain ⟨_, hk⟩ := Locks.lw_in 𝓛 K
    exact ⟨_, _, _, _, he, hk, M.trans (M.sb (he.lt k1 hEN.1 hEN.2)) (M.trans k3
      (M.sb (k2.lt hk ((hL.order S).1.trans hfol.1.symm) (Nat.lt_trans (hL.order S).2 hfol.2))))⟩

/-- While a wait is in the queue, the bit `contended` stays set. -/
theorem stays (hW : Waits R M.rf M.hb V guard Z m bucket queue does) (hT : NoTurn R V M.mo Z m) {E : Z.Sec} {k : Nat}
    {w : Pos} (hE : Entered 𝓛 (fun K S => does K = some (.signal S)) m queue E k w)
    (hfind : ∀ S K v, does K = some (.signal S) → M.mo w (Locks.uw 𝓛 S) →
      SectionFound R M.rf V (Z.take K) (Z.give K) queue v → v.testBit k = true) :
    ∀ (n : Nat) {v : Pos}, R.time v .wr = n → Locks.On (R := R) m v → (w = v ∨ M.mo w v) → (V.val v).testBit 1 = true := by
  intro n
  induction n using Nat.strongRecOn with
  | _ n ih =>
    rintro v hn hv (rfl | hmo)
    · exact hE.set
    · obtain ⟨T, hTm, hTo⟩ := hE.held
      obtain ⟨r, s, hp, hr, hrf, hstep⟩ := word_step (hL := hL) (hH := hH) (hcr := hcr) hW ⟨T, hTm⟩ hv
      obtain ⟨a1, a2⟩ := M.atomic hp hr hv.1 hrf
      obtain ⟨p, rfl, hle⟩ : ∃ p, s = some p ∧ (w = p ∨ M.mo w p) := by
        rcases a2 w hE.on.1 (hE.on.sameLoc hv) hmo with e | ⟨u, e, hu⟩
        · exact ⟨w, e, .inl rfl⟩
        · exact ⟨u, e, .inr hu⟩
      obtain ⟨hpw, hpl⟩ := M.source hr hrf
      have hpo : Locks.On (R := R) m p := hv.of_sameLoc hpw (hp.1.symm.trans hpl)
      have hpb := ih _ (hn ▸ M.older hp hr hv.1 hrf) rfl hpo hle
      rcases hstep with h | ⟨id, it, hin, S, K, u, hK, hf, hfol, hu, hval⟩
      · exact h hpb
      exfalso
      cases give_pub (hL := hL) (hH := hH) (hcr := hcr) S hu
      obtain ⟨hS, hSK, -⟩ := hW.signal K S hK
      have huo : Locks.On (R := R) m (Locks.uw 𝓛 S) := hS ▸ Locks.on_uw (L := 𝓛) S
      obtain ⟨_, hki⟩ := Locks.lw_in 𝓛 K
      have huv : M.mo (Locks.uw 𝓛 S) v := M.writeWrite
        (M.trans (uw_before hSK _ _ hki) (M.sb (hki.lt hin ((hL.order K).1.trans hfol.1.symm)
          (Nat.lt_trans (hL.order K).2 hfol.2)))) huo.1 hv.1 (huo.sameLoc hv)
      have hup : Locks.uw 𝓛 S = p ∨ M.mo (Locks.uw 𝓛 S) p := by
        rcases a2 _ huo.1 (huo.sameLoc hv) huv with e | ⟨u, e, hu⟩
        · exact .inl (Option.some.inj e).symm
        · exact .inr (Option.some.inj e ▸ hu)
      by_cases hwu : M.mo w (Locks.uw 𝓛 S)
      · have := hfind S K 0 hK hwu hf
        simp at this
      · -- the wait was announced later, while the mutex was taken again
        have heven : V.val p % 2 = 0 := by
          rw [show V.val p = V.val (Locks.uw 𝓛 S) from hval]; exact Locks.uw_val 𝓛 S
        have hodd : V.val w % 2 = 1 := (Locks.exclusion (L := 𝓛) ⟨T, hTm⟩ _ rfl hE.on).1.2 ⟨T, hTm, hTo⟩
        have hne : Locks.uw 𝓛 S ≠ w := by
          rintro e
          have := Locks.uw_val 𝓛 S
          rw [e] at this; omega
        have huw : M.mo (Locks.uw 𝓛 S) w :=
          (M.mo_total huo.1 hE.on.1 (huo.sameLoc hE.on) hne).resolve_right hwu
        have hto : Locks.On (R := R) m (Locks.uw 𝓛 T) := hTm ▸ Locks.on_uw (L := 𝓛) T
        have hut : M.mo (Locks.uw 𝓛 S) (Locks.uw 𝓛 T) := M.mo_trans huw hTo.2
        have htp : Locks.uw 𝓛 T = p ∨ M.mo (Locks.uw 𝓛 T) p := by
          by_cases e : Locks.uw 𝓛 T = p
          · exact .inl e
          · refine .inr ((M.mo_total hto.1 hpw (hto.sameLoc hpo) e).resolve_right fun h => ?_)
            have hlp : Locks.lw 𝓛 T = p ∨ M.mo (Locks.lw 𝓛 T) p := by
              rcases hTo.1 with e1 | e1 <;> rcases hle with e2 | e2
              · exact .inl (e1.trans e2)
              · exact .inr (e1 ▸ e2)
              · exact .inr (e2 ▸ e1)
              · exact .inr (M.mo_trans e1 e2)
            have := (Locks.exclusion (L := 𝓛) ⟨T, hTm⟩ _ rfl hpo).1.2 ⟨T, hTm, hlp, h⟩
            omega
        obtain ⟨-, x, hx, hxl⟩ := huo
        obtain ⟨-, y, hy, hyl⟩ := hpo
        obtain ⟨rT, hA⟩ := give_access (hL := hL) (hH := hH) (hcr := hcr) T
        exact hT _ p _ x y T hx hxl (Locks.uw_wr 𝓛 S) hy hyl hpw hTm hA.pub hut htp hval.symm

/-- A wait that no section removes is found. -/
theorem found_in_queue (hW : Waits R M.rf M.hb V guard Z m bucket queue does) {E : Z.Sec} {k : Nat} {w : Pos}
    (hE : Entered 𝓛 (fun K S => does K = some (.signal S)) m queue E k w) (hEm : Z.mutex E = bucket)
    (hk : ∀ K, ¬ Removes R M.rf V guard Z K queue k) {S K : Z.Sec} {v : Nat} (hK : does K = some (.signal S))
    (hmo : M.mo w (Locks.uw 𝓛 S)) (hf : SectionFound R M.rf V (Z.take K) (Z.give K) queue v) : v.testBit k = true := by
  obtain ⟨u, hl, hu⟩ := hE.left
  refine persists (L := 𝓛) (locks_guards hL hH hcr) (Q := fun v => v.testBit k = true) (S := E)
    (hW.guarded.trans (congrArg some hEm.symm)) hl hu ?_ _ rfl ((hW.kernel _ _ hK).trans hEm.symm) (hE.meets S K hK hmo) hf
  intro T v' hTm _ hl'
  have hTb : Z.mutex T = bucket := Eq.trans hTm hEm
  obtain ⟨v, hv⟩ := hW.reads T v' hTb hl'
  refine ⟨v, hv, fun hb => ?_⟩
  cases h : v'.testBit k with
  | true => rfl
  | false => exact absurd ⟨hW.guarded.trans (congrArg some hTb.symm), v, v', hv, hl', hb, h⟩ (hk T)

/-- Every time the mutex is given back while the wait is in the queue, a thread is woken. -/
theorem handed_on (hW : Waits R M.rf M.hb V guard Z m bucket queue does) (hT : NoTurn R V M.mo Z m) {E : Z.Sec} {k : Nat}
    {w : Pos} (hE : Entered 𝓛 (fun K S => does K = some (.signal S)) m queue E k w) (hEm : Z.mutex E = bucket)
    (hk : ∀ K, ¬ Removes R M.rf V guard Z K queue k) {S : Z.Sec} (hS : Z.mutex S = m) (hmo : M.mo w (Locks.uw 𝓛 S)) :
    ∃ K j, does K = some (.signal S) ∧ j ≠ k ∧ Removes R M.rf V guard Z K queue j := by
  have hfind : ∀ S K v, does K = some (.signal S) → M.mo w (Locks.uw 𝓛 S) →
      SectionFound R M.rf V (Z.take K) (Z.give K) queue v → v.testBit k = true :=
    fun S K v h1 h2 h3 => found_in_queue hW hE hEm hk h1 h2 h3
  have huo : Locks.On (R := R) m (Locks.uw 𝓛 S) := hS ▸ Locks.on_uw (L := 𝓛) S
  obtain ⟨r, hA⟩ := give_access (hL := hL) (hH := hH) (hcr := hcr) S
  obtain ⟨s, hrf, -⟩ := hW.give S hS _ _ hA.ret hA.pub
  obtain ⟨p, rfl, hle⟩ : ∃ p, s = some p ∧ (w = p ∨ M.mo w p) := by
    rcases (M.atomic hA.pair hA.rd huo.1 hrf).2 w hE.on.1 (hE.on.sameLoc huo) hmo with e | ⟨u, e, hu⟩
    · exact ⟨w, e, .inl rfl⟩
    · exact ⟨u, e, .inr hu⟩
  obtain ⟨hpw, hpl⟩ := M.source hA.rd hrf
  have hpo : Locks.On (R := R) m p := huo.of_sameLoc hpw (hA.pair.1.symm.trans hpl)
  have hb := stays hW hT hE hfind _ rfl hpo hle
  obtain ⟨K, hK⟩ := hW.unlock S hS r (some p) hA.ret hrf (bit_contended.2 hb)
  obtain ⟨-, -, v, hf, h | ⟨j, v', hj, hl', hv'⟩⟩ := hW.signal K S hK
  · have := hfind S K v hK hmo hf
    rw [h.1] at this; simp at this
  · have hR : Removes R M.rf V guard Z K queue j :=
      ⟨hW.guarded.trans (congrArg some (hW.kernel _ _ hK).symm), v, v', hf, hl', hj, by rw [hv']; simp⟩
    exact ⟨K, j, hK, by rintro rfl; exact hk K hR, hR⟩

/-- There is a last section. -/
theorem last_section (hm : ∃ S, Z.mutex S = m) {n : Nat} (hn : ∀ t, n ≤ t → R.prog t = []) :
    ∃ S, Z.mutex S = m ∧ ∀ T, Z.mutex T = m → R.time (Locks.lw 𝓛 T) .wr ≤ R.time (Locks.lw 𝓛 S) .wr := by
  have bound : ∀ l : List OpId, ∃ B, ∀ S, Z.take S ∈ l → R.time (Locks.lw 𝓛 S) .wr ≤ B := by
    intro l
    induction l with
    | nil => exact ⟨0, fun S h => by cases h⟩
    | cons a l ih =>
      obtain ⟨B, hB⟩ := ih
      by_cases h : ∃ S, Z.take S = a
      · obtain ⟨S, rfl⟩ := h
        refine ⟨max B (R.time (Locks.lw 𝓛 S) .wr), fun T hT => ?_⟩
        rcases List.mem_cons.1 hT with e | e
        · rw [hL.once T S e]; exact Nat.le_max_right _ _
        · exact Nat.le_trans (hB T e) (Nat.le_max_left _ _)
      · refine ⟨B, fun T hT => ?_⟩
        rcases List.mem_cons.1 hT with e | e
        · exact absurd ⟨T, e⟩ h
        · exact hB T e
  obtain ⟨B, hB⟩ := bound ((List.range n).flatMap fun t => (List.range (R.prog t).length).map fun i => (t, i))
  have hB : ∀ S, R.time (Locks.lw 𝓛 S) .wr ≤ B := by
    intro S
    refine hB S ?_
    obtain ⟨b, c, h⟩ := hL.take S
    have hlt := (List.getElem?_eq_some_iff.1 h).1
    have ht : (Z.take S).1 < n := by
      by_contra hge
      rw [hn _ (Nat.le_of_not_lt hge)] at hlt
      exact Nat.not_lt_zero _ hlt
    exact List.mem_flatMap.2 ⟨_, List.mem_range.2 ht, List.mem_map.2 ⟨_, List.mem_range.2 hlt, rfl⟩⟩
  obtain ⟨S₀, hS₀⟩ := hm
  have : ∀ d, ∀ S, Z.mutex S = m → B - R.time (Locks.lw 𝓛 S) .wr = d →
      ∃ S, Z.mutex S = m ∧ ∀ T, Z.mutex T = m → R.time (Locks.lw 𝓛 T) .wr ≤ R.time (Locks.lw 𝓛 S) .wr := by
    intro d
    induction d using Nat.strongRecOn with
    | _ d ih =>
      intro S hS hd
      by_cases h : ∃ T, Z.mutex T = m ∧ R.time (Locks.lw 𝓛 S) .wr < R.time (Locks.lw 𝓛 T) .wr
      · obtain ⟨T, hT, hlt⟩ := h
        exact ih _ (by have := hB T; omega) T hT rfl
      · exact ⟨S, hS, fun T hT => Nat.le_of_not_lt fun hlt => h ⟨T, hT, hlt⟩⟩
  exact this _ S₀ hS₀ rfl

/-- Nobody is left in the queue. -/
theorem nobody_left (hW : Waits R M.rf M.hb V guard Z m bucket queue does) (hT : NoTurn R V M.mo Z m) {n : Nat}
    (hn : ∀ t, n ≤ t → R.prog t = []) {E : Z.Sec} {k : Nat}
    {w : Pos} (hE : Entered 𝓛 (fun K S => does K = some (.signal S)) m queue E k w) (hEm : Z.mutex E = bucket) :
    ∃ K, Removes R M.rf V guard Z K queue k := by
  by_contra hk
  have hk : ∀ K, ¬ Removes R M.rf V guard Z K queue k := fun K h => hk ⟨K, h⟩
  obtain ⟨T, hTm, hTo⟩ := hE.held
  obtain ⟨S, hS, hlast⟩ := last_section (hL := hL) (hH := hH) (hcr := hcr) ⟨T, hTm⟩ hn
  have hmax : ∀ {T}, Z.mutex T = m → T ≠ S → Locks.Prior 𝓛 T S := by
    intro T hT hne
    refine (Locks.prior_total (L := 𝓛) (hT.trans hS.symm) hne).resolve_right fun h => ?_
    have := Notify.prior_time (L := 𝓛) (hS.trans hT.symm) h
    have := hlast T hT
    omega
  -- the unlock of an earlier section is earlier
  have hunlock : ∀ {T}, Z.mutex T = m → T ≠ S → M.mo (Locks.uw 𝓛 T) (Locks.lw 𝓛 S) := by
    intro T hT hne
    obtain ⟨e, f, it, it', h1, h2, h3⟩ := hmax hT hne
    have huo : Locks.On (R := R) m (Locks.uw 𝓛 T) := hT ▸ Locks.on_uw (L := 𝓛) T
    have hlo : Locks.On (R := R) m (Locks.lw 𝓛 S) := hS ▸ Locks.on_lw (L := 𝓛) S
    have hto : Locks.On (R := R) m (Locks.lw 𝓛 T) := hT ▸ Locks.on_lw (L := 𝓛) T
    obtain ⟨_, hi⟩ := Locks.lw_in 𝓛 T
    obtain ⟨_, hj⟩ := Locks.uw_in 𝓛 S
    by_contra hno
    have hlw : M.mo (Locks.lw 𝓛 S) (Locks.uw 𝓛 T) :=
      (M.mo_total hlo.1 huo.1 (hlo.sameLoc huo) Locks.lw_ne).resolve_right hno
    have hso : Locks.On (R := R) m (Locks.uw 𝓛 S) := hS ▸ Locks.on_uw (L := 𝓛) S
    have hhb : M.hb (Locks.lw 𝓛 T) (Locks.uw 𝓛 S) :=
      M.trans (M.sb (hi.lt h1 (hL.order T).1 (hL.order T).2)) (M.trans h3 (M.sb (h2.lt hj (hL.order S).1 (hL.order S).2)))
    have hTS : M.mo (Locks.lw 𝓛 T) (Locks.lw 𝓛 S) := by
      refine (M.mo_total hto.1 hlo.1 (hto.sameLoc hlo) (fun e => hne (Locks.lw_inj e))).resolve_right fun h => ?_
      exact Locks.prior_irrefl (L := 𝓛) S
        (Locks.prior_trans (Locks.prior_of_mo (L := 𝓛) (hS.trans hT.symm) h) (hmax hT hne))
    exact hne ((Locks.exclusion (L := 𝓛) ⟨S, hS⟩ _ rfl hlo).2 T S hT hS ⟨.inr hTS, hlw⟩ ⟨.inl rfl, Locks.lw_mo (L := 𝓛) S⟩)
  have hSu : ∀ {T}, Z.mutex T = m → T = S ∨ M.mo (Locks.uw 𝓛 T) (Locks.uw 𝓛 S) := by
    intro T hT
    by_cases hne : T = S
    · exact .inl hne
    · exact .inr (M.mo_trans (hunlock hT hne) (Locks.lw_mo (L := 𝓛) S))
  have hwS : M.mo w (Locks.uw 𝓛 S) := by
    rcases hSu hTm with rfl | h
    · exact hTo.2
    · exact M.mo_trans hTo.2 h
  obtain ⟨K, j, hK, -, hR⟩ := handed_on hW hT hE hEm hk hS hwS
  obtain ⟨id, hafter, hnext⟩ := hW.resumed K S j hK hR
  obtain ⟨-, hfol, -⟩ := hW.signal K S hK
  obtain ⟨-, v, v', hf, -⟩ := hR
  obtain ⟨e, s, y, hin, -⟩ := hf
  have huo : Locks.On (R := R) m (Locks.uw 𝓛 S) := hS ▸ Locks.on_uw (L := 𝓛) S
  -- what the woken thread does is after the last unlock
  have hnew : ∀ {f it}, R.Within f id it → Locks.On (R := R) m f → M.mo (Locks.uw 𝓛 S) f := by
    intro f it hf ho
    have hin' := hin
    obtain ⟨id', jt, hj1, hj2, hj3, -⟩ := hin'
    obtain ⟨_, hki⟩ := Locks.lw_in 𝓛 K
    exact M.writeWrite (M.trans (uw_before hfol _ _ hki) (M.trans (M.sb (hki.lt hj1 hj2.symm hj3)) (hafter _ _ _ hin hf)))
      huo.1 ho.1 (huo.sameLoc ho)
  rcases hnext with ⟨T', hT', rfl⟩ | ⟨K', k', hK'⟩
  · obtain ⟨_, hi⟩ := Locks.lw_in 𝓛 T'
    have hmo := hnew hi (hT' ▸ Locks.on_lw (L := 𝓛) T')
    rcases hSu hT' with rfl | h
    · exact M.mo_irrefl _ (M.mo_trans hmo (Locks.lw_mo (L := 𝓛) T'))
    · exact M.mo_irrefl _ (M.mo_trans hmo (M.mo_trans (Locks.lw_mo (L := 𝓛) T') h))
  · obtain ⟨w', ⟨it, hi⟩, hE'⟩ := park_entered (hL := hL) (hH := hH) (hcr := hcr) hW hT ⟨S, hS⟩ hK'
    have hmo := hnew hi hE'.on
    obtain ⟨T', hT', hTo'⟩ := hE'.held
    rcases hSu hT' with rfl | h
    · exact M.mo_irrefl _ (M.mo_trans hmo hTo'.2)
    · exact M.mo_irrefl _ (M.mo_trans hmo (M.mo_trans hTo'.2 h))

theorem found_unique {L : Locks M V} (hG : L.Guards guard) {q v v' : Nat} {S : L.Sec}
    (hg : guard q = some (L.mutex S)) (h : SectionFound R M.rf V (L.take S) (L.give S) q v)
    (h' : SectionFound R M.rf V (L.take S) (L.give S) q v') : v = v' := by
  rcases Locks.section_last hG h hg with ⟨T, h1, h2, h3, h4⟩ | ⟨h1, h2⟩ <;>
    rcases Locks.section_last hG h' hg with ⟨T', k1, k2, k3, k4⟩ | ⟨k1, k2⟩
  · rcases h4 T' v' k2 k1 k3 with rfl | e
    · exact Notify.left_unique h3 k3
    · rcases k4 T v h2 h1 h3 with rfl | e'
      · exact Notify.left_unique h3 k3
      · exact absurd (Locks.prior_trans e e') (Locks.prior_irrefl _)
  · exact absurd h3 (k2 T v h2 h1)
  · exact absurd k3 (h2 T' v' k2 k1)
  · rw [h1, k1]

include hL hH hcr in
/-- A wait that is added to the queue is removed again, by a thread that gives the mutex back or by itself. -/
theorem added_removed (hW : Waits R M.rf M.hb V guard Z m bucket queue does) (hT : NoTurn R V M.mo Z m) {n : Nat}
    (hn : ∀ t, n ≤ t → R.prog t = []) (hm : ∃ S, Z.mutex S = m) {E : Z.Sec} {k : Nat} (hA : Adds R M.rf V guard Z E queue k) :
    ∃ K, ((∃ S, does K = some (.signal S)) ∨ does K = some (.quit k)) ∧ Removes R M.rf V guard Z K queue k := by
  have fu : ∀ {K : Z.Sec} {c v v'}, does K = some c → SectionFound R M.rf V (Z.take K) (Z.give K) queue v →
      SectionFound R M.rf V (Z.take K) (Z.give K) queue v' → v = v' := fun hc h h' =>
    found_unique (L := 𝓛) (locks_guards hL hH hcr) (hW.guarded.trans (congrArg some (hW.kernel _ _ hc).symm)) h h'
  have gone : ∃ K, Removes R M.rf V guard Z K queue k := by
    obtain ⟨hg, v, v', hf, hl, h0, h1⟩ := hA
    have hEb : Z.mutex E = bucket := Option.some.inj (hg.symm.trans hW.guarded)
    cases hE : does E with
    | none => exact absurd hE (hW.changes E v' hEb hl)
    | some c =>
      have hEm := hW.kernel _ _ hE
      cases c with
      | park j a =>
        obtain ⟨-, -, -, u, u', hf', hl', hb⟩ := hW.park E j a hE
        cases fu hE hf hf'
        cases Notify.left_unique hl hl'
        have : k = j := by rw [hb, h0] at h1; simpa using h1
        subst this
        obtain ⟨w, -, hw⟩ := park_entered (hL := hL) (hH := hH) (hcr := hcr) hW hT hm hE
        exact nobody_left hW hT hn hw hEm
      | requeue N a =>
        obtain ⟨w, hw⟩ := requeue_entered (hL := hL) (hH := hH) (hcr := hcr) hW hE hl h1
        exact nobody_left hW hT hn hw hEm
      | signal S =>
        obtain ⟨-, -, u, hf', h | ⟨j, u', hj, hl', hb⟩⟩ := hW.signal E S hE
        · exact absurd hl (h.2 v')
        · cases fu hE hf hf'
          cases Notify.left_unique hl hl'
          rw [hb, h0] at h1; simp at h1
      | quit j =>
        have := hW.quit E j hE v v' hf hl k
        rw [this, h0] at h1; simp at h1
  obtain ⟨K, hR⟩ := gone
  refine ⟨K, ?_, hR⟩
  obtain ⟨hg, v, v', hf, hl, h0, h1⟩ := hR
  have hKb : Z.mutex K = bucket := Option.some.inj (hg.symm.trans hW.guarded)
  cases hK : does K with
  | none => exact absurd hK (hW.changes K v' hKb hl)
  | some c =>
    cases c with
    | park j a =>
      obtain ⟨-, -, -, u, u', hf', hl', hb⟩ := hW.park K j a hK
      cases fu hK hf hf'
      cases Notify.left_unique hl hl'
      rw [hb, h0] at h1; simp at h1
    | requeue N a =>
      obtain ⟨-, -, -, -, -, -, u, u', hf', hl', hb⟩ := hW.requeue K N a hK
      cases fu hK hf hf'
      cases Notify.left_unique hl hl'
      rw [hb _ h0] at h1; cases h1
    | signal S => exact .inl ⟨S, rfl⟩
    | quit j =>
      right
      have := hW.quit K j hK v v' hf hl k
      rw [this, h0] at h1
      have : k = j := by simpa using h1
      rw [this]

/-! ### The counter -/

/-- The counter in the word. -/
def count (v : Nat) : Nat := v / 4 % 2 ^ 30

theorem count_of_low {v u : Nat} (h : ∀ i, 2 ≤ i → i < 32 → v.testBit i = u.testBit i) : count v = count u := by
  apply Nat.eq_of_testBit_eq
  intro i
  simp only [count, Nat.testBit_mod_two_pow]
  by_cases hi : i < 30
  · have e : ∀ x : Nat, (x / 4).testBit i = x.testBit (i + 2) := by
      intro x
      rw [show (4 : Nat) = 2 ^ 2 from rfl, Nat.testBit_div_two_pow]
    rw [e, e, h _ (by omega) (by omega)]
  · simp [hi]

theorem count_taken (v : Nat) : count (takenWord v) = count v :=
  count_of_low fun i h _ => by
    rw [takenWord, Nat.testBit_or, Locked.locked, show (1 : Nat) = 2 ^ 0 from rfl, Nat.testBit_two_pow]
    simp; omega

theorem count_marked (v : Nat) : count (markedWord v) = count v :=
  count_of_low fun i h _ => by
    rw [markedWord, Nat.testBit_or, contended, show (2 : Nat) = 2 ^ 1 from rfl, Nat.testBit_two_pow]
    simp; omega

theorem compl_low {c i : Nat} (hc : c = 1 ∨ c = 2) (h : 2 ≤ i) (h' : i < 32) : (compl32 c).testBit i = true := by
  have : ∀ i, 2 ≤ i → i < 32 → (compl32 1).testBit i = true ∧ (compl32 2).testBit i = true := by decide
  rcases hc with rfl | rfl
  · exact (this i h h').1
  · exact (this i h h').2

theorem count_unmarked (v : Nat) : count (unmarkedWord v) = count v :=
  count_of_low fun i h h' => by
    rw [unmarkedWord, Nat.testBit_and, compl_low (c := contended) (.inr rfl) h h', Bool.and_true]

theorem count_given (v : Nat) : count (givenWord v) = (count v + 1) % 2 ^ 30 := by
  have h : count (v &&& compl32 Locked.locked) = count v :=
    count_of_low fun i h h' => by rw [Nat.testBit_and, compl_low (c := Locked.locked) (.inl rfl) h h', Bool.and_true]
  rw [← h, givenWord, counterOne]
  generalize v &&& compl32 Locked.locked = a
  simp only [count]
  omega

include hL hH hcr in
/-- The counter counts how often the mutex has been given back. -/
theorem word_count (hW : Waits R M.rf M.hb V guard Z m bucket queue does) (hm : ∃ S, Z.mutex S = m) {w : Pos}
    (hw : Locks.On (R := R) m w) : ∃ r s, R.Paired r w ∧ R.Has r .rd ∧ M.rf r s ∧
      ((∃ S, Z.mutex S = m ∧ w = Locks.uw 𝓛 S ∧ count (V.val w) = (count (V.of m s) + 1) % 2 ^ 30) ∨
        ((∀ S, w ≠ Locks.uw 𝓛 S) ∧ count (V.val w) = count (V.of m s))) := by
  obtain ⟨hwr, x, hx, hxl⟩ := hw
  obtain ⟨S₀, hS₀⟩ := hm
  obtain ⟨id, it, hin⟩ := exists_within hx
  have hl : it.loc = Z.mutex S₀ := (hin.loc hx).symm.trans (hxl.trans hS₀.symm)
  have ne : (∀ b n l, it ≠ .op b (.casOk .relaxed) .release n l) → ∀ S, w ≠ Locks.uw 𝓛 S := by
    rintro h S rfl
    obtain ⟨_, hu⟩ := Locks.uw_in 𝓛 S
    obtain ⟨b, n, hg⟩ := hL.give S
    have h1 := hin.item
    rw [(hin.unique hu).1] at h1
    rw [show (R.prog (Locks.give 𝓛 S).1)[(Locks.give 𝓛 S).2]? = _ from hg] at h1
    exact h _ _ _ (Option.some.inj h1).symm
  rcases hL.words id it S₀ hin.item (hin.writes hwr) hl with ⟨S, rfl⟩ | ⟨S, rfl⟩ | h | h
  · have hA := take_access (hL := hL) (hH := hH) (hcr := hcr) S
    cases hA.only _ _ hin hwr
    have hS : Z.mutex S = m := (hA.loc x hx).symm.trans hxl
    obtain ⟨s, h1, h2⟩ := hW.take S hS _ _ hA.ret hA.pub
    exact ⟨_, s, hA.pair, hA.rd, h1, .inr ⟨fun S => Locks.lw_ne, by rw [h2, count_taken]⟩⟩
  · obtain ⟨r, hA⟩ := give_access (hL := hL) (hH := hH) (hcr := hcr) S
    cases hA.only _ _ hin hwr
    have hS : Z.mutex S = m := (hA.loc x hx).symm.trans hxl
    obtain ⟨s, h1, h2⟩ := hW.give S hS _ _ hA.ret hA.pub
    exact ⟨_, s, hA.pair, hA.rd, h1, .inl ⟨S, hS, rfl, by rw [h2, count_given]⟩⟩
  · obtain ⟨r, hc⟩ := watch_copy hin.item h hin hwr
    obtain ⟨s, h1, h2⟩ := hH.copies r w x hc hx
    refine ⟨r, s, hc.1, hcr r w hc hwr, h1, .inr ⟨ne ?_, by rw [h2, hxl]⟩⟩
    rintro b n l rfl
    obtain ⟨b', n', e | ⟨o, -, e⟩⟩ := h <;> cases e
  · obtain ⟨r, w', h1, h2, h3, h4, h5, h6⟩ := rmw_facts hin.item h.isRmw
    cases h6 w it hin hwr
    rw [hl, hS₀] at h
    obtain ⟨s, hs, -⟩ := hH.mark id it S₀ hin.item (hS₀ ▸ h) r w h1 h3
    refine ⟨r, s, h5, h2, hs, .inr ⟨ne ?_, ?_⟩⟩
    · rintro b n l rfl
      obtain ⟨b', n', k, -, e⟩ := h
      cases e
    · rcases hW.mark id it r w s hin.item h h1 h3 hs with e | ⟨e, -⟩
      · rw [e, count_marked]
      · rw [e, count_unmarked]

include hL hH hcr in
/-- The counter between two modifications of the word. -/
theorem counted (hW : Waits R M.rf M.hb V guard Z m bucket queue does) (hm : ∃ S, Z.mutex S = m) {w : Pos}
    (hw : Locks.On (R := R) m w) : ∀ (n : Nat) {s : Pos}, R.time s .wr = n → Locks.On (R := R) m s → (w = s ∨ M.mo w s) →
    ∃ l : List Z.Sec, l.Nodup ∧ (∀ S, S ∈ l ↔ Z.mutex S = m ∧ M.mo w (Locks.uw 𝓛 S) ∧
      (Locks.uw 𝓛 S = s ∨ M.mo (Locks.uw 𝓛 S) s)) ∧ count (V.val s) = (count (V.val w) + l.length) % 2 ^ 30 := by
  have uw_inj : ∀ {S S' : Z.Sec}, Z.mutex S = m → Z.mutex S' = m → Locks.uw 𝓛 S = Locks.uw 𝓛 S' → S = S' := by
    intro S S' h h' e
    by_contra hne
    have aux : ∀ {S S' : Z.Sec}, Locks.Prior 𝓛 S S' → Locks.uw 𝓛 S ≠ Locks.uw 𝓛 S' := by
      rintro S S' ⟨g, f, it, it', k1, k2, k3⟩ e
      obtain ⟨_, hi⟩ := Locks.uw_in 𝓛 S
      obtain ⟨_, hj⟩ := Locks.uw_in 𝓛 S'
      rw [← e] at hj
      have := (hi.unique hj).1
      rw [show Locks.give 𝓛 S = Locks.give 𝓛 S' from this] at k1
      exact M.irrefl _ (M.trans k3 (M.sb (k2.lt k1 (hL.order S').1 (hL.order S').2)))
    rcases Locks.prior_total (L := 𝓛) (h.trans h'.symm) hne with k | k
    · exact aux k e
    · exact aux k e.symm
  intro n
  induction n using Nat.strongRecOn with
  | _ n ih =>
    rintro s hn hs (rfl | hmo)
    · refine ⟨[], List.nodup_nil, fun S => ⟨fun h => absurd h List.not_mem_nil, ?_⟩, ?_⟩
      · rintro ⟨-, h1, h2 | h2⟩
        · rw [h2] at h1; exact absurd h1 (M.mo_irrefl _)
        · exact absurd (M.mo_trans h1 h2) (M.mo_irrefl _)
      · simp [count]
    · obtain ⟨r, so, hp, hr, hrf, hstep⟩ := word_count (hL := hL) (hH := hH) (hcr := hcr) hW hm hs
      obtain ⟨a1, a2⟩ := M.atomic hp hr hs.1 hrf
      obtain ⟨p, rfl, hle⟩ : ∃ p, so = some p ∧ (w = p ∨ M.mo w p) := by
        rcases a2 w hw.1 (hw.sameLoc hs) hmo with e | ⟨u, e, hu⟩
        · exact ⟨w, e, .inl rfl⟩
        · exact ⟨u, e, .inr hu⟩
      obtain ⟨hpw, hpl⟩ := M.source hr hrf
      have hpo : Locks.On (R := R) m p := hs.of_sameLoc hpw (hp.1.symm.trans hpl)
      obtain ⟨l, i1, i2, i3⟩ := ih _ (hn ▸ M.older hp hr hs.1 hrf) rfl hpo hle
      have hps : M.mo p s := a1 p rfl
      have upto : ∀ S, Z.mutex S = m → ((Locks.uw 𝓛 S = p ∨ M.mo (Locks.uw 𝓛 S) p) ↔ M.mo (Locks.uw 𝓛 S) s) := by
        intro S hS
        constructor
        · rintro (h | h)
          · rw [h]; exact hps
          · exact M.mo_trans h hps
        · intro h
          have huo : Locks.On (R := R) m (Locks.uw 𝓛 S) := hS ▸ Locks.on_uw (L := 𝓛) S
          rcases a2 _ huo.1 (huo.sameLoc hs) h with e | ⟨u, e, hu⟩
          · exact .inl (Option.some.inj e).symm
          · exact .inr (Option.some.inj e ▸ hu)
      rcases hstep with ⟨S, hS, rfl, hc⟩ | ⟨hno, hc⟩
      · refine ⟨S :: l, List.nodup_cons.2 ⟨fun h => ?_, i1⟩, fun T => ?_, ?_⟩
        · obtain ⟨-, -, h⟩ := (i2 S).1 h
          exact M.mo_irrefl _ ((upto S hS).1 h)
        · rw [List.mem_cons, i2]
          constructor
          · rintro (rfl | ⟨h1, h2, h3⟩)
            · exact ⟨hS, hmo, .inl rfl⟩
            · exact ⟨h1, h2, .inr ((upto T h1).1 h3)⟩
          · rintro ⟨h1, h2, h3 | h3⟩
            · exact .inl (uw_inj h1 hS h3)
            · exact .inr ⟨h1, h2, (upto T h1).2 h3⟩
        · rw [hc, List.length_cons, show V.of m (some p) = V.val p from rfl, i3]; omega
      · refine ⟨l, i1, fun T => ?_, by rw [hc]; exact i3⟩
        rw [i2]
        constructor
        · rintro ⟨h1, h2, h3⟩
          exact ⟨h1, h2, .inr ((upto T h1).1 h3)⟩
        · rintro ⟨h1, h2, h3 | h3⟩
          · exact absurd h3.symm (hno T)
          · exact ⟨h1, h2, (upto T h1).2 h3⟩

include hL hH hcr in
/-- The counter does not make a full turn if the mutex is given back less than 2^30 times. -/
theorem noTurn_of_few (hW : Waits R M.rf M.hb V guard Z m bucket queue does) {l : List Z.Sec} (hl : l.length < 2 ^ 30)
    (hall : ∀ S, Z.mutex S = m → S ∈ l) : NoTurn R V M.mo Z m := by
  intro w s u y z S hy hyl hw hz hzl hs hS hu hwu hus e
  cases give_pub (hL := hL) (hH := hH) (hcr := hcr) S hu
  have hle : w = s ∨ M.mo w s := by
    rcases hus with h | h
    · rw [← h]; exact .inr hwu
    · exact .inr (M.mo_trans hwu h)
  obtain ⟨l', h1, h2, h3⟩ := counted (hL := hL) (hH := hH) (hcr := hcr) hW ⟨S, hS⟩ ⟨hw, y, hy, hyl⟩ _ rfl ⟨hs, z, hz, hzl⟩ hle
  have hmem : S ∈ l' := (h2 S).2 ⟨hS, hwu, hus⟩
  have hlen : l'.length ≤ l.length := (List.Nodup.subperm h1 fun T hT => hall T ((h2 T).1 hT).1).length_le
  have hpos : 0 < l'.length := List.length_pos_of_mem hmem
  rw [← e] at h3
  have : count (V.val w) < 2 ^ 30 := Nat.mod_lt _ (by decide)
  omega

end Verif.Sleep
