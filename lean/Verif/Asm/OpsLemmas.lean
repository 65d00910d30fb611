import Verif.Asm.Ops
import Verif.Asm.SystemLemmas
import Verif.Asm.Tactic
import Verif.Integral.Lemmas

/-
If the functions of a back end are correct, so are all operations.
-/

namespace Verif.Asm

variable {R N : Nat}

theorem plainLoad_ok (h : N ≤ R) : (plainLoad R N).Implements Integral.spec fun _ => .load := by
  intro a
  have key : ∀ v : BitVec N, (v.setWidth R).setWidth N = v := fun v => by
    rw [BitVec.setWidth_setWidth_of_le _ h]; simp
  asm_exec [plainLoad, key] [0] [1] [] 1

theorem plainStore_ok : (plainStore R N).Implements Integral.spec .store := by
  intro a
  asm_exec [plainStore] [0] [0, 1] [] 1

/-- The code does what `op` prescribes. -/
def Code.Does (c : Code R N (Integral.Ret N)) (op : Integral.Op N) : Prop :=
  Correct c.block Integral.spec op c.pre c.ret

/-- The functions are correct; compare-and-exchange only for arguments that satisfy `P`. -/
structure Prims.Ok (p : Prims R N) (P : BitVec N → BitVec N → Prop) : Prop where
  load : p.load.Does .load
  store : ∀ v, (p.store v).Does (.store v)
  exchange : ∀ v, (p.exchange v).Does (.exchange v)
  casWeak : ∀ e d, P e d → (p.casWeak e d).Does (.casWeak e d)
  casStrong : ∀ e d, P e d → (p.casStrong e d).Does (.casStrong e d)
  fetchAdd : ∀ v, (p.fetchAdd v).Does (.fetchAdd v)
  fetchSub : ∀ v, (p.fetchSub v).Does (.fetchSub v)
  fetchAnd : ∀ v, (p.fetchAnd v).Does (.fetchAnd v)
  fetchOr : ∀ v, (p.fetchOr v).Does (.fetchOr v)
  fetchXor : ∀ v, (p.fetchXor v).Does (.fetchXor v)
  fetchNegate : p.fetchNegate.Does .fetchNegate
  fetchComplement : p.fetchComplement.Does .fetchComplement
  add : ∀ v, (p.add v).Does (.add v)
  sub : ∀ v, (p.sub v).Does (.sub v)
  negate : p.negate.Does .negate
  bitwiseAnd : ∀ v, (p.bitwiseAnd v).Does (.bitwiseAnd v)
  bitwiseOr : ∀ v, (p.bitwiseOr v).Does (.bitwiseOr v)
  bitwiseXor : ∀ v, (p.bitwiseXor v).Does (.bitwiseXor v)
  bitwiseComplement : p.bitwiseComplement.Does .bitwiseComplement

theorem Code.Does.map {c : Code R N (Integral.Ret N)} {op op' : Integral.Op N} (h : c.Does op)
    {g : Integral.Ret N → Integral.Ret N}
    (hg : ∀ m m' r, Integral.spec m op m' r → Integral.spec m op' m' (g r)) : (c.map g).Does op' where
  labels := h.labels
  loads := h.loads
  ends := h.ends
  sound := by
    intro ρ hρ base reg fl link hb hp ha m c' hr
    obtain ⟨h1, h2, h3, h4, h5⟩ := h.sound ρ hρ base reg fl link hb hp ha m c' hr
    refine ⟨h1, h2, ?_, ?_, h5⟩
    · rcases h3 with h3 | ⟨x, x', h3, r, hr⟩
      · exact .inl h3
      · exact .inr ⟨x, x', h3, g r, hg _ _ _ hr⟩
    · intro hpc
      rcases h4 hpc with ⟨m, m', hw, hs⟩ | ⟨hw, m, hm, hs⟩
      · exact .inl ⟨m, m', hw, hg _ _ _ hs⟩
      · exact .inr ⟨hw, m, hm, hg _ _ _ hs⟩

/-- A store by exchange. -/
theorem Code.Does.store {c : Code R N (Integral.Ret N)} {v : BitVec N} (h : c.Does (.exchange v)) :
    (c.map discard).Does (.store v) :=
  h.map fun _ _ _ hs => ⟨hs.1, rfl⟩

/-- Complement by exclusive or. -/
theorem Code.Does.complement {c : Code R N (Integral.Ret N)} (h : c.Does (.fetchXor (BitVec.allOnes N))) :
    c.Does .fetchComplement :=
  (h.map (g := id) fun _ _ _ hs => ⟨by rw [hs.1, BitVec.xor_allOnes], hs.2⟩)

theorem bit_and (x : BitVec N) (b : Fin N) : (x &&& 1#N <<< b.val != 0) = x.getLsbD b := by
  rw [← Integral.nz_and_bit]
  rw [bne, Bool.eq_iff_iff]
  simp [Integral.nz]

theorem Prims.Ok.code {p : Prims R N} {P} (h : p.Ok P) (viaFetch : Bool) (op : Integral.Op N)
    (ho : CasIf P op) : (p.code viaFetch op).Does op := by
  cases op with
  | load => exact h.load
  | store => exact h.store _
  | exchange => exact h.exchange _
  | casWeak => exact h.casWeak _ _ ho
  | casStrong => exact h.casStrong _ _ ho
  | fetchAdd => exact h.fetchAdd _
  | fetchSub => exact h.fetchSub _
  | fetchAnd => exact h.fetchAnd _
  | fetchOr => exact h.fetchOr _
  | fetchXor => exact h.fetchXor _
  | fetchNegate => exact h.fetchNegate
  | fetchComplement => exact h.fetchComplement
  | add => exact h.add _
  | sub => exact h.sub _
  | negate => exact h.negate
  | bitwiseAnd => exact h.bitwiseAnd _
  | bitwiseOr => exact h.bitwiseOr _
  | bitwiseXor => exact h.bitwiseXor _
  | bitwiseComplement => exact h.bitwiseComplement
  | opaqueAdd =>
    cases viaFetch
    · exact (h.add _).map fun _ _ _ hs => ⟨hs.1, rfl⟩
    · exact (h.fetchAdd _).map fun _ _ _ hs => ⟨hs.1, rfl⟩
  | opaqueSub =>
    cases viaFetch
    · exact (h.sub _).map fun _ _ _ hs => ⟨hs.1, rfl⟩
    · exact (h.fetchSub _).map fun _ _ _ hs => ⟨hs.1, rfl⟩
  | opaqueNegate =>
    cases viaFetch
    · exact h.negate.map fun _ _ _ hs => ⟨hs.1, rfl⟩
    · exact h.fetchNegate.map fun _ _ _ hs => ⟨hs.1, rfl⟩
  | opaqueAnd =>
    cases viaFetch
    · exact (h.bitwiseAnd _).map fun _ _ _ hs => ⟨hs.1, rfl⟩
    · exact (h.fetchAnd _).map fun _ _ _ hs => ⟨hs.1, rfl⟩
  | opaqueOr =>
    cases viaFetch
    · exact (h.bitwiseOr _).map fun _ _ _ hs => ⟨hs.1, rfl⟩
    · exact (h.fetchOr _).map fun _ _ _ hs => ⟨hs.1, rfl⟩
  | opaqueXor =>
    cases viaFetch
    · exact (h.bitwiseXor _).map fun _ _ _ hs => ⟨hs.1, rfl⟩
    · exact (h.fetchXor _).map fun _ _ _ hs => ⟨hs.1, rfl⟩
  | opaqueComplement =>
    cases viaFetch
    · exact h.bitwiseComplement.map fun _ _ _ hs => ⟨hs.1, rfl⟩
    · exact h.fetchComplement.map fun _ _ _ hs => ⟨hs.1, rfl⟩
  | addAndTest => exact (h.add _).map fun _ _ _ hs => ⟨hs.1, by rw [hs.2]; simp [test, value]; rfl⟩
  | subAndTest => exact (h.sub _).map fun _ _ _ hs => ⟨hs.1, by rw [hs.2]; simp [test, value]; rfl⟩
  | negateAndTest => exact h.negate.map fun _ _ _ hs => ⟨hs.1, by rw [hs.2]; simp [test, value]; rfl⟩
  | andAndTest => exact (h.bitwiseAnd _).map fun _ _ _ hs => ⟨hs.1, by rw [hs.2]; simp [test, value]; rfl⟩
  | orAndTest => exact (h.bitwiseOr _).map fun _ _ _ hs => ⟨hs.1, by rw [hs.2]; simp [test, value]; rfl⟩
  | xorAndTest => exact (h.bitwiseXor _).map fun _ _ _ hs => ⟨hs.1, by rw [hs.2]; simp [test, value]; rfl⟩
  | complementAndTest =>
    exact h.bitwiseComplement.map fun _ _ _ hs => ⟨hs.1, by rw [hs.2]; simp [test, value]; rfl⟩
  | bitTestAndSet b =>
    exact (h.fetchOr _).map fun m _ _ hs => ⟨by rw [hs.1]; exact Integral.setsBit_or m b, by
      rw [hs.2]; simp only [testBit, value, bit, bit_and]⟩
  | bitTestAndReset b =>
    exact (h.fetchAnd _).map fun m _ _ hs => ⟨by rw [hs.1]; exact Integral.setsBit_reset m b, by
      rw [hs.2]; simp only [testBit, value, bit, bit_and]⟩
  | bitTestAndComplement b =>
    exact (h.fetchXor _).map fun m _ _ hs => ⟨by rw [hs.1]; exact Integral.setsBit_xor m b, by
      rw [hs.2]; simp only [testBit, value, bit, bit_and]⟩

theorem atomic_of_ok {p : Bool → Prims R N} {P} (h : ∀ b, (p b).Ok P) (viaFetch : Bool) :
    Atomic p viaFetch P := by
  intro base v₀ hb
  refine linearizable_of_correct (fun c => ?_) hb v₀
  have := (h c.ordered).code viaFetch c.op c.ok
  exact ⟨this.labels, this.loads, this.sound, this.ends⟩

/-- As `Code.Does`, for `looseSpec`. -/
def Code.DoesLoosely (c : Code R N (Integral.Ret N)) (op : Integral.Op N) : Prop :=
  Correct c.block looseSpec op c.pre c.ret

theorem Correct.weaken {b : Block R N} {Op Ret : Type} {s s' : SeqSpec (BitVec N) Op Ret} {op : Op}
    {pre : (Slot → BitVec R) → Prop} {ret : (Slot → BitVec R) → Ret} (h : Correct b s op pre ret)
    (hs : ∀ m m' r, s m op m' r → s' m op m' r) : Correct b s' op pre ret where
  labels := h.labels
  loads := h.loads
  ends := h.ends
  sound := by
    intro ρ hρ base reg fl link hb hp ha m c' hr
    obtain ⟨h1, h2, h3, h4, h5⟩ := h.sound ρ hρ base reg fl link hb hp ha m c' hr
    refine ⟨h1, h2, ?_, ?_, h5⟩
    · rcases h3 with h3 | ⟨x, x', h3, r, hr⟩
      · exact .inl h3
      · exact .inr ⟨x, x', h3, r, hs _ _ _ hr⟩
    · intro hpc
      rcases h4 hpc with ⟨m, m', hw, hr⟩ | ⟨hw, m, hm, hr⟩
      · exact .inl ⟨m, m', hw, hs _ _ _ hr⟩
      · exact .inr ⟨hw, m, hm, hs _ _ _ hr⟩

theorem looseAtomic_of_ok {p : Bool → Prims R N} (h : ∀ b, (p b).Ok fun _ _ => False)
    (hw : ∀ b e d, ((p b).casWeak e d).DoesLoosely (.casWeak e d))
    (hc : ∀ b e d, ((p b).casStrong e d).DoesLoosely (.casStrong e d)) (viaFetch : Bool) :
    LooseAtomic p viaFetch := by
  intro base v₀ hb
  refine linearizable_of_correct (fun c => ?_) hb v₀
  have key : Correct ((p c.ordered).code viaFetch c.op).block looseSpec c.op
      ((p c.ordered).code viaFetch c.op).pre ((p c.ordered).code viaFetch c.op).ret := by
    obtain ⟨op, ordered, ho⟩ := c
    by_cases hop : CasIf (fun _ _ => False) op
    · exact ((h ordered).code viaFetch op hop).weaken fun _ _ _ hs => .inl hs
    · cases op <;> first | exact absurd trivial hop | exact hw ordered _ _ | exact hc ordered _ _
  exact ⟨key.labels, key.loads, key.sound, key.ends⟩

end Verif.Asm
