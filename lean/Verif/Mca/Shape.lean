import Verif.Mca.Lemmas

/-! Helper lemmas: where the result and the modification of an operation are in its instructions. -/

namespace Verif.Order

/-- Neither delivers the result nor writes. -/
def Instr.quiet (x : Instr) : Bool := !x.ret && !x.pub && !x.wr

theorem trace_split_quiet (be : Backend) (k : Kind) (o : MO) (n : Nat) :
    ∃ pre H core, trace be k o n = pre ++ H ++ core ∧ trace be k o 0 = pre ++ core ∧
      (∀ x ∈ pre, x.quiet = true) ∧ ∀ x ∈ H, x.quiet = true := by
  have triv : ∀ t : List Instr, ∃ pre H core, t = pre ++ H ++ core ∧ t = pre ++ core ∧
      (∀ x ∈ pre, x.quiet = true) ∧ ∀ x ∈ H, x.quiet = true := fun t => ⟨[], [], t, by simp, by simp, by simp, by simp⟩
  have rep : ∀ (c : Instr) (core : List Instr), c.quiet = true →
      ∃ pre H core', List.replicate n c ++ core = pre ++ H ++ core' ∧ core = pre ++ core' ∧
      (∀ x ∈ pre, x.quiet = true) ∧ ∀ x ∈ H, x.quiet = true := fun c core h =>
    ⟨[], List.replicate n c, core, rfl, rfl, by simp, fun x hx => by rw [List.eq_of_mem_replicate hx]; exact h⟩
  have rep' : ∀ (pre : List Instr) (c : Instr) (core : List Instr), pre.all Instr.quiet = true → c.quiet = true →
      ∃ pre' H core', pre ++ List.replicate n c ++ core = pre' ++ H ++ core' ∧
      pre ++ [] ++ core = pre' ++ core' ∧ (∀ x ∈ pre', x.quiet = true) ∧
      ∀ x ∈ H, x.quiet = true := fun pre c core h1 h2 =>
    ⟨pre, List.replicate n c, core, rfl, by simp, by simpa using h1,
      fun x hx => by rw [List.eq_of_mem_replicate hx]; exact h2⟩
  have rnd : ∀ (pre : Instr) (l : List Instr) (core : List Instr), pre.quiet = true →
      l.all Instr.quiet = true →
      ∃ pre' H core', pre :: rounds n l ++ core = pre' ++ H ++ core' ∧
      pre :: ([] ++ core) = pre' ++ core' ∧ (∀ x ∈ pre', x.quiet = true) ∧
      ∀ x ∈ H, x.quiet = true := fun pre l core h h' =>
    ⟨[pre], rounds n l, core, by simp, by simp, by simpa using h, fun x hx => by
      simp only [rounds, List.mem_flatten, List.mem_replicate] at hx
      obtain ⟨_, ⟨_, rfl⟩, hx⟩ := hx
      exact List.all_eq_true.1 h' x hx⟩
  have loop := rnd plainRead ((call be (.casFail .relaxed) o 0).map fun x => { x with ret := false })
    (call be (.casOk .relaxed) o 0) rfl ?_
  rotate_left
  · clear triv rep rep' rnd
    cases be <;> (try cases ‹Bool›) <;> (try cases ‹Bool›) <;> cases o <;> decide
  cases be <;> cases k
  case gccX86.rmw => exact rep _ _ rfl
  case msvcX86.rmw => exact rep _ _ rfl
  case ppc64.rmw => exact rep' _ _ _ (by cases o <;> rfl) rfl
  case ppc64.casOk => exact rep' _ _ _ (by cases o <;> rfl) rfl
  case ppc64.casFail => exact rep' _ _ _ (by cases o <;> rfl) rfl
  case ppc32.rmw => exact rep' _ _ _ (by cases o <;> rfl) rfl
  case ppc32.casOk => exact rep' _ _ _ (by cases o <;> rfl) rfl
  case ppc32.casFail => exact rep' _ _ _ (by cases o <;> rfl) rfl
  case gccArm.rmw => exact rep' _ _ _ (by cases o <;> rfl) rfl
  case gccArm.casOk => exact rep' _ _ _ (by cases o <;> rfl) rfl
  case gccArm.casFail => exact rep' _ _ _ (by cases o <;> rfl) rfl
  case alpha.rmw => exact rep' _ _ _ (by cases o <;> rfl) rfl
  case alpha.casOk => exact rep' _ _ _ (by cases o <;> rfl) rfl
  case alpha.casFail => exact rep' _ _ _ (by cases o <;> rfl) rfl
  case msvcArm.rmw => cases o <;> exact rep _ _ rfl
  case aarch64.rmw lse _ => cases lse; exact rep _ _ rfl; exact triv _
  case aarch64.casOk lse _ _ => cases lse; exact rep _ _ rfl; exact triv _
  case aarch64.casFail lse _ _ => cases lse; exact rep _ _ rfl; exact triv _
  case aarch32.store wide => cases wide; exact triv _; exact rep _ _ rfl
  case aarch32.rmw => exact rep _ _ rfl
  case aarch32.casOk => exact rep _ _ rfl
  case aarch32.casFail => exact rep _ _ rfl
  case gccArmWide.store => exact rep' _ _ _ (by cases o <;> rfl) rfl
  case gccArmWide.rmw => exact rep' _ _ _ (by cases o <;> rfl) rfl
  case gccArmWide.casOk => exact rep' _ _ _ (by cases o <;> rfl) rfl
  case gccArmWide.casFail => exact rep' _ _ _ (by cases o <;> rfl) rfl
  case aarch64Wide.load => exact rep _ _ rfl
  case aarch64Wide.store => exact rep _ _ rfl
  case aarch64Wide.rmw => exact rep _ _ rfl
  case aarch64Wide.casOk => exact rep _ _ rfl
  case aarch64Wide.casFail => exact rep _ _ rfl
  case gccSyncWide.rmw => exact rep _ _ rfl
  case x86Wide.rmw => exact rep' [plainRead] _ _ rfl rfl
  case x86Wide.store msvc vec =>
    cases vec
    · exact rep' [plainRead] _ _ rfl rfl
    · cases o <;> first | exact triv _ | exact rep' [plainRead] _ _ rfl rfl
  case sparc.rmw =>
    refine cast ?_ (rnd vload (sparcFailRound o)
      (sparcBefore o ++ (sparcCas true).asRet.asPub :: sparcAfter o) rfl ?_)
    · simp [trace, call, rounds]
    · cases o <;> decide
  case gccSync.rmw => exact rep _ _ rfl
  case linuxArm.rmw =>
    refine cast ?_ (rnd vload khFailRound [fullFence, (sparcCas true).asRet.asPub, fullFence] rfl ?_)
    · simp [trace, call, rounds]
    · decide
  case windows.rmw => exact rep _ _ rfl
  case gccAtomic.rmw => exact rep _ _ rfl
  case gccAtomicX86.rmw => exact rep _ _ rfl
  all_goals first | exact loop | exact triv _

/-- Where the result and the modification of an operation are in its instructions. -/
def Shape (k : Kind) (l : List Instr) : Prop :=
  ∃ A M B, l = A ++ M ++ B ∧ (∀ x ∈ A, x.quiet = true) ∧ (∀ x ∈ B, x.quiet = true) ∧
    match k with
    | .load | .casFail _ => (∃ x, M = [x] ∧ x.ret = true ∧ x.rd = true ∧ x.pub = false) ∨
        ∃ x y, M = [x, y] ∧ x.ret = true ∧ x.rd = true ∧ x.pub = false ∧ x.wr = false ∧
          y.pub = false ∧ y.wr = true ∧ y.ret = false ∧ y.rd = false
    | .store => ∃ x, M = [x] ∧ x.pub = true ∧ x.wr = true ∧ x.ret = false
    | .rmw | .casOk _ | .loop => (∃ x, M = [x] ∧ x.ret = true ∧ x.rd = true ∧ x.pub = true ∧ x.wr = true) ∨
        ∃ x y, M = [x, y] ∧ x.ret = true ∧ x.rd = true ∧ x.pub = false ∧ x.wr = false ∧
          y.pub = true ∧ y.wr = true ∧ y.ret = false ∧ y.rd = false

/-- Computable form. -/
def shapeB (k : Kind) (l : List Instr) : Bool :=
  (l.takeWhile fun x => !x.ret && !x.pub).all Instr.quiet &&
  match l.dropWhile fun x => !x.ret && !x.pub with
  | [] => false
  | x :: B =>
    match k with
    | .load | .casFail _ =>
      (x.ret && x.rd && !x.pub && B.all Instr.quiet) ||
      (x.ret && x.rd && !x.pub && !x.wr &&
        match B with
        | [] => false
        | y :: B => !y.pub && y.wr && !y.ret && !y.rd && B.all Instr.quiet)
    | .store => x.pub && x.wr && !x.ret && B.all Instr.quiet
    | .rmw | .casOk _ | .loop =>
      (x.ret && x.rd && x.pub && x.wr && B.all Instr.quiet) ||
      (x.ret && x.rd && !x.pub && !x.wr &&
        match B with
        | [] => false
        | y :: B => y.pub && y.wr && !y.ret && !y.rd && B.all Instr.quiet)

theorem shapeB_shape {k l} (h : shapeB k l = true) : Shape k l := by
  have hl := (List.takeWhile_append_dropWhile (p := fun x : Instr => !x.ret && !x.pub) (l := l)).symm
  unfold shapeB at h
  rw [Bool.and_eq_true] at h
  obtain ⟨h1, h2⟩ := h
  rw [List.all_eq_true] at h1
  revert h1 h2 hl
  generalize (l.takeWhile fun x => !x.ret && !x.pub) = A
  generalize (l.dropWhile fun x => !x.ret && !x.pub) = D
  rintro rfl h1 h2
  cases D with
  | nil => cases h2
  | cons x B =>
    cases k with
    | load | casFail =>
      rw [Bool.or_eq_true] at h2
      rcases h2 with h2 | h2
      · simp at h2
        exact ⟨A, [x], B, by simp, h1, h2.2, .inl ⟨x, rfl, h2.1.1.1, h2.1.1.2, h2.1.2⟩⟩
      · cases B with
        | nil => simp at h2
        | cons y B =>
          simp at h2
          exact ⟨A, [x, y], B, by simp, h1, h2.2.2, .inr ⟨x, y, rfl, h2.1.1.1.1, h2.1.1.1.2, h2.1.1.2, h2.1.2,
            h2.2.1.1.1.1, h2.2.1.1.1.2, h2.2.1.1.2, h2.2.1.2⟩⟩
    | store =>
      simp at h2
      exact ⟨A, [x], B, by simp, h1, h2.2, x, rfl, h2.1.1.1, h2.1.1.2, h2.1.2⟩
    | rmw | casOk | loop =>
      rw [Bool.or_eq_true] at h2
      rcases h2 with h2 | h2
      · simp at h2
        exact ⟨A, [x], B, by simp, h1, h2.2, .inl ⟨x, rfl, h2.1.1.1.1, h2.1.1.1.2, h2.1.1.2, h2.1.2⟩⟩
      · cases B with
        | nil => simp at h2
        | cons y B =>
          simp at h2
          exact ⟨A, [x, y], B, by simp, h1, h2.2.2, .inr ⟨x, y, rfl, h2.1.1.1.1, h2.1.1.1.2, h2.1.1.2, h2.1.2,
            h2.2.1.1.1.1, h2.2.1.1.1.2, h2.2.1.1.2, h2.2.1.2⟩⟩

theorem shapeB_zero (be : Backend) (k : Kind) (o : MO) : shapeB k (trace be k o 0) = true := by
  cases k with
  | casFail f => cases be <;> (try cases ‹Bool›) <;> (try cases ‹Bool›) <;> cases f <;> cases o <;> decide
  | casOk f => cases be <;> (try cases ‹Bool›) <;> (try cases ‹Bool›) <;> cases f <;> cases o <;> decide
  | _ => cases be <;> (try cases ‹Bool›) <;> (try cases ‹Bool›) <;> cases o <;> decide

theorem shape_trace (be : Backend) (k : Kind) (o : MO) (n : Nat) : Shape k (trace be k o n) := by
  obtain ⟨pre, H, core, e, e0, hp, hH⟩ := trace_split_quiet be k o n
  have h := shapeB_zero be k o
  rw [e0] at h
  rw [e]
  have nm : ∀ x : Instr, x.quiet = true → (!x.ret && !x.pub) = true := by
    intro x hx; simp [Instr.quiet] at hx ⊢; exact hx.1
  apply shapeB_shape
  unfold shapeB at h ⊢
  rw [List.takeWhile_append_of_pos (fun x hx => nm x (hp x hx)),
    List.dropWhile_append_of_pos (fun x hx => nm x (hp x hx))] at h
  rw [List.takeWhile_append_of_pos (l₁ := pre ++ H), List.dropWhile_append_of_pos (l₁ := pre ++ H)]
  · rw [Bool.and_eq_true] at h ⊢
    refine ⟨?_, h.2⟩
    have h1 := h.1
    simp only [List.all_append, Bool.and_eq_true] at h1 ⊢
    exact ⟨⟨h1.1, by simpa using hH⟩, h1.2⟩
  all_goals
    intro x hx
    rcases List.mem_append.1 hx with hx | hx
    · exact nm x (hp x hx)
    · exact nm x (hH x hx)

end Verif.Order

namespace Verif.Mca

open Verif.Order

/-- The operation of an item. -/
def Item.kind : Item → Option Kind
  | .op _ k _ _ _ => some k
  | .exchange _ _ _ _ => some .rmw
  | .clear _ _ _ => some .store
  | _ => none

theorem Item.kind_isRmw {it : Item} {k : Kind} (h : it.kind = some k) (hk : k = .rmw ∨ k = .loop ∨ ∃ f, k = .casOk f) :
    it.isRmw = true := by
  cases it <;> simp [Item.kind] at h
  · subst h; rcases hk with rfl | rfl | ⟨f, rfl⟩ <;> rfl
  · rfl
  · subst h; simp at hk

theorem item_shape {it : Item} {k : Kind} (h : it.kind = some k) : Shape k (it.code) := by
  cases it with
  | user => cases h
  | fence => cases h
  | op b k' o n l => cases h; exact shape_trace b k o n
  | exchange b o n l =>
    cases h
    by_cases hb : b.isSync = true
    · simp only [Item.code, hb, if_true]; apply shapeB_shape; cases o <;> decide
    · simp only [Item.code, hb]; exact shape_trace b .rmw o n
  | clear b o l =>
    cases h
    by_cases hb : b.isSync = true
    · simp only [Item.code, hb, if_true]; apply shapeB_shape; cases o <;> decide
    · simp only [Item.code, hb]; exact shape_trace b .store o 0

namespace Run

variable {cpu : Cpu} {R : Run cpu}

theorem Within.item {e id it} (h : R.Within e id it) : (R.prog id.1)[id.2]? = some it := by
  obtain ⟨pre, hl, ht, ⟨post, hp⟩, -⟩ := h
  rw [← ht, hp, ← hl]; simp

theorem exists_within {e : Pos} {x : Ev} (h : R.Is e x) : ∃ id it, R.Within e id it := by
  have key : ∀ (p : List Item) (i : Nat), i < (events p).length →
      ∃ pre it post, p = pre ++ it :: post ∧ (events pre).length ≤ i ∧
        i < (events pre).length + (it.events).length := by
    intro p
    induction p with
    | nil => intro i h; simp [events] at h
    | cons it p ih =>
      intro i h
      rw [events_cons, List.length_append] at h
      by_cases hi : i < (it.events).length
      · exact ⟨[], it, p, rfl, by simp [events], by simpa [events] using hi⟩
      · obtain ⟨pre, it', post, e1, h1, h2⟩ := ih (i - (it.events).length) (by omega)
        refine ⟨it :: pre, it', post, by rw [e1]; rfl, ?_, ?_⟩ <;> rw [events_cons, List.length_append] <;> omega
  obtain ⟨hi, -⟩ := List.getElem?_eq_some_iff.1 h
  obtain ⟨pre, it, post, e1, h1, h2⟩ := key _ _ hi
  exact ⟨(e.1, pre.length), it, pre, rfl, rfl, ⟨post, e1⟩, h1, h2⟩

theorem Within.unique {e id it id' it'} (h : R.Within e id it) (h' : R.Within e id' it') : id = id' ∧ it = it' := by
  have hi := h.item
  have hi' := h'.item
  obtain ⟨pre, hl, ht, ⟨post, hp⟩, h1, h2⟩ := h
  obtain ⟨pre', hl', ht', ⟨post', hp'⟩, h1', h2'⟩ := h'
  have aux : ∀ {pre it post pre' it' post'}, pre ++ it :: post = pre' ++ it' :: post' → pre.length < pre'.length →
      (events pre).length + (Item.events it).length ≤ (events pre').length := by
    intro pre it post pre' it' post' e hlt
    have : pre ++ [it] <+: pre' := by
      refine List.prefix_of_prefix_length_le (l₃ := pre ++ it :: post) ⟨post, by simp⟩ ⟨it' :: post', e.symm⟩ ?_
      simp; omega
    obtain ⟨m, rfl⟩ := this
    simp [events]
  have : pre.length = pre'.length := by
    rcases Nat.lt_trichotomy pre.length pre'.length with hlt | heq | hlt
    · have := aux (hp ▸ hp') hlt; omega
    · exact heq
    · have := aux (hp' ▸ hp) hlt; omega
  have hid : id = id' := by ext <;> omega
  subst hid
  rw [hi] at hi'
  exact ⟨rfl, Option.some.inj hi'⟩

theorem mem_shape {l A M B : List Instr} (hl : l = A ++ M ++ B) (hA : ∀ x ∈ A, x.quiet = true)
    (hB : ∀ x ∈ B, x.quiet = true) {i x} (hx : l[i]? = some x) (hq : x.quiet = false) :
    ∃ j, i = A.length + j ∧ M[j]? = some x := by
  subst hl
  rw [List.append_assoc] at hx
  by_cases h1 : i < A.length
  · rw [List.getElem?_append_left h1] at hx
    rw [hA x (List.mem_of_getElem? hx)] at hq; cases hq
  · rw [List.getElem?_append_right (by omega)] at hx
    by_cases h2 : i - A.length < M.length
    · rw [List.getElem?_append_left h2] at hx
      exact ⟨i - A.length, by omega, hx⟩
    · rw [List.getElem?_append_right (by omega)] at hx
      rw [hB x (List.mem_of_getElem? hx)] at hq; cases hq

/-- The result and the modification of an operation. -/
inductive Facts (R : Run cpu) (id : OpId) (it : Item) : Prop where
  | reads (r : Pos) (ret : R.Ret id r) (rd : R.Has r .rd) (uniq : ∀ e, R.Ret id e → e = r) (npub : ∀ e, ¬ R.Pub id e)
      (wr : ∀ e, R.Within e id it → R.Has e .wr →
        R.Paired r e ∧ ∃ x, R.Is e x ∧ x.ins.pub = false)
  | writes (w : Pos) (pub : R.Pub id w) (has : R.Has w .wr) (uniq : ∀ e, R.Pub id e → e = w) (nret : ∀ e, ¬ R.Ret id e)
      (wr : ∀ e, R.Within e id it → R.Has e .wr → e = w)
  | both (r w : Pos) (ret : R.Ret id r) (rd : R.Has r .rd) (uniq : ∀ e, R.Ret id e → e = r) (pub : R.Pub id w)
      (has : R.Has w .wr)
      (uniq' : ∀ e, R.Pub id e → e = w) (pair : R.Paired r w)
      (wr : ∀ e, R.Within e id it → R.Has e .wr → e = w)

theorem facts {id : OpId} {it : Item} (hit : (R.prog id.1)[id.2]? = some it) {k : Kind}
    (hk : it.kind = some k) : R.Facts id it := by
  obtain ⟨pre, post, hp, hlen⟩ := split_at hit
  obtain ⟨A, M, B, hl, hA, hB, hM⟩ := item_shape hk
  -- the instructions of the item
  have hget : ∀ i : Nat, (it.events)[i]? = ((it.code)[i]?).map fun x => (⟨x, it.loc, it.pairOf x⟩ : Ev) := by
    intro i; simp [Item.events]
  have hin : ∀ i x, (it.code)[i]? = some x →
      R.Within (id.1, (events pre).length + i) id it ∧
      R.Is (id.1, (events pre).length + i) ⟨x, it.loc, it.pairOf x⟩ := by
    intro i x hx
    have hi : i < (it.events).length := by
      have := (List.getElem?_eq_some_iff.1 hx).1; simpa [Item.events] using this
    refine ⟨⟨pre, hlen, rfl, ⟨post, hp⟩, by simp, by simpa using hi⟩, ?_⟩
    rw [Is, code_eq hp, List.getElem?_append_right (by simp), List.getElem?_append_left (by simpa using hi)]
    simp [hget, hx]
  have hout : ∀ e x, R.Within e id it → R.Is e x → x.ins.quiet = false →
      ∃ j, e = (id.1, (events pre).length + A.length + j) ∧ M[j]? = some x.ins ∧ x.pair = it.pairOf x.ins := by
    rintro e x ⟨pre', hl', ht, hii⟩ hx hq
    have hi := hii
    obtain ⟨post', a, c, hp', e1, e2⟩ := hii.split hx
    have : pre' = pre := by
      rw [ht, hp] at hp'
      exact (List.append_inj hp' (by omega)).1.symm
    subst this
    have hc : (it.code)[a.length]? = some x.ins := by
      rw [← events_ins, e1]; simp
    obtain ⟨j, hj, hMj⟩ := mem_shape hl hA hB hc hq
    refine ⟨j, by ext <;> simp [ht, e2]; omega, hMj, ?_⟩
    have hx' : (it.events)[a.length]? = some x := by rw [e1]; simp
    rw [hget, hc] at hx'
    simp at hx'
    rw [← hx']
  have hcM : ∀ j x, M[j]? = some x → (it.code)[A.length + j]? = some x := by
    intro j x h
    rw [hl, List.append_assoc, List.getElem?_append_right (by omega), Nat.add_sub_cancel_left,
      List.getElem?_append_left (List.getElem?_eq_some_iff.1 h).1]
    exact h
  have hretq : ∀ x : Instr, x.ret = true → x.quiet = false := by intro x h; simp [Instr.quiet, h]
  have hpubq : ∀ x : Instr, x.pub = true → x.quiet = false := by intro x h; simp [Instr.quiet, h]
  have hwrq : ∀ x : Instr, x.wr = true → x.quiet = false := by intro x h; simp [Instr.quiet, h]
  have hW : ∀ {e it'}, R.Within e id it' → it' = it := by
    intro e it' h; have := h.item; rw [hit] at this; exact (Option.some.inj this).symm
  have one : ∀ x, M = [x] → ∀ e y, R.Within e id it → R.Is e y → y.ins.quiet = false →
      e = (id.1, (events pre).length + A.length) ∧ y.ins = x ∧ y.pair = it.pairOf x := by
    intro x hMx e y hw hy hq
    obtain ⟨j, he, hj, hpr⟩ := hout e y hw hy hq
    rw [hMx] at hj
    match j, hj with
    | 0, hj => simp at hj; exact ⟨he, hj.symm, by rw [hpr, ← hj]⟩
  have nouser : ∀ x, it.pairOf x = if x.wr then if x.rd then some 0 else if it.isRmw || !x.pub then some 1 else none
      else none := by
    intro x; cases it <;> first | rfl | simp [Item.kind] at hk
  have single : ∀ x, M = [x] → R.Within (id.1, (events pre).length + A.length) id it ∧
      R.Is (id.1, (events pre).length + A.length) ⟨x, it.loc, it.pairOf x⟩ := by
    intro x hMx
    simpa [Nat.add_assoc] using hin (A.length + 0) x (hcM 0 x (by simp [hMx]))
  have two : ∀ x y, M = [x, y] → ∀ e z, R.Within e id it → R.Is e z → z.ins.quiet = false →
      (e = (id.1, (events pre).length + (A.length + 0)) ∧ z.ins = x) ∨
      (e = (id.1, (events pre).length + (A.length + 1)) ∧ z.ins = y) := by
    intro x y hMxy e z hw hz hq
    obtain ⟨j, he, hj, -⟩ := hout e z hw hz hq
    rw [hMxy] at hj
    match j, hj with
    | 0, hj => simp at hj; exact .inl ⟨by rw [he, Nat.add_assoc], hj.symm⟩
    | 1, hj => simp at hj; exact .inr ⟨by rw [he, Nat.add_assoc], hj.symm⟩
  have onlyRet : ((∃ x, M = [x] ∧ x.ret = true ∧ x.rd = true ∧ x.pub = false) ∨
        ∃ x y, M = [x, y] ∧ x.ret = true ∧ x.rd = true ∧ x.pub = false ∧ x.wr = false ∧
          y.pub = false ∧ y.wr = true ∧ y.ret = false ∧ y.rd = false) → R.Facts id it := by
    rintro (⟨x, hMx, hret, hrd, hpub⟩ | ⟨x, y, hMxy, hret, hrd, hpub, hwr, hpub', hwr', hret', hrd'⟩)
    · obtain ⟨hw, hx⟩ := single x hMx
      refine .reads _ ⟨it, _, hw, hx, hret⟩ ⟨_, hx, hrd⟩ ?_ ?_ ?_
      · rintro e ⟨it', y, hw', hy, hyr⟩
        rw [hW hw'] at hw'
        exact (one x hMx e y hw' hy (hretq _ hyr)).1
      · rintro e ⟨it', y, hw', hy, hyp⟩
        rw [hW hw'] at hw'
        have := (one x hMx e y hw' hy (hpubq _ hyp)).2.1
        rw [this, hpub] at hyp; cases hyp
      · rintro e hw' ⟨y, hy, hyw⟩
        obtain ⟨he, hyx, hpr⟩ := one x hMx e y hw' hy (hwrq _ hyw)
        have hxw : x.wr = true := by rw [← hyx]; exact hyw
        subst he
        refine ⟨⟨⟨_, _, hx, hy, by rw [← hx.unique hy]⟩, y, 0, hy, ?_, rfl, rfl⟩, y, hy, by rw [hyx]; exact hpub⟩
        rw [hpr, nouser]; simp [hxw, hrd]
    · have hx := hin _ x (hcM 0 x (by simp [hMxy]))
      have hy := hin _ y (hcM 1 y (by simp [hMxy]))
      have two := two x y hMxy
      refine .reads _ ⟨it, _, hx.1, hx.2, hret⟩ ⟨_, hx.2, hrd⟩ ?_ ?_ ?_
      · rintro e ⟨it', z, hw', hz, hzr⟩
        rw [hW hw'] at hw'
        rcases two e z hw' hz (hretq _ hzr) with ⟨h, -⟩ | ⟨-, h⟩
        · exact h
        · rw [h, hret'] at hzr; cases hzr
      · rintro e ⟨it', z, hw', hz, hzp⟩
        rw [hW hw'] at hw'
        rcases two e z hw' hz (hpubq _ hzp) with ⟨-, h⟩ | ⟨-, h⟩
        · rw [h, hpub] at hzp; cases hzp
        · rw [h, hpub'] at hzp; cases hzp
      · rintro e hw' ⟨z, hz, hzw⟩
        rcases two e z hw' hz (hwrq _ hzw) with ⟨-, h⟩ | ⟨h, -⟩
        · simp [Instr.has, h, hwr] at hzw
        · subst h
          exact ⟨⟨⟨_, _, hx.2, hy.2, rfl⟩, _, 1, hy.2, by simp [nouser, hwr', hrd', hpub'], rfl, rfl⟩, _, hy.2, hpub'⟩
  have rmw : ((∃ x, M = [x] ∧ x.ret = true ∧ x.rd = true ∧ x.pub = true ∧ x.wr = true) ∨
        ∃ x y, M = [x, y] ∧ x.ret = true ∧ x.rd = true ∧ x.pub = false ∧ x.wr = false ∧
          y.pub = true ∧ y.wr = true ∧ y.ret = false ∧ y.rd = false) → it.isRmw = true → R.Facts id it := by
    intro h hisrmw
    rcases h with ⟨x, hMx, hret, hrd, hpub, hwr⟩ | ⟨x, y, hMxy, hret, hrd, hpub, hwr, hpub', hwr', hret', hrd'⟩
    · obtain ⟨hw, hx⟩ := single x hMx
      refine .both _ _ ⟨it, _, hw, hx, hret⟩ ⟨_, hx, hrd⟩ ?_ ⟨it, _, hw, hx, hpub⟩ ⟨_, hx, hwr⟩ ?_
        ⟨⟨_, _, hx, hx, rfl⟩, _, 0, hx, by simp [nouser, hwr, hrd], rfl, rfl⟩ ?_
      · rintro e ⟨it', z, hw', hz, hzr⟩
        rw [hW hw'] at hw'
        exact (one x hMx e z hw' hz (hretq _ hzr)).1
      · rintro e ⟨it', z, hw', hz, hzp⟩
        rw [hW hw'] at hw'
        exact (one x hMx e z hw' hz (hpubq _ hzp)).1
      · rintro e hw' ⟨z, hz, hzw⟩
        exact (one x hMx e z hw' hz (hwrq _ hzw)).1
    · have hx := hin _ x (hcM 0 x (by simp [hMxy]))
      have hy := hin _ y (hcM 1 y (by simp [hMxy]))
      have two := two x y hMxy
      refine .both _ _ ⟨it, _, hx.1, hx.2, hret⟩ ⟨_, hx.2, hrd⟩ ?_ ⟨it, _, hy.1, hy.2, hpub'⟩ ⟨_, hy.2, hwr'⟩ ?_
        ⟨⟨_, _, hx.2, hy.2, rfl⟩, _, 1, hy.2, by simp [nouser, hwr', hrd', hisrmw], rfl, rfl⟩ ?_
      · rintro e ⟨it', z, hw', hz, hzr⟩
        rw [hW hw'] at hw'
        rcases two e z hw' hz (hretq _ hzr) with ⟨h, -⟩ | ⟨-, h⟩
        · exact h
        · rw [h, hret'] at hzr; cases hzr
      · rintro e ⟨it', z, hw', hz, hzp⟩
        rw [hW hw'] at hw'
        rcases two e z hw' hz (hpubq _ hzp) with ⟨-, h⟩ | ⟨h, -⟩
        · rw [h, hpub] at hzp; cases hzp
        · exact h
      · rintro e hw' ⟨z, hz, hzw⟩
        rcases two e z hw' hz (hwrq _ hzw) with ⟨-, h⟩ | ⟨h, -⟩
        · simp [Instr.has, h, hwr] at hzw
        · exact h
  cases k with
  | load => exact onlyRet hM
  | casFail f => exact onlyRet hM
  | rmw => exact rmw hM (Item.kind_isRmw hk (.inl rfl))
  | casOk f => exact rmw hM (Item.kind_isRmw hk (.inr (.inr ⟨f, rfl⟩)))
  | loop => exact rmw hM (Item.kind_isRmw hk (.inr (.inl rfl)))
  | store =>
    obtain ⟨x, hMx, hpub, hwr, hret⟩ := hM
    obtain ⟨hw, hx⟩ := single x hMx
    refine .writes _ ⟨it, _, hw, hx, hpub⟩ ⟨_, hx, hwr⟩ ?_ ?_ ?_
    · rintro e ⟨it', z, hw', hz, hzp⟩
      rw [hW hw'] at hw'
      exact (one x hMx e z hw' hz (hpubq _ hzp)).1
    · rintro e ⟨it', z, hw', hz, hzr⟩
      rw [hW hw'] at hw'
      have := (one x hMx e z hw' hz (hretq _ hzr)).2.1
      rw [this, hret] at hzr; cases hzr
    · rintro e hw' ⟨z, hz, hzw⟩
      exact (one x hMx e z hw' hz (hwrq _ hzw)).1

theorem Rmw.paired {r w : Pos} (h : R.Rmw r w) : R.Paired r w := by
  obtain ⟨id, it, hit, hrmw, hr, hw⟩ := h
  obtain ⟨k, hk⟩ : ∃ k, it.kind = some k := by
    cases it <;> simp [Item.isRmw] at hrmw <;> exact ⟨_, rfl⟩
  cases facts hit hk with
  | reads _ _ _ _ npub => exact absurd hw (npub w)
  | writes _ _ _ _ nret => exact absurd hr (nret r)
  | both r' w' _ _ u _ _ u' pair => rw [u r hr, u' w hw]; exact pair

end Run
end Verif.Mca
