import Verif.Mca.MixedSpec
import Verif.Mca.Sc

/-
The executions of `Verif.Mca` as executions in which seq_cst operations and fences are mixed with others.
-/

namespace Verif.Mca

open Verif.Order

/-- The operation is called with `memory_order_seq_cst` (a compare-and-exchange that fails: for the failure too). -/
def Item.asksSeqCst : Item → Bool
  | .op _ k o _ _ => k.isSeqCst o
  | .exchange _ o _ _ | .clear _ o _ => o == .seqCst
  | _ => false

namespace Run

variable {cpu : Cpu} (R : Run cpu)

/-- The instruction writes back what an operation has read that modifies nothing. -/
def Copy (e : Pos) : Prop := ∃ r, R.CopyOf r e

/-- The write whose value a read delivers: values that were written back are traced to where they came from. -/
inductive Reads : Pos → Option Pos → Prop where
  | none {r} : R.ReadsFrom r none → Reads r none
  | some {r w} : R.ReadsFrom r (some w) → ¬ R.Copy w → Reads r (some w)
  | copy {r c b s} : R.ReadsFrom r (some c) → R.CopyOf b c → Reads b s → Reads r s

/-- The execution as the C++ standard describes it. -/
def mixed : Mixed where
  Acc := Pos × Part
  Op := OpId
  loc e := R.actions.loc e.1
  read e := e.2 = .rd ∧ R.Has e.1 .rd
  write e := e.2 = .wr ∧ R.Has e.1 .wr ∧ ¬ R.Copy e.1
  rf r s := R.Reads r.1 (s.map Prod.fst)
  mo w v := R.time w.1 .wr < R.time v.1 .wr
  rmw r w := R.Rmw r.1 w.1
  of e a := (e.2 = .rd ∧ R.Ret a e.1) ∨ (e.2 = .wr ∧ R.Pub a e.1)
  seqCst a := ∃ it, (R.prog a.1)[a.2]? = Option.some it ∧ it.asksSeqCst = true
  fence a := ∃ b, (R.prog a.1)[a.2]? = Option.some (.fence b .seqCst)
  sb a b := a.1 = b.1 ∧ a.2 < b.2
  hb a b := ∃ e f it it', R.Within e a it ∧ R.Within f b it' ∧ R.HappensBefore e f
  after a e := ∃ z it, R.Within z a it ∧ R.HappensBefore z e.1
  upto e b := ∃ z it, R.Within z b it ∧ R.HappensBefore e.1 z

end Run
end Verif.Mca
