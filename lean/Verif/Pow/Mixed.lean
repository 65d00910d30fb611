import Verif.Pow.Model
import Verif.Mca.Mixed

/-
The executions of `Verif.Pow` as executions in which seq_cst operations and fences are mixed with others.
-/

namespace Verif.Pow

open Verif.Order Verif.Mca Verif.Mca.Run

namespace Run

variable {cpu : Cpu} (R : Run cpu)

/-- The execution as the C++ standard describes it. -/
def mixed : Mixed where
  Acc := Pos × Part
  Op := OpId
  loc e := R.actions.loc e.1
  read e := e.2 = .rd ∧ R.Has e.1 .rd
  write e := e.2 = .wr ∧ R.Has e.1 .wr
  rf r s := R.ReadsFrom r.1 (s.map Prod.fst)
  mo w v := R.Co w.1 v.1
  rmw r w := R.Rmw r.1 w.1
  of e a := (e.2 = .rd ∧ R.Ret a e.1) ∨ (e.2 = .wr ∧ R.Pub a e.1)
  seqCst a := ∃ it, (R.prog a.1)[a.2]? = some it ∧ it.asksSeqCst = true
  fence a := ∃ b, (R.prog a.1)[a.2]? = some (.fence b .seqCst)
  sb a b := a.1 = b.1 ∧ a.2 < b.2
  hb a b := ∃ e f it it', R.Within e a it ∧ R.Within f b it' ∧ R.HappensBefore e f
  after a e := ∃ z it, R.Within z a it ∧ R.HappensBefore z e.1
  upto e b := ∃ z it, R.Within z b it ∧ R.HappensBefore e.1 z

end Run
end Verif.Pow
