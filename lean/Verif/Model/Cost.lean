import Verif.Model.Layout

/-!
# The cost of an exchange, pmesh/domain.py:125-136
-/

namespace Pmesh

/-- `numpy.sum(self.sendcounts[mask])` with `mask = numpy.arange(self.comm.size) != self.comm.rank`, pmesh/domain.py:133-134. -/
def sentAway (size rank : ℕ) (lay : Lay) : ℕ :=
  (((List.range size).zip lay.sendcounts).filterMap fun p => if p.1 ≠ rank then some p.2 else none).sum

/-- `Layout.get_exchange_cost`, pmesh/domain.py:125-136: the sums of all ranks. -/
def exchangeCost {α : Type} (size rank : ℕ) (lay : Lay) : Prog (Msg α) (List ℕ) :=
  .coll .allgather (.counts [sentAway size rank lay]) fun ms => .ret (ms.map fun
    | .counts c => c.getD 0 0
    | _ => 0)

end Pmesh
