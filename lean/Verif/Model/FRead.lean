import Verif.Model.FPaint
import Verif.Spec.Domain

/-!
# Readout in floating point
-/

namespace Pmesh

section
variable {K : Type*} [Field K] [LinearOrder K] [IsStrictOrderedRing K] [FloorRing K]

/-- `double value = 0; value += ACCESS3(_REd3, a, b, c); ...` of the tuned readout functions, pmesh/_window_tuned_cic.h:43-60 and the like.
`_REd*` multiplies an element of the array by the weight in `double`, pmesh/_window_generics.h:159-167, :182-189, :205-211; outside of the
array it returns 0, which leaves `value` as it is and is left out here. -/
def readR (R : Rounding K) (mem : ℤ → K) (reads : List (ℤ × K)) : K :=
  reads.foldl (fun value q => R.rnd (value + R.rnd (mem q.1 * q.2))) 0

/-- `numpy.bincount(x, weights)[i]`: the weights with index `i` are added up in `double`, in their order.  pmesh/domain.py:45-48. -/
def bincountR (R : Rounding K) (entries : List (ℕ × K)) (i : ℕ) : K :=
  ((entries.filter fun q => q.1 = i).map (·.2)).foldl (fun s v => R.rnd (s + v)) 0

end

section
variable {K : Type} [Field K] [LinearOrder K] [IsStrictOrderedRing K] [FloorRing K]

/-- `RealField.readout(pos, layout=layout)` as particle `i` of one rank sees it, pmesh/pm.py:781-791: every rank reads out at the positions that
were sent to it, `gather` brings the values back in the order of the send list, by receiving rank (pmesh/domain.py:266-276), and adds up
those of one particle.  `mem r` is the array of rank `r`, `L` the result of `decompose` and `pos` the positions. -/
def PMesh.readoutR (R : Rounding K) (t : Tuned) (m : PMesh K) (mem : ℕ → ℤ → K) (L : Sends) (pos : List (List K)) (i : ℕ) : K :=
  bincountR R ((List.range m.nrank).flatMap fun r => (L.sentTo r).filterMap fun o => o.bind fun k => (pos[k]?).map fun x =>
    (k, readR R (mem r) (tunedReadsR R t (m.axesR R r) x))) i

end
end Pmesh
