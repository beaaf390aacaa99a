import Verif.Spec.Mesh
import Verif.Spec.Domain
import Verif.Model.FPaint

/-!
# Vocabulary for painting in floating point
-/

namespace Pmesh

section
variable {K : Type*} [Field K] [LinearOrder K] [IsStrictOrderedRing K] [FloorRing K]

/-- The kernel centred at `z`, in cell `g` of a periodic axis of `N` cells: the sum over the images of the cell. -/
noncomputable def periodicWeight (k : Kern K) (N : ℕ) (z : K) (g : ℤ) : K := ∑ᶠ n : ℤ, if n % (N : ℤ) = g then k.kernel (z - n) else 0

/-- Every operation is off by at most the fraction `ε` of its result: `2 ^ -53` for `float64`. -/
def RelativeError (R : Rounding K) (ε : K) : Prop := ∀ y, |R.rnd y - y| ≤ |y| * ε

/-- What a list of writes adds to the element at address `a`. -/
def addedAt (ws : List (ℤ × K)) (a : ℤ) : K := ((ws.filter fun w => w.1 = a).map (·.2)).sum

end

section
variable {K : Type} [Field K] [LinearOrder K] [IsStrictOrderedRing K] [FloorRing K]

/-- The weight of a particle in cell `g` of the whole mesh, without rounding: a product over the axes. -/
noncomputable def PMesh.exactWeight (m : PMesh K) (t : Tuned) (x : List K) (g : List ℕ) : K :=
  ((List.range m.nmesh.length).map fun j =>
    periodicWeight (Tuned.kern t) (m.nmesh.getD j 0) (x.getD j 0 * (m.nmesh.getD j 0 : ℕ) / m.box.getD j 0) (g.getD j 0 : ℕ)).prod

/-- The particles that arrive at rank `r`, by the rank that sends them, and each rank's in the order of its send list.  `srcs` are the
particles of every rank and `Ls` the results of `decompose`. -/
def arriving {α : Type} (srcs : List (List α)) (Ls : List Sends) (r : ℕ) : List α :=
  (List.zipWith (fun (ps : List α) (L : Sends) => (L.sentTo r).filterMap fun o => o.bind fun i => ps[i]?) srcs Ls).flatten

end
end Pmesh
