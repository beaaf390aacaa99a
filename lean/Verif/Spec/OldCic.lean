import Verif.Spec.Window
import Verif.Model.OldCic

/-!
# The same array for the old functions and for a painter
-/

namespace Pmesh
section
variable {K : Type*} [Field K] [LinearOrder K] [IsStrictOrderedRing K] [FloorRing K]

/-- The array of the painter, in memory `mem`, has the elements `flat` in C order. -/
def SameContent (axes : List (PAxis K)) (mem flat : ℤ → K) : Prop :=
  ∀ c, ValidIndex (shapeOf axes) c → flat (cOrder (shapeOf axes) c : ℕ) = mem (elemAddr axes c)

/-- A painter of values (no derivatives), with a window of the given type, on an array with distinct elements. -/
structure PlainPainter (P : Painter K) (t : Tuned) : Prop where
  valid : P.Valid
  kern : P.kern = Tuned.kern t
  values : ∀ ax ∈ P.axes, ax.order = 0
  distinct : DistinctElems P.axes

/-- Particles as the window takes them, of native size. -/
def NativeParticles (P : Painter K) (ps : List (Particle K)) : Prop :=
  ∀ p ∈ ps, p.pos.length = P.axes.length ∧ windowSize P p.hsml = P.kern.native

/-- The particles in mesh units, as `transform` gives them to the old functions. -/
def inMeshUnits (P : Painter K) (ps : List (Particle K)) : List (OldPart K) :=
  ps.map fun p => ⟨List.zipWith PAxis.grid P.axes p.pos, p.mass⟩

/-- The period argument says the same as the periods of the painter: none, or one entry per axis (a number standing for all axes); an entry 0 is
no period. -/
def SamePeriod (P : Painter K) (period : Option (List ℕ)) : Prop :=
  match period with
  | none => ∀ ax ∈ P.axes, ax.period = 0
  | some p => p = P.axes.map (·.period)

end
end Pmesh
