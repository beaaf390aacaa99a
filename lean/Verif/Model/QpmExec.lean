import Verif.Model.Qpm

/-!
# The particles during `QPM.run`, nbody/qpm.py

The actions of `qRun` carried out on particles.  `ι` numbers the coordinates of all particles.  `kf` and `df` are the factors `dt_kick` and `dt_drift`, `acc` is
`Accel` (nbody/qpm.py:82-109) as a function of the positions.
-/

namespace Pmesh

/-- The columns `Position`, `Velocity` and `Accel` of `P`. -/
structure QPart (ι K : Type*) where
  x : ι → K
  v : ι → K
  a : ι → K

variable {ι K : Type*} [Field K] [LinearOrder K] [IsStrictOrderedRing K] [FloorRing K]

/-- What the caller of the generator sees: each yield (nbody/qpm.py:111-169) with the particles at that time.  `RealKick`, `RealDrift`: nbody/qpm.py:51-56, 71-80. -/
def qExec (L : K) (kf df : K → K → K) (acc : (ι → K) → ι → K) : List (QOp K) → QPart ι K → List (QOp K × QPart ι K)
  | [], _ => []
  | .accel :: r, p => qExec L kf df acc r { p with a := acc p.x }
  | .kick a b :: r, p => qExec L kf df acc r { p with v := fun i => qKickCoord (kf a b) (p.v i) (p.a i) }
  | .drift a b :: r, p => qExec L kf df acc r { p with x := fun i => qDriftCoord L (df a b) (p.x i) (p.v i) }
  | .stepDone t :: r, p => (.stepDone t, p) :: qExec L kf df acc r p
  | .write t :: r, p => (.write t, p) :: qExec L kf df acc r p
  | .finished t :: r, p => (.finished t, p) :: qExec L kf df acc r p

end Pmesh
