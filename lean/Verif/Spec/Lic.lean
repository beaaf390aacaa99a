import Verif.Spec.Mesh

/-! # What line integral convolution computes -/

namespace Pmesh

section
variable {K : Type} [Field K] [LinearOrder K] [IsStrictOrderedRing K] [FloorRing K]

/-- The value of a field at a position, as a single process interpolates it with the window `w`. -/
def fieldAt (m : PMesh K) (st : List ℤ) (w : Resampler K) (field : ℤ → K) (x : List K) : K :=
  ((readout ((m.serial st).painter w none 0) field [⟨x, 1, 1⟩]).getD []).headD 0

/-- The vector field at a position; components that are not given are 0. -/
def velocityAt (m : PMesh K) (st : List ℤ) (w : Resampler K) (vectors : List (ℤ → K)) (x : List K) (d : ℕ) : K :=
  match vectors[d]? with
  | some v => fieldAt m st w v x
  | none => 0

/-- Follow the vector field at `x` for the time `t`. -/
def follow (m : PMesh K) (st : List ℤ) (w : Resampler K) (vectors : List (ℤ → K)) (t : K) (x : List K) : List K :=
  x.mapIdx fun d a => a + velocityAt m st w vectors x d * t

/-- The streamline through `x`: the points after 0, 1, 2, ... steps of time `t`. -/
def streamline (m : PMesh K) (st : List ℤ) (w : Resampler K) (vectors : List (ℤ → K)) (t : K) (x : List K) : ℕ → List K
  | 0 => x
  | n + 1 => follow m st w vectors t (streamline m st w vectors t x n)

/-- The sum over the first `n` steps of the streamline through `x` in direction `sign`: texture in the middle of the
step, times the kernel at the line coordinate where the step begins, times the step. -/
def lineSum (m : PMesh K) (st : List ℤ) (w : Resampler K) (vectors : List (ℤ → K)) (texture : ℤ → K) (kernel : K → K)
    (length ds sign : K) (x : List K) (n : ℕ) : K :=
  ((List.range n).map fun i =>
    fieldAt m st w texture (follow m st w vectors (ds * sign / 2) (streamline m st w vectors (ds * sign) x i)) *
      kernel (i * ds * sign / (length / 2)) * ds).sum

/-- The box coordinates of the cell `c`. -/
def cellPosition (m : PMesh K) (c : List ℕ) : List K :=
  (List.range m.nmesh.length).map fun j => (c.getD j 0 : K) * (m.box.getD j 0 / (m.nmesh.getD j 0 : ℕ))

/-- The line integral convolution at cell `c` with `n` steps in each direction: the texture itself plus the sums along
the streamline backward and forward. -/
def lineIntegral (m : PMesh K) (st : List ℤ) (w : Resampler K) (vectors : List (ℤ → K)) (texture : ℤ → K) (kernel : K → K)
    (length ds : K) (n : ℕ) (c : List ℕ) : K :=
  texture ((m.serial st).addr 0 c) + lineSum m st w vectors texture kernel length ds (-1) (cellPosition m c) n +
    lineSum m st w vectors texture kernel length ds 1 (cellPosition m c) n

end
end Pmesh
