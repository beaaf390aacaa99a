import Verif.Spec.NBody
import Verif.Spec.Translate

/-! # Vocabulary for states of the N-body program that repeat themselves in the box -/

namespace Pmesh

/-- The same place in the periodic box: the coordinates differ by whole boxes. -/
def SameInBox (box x y : List ℝ) : Prop :=
  x.length = box.length ∧ y.length = box.length ∧ ∀ d < box.length, ∃ n : ℤ, y.getD d 0 = x.getD d 0 + n * box.getD d 0

/-- `b'` is `b` moved by `c` cells of the mesh: the place on the grid is (up to whole boxes) that of `b` moved by `c` cells, displacement and velocity
are the same. -/
structure MovedBody (m : PMesh ℝ) (c : List ℤ) (b b' : NBody) : Prop where
  q : SameInBox m.box (shiftedPos m.nmesh m.box c b.q) b'.q
  s : b'.s = b.s
  v : b'.v = b.v

/-- Moved by `c` cells, the bodies `L` are the same bodies again (in another order). -/
def Repeats (m : PMesh ℝ) (c : List ℤ) (L : List NBody) : Prop := ∃ L', L.Perm L' ∧ List.Forall₂ (MovedBody m c) L L'

/-- `z` cells in direction `d`, of `n` directions. -/
def alongAxis (n d : ℕ) (z : ℤ) : List ℤ := (List.range n).map fun j => if j = d then z else 0

/-- All bodies have the same surroundings: each is moved to the place of each other one by a move that leaves the bodies as a whole unchanged. -/
def Homogeneous (m : PMesh ℝ) (L : List NBody) : Prop :=
  ∀ b ∈ L, ∀ b' ∈ L, ∃ c : List ℤ, c.length = m.nmesh.length ∧ Repeats m c L ∧ MovedBody m c b b'

/-- The place of the particle of cell `g` in `generate_uniform_particle_grid(shift)`. -/
noncomputable def gridPlace (m : PMesh ℝ) (shift : List ℝ) (g : List ℕ) : List ℝ :=
  (List.range m.nmesh.length).map fun d => ((g.getD d 0 : ℕ) + shift.getD d 0) * (m.box.getD d 0 / (m.nmesh.getD d 0 : ℕ))

/-- `f` does not depend on the index of the cell in direction `d`. -/
def NotAlong (m : PMesh ℝ) (d : ℕ) (f : List ℕ → List ℝ) : Prop :=
  ∀ g g', ValidIndex m.nmesh g → ValidIndex m.nmesh g' → (∀ j, j ≠ d → g.getD j 0 = g'.getD j 0) → f g = f g'

end Pmesh
