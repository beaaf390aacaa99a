import Verif.Spec.Simulation
import Verif.Spec.Symmetry
import Verif.Spec.Translate

/-! # Vocabulary: one simulation seen as the image of another -/

namespace Pmesh

/-- `sys'` is `sys` seen through `f` (of bodies), `φ` (of positions) and `ψ` (of modes), on a mesh of `nmesh` cells: the image of a body has the
image of its position and the same mass; the transfer functions of step `n` are those of `sys` at the image modes, up to real factors `c n`;
a body that reads the values times these factors becomes the image of what it becomes in `sys`. -/
structure Sys.Image {B B' : Type} (sys : Sys B) (sys' : Sys B') (f : B → B') (φ : List ℝ → List ℝ) (ψ : List ℕ → List ℕ) (nmesh : List ℕ)
    (c : ℕ → List ℝ) : Prop where
  x : ∀ b, (sys.x b).length = nmesh.length → sys'.x (f b) = φ (sys.x b)
  mass : ∀ b, sys'.mass (f b) = sys.mass b
  factors : ∀ n, (c n).length = (sys.kernel n).length
  kernels : ∀ n, (sys'.kernel n).length = (sys.kernel n).length
  kernel : ∀ n, ∀ d < (sys.kernel n).length, ∀ k, ValidIndex nmesh k →
    (sys'.kernel n).getD d 0 (ψ k) = (((c n).getD d 0 : ℝ) : ℂ) * (sys.kernel n).getD d 0 k
  next : ∀ n b vs, (sys.x b).length = nmesh.length → vs.length = (sys.kernel n).length →
    sys'.next n (f b) (List.zipWith (· * ·) (c n) vs) = f (sys.next n b vs)

/-- Positions keep their number of components. -/
def Sys.Keeps {B : Type} (sys : Sys B) : Prop := ∀ n b vs, (sys.x (sys.next n b vs)).length = (sys.x b).length

/-- Whenever the bodies of `b` are the images of those of `a`, both simulations do any number of steps on all ranks, and then the bodies of `b`
are the images of those of `a`. -/
def Machine.StaysAlike {B B' : Type} (a b : Machine) (w : Resampler ℝ) (sys : Sys B) (sys' : Sys B') (f : B → B') : Prop :=
  ∀ (s : ℕ → List B) (t : ℕ → List B'), (∀ q ∈ a.all s, (sys.x q).length = a.m.nmesh.length) → (b.all t).Perm ((a.all s).map f) → ∀ n,
    (∃ s', a.Steps w sys n s s') ∧ (∃ t', b.Steps w sys' n t t') ∧
    ∀ s' t', a.Steps w sys n s s' → b.Steps w sys' n t t' → (b.all t').Perm ((a.all s').map f)

end Pmesh
