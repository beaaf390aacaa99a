import Verif.Model.Window
import Verif.Spec.Index
import Mathlib.Algebra.BigOperators.Finprod

/-!
# What painting and reading out mean

Vocabulary of the window properties: array elements, the window as a function of the distance to a cell, and the
weight of a particle in a cell of a (possibly periodic) axis.
-/

namespace Pmesh

section
variable {K : Type*} [Field K] [LinearOrder K] [IsStrictOrderedRing K] [FloorRing K]

/-- Shape of the array a painter works on. -/
def shapeOf (axes : List (PAxis K)) : List ℕ := axes.map (·.size)

/-- Address of the element with index `c` of a strided array. -/
def elemAddr : List (PAxis K) → List ℕ → ℤ
  | ax :: axs, i :: is => (i : ℤ) * ax.stride + elemAddr axs is
  | _, _ => 0

/-- Different elements of the array have different addresses. -/
def DistinctElems (axes : List (PAxis K)) : Prop :=
  ∀ c c', ValidIndex (shapeOf axes) c → ValidIndex (shapeOf axes) c' → elemAddr axes c = elemAddr axes c' → c = c'

/-- The window of size `s` as a function of the signed distance: the native kernel stretched to size `s` and rescaled
to unit integral; for a derivative axis the derivative with respect to the position. -/
def windowAt (k : Kern K) (s : K) (order : ℕ) (scale : K) (x : K) : K :=
  if order = 0 then k.kernel (x * (k.native / s)) * (k.native / s)
  else k.diff (x * (k.native / s)) * scale * (k.native / s) * (k.native / s)

/-- The integer `n` denotes cell `c` of an axis with the given period (0: not periodic). -/
def IsCell (period : ℕ) (n c : ℤ) : Prop := c = if period = 0 then n else n % (period : ℤ)

instance (period : ℕ) (n c : ℤ) : Decidable (IsCell period n c) := by unfold IsCell; infer_instance

/-- Weight of a particle with coordinate `x` in cell `c` of an axis: the window summed over the cell and all its
periodic images. -/
noncomputable def axisWeight (k : Kern K) (s : K) (ax : PAxis K) (x : K) (c : ℤ) : K :=
  ∑ᶠ n : ℤ, if IsCell ax.period n c then windowAt k s ax.order ax.scale (x * ax.scale + ax.translate - n) else 0

/-- Weight of a particle in the cell with index `c`: the product over the axes. -/
noncomputable def cellWeight (k : Kern K) (s : K) : List (PAxis K) → List K → List ℕ → K
  | ax :: axs, x :: xs, i :: is => axisWeight k s ax x i * cellWeight k s axs xs is
  | _, _, _ => 1

/-- Size of the window of a particle: the support of the painter times its smoothing length, the native size of the
kernel if that is not positive. -/
def windowSize (P : Painter K) (hsml : K) : K :=
  if (P.support : K) * hsml ≤ 0 then P.kern.native else P.support * hsml

/-- The kernel and its derivative vanish outside `[-native/2, native/2)`. -/
structure Confined (k : Kern K) : Prop where
  native_pos : 0 < k.native
  kernel_left : ∀ x, x < -(k.native / 2 : K) → k.kernel x = 0
  kernel_right : ∀ x, (k.native / 2 : K) ≤ x → k.kernel x = 0
  diff_left : ∀ x, x < -(k.native / 2 : K) → k.diff x = 0
  diff_right : ∀ x, (k.native / 2 : K) ≤ x → k.diff x = 0

/-- The kernel is nonzero only where the painter looks at it. -/
def cutKern (k : Kern K) : Kern K where
  native := k.native
  kernel x := if -(k.native / 2 : K) ≤ x ∧ x < k.native / 2 then k.kernel x else 0
  diff x := if -(k.native / 2 : K) ≤ x ∧ x < k.native / 2 then k.diff x else 0

/-- A painter as the code builds it: a kernel of positive size, at least one axis, and a tuned painter has the kernel
that belongs to its type. -/
structure Painter.Valid (P : Painter K) : Prop where
  native_pos : 0 < P.kern.native
  axes_ne : P.axes ≠ []
  tuned_kern : ∀ t, P.tuned = some t → P.kern = Tuned.kern t

/-- Axes and positions for which a tuned painter uses the values of its window: all value axes; for derivative axes
not a cic particle exactly on a grid point, and pcs only with unit scale. -/
def TunedExact (t : Tuned) (ax : PAxis K) (x : K) : Prop :=
  ax.order = 0 ∨ t = .nnb ∨ t = .tsc ∨ (t = .cic ∧ ax.grid x ≠ (⌊ax.grid x⌋ : K)) ∨ (t = .pcs ∧ ax.scale = 1)

/-- Particles for which a tuned painter does what its window says: the window does not have a size strictly between
`native - 1` and `native` (the fast code would ignore it), and if it has exactly the native size the axes are exact.
Untuned painters and more than three dimensions are always fine. -/
def Faithful (P : Painter K) (p : Particle K) : Prop :=
  ∀ t, P.tuned = some t → 3 < P.axes.length ∨ windowSize P p.hsml ≤ P.kern.native - 1 ∨
    (P.kern.native : K) < windowSize P p.hsml ∨
    (windowSize P p.hsml = P.kern.native ∧ ∀ q ∈ List.zip P.axes p.pos, TunedExact t q.1 q.2)

/-- Positions `xs'` are the positions `xs` moved by `ns` cells along the axes. -/
def MovedBy : List (PAxis K) → List ℤ → List K → List K → Prop
  | ax :: axs, n :: ns, x :: xs, x' :: xs' =>
    x' * ax.scale + ax.translate = x * ax.scale + ax.translate + n ∧ MovedBy axs ns xs xs'
  | [], [], [], [] => True
  | _, _, _, _ => False

/-- Cell `c'` is cell `c` moved by `ns` cells; axes with a move other than 0 are fully periodic. -/
def CellMoved : List (PAxis K) → List ℤ → List ℕ → List ℕ → Prop
  | ax :: axs, n :: ns, c :: cs, c' :: cs' =>
    ((n = 0 ∧ c' = c) ∨ (0 < ax.size ∧ ax.period = ax.size ∧ (c' : ℤ) = (c + n) % ax.size)) ∧ CellMoved axs ns cs cs'
  | [], [], [], [] => True
  | _, _, _, _ => False

/-- A linear function of the coordinates. -/
def linAt (a : K) (bs xs : List K) : K := a + (List.zipWith (· * ·) bs xs).sum

/-- Total of a field over the elements of the array. -/
def total (axes : List (PAxis K)) (mem : ℤ → K) : K :=
  ((ndindex (shapeOf axes)).map fun c => mem (elemAddr axes c)).sum

/-- The window of native size around `x` lies inside the array and does not wrap. -/
def Interior (native : ℕ) (ax : PAxis K) (x : K) : Prop :=
  -1 ≤ x * ax.scale + ax.translate - native / 2 ∧ x * ax.scale + ax.translate + native / 2 < ax.size ∧
    (ax.period = 0 ∨ ax.size ≤ ax.period)

/-- The axis is fully periodic: the array covers one period. -/
def FullPeriod (ax : PAxis K) : Prop := 0 < ax.size ∧ ax.period = ax.size

/-- Strides of a C-contiguous array (itemsize 1 in units of elements, or any positive itemsize). -/
def Contiguous (item : ℤ) : List (PAxis K) → Prop
  | ax :: axs => ax.stride = item * ((shapeOf axs).prod : ℕ) ∧ Contiguous item axs
  | [] => True

end
end Pmesh
