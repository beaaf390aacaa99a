import Verif.Model.Mesh
import Verif.Model.Rounding

/-!
# Painting in floating point

The model of the windows is in exact arithmetic.  Here the tuned windows (pmesh/_window_tuned_*.h) are evaluated with a rounding after each
operation, from the position to the numbers that are added to the mesh.  Integers (`IJK`) convert to `double` without rounding, and the
compiler does not contract operations.
-/

namespace Pmesh

section
variable {K : Type*} [Field K] [LinearOrder K] [IsStrictOrderedRing K] [FloorRing K]

/-- `XYZ[d] = pos[d] * scale[d] + translate[d]`, for example pmesh/_window_tuned_nnb.h:8. -/
def PAxis.gridR (R : Rounding K) (ax : PAxis K) (x : K) : K := R.rnd (R.rnd (x * ax.scale) + ax.translate)

/-- A product, evaluated from left to right. -/
def prodR (R : Rounding K) : List K → K
  | [] => 1
  | a :: l => l.foldl (fun p v => R.rnd (p * v)) a

/-- `SETUP_KERNEL_*` for one axis, pmesh/_window_tuned_nnb.h:1-18, _cic.h:1-23, _tsc.h:1-25, _pcs.h:1-38. -/
def tunedSetupR (R : Rounding K) (t : Tuned) (ax : PAxis K) (x : K) : List ℤ × List K :=
  let X := ax.gridR R x
  let d (i : ℤ) : K := R.rnd (X - i)
  match t with
  | .nnb => ([⌊R.rnd (X + 1 / 2)⌋], if ax.order = 0 then [1] else [0])
  | .cic =>
    let i0 := ⌊X⌋
    let i1 := i0 + 1
    ([i0, i1], if ax.order = 0 then [R.rnd (1 - d i0), d i0] else [-ax.scale, ax.scale])
  | .tsc =>
    let i1 := ⌊R.rnd (X + 1 / 2)⌋
    let i0 := i1 - 1
    let i2 := i1 + 1
    let a := R.rnd (3 / 2 - d i0)
    let b := R.rnd (3 / 2 + d i2)
    ([i0, i1, i2],
      if ax.order = 0 then [prodR R [a, a, 1 / 2], R.rnd (3 / 4 - prodR R [d i1, d i1]), prodR R [b, b, 1 / 2]]
      else [prodR R [-a, ax.scale], prodR R [-2, d i1, ax.scale], prodR R [b, ax.scale]])
  | .pcs =>
    let i1 := ⌊X⌋
    let i0 := i1 - 1
    let i2 := i1 + 1
    let i3 := i2 + 1
    let sixth := R.rnd (1 / 6)
    let a := R.rnd (2 - d i0)
    let b := R.rnd (2 + d i3)
    ([i0, i1, i2, i3],
      if ax.order = 0 then
        [prodR R [sixth, a, a, a],
         R.rnd (sixth * R.rnd (R.rnd (4 - prodR R [6, d i1, d i1]) + prodR R [3, d i1, d i1, d i1])),
         R.rnd (sixth * R.rnd (R.rnd (4 - prodR R [6, d i2, d i2]) - prodR R [3, d i2, d i2, d i2])),
         prodR R [sixth, b, b, b]]
      else
        [prodR R [-(1 / 2), a, a],
         R.rnd (sixth * R.rnd (R.rnd (-12 * d i1) + prodR R [9, d i1, d i1])),
         R.rnd (-sixth * R.rnd (R.rnd (12 * d i2) + prodR R [9, d i2, d i2])),
         prodR R [1 / 2, b, b]])

/-- The cells of the stencil after the periodic wrapping, one list per axis, pmesh/_window_tuned_nnb.h:20-26 and the like. -/
def tunedCellsR (R : Rounding K) (t : Tuned) (axes : List (PAxis K)) (pos : List K) : List (List ℤ) :=
  List.zipWith (fun (ax : PAxis K) x => (tunedSetupR R t ax x).1.map (tunedWrap ax.period)) axes pos

/-- The values `V` of the stencil, one list per axis. -/
def tunedValsR (R : Rounding K) (t : Tuned) (axes : List (PAxis K)) (pos : List K) : List (List K) :=
  List.zipWith (fun ax x => (tunedSetupR R t ax x).2) axes pos

/-- One line `ACCESS3(_WRtPlus3, a, b, c)`, pmesh/_window_generics.h:144-220. -/
def tunedAccessR (R : Rounding K) (axes : List (PAxis K)) (ijk : List (List ℤ)) (v : List (List K)) (abc : List ℕ) : Option (ℤ × K) :=
  (tunedAddr axes (List.zipWith (fun (l : List ℤ) a => l.getD a 0) ijk abc)).map fun ind =>
    (ind, prodR R (List.zipWith (fun (l : List K) a => l.getD a 0) v abc))

/-- The writes `(ind, f)` of the tuned paint functions: `*(canvas + ind) += f`. -/
def tunedWritesR (R : Rounding K) (t : Tuned) (axes : List (PAxis K)) (pos : List K) (weight : K) : List (ℤ × K) :=
  let v := match tunedValsR R t axes pos with
    | v0 :: vs => v0.map (fun a => R.rnd (a * weight)) :: vs
    | [] => []
  (t.paintTable axes.length).filterMap (tunedAccessR R axes (tunedCellsR R t axes pos) v)

/-- The reads `(ind, w)` of the tuned readout functions. -/
def tunedReadsR (R : Rounding K) (t : Tuned) (axes : List (PAxis K)) (pos : List K) : List (ℤ × K) :=
  (t.readTable axes.length).filterMap (tunedAccessR R axes (tunedCellsR R t axes pos) (tunedValsR R t axes pos))

/-- `*(FLOAT*) (canvas + ind) += f` for a list of writes, pmesh/_window_generics.h:155, :179, :201; `store` rounds the sum and converts it
to the type of the array, which may be `float`. -/
def depositR (store : K → K) (canvas : ℤ → K) (ws : List (ℤ × K)) : ℤ → K :=
  ws.foldl (fun mem w a => if a = w.1 then store (mem a + w.2) else mem a) canvas

end

section
variable {K : Type} [Field K] [LinearOrder K] [IsStrictOrderedRing K] [FloorRing K]

/-- `scale=1.0 * self.Nmesh / self.BoxSize`, pmesh/pm.py:1467. -/
def PMesh.scaleR (R : Rounding K) (m : PMesh K) : List K := List.zipWith (fun (n : ℕ) b => R.rnd ((n : K) / b)) m.nmesh m.box

/-- `transform0(x) = transform.scale * x`, pmesh/pm.py:1787-1789. -/
def PMesh.toGridR (R : Rounding K) (m : PMesh K) (x : List K) : List K := List.zipWith (fun s x => R.rnd (s * x)) (m.scaleR R) x

/-- The axes of the painter made of `self.affine` on rank `r`: pmesh/pm.py:1465-1468, _window.pyx:145-153. -/
def PMesh.axesR (R : Rounding K) (m : PMesh K) (r : ℕ) : List (PAxis K) :=
  (List.range m.nmesh.length).map fun j =>
    ⟨0, (m.scaleR R).getD j 0, -(((m.start r).getD j 0 : ℕ) : K), m.nmesh.getD j 0, (m.localShape r).getD j 0, (m.strides r).getD j 0⟩

/-- `out.value[...] = 0`, then the particles that rank `r` received are painted in order, given by their positions and masses:
pmesh/pm.py:1851-1855, _window.pyx:155-165. -/
def PMesh.paintR (store : K → K) (R : Rounding K) (t : Tuned) (m : PMesh K) (r : ℕ) (particles : List (List K × K)) : ℤ → K :=
  depositR store (fun _ => 0) (particles.flatMap fun q => tunedWritesR R t (m.axesR R r) q.1 q.2)

end
end Pmesh
