import Verif.Model.UniformGrid

/-!
# Model of `ctranspose`, `upsample` and `downsample`, pmesh/pm.py:696-723, 1936-2026

A `transform` other than `self.affine` only changes the scale here: `affine_grid` has scale 1 and the other two have scale
`Nmesh / Nmesh'`, translation and period being those of `self.affine`.  So it is the `affine` of the same mesh with another
box size.
-/

namespace Pmesh

section
variable {K : Type} [Field K] [LinearOrder K] [IsStrictOrderedRing K] [FloorRing K]

/-- The window 'nnb'. -/
def nnbWindow : Resampler K := ⟨nearestK, some .nnb, 1⟩

/-- The mesh with another `BoxSize`. -/
def PMesh.withBox (m : PMesh K) (b : List ℕ) : PMesh K := { m with box := b.map Nat.cast }

/-- `field.ctranspose(axes)` on rank `r`, pmesh/pm.py:696-723.  `mT` is `self.pm.reshape(BoxSize=BoxSize[axes],
Nmesh=Nmesh[axes])`; how the FFT library splits it is a parameter.  The two assertions on `axes` are not modelled. -/
def ctranspose (m mT : PMesh K) (axes : List ℕ) (r : ℕ) (field : ℤ → K) : Prog (Msg (List K)) (Except MeshErr (ℤ → K)) :=
  let q := m.uniformGrid (List.replicate m.nmesh.length 0) r
  (pmReadout m nnbWindow none r none q .none field).andThen fun v =>
    let q := q.map fun x => axes.map fun d => x.getD d 0
    (pmDecompose mT (mT.smoothing nnbWindow) r q).andThen fun layout =>
      pmPaint mT nnbWindow none false r (some layout) q (.array v) .none fun _ => 0

/-- `mesh_coordinates(dtype='i4')` as positions. -/
def PMesh.coordPositions (m : PMesh K) (r : ℕ) : List (List K) := (m.meshCoordinates r).map fun i => i.map Nat.cast

/-- `(source.pm.Nmesh.prod() / source.pm.BoxSize.prod()) / (self.Nmesh.prod() / self.BoxSize.prod())`, pmesh/pm.py:1982 and
2019. -/
def densityRatio (src dst : PMesh K) : K :=
  ((src.nmesh.prod : ℕ) / src.box.prod) / ((dst.nmesh.prod : ℕ) / dst.box.prod)

/-- `dst.downsample(source, resampler, keep_mean)` on rank `r`, pmesh/pm.py:1987-2026; `field` is the local array of
the source. -/
def downsample (src dst : PMesh K) (w : Resampler K) (keepMean : Bool) (r : ℕ) (field : ℤ → K) :
    Prog (Msg (List K)) (Except MeshErr (ℤ → K)) :=
  let q := src.coordPositions r
  (pmReadout (src.withBox src.nmesh) nnbWindow none r none q .none field).andThen fun f =>
    let f := if keepMean then f.map (· / densityRatio src dst) else f
    (pmDecompose (dst.withBox src.nmesh) (dst.smoothing w) r q).andThen fun layout =>
      pmPaint (dst.withBox src.nmesh) w none false r (some layout) q (.array f) .none fun _ => 0

/-- `dst.upsample(source, resampler, keep_mean)` on rank `r`, pmesh/pm.py:1936-1985.  `decompose` is called twice, the second
time with smoothing 1.6, which is used. -/
def upsample (src dst : PMesh K) (w : Resampler K) (keepMean : Bool) (r : ℕ) (field : ℤ → K) :
    Prog (Msg (List K)) (Except MeshErr (ℤ → K)) :=
  let q := dst.coordPositions r
  (pmDecompose (src.withBox dst.nmesh) (src.smoothing w) r q).andThen fun _ =>
    (pmDecompose (src.withBox dst.nmesh) (List.replicate src.nmesh.length (8 / 5)) r q).andThen fun layout =>
      (pmReadout (src.withBox dst.nmesh) w none r (some layout) q .none field).andThen fun f =>
        let f := if keepMean then f else f.map (· * densityRatio src dst)
        pmPaint (dst.withBox dst.nmesh) nnbWindow none false r none q (.array f) .none fun _ => 0

end
end Pmesh
