import Verif.Model.Mesh
import Verif.Model.OldCic

/-!
# Model of the deprecated `ParticleMesh`, pmesh/particlemesh.py

The object is described by the same data as the new one (`PMesh`): the mesh `[Nmesh, Nmesh, Nmesh]`, the box, the slabs of the FFT
library and the coordinates of each rank. The real field is its elements in C order. The user is expected to move the particles
with the layout before `paint` and `readout`, and to add up the values of `readout` with `gather`; these steps are part of the programs
here. Transforms and `transfer` are in `Verif.Model.Transfer`; `verbose` and the timers are not modelled.
-/

namespace Pmesh

/-- The `paintbrush`. -/
inductive Brush where
  | cic | tsc
  deriving DecidableEq, Repr

/-- The choice of the painter, pmesh/particlemesh.py:156-163: it is the argument that is compared, not `paintbrush.lower()`. `none` is the
ValueError. -/
def brushOf (paintbrush : String) : Option Brush :=
  if paintbrush = "cic" then some .cic else if paintbrush = "tsc" then some .tsc else none

section
variable {K : Type} [Field K] [LinearOrder K] [IsStrictOrderedRing K] [FloorRing K]

/-- `self.domain = domain.GridND(self.partition.i_edges, comm=self.comm)`, pmesh/particlemesh.py:122: periodic, with the default
`DomainAssign`. -/
def PMesh.oldDomain (m : PMesh K) : Grid K :=
  ⟨m.edges.map fun e => e.map (Nat.cast : ℕ → K), true, defaultAssign m.shape.prod m.nrank m.junk, m.nrank⟩

/-- `decompose(pos)` on rank `r`, pmesh/particlemesh.py:201-219; `transform0` (183-199) is that of the new class. -/
def oldDecompose (m : PMesh K) (r : ℕ) (pos : List (List K)) : Prog (Msg (List K)) (Except MeshErr Lay) :=
  match decompose m.oldDomain (List.replicate m.nmesh.length 1) (pos.map m.toGrid) with
  | .error e => .ret (.error (.fill e))
  | .ok sends =>
    match defined sends.indices with
    | none => .ret (.error (.fill .outOfBounds))
    | some idx => layoutInit m.nrank r sends.sendlength sends.sendcounts idx fun
      | .error e => .ret (.error (.lay e))
      | .ok lay => .ret (.ok lay)

/-- `transform(x)`, pmesh/particlemesh.py:165-181. -/
def PMesh.oldTransform (m : PMesh K) (r : ℕ) (x : List K) : List K := List.zipWith (fun a (s : ℕ) => a - (s : K)) (m.toGrid x) (m.start r)

/-- `self.Nmesh ** 3 / self.BoxSize.prod()`, pmesh/particlemesh.py:264. -/
def oldNorm (m : PMesh K) (N : ℕ) : K := (N : K) ^ 3 / m.box.prod

/-- The arguments that `paint` gives to the painter, pmesh/particlemesh.py:264-265. -/
def oldParts (m : PMesh K) (N r : ℕ) (ps : List (Particle K)) : List (OldPart K) :=
  ps.map fun p => ⟨m.oldTransform r p.pos, p.mass * oldNorm m N⟩

/-- What a call leaves, `none` if it raises. -/
def unlessRaised {α : Type} (x : α × Bool) : Option α := if x.2 then none else some x.1

/-- `paint(pos, mass)`, pmesh/particlemesh.py:235-265: the real field afterwards. `numba` says which of the two versions of `cic` is
used (cic.py:140-147). `none` if the painter raises. -/
def oldPaintLocal (m : PMesh K) (N : ℕ) (brush : Brush) (numba contiguous : Bool) (r : ℕ) (real : ℤ → K) (ps : List (Particle K)) :
    Option (ℤ → K) :=
  let mesh : FlatMesh K := ⟨m.localShape r, real, contiguous⟩
  match brush with
  | .tsc => (tscPaint 1048576 false mesh N (oldParts m N r ps)).bind unlessRaised
  | .cic =>
    if numba then unlessRaised (nbPaint 1048576 false mesh (some [N, N, N]) (oldParts m N r ps))
    else pyPaint 65536 false mesh (some [N, N, N]) (oldParts m N r ps)

/-- `readout(pos)`, pmesh/particlemesh.py:334-353: always with the cic window. -/
def oldReadoutLocal (m : PMesh K) (N : ℕ) (numba contiguous : Bool) (r : ℕ) (real : ℤ → K) (ps : List (Particle K)) : Option (List K) :=
  let mesh : FlatMesh K := ⟨m.localShape r, real, contiguous⟩
  let pts := (oldParts m N r ps).map (·.pos)
  if numba then unlessRaised (nbReadout 1048576 false mesh (some [N, N, N]) pts)
  else pyReadout false mesh (some [N, N, N]) pts

/-- `pm.paint(layout.exchange(pos), layout.exchange(mass))` on rank `r` (`pm.paint(layout.exchange(pos), mass)` if the mass is a number). -/
def oldPaint (m : PMesh K) (N : ℕ) (brush : Brush) (numba contiguous : Bool) (r : ℕ) (lay : Lay) (pos : List (List K)) (mass : Quant K)
    (real : ℤ → K) : Prog (Msg (List K)) (Except MeshErr (ℤ → K)) :=
  pmRoute m r (some lay) pos mass .none fun
  | .error e => .ret (.error e)
  | .ok ps =>
    match oldPaintLocal m N brush numba contiguous r real ps with
    | none => .ret (.error .value)
    | some mem => .ret (.ok mem)

/-- `layout.gather(pm.readout(layout.exchange(pos)))` on rank `r`. -/
def oldReadout (m : PMesh K) (N : ℕ) (numba contiguous : Bool) (r : ℕ) (lay : Lay) (pos : List (List K)) (real : ℤ → K) :
    Prog (Msg (List K)) (Except MeshErr (List K)) :=
  pmRoute m r (some lay) pos .none .none fun
  | .error e => .ret (.error e)
  | .ok ps =>
    match oldReadoutLocal m N numba contiguous r real ps with
    | none => .ret (.error .value)
    | some vals => pmGather r lay vals

end
end Pmesh
