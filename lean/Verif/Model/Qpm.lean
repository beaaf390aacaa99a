import Mathlib.Algebra.Order.Floor.Ring
import Mathlib.Algebra.Order.Field.Basic

/-!
# The particle-mesh solver with leap-frog steps, nbody/qpm.py

The generator `QPM.run` is modelled by the list of what it does: the calls of `Accel`, `Kick` and `Drift`, and what it yields to the caller.
All times are logarithms of the scale factor (`loga`); the code yields `numpy.exp` of them, which is one-to-one.
`Kick` and `Drift` are modelled up to the factors, which are sums of the trapezoidal rule (`trapz1025`); `RealKick` and `RealDrift` are modelled.
Not modelled: the creation of the `ParticleMesh`; `Accel` is a parameter. The modules `pypm` that the file imports are not part of the repository.
`numpy.arange` is taken in exact arithmetic.
-/

namespace Pmesh

variable {K : Type*} [Field K] [LinearOrder K] [IsStrictOrderedRing K] [FloorRing K]

/-- What `run` does, in the order of time: calls of `self.Accel`, `self.Kick(P, a, b)`, `self.Drift(P, a, b)`, and what it yields with the time. -/
inductive QOp (K : Type*) where
  | accel
  | kick (a b : K)
  | drift (a b : K)
  | stepDone (l : K)
  | write (l : K)
  | finished (l : K)
  deriving DecidableEq, Repr

/-- The exceptions that end the generator. -/
inductive QErr where
  | indexError
  | valueError
  deriving DecidableEq, Repr

/-- What the caller gets: the actions, and the exception, if there is one. -/
structure QRun (K : Type*) where
  ops : List (QOp K)
  err : Option QErr

/-- `numpy.arange(l, 0.0, d)`, nbody/qpm.py:120: `ceil((stop - start)/step)` numbers. -/
def qArange (l d : K) : List K := (List.range ⌈(0 - l) / d⌉.toNat).map fun i : ℕ => l + (i : K) * d

/-- nbody/qpm.py:120-122; `none`: `timesteps[-1]` of an empty list. -/
def qTimesteps (l d : K) : Option (List K) :=
  let ts := qArange l d
  match ts.getLast? with
  | none => none
  | some e => some (if e < 0 then ts ++ [e + d] else ts)

/-- `logaout.searchsorted(x, side='left')` of a sorted array, nbody/qpm.py:156. -/
def searchLeft (out : List K) (x : K) : ℕ := out.countP (· < x)

/-- `logaout.searchsorted(x, side='right')` of a sorted array, nbody/qpm.py:157. -/
def searchRight (out : List K) (x : K) : ℕ := out.countP (· ≤ x)

/-- nbody/qpm.py:156-167.  The indices are in range if `left < right`, that is for `loga1 ≤ loga2`. -/
def qDrifts (out : List K) (l1 l2 : K) : List (QOp K) :=
  let left := searchLeft out l1
  let right := searchRight out l2
  if left ≠ right then
    .drift l1 (out.getD left 0) :: .write (out.getD left 0) ::
      ((List.range' (left + 1) (right - (left + 1))).flatMap fun i =>
        [.drift (out.getD (i - 1) 0) (out.getD i 0), .write (out.getD i 0)]) ++
      [.drift (out.getD (right - 1) 0) l2]
  else [.drift l1 l2]

/-- `0.5 * (loga1 + loga2)`, nbody/qpm.py:132, 150. -/
def qMid (l1 l2 : K) : K := 1 / 2 * (l1 + l2)

/-- The force and the second half of the kick of the last step, nbody/qpm.py:127-132. -/
def qHead : Option (K × K) → List (QOp K)
  | none => [.accel]
  | some (a, b) => [.accel, .kick (qMid a b) b]

/-- The loop nbody/qpm.py:124-169 over the remaining time steps; `prev` are the values of `loga1, loga2` that the last round has left,
`none` in the first round (`istep > 0`).  `out` is the sorted array `logaout`. -/
def qLoop (out : List K) : Option (K × K) → List K → QRun K
  | _, [] => ⟨[], none⟩
  | prev, l1 :: rest =>
    match rest with
    | [] => ⟨qHead prev ++ [.finished l1], none⟩
    | l2 :: rest' =>
      match out.max? with
      | none => ⟨qHead prev, some .valueError⟩
      | some mx =>
        if l1 > mx then ⟨qHead prev ++ [.finished l1], none⟩
        else
          let r := qLoop out (some (l1, l2)) (l2 :: rest')
          ⟨qHead prev ++ [.stepDone l1, .kick l1 (qMid l1 l2)] ++ qDrifts out l1 l2 ++ r.ops, r.err⟩

/-- `QPM.run`, nbody/qpm.py:111-169, for `self.a0 = exp(l)`, `aout = exp(aout)` and the step `dloga = d`. -/
def qRun (l d : K) (aout : List K) : QRun K :=
  match qTimesteps l d with
  | none => ⟨[], some .indexError⟩
  | some ts => qLoop (aout.mergeSort (· ≤ ·)) none ts

/-- `while pos < 0: pos += BoxSize`, nbody/qpm.py:77-78, with at most `fuel` rounds. -/
def qWrapUp (L : K) : ℕ → K → K
  | 0, x => x
  | n + 1, x => if x < 0 then qWrapUp L n (x + L) else x

/-- `while pos >= BoxSize: pos -= BoxSize`, nbody/qpm.py:79-80. -/
def qWrapDown (L : K) : ℕ → K → K
  | 0, x => x
  | n + 1, x => if x ≥ L then qWrapDown L n (x - L) else x

/-- `RealDrift` of one coordinate, nbody/qpm.py:76-80.  The rounds are enough to leave the loops (`C112_drift_wraps`). -/
def qDriftCoord (L dt x v : K) : K :=
  let y := x + v * dt
  let z := qWrapUp L (⌈-y / L⌉.toNat + 1) y
  qWrapDown L (⌈z / L⌉.toNat + 1) z

/-- `RealKick` of one coordinate, nbody/qpm.py:56. -/
def qKickCoord (dt v a : K) : K := v + a * dt

/-- `numpy.trapz(y, x)`: `(diff(x) * (y[1:] + y[:-1]) / 2).sum()`. -/
def npTrapz : List K → List K → K
  | y0 :: y1 :: ys, x0 :: x1 :: xs => (x1 - x0) * (y1 + y0) / 2 + npTrapz (y1 :: ys) (x1 :: xs)
  | _, _ => 0

/-- `numpy.linspace(a, b, N, endpoint=True)`: `arange(0, N) * step + a` with `step = (b - a)/(N - 1)`; the last one is set to `b`. -/
def npLinspace (a b : K) (N : ℕ) : List K :=
  (List.range N).map fun i : ℕ => if i = N - 1 ∧ 1 < N then b else (i : K) * ((b - a) / ((N - 1 : ℕ) : K)) + a

/-- The factors `dt_kick` and `dt_drift`, nbody/qpm.py:44-48, 64-68, for the integrand as a function of `loga`. -/
def qFactor (f : K → K) (l0 l1 : K) : K :=
  let g1 := npLinspace l0 l1 1025
  npTrapz (g1.map f) g1

end Pmesh
