import Verif.Model.Mesh
import Verif.Spec.Index
import Verif.Spec.Domain
import Verif.Spec.Layout
import Verif.Spec.Window

/-! # Vocabulary for painting and readout on several ranks -/

namespace Pmesh

section
variable {K : Type} [Field K] [LinearOrder K] [IsStrictOrderedRing K] [FloorRing K]

/-- Address of the element with index `c` of the local array of rank `r`. -/
def PMesh.addr (m : PMesh K) (r : ℕ) (c : List ℕ) : ℤ :=
  (List.zipWith (fun (i : ℕ) (s : ℤ) => (i : ℤ) * s) c (m.strides r)).sum

/-- Different elements of the local array of rank `r` have different addresses. -/
def PMesh.Distinct (m : PMesh K) (r : ℕ) : Prop :=
  ∀ c c', ValidIndex (m.localShape r) c → ValidIndex (m.localShape r) c' → m.addr r c = m.addr r c' → c = c'

/-- Slab edges of one axis of `n` cells: from 0 to `n`, all slabs start at different cells (so at most the last one is
empty). -/
structure SlabEdges (n : ℕ) (e : List ℕ) : Prop where
  two : 2 ≤ e.length
  first : e.getD 0 0 = 0
  last : e.getLastD 0 = n
  pos : 0 < n
  starts : e.dropLast.Pairwise (· < ·)
  sorted : e.Pairwise (· ≤ ·)

/-- A mesh as the FFT library lays it out: slabs that cover the mesh, one rank per slab, arrays whose elements do not
overlap. -/
structure PMesh.OK (m : PMesh K) : Prop where
  dim : m.nmesh ≠ []
  box_len : m.box.length = m.nmesh.length
  box_pos : ∀ b ∈ m.box, 0 < b
  edges : List.Forall₂ SlabEdges m.nmesh m.edges
  ranks : m.nrank = m.shape.prod
  coord_valid : ∀ r < m.nrank, ValidIndex m.shape (m.coord r)
  coord_inj : ∀ r < m.nrank, ∀ r' < m.nrank, m.coord r = m.coord r' → r = r'
  distinct : ∀ r < m.nrank, m.Distinct r

/-- The smoothing plus the width of any slab is not more than the mesh size, or the axis is not split. -/
def PMesh.HaloFits (m : PMesh K) (sm : List K) : Prop :=
  ∀ j < m.nmesh.length, ∀ d < (m.edges.getD j []).length - 1,
    sm.getD j 0 + (((m.edges.getD j []).getD (d + 1) 0 - (m.edges.getD j []).getD d 0 : ℕ) : K) ≤ (m.nmesh.getD j 0 : ℕ) ∨
      (m.edges.getD j []).getD (d + 1) 0 - (m.edges.getD j []).getD d 0 = m.nmesh.getD j 0

/-- There are no empty slabs, or the slabs belong to the ranks in C order. -/
def PMesh.PlainRanks (m : PMesh K) : Prop :=
  (∀ e ∈ m.edges, e.Pairwise (· < ·)) ∨ ∀ r < m.nrank, cOrder m.shape (m.coord r) = r

/-- The same mesh in a single process: one slab, starting at 0. -/
def PMesh.serial (m : PMesh K) (strides : List ℤ) : PMesh K where
  nmesh := m.nmesh
  box := m.box
  edges := m.nmesh.map fun n => [0, n]
  nrank := 1
  coord _ := m.nmesh.map fun _ => 0
  strides _ := strides
  junk := m.junk

/-- Global index of a local cell of rank `r`. -/
def PMesh.global (m : PMesh K) (r : ℕ) (c : List ℕ) : List ℕ := List.zipWith (· + ·) (m.start r) c

/-- The local array `loc` of rank `r` holds its piece of the global array `glob`. -/
def PMesh.PieceOf (m : PMesh K) (strides : List ℤ) (glob loc : ℤ → K) (r : ℕ) : Prop :=
  ∀ c, ValidIndex (m.localShape r) c → loc (m.addr r c) = glob ((m.serial strides).addr 0 (m.global r c))

/-- The value of an argument for particle `i`. -/
def Quant.at : Quant K → ℕ → K
  | .none, _ => 1
  | .scalar a, _ => a
  | .array l, i => l.getD i 0

/-- What all ranks must agree on for an argument that is a number, missing or an array: all missing, the same number
everywhere, or arrays with one entry per local particle. -/
def QuantOK (n : ℕ) (len : ℕ → ℕ) (q : ℕ → Quant K) : Prop :=
  (∀ r < n, q r = .none) ∨ (∃ a, ∀ r < n, q r = .scalar a) ∨ (∀ r < n, ∃ l, q r = .array l ∧ l.length = len r)

/-- The particles of one rank. -/
def particlesOf (pos : List (List K)) (mass hsml : Quant K) : List (Particle K) :=
  (List.range pos.length).map fun i => ⟨pos.getD i [], mass.at i, hsml.at i⟩

/-- The particles of all ranks, in the order of the ranks. -/
def allParticles (n : ℕ) (pos : ℕ → List (List K)) (mass hsml : ℕ → Quant K) : List (Particle K) :=
  (List.range n).flatMap fun r => particlesOf (pos r) (mass r) (hsml r)

/-- A resampler as the code builds it. -/
structure Resampler.Valid (w : Resampler K) : Prop where
  native_pos : 0 < w.kern.native
  tuned_kern : ∀ t, w.tuned = some t → w.kern = Tuned.kern t

/-- The window of a particle with smoothing length `h` (its size is a number of cells, rounded up for tuned painters)
does not reach farther than `s` cells. Kernels that do not vanish outside their window are evaluated on all cells of
the stencil, which is not centred on the particle. -/
def Resampler.Covers (w : Resampler K) (s h : K) : Prop :=
  let size := windowSize (⟨w.kern, w.tuned, w.support, []⟩ : Painter K) h
  (Confined w.kern ∧ w.tuned = none ∧ size ≤ 2 * s) ∨ (Confined w.kern ∧ (⌈size⌉ : K) ≤ 2 * s) ∨ (⌈size⌉ : K) - size / 2 ≤ s

/-- A smoothing for `decompose`: one nonnegative number per axis. -/
structure PMesh.SmoothingOK (m : PMesh K) (sm : List K) : Prop where
  len : sm.length = m.nmesh.length
  nonneg : ∀ s ∈ sm, 0 ≤ s

/-- What the `layout` argument is on the `n` ranks, and the particles `S q r` of rank `q` that it sends to rank `r`:
consistent layouts for the positions, or no layout on any rank, when the particles stay where they are. -/
inductive LayoutArg (n : ℕ) (len : ℕ → ℕ) : (ℕ → Option Lay) → (ℕ → ℕ → List ℕ) → Prop where
  | layout {L : ℕ → Lay} (hL : LayOK n L) (hlen : ∀ q < n, (L q).sendlength = len q) :
      LayoutArg n len (fun r => some (L r)) (fun q r => (L q).sentIdx r)
  | none : LayoutArg n len (fun _ => Option.none) (fun q r => if q = r then List.range (len q) else [])

/-- Inner product of two distributed fields. -/
def PMesh.fieldDot (m : PMesh K) (u v : ℕ → ℤ → K) : K :=
  ((List.range m.nrank).map fun r => ((ndindex (m.localShape r)).map fun c =>
    u r (m.addr r c) * v r (m.addr r c)).sum).sum

/-- Inner product of two distributed arrays with one number per particle. -/
def ranksDot (n : ℕ) (a b : ℕ → List K) : K := ((List.range n).map fun r => dot (a r) (b r)).sum

/-- Inner product of a distributed array `v` with one row of `d` numbers per particle, and one given by its `d`
columns. -/
def columnsDot (n d : ℕ) (v cols : ℕ → List (List K)) : K :=
  ((List.range n).map fun r => ((List.range d).map fun k => dot (column (v r) k) ((cols r).getD k [])).sum).sum

end
end Pmesh
