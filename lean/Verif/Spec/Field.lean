import Verif.Model.Field
import Verif.Spec.Index
import Verif.Spec.Layout

/-! # Vocabulary for distributed fields -/

namespace Pmesh

/-- The local arrays tile the global array: each element of the global array is stored exactly once. -/
structure Tiling.OK (t : Tiling) : Prop where
  rank_pos : 0 < t.nrank
  mesh_pos : ∀ n ∈ t.nmesh, 0 < n
  stored_le : List.Forall₂ (· ≤ ·) t.cshape t.nmesh
  start_len : ∀ r < t.nrank, (t.start r).length = t.nmesh.length
  shape_len : ∀ r < t.nrank, (t.lshape r).length = t.nmesh.length
  inside : ∀ r < t.nrank, ∀ c, ValidIndex (t.lshape r) c → ValidIndex t.cshape (t.global r c)
  owner : ∀ g, ValidIndex t.cshape g → ∃ r < t.nrank, ∃ c, ValidIndex (t.lshape r) c ∧ t.global r c = g
  unique : ∀ r < t.nrank, ∀ r' < t.nrank, ∀ c c', ValidIndex (t.lshape r) c → ValidIndex (t.lshape r') c' →
    t.global r c = t.global r' c' → r = r'

/-- The local arrays `f` hold the global array `G`. -/
def Tiling.Holds {V : Type} (t : Tiling) (f : ℕ → List ℕ → V) (G : List ℕ → V) : Prop :=
  ∀ r < t.nrank, ∀ c, ValidIndex (t.lshape r) c → f r c = G (t.global r c)

/-- An index in the range `[-Nmesh, Nmesh)`. -/
def IndexInRange (nmesh : List ℕ) (index : List ℤ) : Prop :=
  List.Forall₂ (fun (n : ℕ) (i : ℤ) => -(n : ℤ) ≤ i ∧ i < n) nmesh index

/-- The element that an index (also a negative one) means. -/
def meant (nmesh : List ℕ) (index : List ℤ) : List ℕ := List.zipWith (fun (n : ℕ) (i : ℤ) => (i % n).toNat) nmesh index

/-- The index of the mode with the opposite wavevector: `-i` modulo the mesh. -/
def opposite (nmesh : List ℕ) (i : List ℕ) : List ℕ := List.zipWith (fun (n j : ℕ) => (n - j) % n) nmesh i

/-- Among the stored modes, opposite modes are complex conjugates. -/
def Tiling.Hermitian {K : Type} [Field K] (t : Tiling) (G : List ℕ → Cx K) : Prop :=
  ∀ i, ValidIndex t.cshape i → ValidIndex t.cshape (opposite t.nmesh i) → G (opposite t.nmesh i) = cxConj (G i)

/-- A full spectrum in which opposite modes are complex conjugates. -/
def HermitianSpectrum {K : Type} [Field K] (nmesh : List ℕ) (S : List ℕ → Cx K) : Prop :=
  ∀ i, ValidIndex nmesh i → S (opposite nmesh i) = cxConj (S i)

/-- The field is stored in full, or in Hermitian-compressed form: `N / 2 + 1` elements on the last axis. -/
def Tiling.Storage (t : Tiling) : Prop :=
  t.cshape = t.nmesh ∨ t.cshape = t.nmesh.dropLast ++ [t.nmesh.getLastD 0 / 2 + 1]

end Pmesh
