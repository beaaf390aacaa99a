import Verif.Spec.Index
import Verif.Model.Domain

/-!
# Vocabulary for domain decomposition statements
-/

namespace Pmesh

section
variable {K : Type*} [Field K] [LinearOrder K] [IsStrictOrderedRing K]

/-- Some point of the closed interval `[x - s, x + s]`, moved by a whole number of box lengths, lies
in the half-open interval `[lo, hi)`. -/
def MeetsMod (box s x lo hi : K) : Prop :=
  ∃ y, x - s ≤ y ∧ y ≤ x + s ∧ ∃ m : ℤ, lo ≤ y + m * box ∧ y + m * box < hi

/-- Some point of the closed interval `[x - s, x + s]` lies in `[lo, hi)` (no periodicity). -/
def Meets (s x lo hi : K) : Prop := ∃ y, x - s ≤ y ∧ y ≤ x + s ∧ lo ≤ y ∧ y < hi

/-- A list of edges of one axis: sorted, at least one domain, starting at 0 and ending at the (positive)
box size, see the docstring of `GridND`, pmesh/domain.py:326-334. -/
structure EdgesOK (e : List K) : Prop where
  sorted : e.Pairwise (· ≤ ·)
  two : 2 ≤ e.length
  first : e.getD 0 0 = 0
  last_pos : 0 < e.getLastD 0

/-- Edges of axis `j`. -/
def Grid.axis (g : Grid K) (j : ℕ) : List K := g.edges.getD j []

/-- Number of axes. -/
def Grid.ndim (g : Grid K) : ℕ := g.edges.length

/-- Box size of axis `j`. -/
def Grid.box (g : Grid K) (j : ℕ) : K := (g.axis j).getLastD 0

/-- Lower edge of the domain with multi-index `D` along axis `j`. -/
def Grid.lo (g : Grid K) (D : List ℕ) (j : ℕ) : K := (g.axis j).getD (D.getD j 0) 0

/-- Upper edge of the domain with multi-index `D` along axis `j`. -/
def Grid.hi (g : Grid K) (D : List ℕ) (j : ℕ) : K := (g.axis j).getD (D.getD j 0 + 1) 0

/-- `D` is the multi-index of a domain: one number per axis, below the number of intervals there. -/
def Grid.IsDomain (g : Grid K) (D : List ℕ) : Prop :=
  ValidIndex (g.edges.map fun e => e.length - 1) D

/-- The domain `D` is assigned to rank `r`; domains are numbered in C order. -/
def Grid.Owner (g : Grid K) (D : List ℕ) (r : ℕ) : Prop :=
  g.assign[cOrder (g.edges.map fun e => e.length - 1) D]? = some r

/-- The domain has zero width along some axis. -/
def Grid.EmptyDomain (g : Grid K) (D : List ℕ) : Prop := ∃ j < g.ndim, g.hi D j = g.lo D j

/-- A usable grid: at least one axis, good edges, an owner for every domain, owners are ranks. -/
structure GridOK (g : Grid K) : Prop where
  axes : g.edges ≠ []
  edges : ∀ e ∈ g.edges, EdgesOK e
  assign_total : g.assign.length = (g.edges.map fun e => e.length - 1).prod
  assign_rank : ∀ r ∈ g.assign, r < g.nrank

/-- The position, moved by whole boxes, lies in the domain `D` (half-open). -/
def Grid.Contains (g : Grid K) (D : List ℕ) (x : List K) : Prop :=
  ∀ j < g.ndim, ∃ m : ℤ, g.lo D j ≤ x.getD j 0 + m * g.box j ∧ x.getD j 0 + m * g.box j < g.hi D j

/-- The position lies in the domain `D` (half-open, no periodicity). -/
def Grid.ContainsOpen (g : Grid K) (D : List ℕ) (x : List K) : Prop :=
  ∀ j < g.ndim, g.lo D j ≤ x.getD j 0 ∧ x.getD j 0 < g.hi D j

/-- Rank `r` owns a domain that the smoothing region of `x` meets, modulo the box. -/
def Grid.Reaches (g : Grid K) (s x : List K) (r : ℕ) : Prop :=
  ∃ D, g.IsDomain D ∧ g.Owner D r ∧
    ∀ j < g.ndim, MeetsMod (g.box j) (s.getD j 0) (x.getD j 0) (g.lo D j) (g.hi D j)

/-- Rank `r` owns a domain that the smoothing region of `x` meets, without periodicity. -/
def Grid.ReachesOpen (g : Grid K) (s x : List K) (r : ℕ) : Prop :=
  ∃ D, g.IsDomain D ∧ g.Owner D r ∧
    ∀ j < g.ndim, Meets (s.getD j 0) (x.getD j 0) (g.lo D j) (g.hi D j)

/-- The smoothing is not so large that a smoothing interval comes back around the box into its own domain:
on every axis, smoothing plus any domain width fits in the box, or the axis is not split. -/
def Grid.SmoothingFits (g : Grid K) (s : List K) : Prop :=
  ∀ j < g.ndim, ∀ d < (g.axis j).length - 1,
    s.getD j 0 + ((g.axis j).getD (d + 1) 0 - (g.axis j).getD d 0) ≤ g.box j ∨
      (g.axis j).getD (d + 1) 0 - (g.axis j).getD d 0 = g.box j

/-- The emptiness of a domain can be read off at the position of its owner: rank `r`, seen as a domain
number, is an empty domain exactly if the domains owned by `r` are.  Holds for the identity assignment and
for grids without empty domains (if there are at least as many domains as ranks). -/
def Grid.FlagsAgree (g : Grid K) : Prop :=
  ∀ D r, g.IsDomain D → g.Owner D r → ∃ D', g.IsDomain D' ∧
    cOrder (g.edges.map fun e => e.length - 1) D' = r ∧ (g.EmptyDomain D' ↔ g.EmptyDomain D)

end

/-- The section of the send list that goes to rank `r`. -/
def Sends.sentTo (L : Sends) (r : ℕ) : List (Option ℕ) :=
  (L.indices.drop (L.sendcounts.take r).sum).take (L.sendcounts.getD r 0)

end Pmesh
