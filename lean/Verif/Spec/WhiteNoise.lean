import Verif.Model.WhiteNoise

/-! # What the white noise generator has to do -/

namespace Pmesh

/-- Mode `i, j, k` is stored in the local array. -/
def NoiseGen.Stores (g : NoiseGen) (i j k : ℤ) : Prop :=
  (g.start 0 ≤ i ∧ i < g.start 0 + g.size 0) ∧ (g.start 1 ≤ j ∧ j < g.start 1 + g.size 1) ∧
    g.start 2 ≤ k ∧ k < g.start 2 + g.size 2

/-- The local array is a box inside the mesh and no two of its elements are at the same place. -/
structure NoiseGen.Plain (g : NoiseGen) : Prop where
  pos : ∀ d, 0 < g.nmesh d
  lo : ∀ d, 0 ≤ g.start d
  hi : ∀ d, g.start d + g.size d ≤ g.nmesh d
  inj : ∀ i j k i' j' k', g.Stores i j k → g.Stores i' j' k' → noiseAddr g i j k = noiseAddr g i' j' k' →
    i = i' ∧ j = j' ∧ k = k'

/-- With a mode of negative last index the opposite last index is stored too.  This holds if only half of the modes is stored
(`k ≤ N / 2`) and if the last axis is not split. -/
def NoiseGen.Mirrored (g : NoiseGen) : Prop :=
  ∀ k, g.start 2 ≤ k → k < g.start 2 + g.size 2 → g.nmesh 2 < 2 * k → g.start 2 ≤ g.nmesh 2 - k

/-- Two local arrays, of maybe different ranks and runs, of noise on the same mesh. -/
def NoiseGen.SameField (g g' : NoiseGen) : Prop := g.nmesh = g'.nmesh ∧ g.unitary = g'.unitary

/-- The index of mode number `a` on an axis of `n` cells: negative ones are at the end. -/
def modeIndex (n a : ℤ) : ℤ := if a < 0 then a + n else a

end Pmesh
