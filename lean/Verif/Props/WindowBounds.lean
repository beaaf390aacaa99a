import Verif.Lemmas.WindowBounds
import Verif.Props.Window

/-! # C62: signs and ranges -/

namespace Pmesh

section
variable {K : Type*} [Field K] [LinearOrder K] [IsStrictOrderedRing K] [FloorRing K]

/-- **C62** (paint).  Painting particles of nonnegative mass with the nnb, cic, tsc or pcs window, tuned or not, never lowers any
element of the array: any dimension, mesh, slab, period, position and smoothing length. -/
theorem C62_paint (P : Painter K) (hP : P.Valid) (kind : Tuned) (hk : P.kern = Tuned.kern kind)
    (ho : ∀ ax ∈ P.axes, ax.order = 0) (ps : List (Particle K)) (hps : ∀ p ∈ ps, p.pos.length = P.axes.length ∧ 0 ≤ p.mass)
    (mem : ℤ → K) : ∃ mem', paint P mem ps = some mem' ∧ ∀ a, mem a ≤ mem' a := by
  refine ⟨_, paint_eq P hP ps (fun p hp => (hps p hp).1) mem, fun a => ?_⟩
  refine le_add_of_nonneg_right (List.sum_nonneg ?_)
  intro y hy
  obtain ⟨p, hp, rfl⟩ := List.mem_map.1 hy
  refine mul_nonneg (hps p hp).2 (List.sum_nonneg ?_)
  intro y hy
  obtain ⟨c, _, rfl⟩ := List.mem_map.1 hy
  refine mul_nonneg (weights_nonneg hk ho _ _ _) ?_
  split <;> norm_num

/-- **C62** (readout).  On a fully periodic mesh the values read with the nnb, cic, tsc or pcs window lie between the smallest and
the largest value of the field (partial: only with the native size of the window, see the violation). -/
theorem C62_readout_partial (P : Painter K) (hP : P.Valid) (kind : Tuned) (hk : P.kern = Tuned.kern kind)
    (hper : ∀ ax ∈ P.axes, ax.order = 0 ∧ 0 < ax.size ∧ ax.period = ax.size) (ps : List (Particle K))
    (hps : ∀ p ∈ ps, p.pos.length = P.axes.length ∧ windowSize P p.hsml = P.kern.native) (mem : ℤ → K) (lo hi : K)
    (hmem : ∀ c, ValidIndex (shapeOf P.axes) c → lo ≤ mem (elemAddr P.axes c) ∧ mem (elemAddr P.axes c) ≤ hi) :
    ∃ vals, readout P mem ps = some vals ∧ vals.length = ps.length ∧ ∀ v ∈ vals, lo ≤ v ∧ v ≤ hi := by
  refine ⟨_, readout_eq P hP ps (fun p hp => (hps p hp).1) mem, by simp, ?_⟩
  intro v hv
  obtain ⟨p, hp, rfl⟩ := List.mem_map.1 hv
  have hs := weights_sum hP hk hper (hps p hp).2 (hps p hp).1
  have hn : ∀ c ∈ ndindex (shapeOf P.axes), 0 ≤ cwProd (List.zipWith (axisStencil P p.hsml) P.axes p.pos) c :=
    fun c _ => weights_nonneg hk (fun ax hax => (hper ax hax).1) _ _ _
  constructor
  · have := le_sum_of_weights (ndindex (shapeOf P.axes)) (fun c => cwProd (List.zipWith (axisStencil P p.hsml) P.axes p.pos) c)
      (fun c => mem (elemAddr P.axes c)) lo hn (fun c hc => (hmem c (mem_ndindex.1 hc)).1)
    rwa [hs, one_mul] at this
  · have := sum_le_of_weights (ndindex (shapeOf P.axes)) (fun c => cwProd (List.zipWith (axisStencil P p.hsml) P.axes p.pos) c)
      (fun c => mem (elemAddr P.axes c)) hi hn (fun c hc => (hmem c (mem_ndindex.1 hc)).2)
    rwa [hs, one_mul] at this

end

/-- Non-vacuity of C62. -/
example := C62_paint exCic exCic_valid .cic rfl (by decide) [⟨[-7 / 3], 2, 1⟩, ⟨[201 / 2], 1 / 3, 5⟩] (by decide +kernel) (fun a => (a : ℚ))

example := C62_readout_partial exCic exCic_valid .cic rfl (by decide) [⟨[-7 / 3], 2, 1⟩, ⟨[201 / 2], 1 / 3, 1⟩] (by decide +kernel)
  (fun a => if a = 3 then -2 else 5) (-2) 5 (by intro c _; split <;> norm_num)

/-- One periodic axis of eight cells and the cic window. -/
def exLine8 : Painter ℚ := ⟨linearK, some .cic, 2, [⟨0, 1, 0, 8, 8, 1⟩]⟩

/-- **C62 violated** for a smoothing length that is not 1: the constant field 1 is read as 10/9 with a window that is 3/2 times as
wide. -/
theorem C62_violated_hsml : readout exLine8 (fun _ => 1) [⟨[3], 1, 3 / 2⟩] = some [10 / 9] := by decide +kernel

#print axioms C62_paint
#print axioms C62_readout_partial
#print axioms C62_violated_hsml

end Pmesh
