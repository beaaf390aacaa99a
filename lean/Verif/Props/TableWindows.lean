import Verif.Lemmas.TableStencil
import Mathlib.Data.Rat.Floor

/-!
# C106: the tabulated windows

`lanczos2` .. `lanczos6`, `acg2` .. `acg6`, `sym6` .. `sym20` and `db6` .. `db20` with the tables of the code.
-/

namespace Pmesh

section
variable {K : Type*} [Field K] [LinearOrder K] [IsStrictOrderedRing K] [FloorRing K]

variable (P : Painter K) (hP : P.Valid) (hu : P.tuned = none)
  (hper : ∀ ax ∈ P.axes, ax.order = 0 ∧ 0 < ax.size ∧ ax.period = ax.size) (hd : DistinctElems P.axes)
  (ps : List (Particle K)) (hps : ∀ p ∈ ps, p.pos.length = P.axes.length ∧ windowSize P p.hsml = P.kern.native) (mem : ℤ → K)

include hP hu hper hps

include hd in
/-- **C106** (mass).  Painting with a lanczos or acg window on a fully periodic mesh adds the total mass up to the tolerance of the
window per axis. -/
theorem C106_mass (w : SymWin) (hk : P.kern = w.kern) :
    ∃ mem', paint P mem ps = some mem' ∧ |total P.axes mem' - total P.axes mem - (ps.map (·.mass)).sum| ≤
      ((1 + (w.tolerance : K)) ^ P.axes.length - 1) * (ps.map fun p => |p.mass|).sum := by
  refine total_near P hP hu _ ?_ (fun u h0 h1 => ?_) hper hd ps hps mem
  · cases w <;> simp only [SymWin.tolerance] <;> norm_num
  · rw [hk]; exact w.sum_tolerance h0 h1

include hd in
/-- **C106** (mass, wavelets).  The same for the wavelets: each axis loses or gains at most 0.21 per cent. -/
theorem C106_mass_wavelet (w : WaveWin) (hk : P.kern = w.kern) :
    ∃ mem', paint P mem ps = some mem' ∧ |total P.axes mem' - total P.axes mem - (ps.map (·.mass)).sum| ≤
      ((1 + (waveTolerance : K)) ^ P.axes.length - 1) * (ps.map fun p => |p.mass|).sum := by
  refine total_near P hP hu _ ?_ (fun u h0 h1 => ?_) hper hd ps hps mem
  · simp only [waveTolerance]; norm_num
  · rw [hk]; exact w.sum_tolerance h0 h1

/-- **C106** (readout).  Every particle reads a constant field up to the tolerance of the window per axis. -/
theorem C106_constant (w : SymWin) (hk : P.kern = w.kern) (b : K) :
    ∃ vs, readout P (fun _ => b) ps = some vs ∧ vs.length = ps.length ∧
      ∀ v ∈ vs, |v - b| ≤ ((1 + (w.tolerance : K)) ^ P.axes.length - 1) * |b| := by
  refine constant_near P hP hu _ ?_ (fun u h0 h1 => ?_) hper ps hps b
  · cases w <;> simp only [SymWin.tolerance] <;> norm_num
  · rw [hk]; exact w.sum_tolerance h0 h1

/-- **C106** (readout, wavelets). -/
theorem C106_constant_wavelet (w : WaveWin) (hk : P.kern = w.kern) (b : K) :
    ∃ vs, readout P (fun _ => b) ps = some vs ∧ vs.length = ps.length ∧
      ∀ v ∈ vs, |v - b| ≤ ((1 + (waveTolerance : K)) ^ P.axes.length - 1) * |b| := by
  refine constant_near P hP hu _ ?_ (fun u h0 h1 => ?_) hper ps hps b
  · simp only [waveTolerance]; norm_num
  · rw [hk]; exact w.sum_tolerance h0 h1

omit hper hps

/-- **C106** (centre of mass).  A particle painted on an open axis with a wavelet puts its mass off its position: the centre of the
painted mass lies by the displacement of the window, a quarter of a cell to four and a half cells, to the right, up to a hundredth of
a cell, wherever the particle lies in its cell. -/
theorem C106_centre (w : WaveWin) (hk : P.kern = w.kern) (ax : PAxis K) (hax : P.axes = [ax]) (ho : ax.order = 0) (hst : ax.stride ≠ 0)
    (x : K) (hint : Interior P.kern.native ax x) (mass h : K) (hs : windowSize P h = P.kern.native) :
    ∃ mem', paint P mem [⟨[x], mass, h⟩] = some mem' ∧
      |((List.range ax.size).map fun (c : ℕ) => ((c : K) - (x * ax.scale + ax.translate)) *
          (mem' (c * ax.stride) - mem (c * ax.stride))).sum - w.displacement * mass| ≤ 1 / 100 * |mass| := by
  obtain ⟨mem', h1, h2⟩ := moment_near P hP hu hax ho hst hint mass h hs mem
  refine ⟨mem', h1, ?_⟩
  have e : x * ax.scale + ax.translate = ax.grid x := rfl
  rw [e, h2, hk, mul_comm (w.displacement : K), ← mul_sub, abs_mul, mul_comm]
  exact mul_le_mul_of_nonneg_right (w.moment_tolerance (Int.fract_nonneg _) (Int.fract_lt_one _)) (abs_nonneg _)

end

/-- **C106 violated** (mass).  The window acg2 loses more than a fifth of the mass of a particle on a grid point
inside the array. -/
theorem C106_violated_acg :
    (paint (⟨SymWin.acg2.kern, none, 2, [⟨0, 1, 0, 0, 4, 1⟩]⟩ : Painter ℚ) (fun _ => 0) [⟨[1], 1, 1⟩]).map
      (fun mem => decide (((List.range 4).map fun (c : ℕ) => mem c).sum < 78 / 100)) = some true := by
  decide +kernel

/-- **C106 violated** (centre).  The window db20 puts the mass of a particle more than four cells away. -/
theorem C106_violated_centre :
    (paint (⟨WaveWin.db20.kern, none, 13, [⟨0, 1, 0, 0, 16, 1⟩]⟩ : Painter ℚ) (fun _ => 0) [⟨[8], 1, 1⟩]).map
      (fun mem => decide (((List.range 16).map fun (c : ℕ) => ((c : ℚ) - 8) * mem c).sum > 4)) = some true := by
  decide +kernel

/-! The hypotheses hold for a mesh of 8 by 8 cells and the window lanczos3, and for an open axis and db6. -/

example : let P : Painter ℚ := ⟨SymWin.lanczos3.kern, none, 6, [⟨0, 2, 0, 8, 8, 8⟩, ⟨0, 2, 1, 8, 8, 1⟩]⟩
    P.Valid ∧ P.tuned = none ∧ (∀ ax ∈ P.axes, ax.order = 0 ∧ 0 < ax.size ∧ ax.period = ax.size) ∧ DistinctElems P.axes ∧
      ∀ p ∈ [(⟨[1, 2], 3, 1⟩ : Particle ℚ), ⟨[-5, 7 / 3], -1, 0⟩], p.pos.length = P.axes.length ∧ windowSize P p.hsml = P.kern.native := by
  refine ⟨⟨by decide, by decide, fun t h => by cases h⟩, rfl, by decide, ?_, ?_⟩
  · intro c c' hc hc' he
    match c, c', hc, hc' with
    | [a, b], [a', b'], hc, hc' =>
      simp only [shapeOf, ValidIndex, List.map_cons, List.map_nil, List.forall₂_cons] at hc hc'
      simp only [elemAddr] at he
      have : a = a' ∧ b = b' := by omega
      rw [this.1, this.2]
  · intro p hp
    simp only [List.mem_cons, List.not_mem_nil, or_false] at hp
    rcases hp with rfl | rfl <;> simp [windowSize, SymWin.kern, SymWin.native]

example : let P : Painter ℚ := ⟨WaveWin.db6.kern, none, 7, [⟨0, 2, 0, 0, 16, 1⟩]⟩
    P.Valid ∧ Interior P.kern.native (⟨0, 2, 0, 0, 16, 1⟩ : PAxis ℚ) 4 ∧ windowSize P 1 = P.kern.native := by
  refine ⟨⟨by decide, by decide, fun t h => by cases h⟩, ?_, ?_⟩
  · simp only [Interior, WaveWin.kern, WaveWin.native]; norm_num
  · simp [windowSize, WaveWin.kern, WaveWin.native]

#print axioms C106_mass
#print axioms C106_mass_wavelet
#print axioms C106_constant
#print axioms C106_constant_wavelet
#print axioms C106_centre
#print axioms C106_violated_acg
#print axioms C106_violated_centre

end Pmesh
