import Verif.Lemmas.Translate
import Verif.Props.Force

/-!
# C74: the particle-mesh solver does not depend on the position of the box

`decompose`, `paint`, `r2c`, multiplication with a transfer function, `c2r`, `decompose`, `readout`.
-/

set_option linter.unusedSectionVars false

namespace Pmesh

open Complex

section
variable (m : PMesh ℝ) (hm : m.OK) (hp : m.PlainRanks) (w : Resampler ℝ) (hw : w.Valid)
  (sm : List ℝ) (hsm : m.SmoothingOK sm) (hh : m.HaloFits sm) (hcov : ∀ e ∈ sm, w.Covers e 1)
  (pos : ℕ → List (List ℝ)) (hpos : ∀ r < m.nrank, ∀ x ∈ pos r, x.length = m.nmesh.length)
  (mass : ℕ → Quant ℝ) (hmass : QuantOK m.nrank (fun r => (pos r).length) mass)
include hm hp hw hsm hh hcov hpos hmass

/-- `paint` in closed form. -/
theorem paint_weightAt :
    ∃ dens : ℕ → ℤ → ℝ,
      AllReturn m.nrank (fun r => (pmDecompose m sm r (pos r)).andThen fun lay =>
        pmPaint m w none false r (some lay) (pos r) (mass r) .none fun _ => 0) (fun r => .ok (dens r)) ∧
      m.HoldsField dens fun g =>
        ((allParticles m.nrank pos mass fun _ => .none).map fun p => p.mass * m.weightAt w p.pos g).sum := by
  obtain ⟨mem, h1, h2⟩ := paint_all hm hp hw hsm hh hpos hmass (hsml := fun _ => .none) (Or.inl fun _ _ => rfl)
    (fun p hp e he => by rw [(mem_allParticles_hsml hp).1]; exact hcov e he) (fun _ _ => 0) (cStrides m.nmesh)
  refine ⟨mem, h1, fun r hr c hc => ?_⟩
  rw [h2 r hr c hc]
  congr 1
  apply List.map_congr_left
  intro p hp
  rw [(mem_allParticles_hsml hp).1]
  rfl

/-- **C74**, displacements: if all particles are displaced by the same numbers of cells, on any number of ranks, then the painted
field is displaced by as many cells, its modes are multiplied with `exp(-2πi Σ_j k_j s_j / N_j)`, and, for any transfer function,
every particle reads the same force (or potential) as before. Particles may leave the box and may change ranks.
Partial: the restrictions of `C23_paint_partial` on the decomposition. -/
theorem C74_translation_partial (cshape : List ℕ) (hst : StoredShape m.nmesh cshape) (T : List ℕ → ℂ) (s : List ℤ)
    (hs : s.length = m.nmesh.length) :
    ∃ (dens dens' : ℕ → ℤ → ℝ) (rho rho' : List ℕ → ℝ),
      AllReturn m.nrank (fun r => (pmDecompose m sm r (pos r)).andThen fun lay =>
        pmPaint m w none false r (some lay) (pos r) (mass r) .none fun _ => 0) (fun r => .ok (dens r)) ∧ m.HoldsField dens rho ∧
      AllReturn m.nrank (fun r => (pmDecompose m sm r ((pos r).map (shiftedPos m.nmesh m.box s))).andThen fun lay =>
        pmPaint m w none false r (some lay) ((pos r).map (shiftedPos m.nmesh m.box s)) (mass r) .none fun _ => 0)
        (fun r => .ok (dens' r)) ∧ m.HoldsField dens' rho' ∧
      (∀ g, ValidIndex m.nmesh g → rho' (movedCell m.nmesh s g) = rho g) ∧
      (∀ k, r2c m.nmesh rho' k = exp (-(2 * Real.pi * I * shiftArg m.nmesh k s)) * r2c m.nmesh rho k) ∧
      ∀ field field' : ℕ → ℤ → ℝ, m.HoldsField field (c2r m.nmesh cshape fun k => T k * r2c m.nmesh rho k) →
        m.HoldsField field' (c2r m.nmesh cshape fun k => T k * r2c m.nmesh rho' k) →
        ∃ force : ℕ → List ℝ,
          AllReturn m.nrank (fun r => (pmDecompose m sm r (pos r)).andThen fun lay =>
            pmReadout m w none r (some lay) (pos r) .none (field r)) (fun r => .ok (force r)) ∧
          AllReturn m.nrank (fun r => (pmDecompose m sm r ((pos r).map (shiftedPos m.nmesh m.box s))).andThen fun lay =>
            pmReadout m w none r (some lay) ((pos r).map (shiftedPos m.nmesh m.box s)) .none (field' r)) (fun r => .ok (force r)) := by
  have hpos' : ∀ r < m.nrank, ∀ x ∈ (pos r).map (shiftedPos m.nmesh m.box s), x.length = m.nmesh.length := by
    intro r hr x hx
    obtain ⟨y, hy, rfl⟩ := List.mem_map.1 hx
    exact shiftedPos_length hm.box_len hs (hpos r hr y hy)
  obtain ⟨dens, h1, h2⟩ := paint_weightAt m hm hp w hw sm hsm hh hcov pos hpos mass hmass
  obtain ⟨dens', h1', h2'⟩ := paint_weightAt m hm hp w hw sm hsm hh hcov (fun r => (pos r).map (shiftedPos m.nmesh m.box s)) hpos' mass
    (by simpa only [List.length_map] using hmass)
  obtain ⟨rho, hrd⟩ : ∃ rho : List ℕ → ℝ, rho = fun g =>
    ((allParticles m.nrank pos mass fun _ => .none).map fun p => p.mass * m.weightAt w p.pos g).sum := ⟨_, rfl⟩
  obtain ⟨rho', hrd'⟩ : ∃ rho' : List ℕ → ℝ, rho' = fun g => ((allParticles m.nrank (fun r => (pos r).map (shiftedPos m.nmesh m.box s)) mass
      fun _ => .none).map fun p => p.mass * m.weightAt w p.pos g).sum := ⟨_, rfl⟩
  rw [← hrd] at h2
  rw [← hrd'] at h2'
  have hrho : ∀ g, ValidIndex m.nmesh g → rho' (movedCell m.nmesh s g) = rho g := by
    intro g hg
    rw [hrd, hrd']
    beta_reduce
    rw [allParticles_moved, List.map_map]
    congr 1
    apply List.map_congr_left
    intro p hp
    obtain ⟨-, r, hr, hx⟩ := mem_allParticles_hsml hp
    simp only [Function.comp]
    rw [weightAt_moved hm w hs (hpos r hr _ hx) hg]
  have hmode := r2c_moved hs hrho
  refine ⟨dens, dens', rho, rho', h1, h2, h1', h2', hrho, hmode, fun field field' hf hf' => ?_⟩
  have hR := readout_all hm hp hw hsm hh hpos hcov field _ hf (cStrides m.nmesh)
  have hR' := readout_all hm hp hw hsm hh hpos' hcov field' _ hf' (cStrides m.nmesh)
  refine ⟨_, hR, AllReturn.congr (fun _ _ => rfl) (fun r hr => ?_) hR'⟩
  symm
  rw [List.map_map]
  congr 1
  apply List.map_congr_left
  intro x hx
  simp only [Function.comp]
  rw [← sum_movedCell m.nmesh s hs]
  apply sum_congr'
  intro g hg
  rw [mem_ndindex] at hg
  rw [c2r_moved hst hm.dim hs (F := fun k => T k * r2c m.nmesh rho k) (fun k _ => by rw [hmode k]; ring) hg]
  congr 1
  exact weightAt_moved hm w hs (hpos r hr x hx) hg

/-- **C74**, the mean: for the nnb, cic, tsc and pcs windows, on any number of ranks, the zero mode of the painted field is the total
mass of the particles of all ranks divided by the number of cells. -/
theorem C74_mean_partial (kind : Tuned) (hk : w.kern = Tuned.kern kind) (hsup : w.support = w.kern.native) :
    ∃ (dens : ℕ → ℤ → ℝ) (rho : List ℕ → ℝ),
      AllReturn m.nrank (fun r => (pmDecompose m sm r (pos r)).andThen fun lay =>
        pmPaint m w none false r (some lay) (pos r) (mass r) .none fun _ => 0) (fun r => .ok (dens r)) ∧ m.HoldsField dens rho ∧
      r2c m.nmesh rho (m.nmesh.map fun _ => 0) =
        ((((allParticles m.nrank pos mass fun _ => .none).map (·.mass)).sum / (m.nmesh.prod : ℕ) : ℝ) : ℂ) := by
  obtain ⟨dens, h1, h2⟩ := paint_weightAt m hm hp w hw sm hsm hh hcov pos hpos mass hmass
  refine ⟨dens, _, h1, h2, ?_⟩
  rw [r2c_zero, sum_swapC]
  congr 3
  apply List.map_congr_left
  intro p hp
  obtain ⟨-, r, hr, hx⟩ := mem_allParticles_hsml hp
  rw [sum_cmul, weightAt_sum hm hw hk hsup (hpos r hr _ hx), mul_one]

omit hpos hmass in
/-- **C74**, the uniform grid: the particles of `generate_uniform_particle_grid`, with any shift and on any number of ranks, painted
with any window, give the same density in all cells, no mode other than the zero mode, and, for any transfer function that
vanishes for the zero mode, feel no force. For the nnb, cic, tsc and pcs windows the density is the mass of a particle. -/
theorem C74_uniform_grid_partial (cshape : List ℕ) (hst : StoredShape m.nmesh cshape) (T : List ℕ → ℂ)
    (hT : T (m.nmesh.map fun _ => 0) = 0) (shift : List ℝ) (hshift : shift.length = m.nmesh.length) (mu : ℝ) :
    ∃ (dens : ℕ → ℤ → ℝ) (rho : List ℕ → ℝ) (a : ℝ),
      AllReturn m.nrank (fun r => (pmDecompose m sm r (m.uniformGrid shift r)).andThen fun lay =>
        pmPaint m w none false r (some lay) (m.uniformGrid shift r) (.scalar mu) .none fun _ => 0) (fun r => .ok (dens r)) ∧
      m.HoldsField dens rho ∧
      (∀ g, ValidIndex m.nmesh g → rho g = a) ∧
      (∀ kind, w.kern = Tuned.kern kind → w.support = w.kern.native → a = mu) ∧
      (∀ k, ValidIndex m.nmesh k → k ≠ (m.nmesh.map fun _ => 0) → r2c m.nmesh rho k = 0) ∧
      ∀ field : ℕ → ℤ → ℝ, m.HoldsField field (c2r m.nmesh cshape fun k => T k * r2c m.nmesh rho k) →
        AllReturn m.nrank (fun r => (pmDecompose m sm r (m.uniformGrid shift r)).andThen fun lay =>
            pmReadout m w none r (some lay) (m.uniformGrid shift r) .none (field r))
          (fun r => .ok (List.replicate (m.uniformGrid shift r).length 0)) := by
  have hposU : ∀ r < m.nrank, ∀ x ∈ m.uniformGrid shift r, x.length = m.nmesh.length := by
    intro r hr x hx
    unfold PMesh.uniformGrid at hx
    obtain ⟨g, hg, rfl⟩ := List.mem_map.1 hx
    rw [meshCoordinates_eq] at hg
    obtain ⟨c, hc, rfl⟩ := List.mem_map.1 hg
    have := (hm.global_valid hr (mem_ndindex.1 hc)).len
    simp [this, hshift, hm.box_len]
  obtain ⟨dens, h1, h2⟩ := paint_weightAt m hm hp w hw sm hsm hh hcov (m.uniformGrid shift) hposU (fun _ => .scalar mu)
    (Or.inr (Or.inl ⟨mu, fun _ _ => rfl⟩))
  set off := List.zipWith (· * ·) shift (List.zipWith (fun b (n : ℕ) => b / (n : ℝ)) m.box m.nmesh) with hoff
  have hol : off.length = m.nmesh.length := by simp [hoff, hshift, hm.box_len]
  have hrho : ∀ g, ValidIndex m.nmesh g → ((allParticles m.nrank (m.uniformGrid shift) (fun _ => .scalar mu) fun _ => .none).map
      fun p => p.mass * m.weightAt w p.pos g).sum = mu * ((ndindex m.nmesh).map fun g => m.weightAt w off g).sum := by
    intro g hg
    rw [sum_allParticles m.nrank (m.uniformGrid shift) mu fun u x => u * m.weightAt w x g, sum_uniform hm, sum_cmul]
    congr 1
    rw [← weightAt_lattice hm w hol hg]
    apply sum_congr'
    intro h hh
    rw [uniform_moved m.nmesh m.box shift h hm.box_len hshift (mem_ndindex.1 hh).len]
  have hmode : ∀ k, ValidIndex m.nmesh k → k ≠ (m.nmesh.map fun _ => 0) → r2c m.nmesh (fun g =>
      ((allParticles m.nrank (m.uniformGrid shift) (fun _ => .scalar mu) fun _ => .none).map
        fun p => p.mass * m.weightAt w p.pos g).sum) k = 0 := fun k hk h0 => r2c_const hrho hk h0
  refine ⟨dens, _, _, h1, h2, hrho, fun kind hk hsup => by rw [weightAt_sum hm hw hk hsup hol, mul_one], hmode, fun field hf => ?_⟩
  have hR := readout_all hm hp hw hsm hh hposU hcov field _ hf (cStrides m.nmesh)
  refine AllReturn.congr (fun _ _ => rfl) (fun r hr => ?_) hR
  congr 1
  have hz : ∀ g, c2r m.nmesh cshape (fun k => T k * r2c m.nmesh (fun g =>
      ((allParticles m.nrank (m.uniformGrid shift) (fun _ => .scalar mu) fun _ => .none).map
        fun p => p.mass * m.weightAt w p.pos g).sum) k) g = 0 := by
    refine c2r_zero hst hm.dim fun k hk => ?_
    by_cases h0 : k = m.nmesh.map fun _ => 0
    · rw [h0, hT, zero_mul]
    · rw [hmode k (stored_valid hst hm.dim (nmesh_pos' hm) hk) h0, mul_zero]
  simp only [hz, mul_zero]
  simp

end

/-! ## Examples: two ranks, cic -/

theorem exMeshR_plain : exMeshR.PlainRanks := Or.inr (by decide)

theorem exMeshR_smoothing : exMeshR.SmoothingOK [1] := ⟨rfl, by simp⟩

theorem exMeshR_halo : exMeshR.HaloFits [1] := by
  intro j hj d hd
  have hj0 : j = 0 := by simp [exMeshR] at hj; exact hj
  subst hj0
  have hd2 : d < 2 := by simpa [exMeshR] using hd
  left
  interval_cases d <;> simp [exMeshR] <;> norm_num

theorem exWinR_covers : ∀ e ∈ ([1] : List ℝ), exWinR.Covers e 1 := by
  intro e he
  rw [List.mem_singleton] at he
  subst he
  refine Or.inr (Or.inr ?_)
  have : windowSize (⟨exWinR.kern, exWinR.tuned, exWinR.support, []⟩ : Painter ℝ) 1 = ((2 : ℤ) : ℝ) := by
    simp [windowSize, exWinR]
  rw [this, Int.ceil_intCast]
  norm_num

/-- All particles move three cells to the left: the one at 1/2 leaves the box, the one at 9/2 changes rank. -/
example := C74_translation_partial exMeshR exMeshR_ok exMeshR_plain exWinR exWinR_valid [1] exMeshR_smoothing exMeshR_halo exWinR_covers
  (fun r => if r = 0 then [[1 / 2], [7 / 3]] else [[9 / 2]]) (by intro r _ x hx; split_ifs at hx <;> simp at hx <;> aesop)
  (fun _ => .scalar 3) (Or.inr (Or.inl ⟨3, fun _ _ => rfl⟩)) [5] (Or.inr rfl) exGravity [-3] rfl

example := C74_mean_partial exMeshR exMeshR_ok exMeshR_plain exWinR exWinR_valid [1] exMeshR_smoothing exMeshR_halo exWinR_covers
  (fun r => if r = 0 then [[1 / 2], [7 / 3]] else [[9 / 2]]) (by intro r _ x hx; split_ifs at hx <;> simp at hx <;> aesop)
  (fun _ => .scalar 3) (Or.inr (Or.inl ⟨3, fun _ _ => rfl⟩)) .cic rfl rfl

example := C74_uniform_grid_partial exMeshR exMeshR_ok exMeshR_plain exWinR exWinR_valid [1] exMeshR_smoothing exMeshR_halo exWinR_covers
  [5] (Or.inr rfl) exGravity (by simp [exGravity, exMeshR, waveVector]) [1 / 2] rfl 3

#print axioms C74_translation_partial
#print axioms C74_mean_partial
#print axioms C74_uniform_grid_partial

end Pmesh
