import Verif.Lemmas.ShotNoiseLaw
import Verif.Lemmas.ShotNoiseMesh
import Verif.Props.RankFree
import Verif.Props.Energy

/-!
# C111: shot noise

Particles whose coordinates are independent and uniformly distributed in the box, painted on any number of ranks, give a density whose modes have mean zero, are
uncorrelated, and have the power `(Σ m²) / V² Π_j S_j`, where `V` is the number of cells and `S_j` the power of the window (`shotPower`).
-/

namespace Pmesh

open MeasureTheory ProbabilityTheory Complex

/-- The random particles as a run of the solver. -/
noncomputable def catalogRun {Ω : Type} (m : PMesh ℝ) (sm : List ℝ) (mass : ℕ → Quant ℝ) (pos : Ω → ℕ → List (List ℝ)) (ω : Ω) : SolverRun := ⟨m, sm, pos ω, mass⟩

section
variable {Ω : Type} [MeasurableSpace Ω] {P : Measure Ω} {m : PMesh ℝ} {sm : List ℝ} {mass : ℕ → Quant ℝ} {pos : Ω → ℕ → List (List ℝ)} {cnt : ℕ → ℕ}
  {w : Resampler ℝ} (hw : w.Valid) {kind : Tuned} (hk : w.kern = Tuned.kern kind) (hsup : w.support = w.kern.native)

/-- Coordinates of the particles. -/
def coordOf (n : ℕ) (cnt : ℕ → ℕ) (d : ℕ) (pos : Ω → ℕ → List (List ℝ)) (x : ((r : Fin n) × Fin (cnt r)) × Fin d) (ω : Ω) : ℝ :=
  ((pos ω x.1.1).getD x.1.2 []).getD x.2 0

/-- Amplitude of mode `k` on axis `j`. -/
noncomputable def axisAmp (kind : Tuned) (m : PMesh ℝ) (k : List ℕ) (j : ℕ) (y : ℝ) : ℂ :=
  waveAmp kind (modeQ (m.nmesh.getD j 0) (k.getD j 0)) (y * ((m.nmesh.getD j 0 : ℕ) / m.box.getD j 0))

theorem axisAmp_measurable (kind : Tuned) (m : PMesh ℝ) (k : List ℕ) (j : ℕ) : Measurable (axisAmp kind m k j) :=
  (waveAmp_measurable kind _).comp (by fun_prop)

theorem axisAmp_norm (kind : Tuned) (m : PMesh ℝ) (k : List ℕ) (j : ℕ) (y : ℝ) : ‖axisAmp kind m k j y‖ ≤ 1 := waveAmp_norm kind (modeQ_norm _ _) _

/-- Sum over all particles. -/
theorem sum_catalog {n : ℕ} {x : ℕ → List (List ℝ)} (hc : ∀ r < n, (x r).length = cnt r) (F : Particle ℝ → ℂ) :
    ((allParticles n x mass fun _ => .none).map F).sum = ∑ p : (r : Fin n) × Fin (cnt r), F ⟨(x p.1).getD p.2 [], (mass p.1).at p.2, 1⟩ := by
  rw [Fintype.sum_sigma, Finset.sum_fin_eq_sum_range]
  unfold allParticles
  have hfm : ∀ (l : List ℕ) (f : ℕ → List (Particle ℝ)), ((l.flatMap f).map F).sum = (l.map fun r => ((f r).map F).sum).sum := by
    intro l f
    induction l with
    | nil => simp
    | cons a l ih => rw [List.flatMap_cons, List.map_append, List.sum_append, ih, List.map_cons, List.sum_cons]
  rw [hfm, Finset.sum_range, ← List.sum_ofFn]
  congr 1
  apply List.ext_getElem
  · simp
  · intro r h1 h2
    have hr : r < n := by simpa using h1
    rw [List.getElem_map, List.getElem_range, List.getElem_ofFn, dif_pos hr]
    unfold particlesOf
    rw [hc r hr, ← List.sum_ofFn]
    congr 1
    apply List.ext_getElem
    · simp
    · intro i h3 h4
      rw [List.getElem_map, List.getElem_map, List.getElem_range, List.getElem_ofFn]
      rfl

omit [MeasurableSpace Ω] in
include hw hk hsup in
/-- The modes of the painted density. -/
theorem painted_mode {ω : Ω} (hOK : (catalogRun m sm mass pos ω).OK w) (hcount : ∀ r < m.nrank, (pos ω r).length = cnt r) :
    ∃ dens : ℕ → ℤ → ℝ, AllReturn m.nrank ((catalogRun m sm mass pos ω).paint w) (fun r => .ok (dens r)) ∧
      ∀ rho, m.HoldsField dens rho → ∀ k, ValidIndex m.nmesh k →
        r2c m.nmesh rho k = (m.nmesh.map fun (n : ℕ) => ((n : ℝ)⁻¹)).prod *
          ∑ p : (r : Fin m.nrank) × Fin (cnt r), (((mass p.1).at p.2 : ℝ) : ℂ) * ∏ j : Fin m.box.length, axisAmp kind m k j (coordOf m.nrank cnt m.box.length pos (p, j) ω) := by
  obtain ⟨dens, h1, h2⟩ := paint_weightAt m hOK.mesh hOK.plain w hw sm hOK.smoothing hOK.halo hOK.covers (pos ω) hOK.pos mass hOK.mass
  refine ⟨dens, h1, fun rho hrho k hkv => ?_⟩
  have e : ∀ g, ValidIndex m.nmesh g → rho g = ((allParticles m.nrank (pos ω) mass fun _ => .none).map fun p => p.mass * m.weightAt w p.pos g).sum := by
    intro g hg
    obtain ⟨r, hr, c, hc, rfl⟩ := exists_cell (m := m) hOK.mesh hg
    rw [← hrho r hr c hc, h2 r hr c hc]
  have cast : ∀ (l : List (Particle ℝ)) (f : Particle ℝ → ℝ), (((l.map f).sum : ℝ) : ℂ) = (l.map fun a => (f a : ℂ)).sum := by
    intro l f
    induction l with
    | nil => simp
    | cons a l ih => rw [List.map_cons, List.map_cons, List.sum_cons, List.sum_cons, ← ih, Complex.ofReal_add]
  have swap : ∀ (ls : List (List ℕ)) (F : ((r : Fin m.nrank) × Fin (cnt r)) → List ℕ → ℂ), (ls.map fun g => ∑ p, F p g).sum = ∑ p, (ls.map (F p)).sum := by
    intro ls F
    induction ls with
    | nil => simp
    | cons a l ih => simp only [List.map_cons, List.sum_cons, ih, Finset.sum_add_distrib]
  unfold r2c dftForward
  rw [mul_comm]
  congr 1
  rw [sum_congr' (g := fun g => ∑ p : (r : Fin m.nrank) × Fin (cnt r), (((mass p.1).at p.2 : ℝ) : ℂ) *
    ((m.weightAt w ((pos ω p.1).getD p.2 []) g : ℝ) * exp (-(2 * Real.pi * I * phaseArg m.nmesh k g))))]
  · rw [swap]
    refine Finset.sum_congr rfl fun p _ => ?_
    rw [List.sum_map_mul_left]
    congr 1
    have hlen : ((pos ω p.1).getD p.2 []).length = m.nmesh.length := by
      have h := hcount p.1 p.1.2
      rw [List.getD_eq_getElem _ _ (by rw [h]; exact p.2.2)]
      exact hOK.pos p.1 p.1.2 _ (List.getElem_mem _)
    rw [weightAt_wave (m := m) hOK.mesh hw hk hsup hlen hkv.len]
    have hb : m.box.length = m.nmesh.length := hOK.mesh.box_len
    rw [← hb, Finset.prod_range]
    rfl
  · intro g hg
    change ((rho g : ℝ) : ℂ) * _ = _
    rw [e g (mem_ndindex.1 hg), cast, sum_catalog hcount, Finset.sum_mul]
    refine Finset.sum_congr rfl fun p _ => ?_
    push_cast
    ring

theorem catalog_measurable (hU : UniformCatalog P m.nrank cnt m.box pos) (x) : Measurable (coordOf m.nrank cnt m.box.length pos x) :=
  hU.measurable x.1.1 x.1.1.2 x.1.2 x.1.2.2 x.2 x.2.2

/-- Mean of the amplitude of a particle. -/
theorem axis_mean (hm : m.OK) (hU : UniformCatalog P m.nrank cnt m.box pos) {k : List ℕ} (hkv : ValidIndex m.nmesh k) (x) :
    ∫ ω, axisAmp kind m k x.2 (coordOf m.nrank cnt m.box.length pos x ω) ∂P = if k.getD x.2 0 = 0 then 1 else 0 := by
  have hj : (x.2 : ℕ) < m.nmesh.length := by rw [← hm.box_len]; exact x.2.2
  have hn := hm.nmesh_pos hj
  have hL : 0 < m.box.getD x.2 0 := by
    rw [List.getD_eq_getElem _ _ x.2.2]
    exact hm.box_pos _ (List.getElem_mem _)
  have hlt : k.getD x.2 0 < m.nmesh.getD x.2 0 := (validIndex_iff.1 hkv).2 _ hj
  have h := uniform_twisted (catalog_measurable hU x) hL (hU.uniform x.1.1 x.1.1.2 x.1.2 x.1.2.2 x.2 x.2.2) hn
    (waveAmp_measurable kind (modeQ (m.nmesh.getD x.2 0) (k.getD x.2 0))) (waveAmp_norm kind (modeQ_norm _ _)) (waveAmp_succ kind (modeQ_ne _ _)) (modeQ_pow hn _)
  refine h.trans ?_
  by_cases h0 : k.getD x.2 0 = 0
  · rw [h0, modeQ_zero, if_pos rfl, if_pos rfl]
    simp [waveAmp_one]
  · rw [if_neg h0, if_neg]
    intro h1
    exact h0 (modeQ_inj hlt hn (h1.trans (modeQ_zero _).symm))

/-- Mean of the product of the amplitudes of a particle for two modes. -/
theorem axis_power (hm : m.OK) (hU : UniformCatalog P m.nrank cnt m.box pos) {k l : List ℕ} (hkv : ValidIndex m.nmesh k) (hlv : ValidIndex m.nmesh l) (x) :
    ∫ ω, axisAmp kind m k x.2 (coordOf m.nrank cnt m.box.length pos x ω) * (starRingEnd ℂ) (axisAmp kind m l x.2 (coordOf m.nrank cnt m.box.length pos x ω)) ∂P =
      if k.getD x.2 0 = l.getD x.2 0 then ((shotPower kind (m.nmesh.getD x.2 0) (k.getD x.2 0) : ℝ) : ℂ) else 0 := by
  have hj : (x.2 : ℕ) < m.nmesh.length := by rw [← hm.box_len]; exact x.2.2
  have hn := hm.nmesh_pos hj
  have hL : 0 < m.box.getD x.2 0 := by
    rw [List.getD_eq_getElem _ _ x.2.2]
    exact hm.box_pos _ (List.getElem_mem _)
  have hk' : k.getD x.2 0 < m.nmesh.getD x.2 0 := (validIndex_iff.1 hkv).2 _ hj
  have hl' : l.getD x.2 0 < m.nmesh.getD x.2 0 := (validIndex_iff.1 hlv).2 _ hj
  obtain ⟨q, hq⟩ : ∃ q, q = modeQ (m.nmesh.getD x.2 0) (k.getD x.2 0) := ⟨_, rfl⟩
  obtain ⟨q', hq'⟩ : ∃ q', q' = modeQ (m.nmesh.getD x.2 0) (l.getD x.2 0) := ⟨_, rfl⟩
  have h := uniform_twisted (catalog_measurable hU x) hL (hU.uniform x.1.1 x.1.1.2 x.1.2 x.1.2.2 x.2 x.2.2) hn
    (g := fun y => waveAmp kind q y * (starRingEnd ℂ) (waveAmp kind q' y)) (μ := q * (starRingEnd ℂ) q')
    ((waveAmp_measurable kind q).mul (Complex.continuous_conj.measurable.comp (waveAmp_measurable kind q')))
    (fun y => by
      rw [norm_mul, RCLike.norm_conj]
      exact mul_le_one₀ (waveAmp_norm kind (hq ▸ modeQ_norm _ _) _) (norm_nonneg _) (waveAmp_norm kind (hq' ▸ modeQ_norm _ _) _))
    (fun y => by
      rw [waveAmp_succ kind (hq ▸ modeQ_ne _ _), waveAmp_succ kind (hq' ▸ modeQ_ne _ _), map_mul]
      ring)
    (by rw [mul_pow, ← map_pow, hq, hq', modeQ_pow hn, modeQ_pow hn, map_one, one_mul])
  unfold axisAmp
  rw [← hq, ← hq']
  refine h.trans ?_
  by_cases h0 : k.getD x.2 0 = l.getD x.2 0
  · have e : q' = q := by rw [hq, hq', h0]
    rw [if_pos h0, e, if_pos (by rw [hq]; exact (modeQ_conj _ _ _).2 rfl), integral_power kind (hq ▸ modeQ_norm _ _) (hq ▸ modeQ_add _ _)]
    unfold shotPower
    cases kind <;> rfl
  · rw [if_neg h0, if_neg]
    intro h1
    rw [hq, hq', modeQ_conj] at h1
    exact h0 (modeQ_inj hk' hl' h1)

/-- A mode that is not the mean. -/
theorem exists_nonzero {k : List ℕ} (hkv : ValidIndex m.nmesh k) (hk0 : k ≠ m.nmesh.map fun _ => 0) : ∃ j < m.nmesh.length, k.getD j 0 ≠ 0 := by
  by_contra h
  push Not at h
  apply hk0
  apply List.ext_getElem
  · rw [hkv.len, List.length_map]
  · intro j h1 h2
    have hj : j < m.nmesh.length := by simpa using h2
    have := h j hj
    rw [List.getD_eq_getElem _ _ h1] at this
    rw [this, List.getElem_map]

theorem exists_different {k l : List ℕ} (hkv : ValidIndex m.nmesh k) (hlv : ValidIndex m.nmesh l) (hkl : k ≠ l) : ∃ j < m.nmesh.length, k.getD j 0 ≠ l.getD j 0 := by
  by_contra h
  push Not at h
  apply hkl
  apply List.ext_getElem
  · rw [hkv.len, hlv.len]
  · intro j h1 h2
    have := h j (by rw [← hkv.len]; exact h1)
    rwa [List.getD_eq_getElem _ _ h1, List.getD_eq_getElem _ _ h2] at this

/-- Mean of the amplitude of one particle in all axes. -/
theorem particle_mean (hm : m.OK) (hU : UniformCatalog P m.nrank cnt m.box pos) {k : List ℕ} (hkv : ValidIndex m.nmesh k)
    (hk0 : k ≠ m.nmesh.map fun _ => 0) (p : (r : Fin m.nrank) × Fin (cnt r)) :
    ∏ j : Fin m.box.length, ∫ ω, axisAmp kind m k j (coordOf m.nrank cnt m.box.length pos (p, j) ω) ∂P = 0 := by
  obtain ⟨j, hj, h⟩ := exists_nonzero hkv hk0
  apply Finset.prod_eq_zero (Finset.mem_univ (⟨j, by rw [hm.box_len]; exact hj⟩ : Fin m.box.length))
  exact (axis_mean hm hU hkv (p, ⟨j, by rw [hm.box_len]; exact hj⟩)).trans (if_neg h)

include hw hk hsup

/-- **C111** (partial: the restrictions of C23 on the decomposition, in `SolverRun.OK`; windows nnb, cic, tsc and pcs of their native size).  Random particles with fixed
masses, whose coordinates are independent and uniform in the box, are decomposed and painted on any number of ranks, and the density is transformed with `r2c`.
The mean mode is always the total mass per cell.  All other modes have zero mean, two different modes are uncorrelated, and the mean square of a mode is the sum of
the squared masses over the square of the number of cells, times the power of the window on every axis. -/
theorem C111_shot_noise_partial (hOK : ∀ ω, (catalogRun m sm mass pos ω).OK w) (hU : UniformCatalog P m.nrank cnt m.box pos) :
    ∃ dens : Ω → ℕ → ℤ → ℝ,
      (∀ ω, AllReturn m.nrank ((catalogRun m sm mass pos ω).paint w) (fun r => .ok (dens ω r))) ∧
      ∀ rho : Ω → List ℕ → ℝ, (∀ ω, m.HoldsField (dens ω) (rho ω)) →
        (∀ ω, r2c m.nmesh (rho ω) (m.nmesh.map fun _ => 0) =
          (((∑ r ∈ Finset.range m.nrank, ∑ i ∈ Finset.range (cnt r), (mass r).at i) / (m.nmesh.prod : ℕ) : ℝ) : ℂ)) ∧
        (∀ k, ValidIndex m.nmesh k → Measurable (fun ω => r2c m.nmesh (rho ω) k) ∧ ∃ C : ℝ, ∀ ω, ‖r2c m.nmesh (rho ω) k‖ ≤ C) ∧
        (∀ k, ValidIndex m.nmesh k → k ≠ (m.nmesh.map fun _ => 0) → ∫ ω, r2c m.nmesh (rho ω) k ∂P = 0) ∧
        (∀ k l, ValidIndex m.nmesh k → ValidIndex m.nmesh l → k ≠ l →
          ∫ ω, r2c m.nmesh (rho ω) k * (starRingEnd ℂ) (r2c m.nmesh (rho ω) l) ∂P = 0) ∧
        ∀ k, ValidIndex m.nmesh k → k ≠ (m.nmesh.map fun _ => 0) →
          ∫ ω, ‖r2c m.nmesh (rho ω) k‖ ^ 2 ∂P =
            (∑ r ∈ Finset.range m.nrank, ∑ i ∈ Finset.range (cnt r), (mass r).at i ^ 2) / ((m.nmesh.prod : ℕ) : ℝ) ^ 2 *
              ∏ j ∈ Finset.range m.nmesh.length, shotPower kind (m.nmesh.getD j 0) (k.getD j 0) := by
  have hP := hU.independent.isProbabilityMeasure
  choose dens h1 h2 using fun ω => painted_mode (pos := pos) hw hk hsup (hOK ω) (hU.count ω)
  refine ⟨dens, h1, fun rho hrho => ?_⟩
  obtain ⟨ω₀⟩ : Nonempty Ω := nonempty_of_isProbabilityMeasure P
  have hm : m.OK := (hOK ω₀).mesh
  have F : ∀ k, ValidIndex m.nmesh k → ∀ ω, _ := fun k hkv ω => h2 ω (rho ω) (hrho ω) k hkv
  have hV : (m.nmesh.map fun (n : ℕ) => ((n : ℝ)⁻¹)).prod = ((m.nmesh.prod : ℕ) : ℝ)⁻¹ := by
    generalize m.nmesh = l
    induction l with
    | nil => simp
    | cons a l ih => simp [ih, mul_comm]
  rw [hV] at F
  set V : ℝ := ((m.nmesh.prod : ℕ) : ℝ) with hVdef
  obtain ⟨a, ha⟩ : ∃ a : ((r : Fin m.nrank) × Fin (cnt r)) → ℝ, a = fun p => (mass p.1).at p.2 := ⟨_, rfl⟩
  obtain ⟨Φ, hΦ⟩ : ∃ Φ : List ℕ → ((r : Fin m.nrank) × Fin (cnt r)) → Ω → ℂ, Φ = fun k p ω => ∏ j : Fin m.box.length,
    axisAmp kind m k j (coordOf m.nrank cnt m.box.length pos (p, j) ω) := ⟨_, rfl⟩
  have F' : ∀ k, ValidIndex m.nmesh k → ∀ ω, r2c m.nmesh (rho ω) k = ((V⁻¹ : ℝ) : ℂ) * ∑ p, (a p : ℂ) * Φ k p ω := by
    intro k hkv ω
    rw [F k hkv ω, ha, hΦ]
  have sums : ∀ f : ℝ → ℝ, ∑ r ∈ Finset.range m.nrank, ∑ i ∈ Finset.range (cnt r), f ((mass r).at i) = ∑ p, f (a p) := by
    intro f
    rw [ha, Fintype.sum_sigma, Finset.sum_range]
    refine Finset.sum_congr rfl fun r _ => ?_
    rw [Finset.sum_range]
  have mΦ : ∀ k p, Measurable (Φ k p) := by
    intro k p
    rw [hΦ]
    exact Finset.measurable_fun_prod _ fun j _ => (axisAmp_measurable kind m k j).comp (catalog_measurable hU _)
  have bΦ : ∀ k p ω, ‖Φ k p ω‖ ≤ 1 := by
    intro k p ω
    rw [hΦ]
    exact prod_norm_le _ fun j => axisAmp_norm kind m k j _
  have hz : ValidIndex m.nmesh (m.nmesh.map fun _ => 0) := by
    rw [validIndex_iff]
    refine ⟨by simp, fun j hj => ?_⟩
    rw [List.getD_eq_getElem _ _ (by simpa using hj), List.getElem_map]
    exact hm.nmesh_pos hj
  have hind : iIndepFun (coordOf m.nrank cnt m.box.length pos) P := hU.independent
  have cross : ∀ k l, ValidIndex m.nmesh k → ValidIndex m.nmesh l → ∀ p q, p ≠ q → (k ≠ (m.nmesh.map fun _ => 0) ∨ l ≠ (m.nmesh.map fun _ => 0)) →
      ∫ ω, Φ k p ω * (starRingEnd ℂ) (Φ l q ω) ∂P = 0 := by
    intro k l hkv hlv p q hpq hne
    have h := mean_two hind (catalog_measurable hU) hpq (f := fun j => axisAmp kind m k j) (g := fun j y => (starRingEnd ℂ) (axisAmp kind m l j y))
      (fun j => axisAmp_measurable kind m k j) (fun j => Complex.continuous_conj.measurable.comp (axisAmp_measurable kind m l j))
    rw [hΦ]
    simp only [map_prod]
    rw [h]
    rcases hne with h0 | h0
    · rw [particle_mean hm hU hkv h0, zero_mul]
    · have : ∀ j : Fin m.box.length, ∫ ω, (starRingEnd ℂ) (axisAmp kind m l j (coordOf m.nrank cnt m.box.length pos (q, j) ω)) ∂P =
          (starRingEnd ℂ) (∫ ω, axisAmp kind m l j (coordOf m.nrank cnt m.box.length pos (q, j) ω) ∂P) := fun j => integral_conj
      simp only [this]
      rw [← map_prod, particle_mean hm hU hlv h0, map_zero, mul_zero]
  have diag : ∀ k l, ValidIndex m.nmesh k → ValidIndex m.nmesh l → ∀ p,
      ∫ ω, Φ k p ω * (starRingEnd ℂ) (Φ l p ω) ∂P = ∏ j : Fin m.box.length, if k.getD j 0 = l.getD j 0 then ((shotPower kind (m.nmesh.getD j 0) (k.getD j 0) : ℝ) : ℂ) else 0 := by
    intro k l hkv hlv p
    have h := mean_one hind (catalog_measurable hU) p (f := fun j y => axisAmp kind m k j y * (starRingEnd ℂ) (axisAmp kind m l j y))
      (fun j => (axisAmp_measurable kind m k j).mul (Complex.continuous_conj.measurable.comp (axisAmp_measurable kind m l j)))
    rw [hΦ]
    simp only [map_prod, ← Finset.prod_mul_distrib]
    rw [h]
    exact Finset.prod_congr rfl fun j _ => axis_power hm hU hkv hlv (p, j)
  have second : ∀ k l, ValidIndex m.nmesh k → ValidIndex m.nmesh l → ∫ ω, r2c m.nmesh (rho ω) k * (starRingEnd ℂ) (r2c m.nmesh (rho ω) l) ∂P =
      ((V⁻¹ : ℝ) : ℂ) ^ 2 * ∑ p, ∑ q, (a p : ℂ) * a q * ∫ ω, Φ k p ω * (starRingEnd ℂ) (Φ l q ω) ∂P := by
    intro k l hkv hlv
    rw [← second_moment a (mΦ k) (mΦ l) (bΦ k) (bΦ l), ← integral_const_mul]
    congr 1
    funext ω
    rw [F' k hkv, F' l hlv, map_mul, Complex.conj_ofReal]
    ring
  refine ⟨fun ω => ?_, fun k hkv => ⟨?_, ?_⟩, fun k hkv hk0 => ?_, fun k l hkv hlv hkl => ?_, fun k hkv hk0 => ?_⟩
  · rw [F' _ hz, sums fun x => x, hΦ]
    have : ∀ (j : Fin m.box.length) (y : ℝ), axisAmp kind m (m.nmesh.map fun _ => 0) j y = 1 := by
      intro j y
      unfold axisAmp
      have hj : (j : ℕ) < m.nmesh.length := by rw [← hm.box_len]; exact j.2
      rw [List.getD_eq_getElem (m.nmesh.map fun _ => 0) _ (by simpa using hj), List.getElem_map, modeQ_zero, waveAmp_one]
    simp only [this, Finset.prod_const_one, mul_one]
    rw [div_eq_inv_mul]
    push_cast
    rfl
  · simp only [F' k hkv]
    exact (Finset.measurable_fun_sum _ fun p _ => (mΦ k p).const_mul _).const_mul _
  · refine ⟨‖((V⁻¹ : ℝ) : ℂ)‖ * ∑ p, ‖(a p : ℂ)‖, fun ω => ?_⟩
    rw [F' k hkv, norm_mul]
    refine mul_le_mul_of_nonneg_left ((norm_sum_le _ _).trans (Finset.sum_le_sum fun p _ => ?_)) (norm_nonneg _)
    rw [norm_mul]
    exact mul_le_of_le_one_right (norm_nonneg _) (bΦ k p ω)
  · simp only [F' k hkv]
    rw [integral_const_mul, integral_finsetSum _ fun p _ => (integrable_bounded (mΦ k p) (bΦ k p)).const_mul _]
    rw [Finset.sum_eq_zero, mul_zero]
    intro p _
    rw [integral_const_mul, hΦ]
    have h := mean_one hind (catalog_measurable hU) p (f := fun j => axisAmp kind m k j) (fun j => axisAmp_measurable kind m k j)
    rw [h, particle_mean hm hU hkv hk0, mul_zero]
  · rw [second k l hkv hlv, Finset.sum_eq_zero, mul_zero]
    intro p _
    refine Finset.sum_eq_zero fun q _ => ?_
    by_cases hpq : p = q
    · subst hpq
      rw [diag k l hkv hlv]
      obtain ⟨j, hj, hne⟩ := exists_different hkv hlv hkl
      rw [Finset.prod_eq_zero (Finset.mem_univ (⟨j, by rw [hm.box_len]; exact hj⟩ : Fin m.box.length)) (if_neg hne), mul_zero]
    · rw [cross k l hkv hlv p q hpq, mul_zero]
      by_contra hno
      push Not at hno
      exact hkl (hno.1.trans hno.2.symm)
  · have h := second k k hkv hkv
    have e : ∀ ω, r2c m.nmesh (rho ω) k * (starRingEnd ℂ) (r2c m.nmesh (rho ω) k) = ((‖r2c m.nmesh (rho ω) k‖ ^ 2 : ℝ) : ℂ) := by
      intro ω
      rw [Complex.mul_conj, Complex.normSq_eq_norm_sq]
    simp only [e] at h
    rw [integral_complex_ofReal] at h
    have e2 : ∑ p, ∑ q, (a p : ℂ) * a q * ∫ ω, Φ k p ω * (starRingEnd ℂ) (Φ k q ω) ∂P =
        (((∑ p, a p ^ 2) * ∏ j ∈ Finset.range m.nmesh.length, shotPower kind (m.nmesh.getD j 0) (k.getD j 0) : ℝ) : ℂ) := by
      push_cast
      rw [Finset.sum_mul]
      refine Finset.sum_congr rfl fun p _ => ?_
      rw [Finset.sum_eq_single p]
      · rw [diag k k hkv hkv, ← hm.box_len, Finset.prod_range, sq]
        simp
      · intro q _ hqp
        rw [cross k k hkv hkv p q (Ne.symm hqp) (Or.inl hk0), mul_zero]
      · simp
    rw [e2, ← Complex.ofReal_pow, ← Complex.ofReal_mul] at h
    rw [Complex.ofReal_inj.1 h, sums fun x => x ^ 2]
    rw [inv_pow]
    ring

end

/-- The power of the window is between zero and one. -/
theorem C111_shot_power (t : Tuned) (n k : ℕ) : 0 < shotPower t n k ∧ shotPower t n k ≤ 1 := by
  unfold shotPower
  have h0 := sq_nonneg (Real.sin (Real.pi * k / n))
  have h1 := Real.sin_sq_le_one (Real.pi * k / n)
  generalize Real.sin (Real.pi * k / n) ^ 2 = s at h0 h1
  have h2 : 0 ≤ s * (1 - s) := mul_nonneg h0 (by linarith)
  have h3 : 0 ≤ s ^ 2 * (1 - s) := mul_nonneg (sq_nonneg _) (by linarith)
  have h4 : 0 ≤ s ^ 3 := pow_nonneg h0 3
  cases t <;> simp only <;> constructor <;> nlinarith

/-! ## Example: three random particles on two ranks -/

/-- All coordinates. -/
abbrev Draws (n : ℕ) (cnt : ℕ → ℕ) (d : ℕ) : Type := (((r : Fin n) × Fin (cnt r)) × Fin d) → ℝ

/-- The uniform measure on the coordinates of all particles. -/
noncomputable def drawsLaw (n : ℕ) (cnt : ℕ → ℕ) (box : List ℝ) : Measure (Draws n cnt box.length) :=
  Measure.pi fun x => ProbabilityTheory.cond volume (Set.Ico 0 (box.getD x.2 0))

/-- The particles with these coordinates. -/
noncomputable def drawsPos (n : ℕ) (cnt : ℕ → ℕ) (d : ℕ) (ω : Draws n cnt d) (r : ℕ) : List (List ℝ) :=
  if h : r < n then List.ofFn fun i : Fin (cnt r) => List.ofFn fun j => ω (⟨⟨r, h⟩, i⟩, j) else []

/-- Random particles exist for every number of ranks and particles. -/
theorem drawsPos_uniform (n : ℕ) (cnt : ℕ → ℕ) (box : List ℝ) (hb : ∀ b ∈ box, 0 < b) :
    UniformCatalog (drawsLaw n cnt box) n cnt box (drawsPos n cnt box.length) := by
  have hp : ∀ x : ((r : Fin n) × Fin (cnt r)) × Fin box.length, IsProbabilityMeasure (ProbabilityTheory.cond volume (Set.Ico 0 (box.getD x.2 0))) := by
    intro x
    have hL : 0 < box.getD x.2 0 := by
      rw [List.getD_eq_getElem _ _ x.2.2]
      exact hb _ (List.getElem_mem _)
    refine cond_isProbabilityMeasure_of_finite ?_ ?_ <;> rw [Real.volume_Ico]
    · simpa using hL
    · exact ENNReal.ofReal_ne_top
  have e : ∀ (r : ℕ) (hr : r < n) (i : ℕ) (hi : i < cnt r) (j : ℕ) (hj : j < box.length), (fun ω => ((drawsPos n cnt box.length ω r).getD i []).getD j 0) =
      fun ω => ω (⟨⟨r, hr⟩, ⟨i, hi⟩⟩, ⟨j, hj⟩) := by
    intro r hr i hi j hj
    funext ω
    unfold drawsPos
    rw [dif_pos hr, List.getD_eq_getElem _ ([] : List ℝ) (by simpa using hi), List.getElem_ofFn, List.getD_eq_getElem _ _ (by simpa using hj), List.getElem_ofFn]
  refine ⟨fun ω r hr => by simp [drawsPos, hr], fun r hr i hi j hj => ?_, fun r hr i hi j hj => ?_, ?_⟩
  · rw [e r hr i hi j hj]
    exact measurable_pi_apply _
  · rw [e r hr i hi j hj]
    exact (measurePreserving_eval _ _).map_eq
  · have h := iIndepFun_pi (μ := fun x : ((r : Fin n) × Fin (cnt r)) × Fin box.length => ProbabilityTheory.cond volume (Set.Ico 0 (box.getD x.2 0)))
      (X := fun _ y => y) (fun _ => aemeasurable_id)
    have e2 : (fun (x : ((r : Fin n) × Fin (cnt r)) × Fin box.length) ω => ((drawsPos n cnt box.length ω x.1.1).getD x.1.2 []).getD x.2 0) = fun x ω => ω x := by
      funext x
      exact e x.1.1 x.1.1.2 x.1.2 x.1.2.2 x.2 x.2.2
    rw [e2]
    exact h

theorem exShot_ok (ω : Draws 2 (fun r => if r = 0 then 2 else 1) 1) : (catalogRun exMeshR [1] (fun _ => .scalar 3) (drawsPos 2 (fun r => if r = 0 then 2 else 1) 1) ω).OK exWinR :=
  ⟨exMeshR_ok, exMeshR_plain, exMeshR_smoothing, exMeshR_halo, exWinR_covers, by
    intro r hr x hx
    change x ∈ drawsPos 2 (fun r => if r = 0 then 2 else 1) 1 ω r at hx
    unfold drawsPos at hx
    split_ifs at hx
    · obtain ⟨i, rfl⟩ := (List.mem_ofFn' _ _).1 hx
      simp [catalogRun, exMeshR]
    · simp at hx, Or.inr (Or.inl ⟨3, fun _ _ => rfl⟩)⟩

example := C111_shot_noise_partial exWinR_valid (kind := .cic) rfl (by simp [exWinR, linearK]) exShot_ok
  (drawsPos_uniform 2 (fun r => if r = 0 then 2 else 1) exMeshR.box (by simp [exMeshR]))

/-- In this example mode 1 has the power `27/64 (1 - 2/3 sin² (π/8))`. -/
example : ValidIndex exMeshR.nmesh [1] ∧ [1] ≠ (exMeshR.nmesh.map fun _ => 0) := by
  refine ⟨?_, by simp [exMeshR]⟩
  rw [validIndex_iff]
  simp [exMeshR]

#print axioms C111_shot_noise_partial
#print axioms C111_shot_power

end Pmesh
