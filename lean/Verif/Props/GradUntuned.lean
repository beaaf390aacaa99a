import Verif.Lemmas.GradUntuned
import Verif.Props.GradAccuracy

/-!
# C107 for the windows `quadratic` and `cubic` without tuned code, in any number of dimensions
-/

namespace Pmesh

section
variable {K : Type} [Field K] [LinearOrder K] [IsStrictOrderedRing K] [FloorRing K]

/-- **C107** (plain windows).  With the windows `quadratic` and `cubic` and `gradient=d` every particle reads, in any number of dimensions and on any
number of ranks, the derivative along axis `d` of the function that the field samples, up to `n^3/24 C (Σ_j h_j)^3 / h_d`, where `n` is the support of the
window (3 or 4), `h_j` the size of the cells, and `C` bounds the third derivatives.  In contrast to the tuned pcs window the cubic one has the right units.
Partial: the restrictions of `C24_readout_partial` on the decomposition. -/
theorem C107_plain_partial (m : PMesh K) (hm : m.OK) (hp : m.PlainRanks) (w : Resampler K) (hw : w.Valid)
    (hk : w.kern = quadraticK ∨ w.kern = cubicK) (ht : w.tuned = none)
    (hsup : w.support = w.kern.native) (sm : List K) (hsm : m.SmoothingOK sm) (hh : m.HaloFits sm) (hcov : ∀ s ∈ sm, w.Covers s 1)
    (pos : ℕ → List (List K)) (hpos : ∀ r < m.nrank, ∀ x ∈ pos r, x.length = m.nmesh.length) (φ : List K → K)
    (hper : BoxPeriodic m.box φ) (d : ℕ) (hd : d < m.nmesh.length) (field : ℕ → ℤ → K) (hf : m.Samples field φ) :
    ∃ res : ℕ → List K,
      AllReturn m.nrank (fun r => (pmDecompose m sm r (pos r)).andThen fun lay =>
        pmReadout m w (some d) r (some lay) (pos r) .none (field r)) (fun r => .ok (res r)) ∧
      ∀ r < m.nrank, (res r).length = (pos r).length ∧ ∀ i < (pos r).length, ∀ (g : List K) (H : ℕ → ℕ → K) (C : K), 0 ≤ C →
        Osculating φ g H C ((pos r).getD i []) →
        |(res r).getD i 0 - g.getD d 0| ≤ (w.support : K) ^ 3 / 24 * C * (∑ j ∈ Finset.range m.nmesh.length, m.cell j) ^ 3 / m.cell d := by
  obtain ⟨kind, hkind, hkk⟩ : ∃ kind : Tuned, (kind = .tsc ∨ kind = .pcs) ∧ w.kern = Tuned.kern kind := by
    rcases hk with h | h
    · exact ⟨.tsc, Or.inl rfl, h⟩
    · exact ⟨.pcs, Or.inr rfl, h⟩
  have h := readout_grad_all hm hp hw hsm hh hpos (some d) hcov field (fun g => φ (cellPosition m g)) hf (cStrides m.nmesh)
  refine ⟨_, h, fun r hr => ⟨by simp, fun i hi g H C hC hφ => ?_⟩⟩
  rw [List.getD_eq_getElem _ _ (by simpa using hi), List.getElem_map]
  rw [List.getD_eq_getElem _ _ hi] at hφ
  have hx := hpos r hr _ (List.getElem_mem hi)
  simp only [cellPosition_posZ]
  rw [grad_eq_untuned hm (cStrides m.nmesh) hkind hkk ht hsup hd hx (fun c => φ (posZ m c)) (fun c hc => posZ_periodic hm hper c hc)]
  have hb := grad_second_order hm (cStrides m.nmesh) (kind := kind) (by rcases hkind with rfl | rfl <;> decide) (by rcases hkind with rfl | rfl <;> decide)
    hd hx hC hφ
  obtain ⟨h1, h2, _⟩ := hm.scale_cell hd
  have hs : m.scale.getD d 0 = 1 / m.cell d := by rw [eq_div_iff h1.ne']; exact h2
  have hfac : tunedMissing kind (m.scale.getD d 0) * gradFactor kind (m.scale.getD d 0) = 1 / m.cell d := by
    rw [hs]
    rcases hkind with rfl | rfl <;> simp [tunedMissing, gradFactor]
  have hT : 0 ≤ tunedMissing kind (m.scale.getD d 0) := by
    rw [hs]
    rcases hkind with rfl | rfl
    · simp [tunedMissing]
    · simpa [tunedMissing] using h1.le
  have hb2 := mul_le_mul_of_nonneg_left hb hT
  rw [← abs_of_nonneg hT, ← abs_mul, abs_of_nonneg hT, mul_sub] at hb2
  rw [show tunedMissing kind (m.scale.getD d 0) * (gradFactor kind (m.scale.getD d 0) * m.cell d * g.getD d 0) = g.getD d 0 by
    rw [← mul_assoc, ← mul_assoc, hfac, one_div, inv_mul_cancel₀ h1.ne', one_mul]] at hb2
  refine hb2.trans (le_of_eq ?_)
  rw [hsup, hkk]
  rw [show ∀ a : K, tunedMissing kind (m.scale.getD d 0) * (a * (2 * gradFactor kind (m.scale.getD d 0))) =
    2 * a * (tunedMissing kind (m.scale.getD d 0) * gradFactor kind (m.scale.getD d 0)) from fun a => by ring, hfac]
  ring

end

/-! ### the hypotheses can be met: the window `cubic` and a wave on eight cells over two ranks -/

noncomputable def exCubicR : Resampler ℝ := ⟨cubicK, none, 4⟩

theorem exCubicR_valid : exCubicR.Valid := ⟨by simp [exCubicR, cubicK], by intro t ht; cases ht⟩

theorem exCubicR_covers : ∀ s ∈ ([2] : List ℝ), exCubicR.Covers s 1 := by
  intro e he
  rw [List.mem_singleton.1 he]
  refine Or.inr (Or.inr ?_)
  have : windowSize (⟨exCubicR.kern, exCubicR.tuned, exCubicR.support, []⟩ : Painter ℝ) 1 = ((4 : ℤ) : ℝ) := by
    simp [windowSize, exCubicR]
  rw [this, Int.ceil_intCast]
  norm_num

example := C107_plain_partial exMeshR exMeshR_ok exMeshR_plain exCubicR exCubicR_valid (Or.inr rfl) rfl rfl
  exWideRun.sm exWideRun_ok.smoothing exWideRun_ok.halo exCubicR_covers exWideRun.pos exWideRun_ok.pos _ exWave_periodic 0 (by simp [exMeshR])
  (exSamples _) (exSamples_ok _)

#print axioms C107_plain_partial

end Pmesh
