import Verif.Spec.ShotNoise
import Mathlib.Probability.Independence.Integration
import Mathlib.Analysis.Complex.Basic
import Mathlib.MeasureTheory.Integral.Bochner.ContinuousLinearMap

/-! # Moments of sums over independent particles -/

namespace Pmesh

open MeasureTheory ProbabilityTheory

section
variable {Ω ι δ : Type} [MeasurableSpace Ω] [Fintype ι] [Fintype δ] {P : Measure Ω} {X : ι × δ → Ω → ℝ}
  (hI : iIndepFun X P) (hX : ∀ x, Measurable (X x))
include hI hX

theorem mean_one (p : ι) {f : δ → ℝ → ℂ} (hf : ∀ j, Measurable (f j)) :
    ∫ ω, ∏ j, f j (X (p, j) ω) ∂P = ∏ j, ∫ ω, f j (X (p, j) ω) ∂P := by
  have h : iIndepFun (fun j => X (p, j)) P := hI.precomp (g := fun j => (p, j)) fun a b e => (Prod.mk.inj e).2
  exact h.integral_fun_prod_comp (fun j => (hX _).aemeasurable) fun j => (hf j).aestronglyMeasurable

theorem mean_two {p q : ι} (hpq : p ≠ q) {f g : δ → ℝ → ℂ} (hf : ∀ j, Measurable (f j)) (hg : ∀ j, Measurable (g j)) :
    ∫ ω, (∏ j, f j (X (p, j) ω)) * ∏ j, g j (X (q, j) ω) ∂P = (∏ j, ∫ ω, f j (X (p, j) ω) ∂P) * ∏ j, ∫ ω, g j (X (q, j) ω) ∂P := by
  let e : δ ⊕ δ → ι × δ := Sum.elim (fun j => (p, j)) fun j => (q, j)
  have he : Function.Injective e := by
    rintro (a | a) (b | b) h
    · exact congrArg _ (Prod.mk.inj h).2
    · exact absurd (Prod.mk.inj h).1 hpq
    · exact absurd (Prod.mk.inj h).1 hpq.symm
    · exact congrArg _ (Prod.mk.inj h).2
  have h : iIndepFun (fun j => X (e j)) P := hI.precomp (g := e) he
  have := h.integral_fun_prod_comp (f := Sum.elim f g) (fun j => (hX _).aemeasurable) (by
    rintro (j | j)
    · exact (hf j).aestronglyMeasurable
    · exact (hg j).aestronglyMeasurable)
  simpa only [Fintype.prod_sum_type, Sum.elim_inl, Sum.elim_inr, e] using this

end

section
variable {Ω : Type} [MeasurableSpace Ω] {P : Measure Ω} [IsProbabilityMeasure P]

theorem integrable_bounded {f : Ω → ℂ} (hf : Measurable f) (hb : ∀ ω, ‖f ω‖ ≤ 1) : Integrable f P :=
  Integrable.of_bound hf.aestronglyMeasurable 1 (Filter.Eventually.of_forall hb)

theorem prod_norm_le {δ : Type} [Fintype δ] (f : δ → ℂ) (h : ∀ j, ‖f j‖ ≤ 1) : ‖∏ j, f j‖ ≤ 1 := by
  rw [norm_prod]
  exact Finset.prod_le_one (fun _ _ => norm_nonneg _) fun j _ => h j

/-- Second moment of two sums over particles. -/
theorem second_moment {ι : Type} [Fintype ι] (a : ι → ℝ) {Φ Ψ : ι → Ω → ℂ} (hΦ : ∀ p, Measurable (Φ p)) (hΨ : ∀ p, Measurable (Ψ p))
    (bΦ : ∀ p ω, ‖Φ p ω‖ ≤ 1) (bΨ : ∀ p ω, ‖Ψ p ω‖ ≤ 1) :
    ∫ ω, (∑ p, (a p : ℂ) * Φ p ω) * (starRingEnd ℂ) (∑ p, (a p : ℂ) * Ψ p ω) ∂P =
      ∑ p, ∑ q, (a p : ℂ) * a q * ∫ ω, Φ p ω * (starRingEnd ℂ) (Ψ q ω) ∂P := by
  have e : ∀ ω, (∑ p, (a p : ℂ) * Φ p ω) * (starRingEnd ℂ) (∑ p, (a p : ℂ) * Ψ p ω) =
      ∑ p, ∑ q, (a p : ℂ) * a q * (Φ p ω * (starRingEnd ℂ) (Ψ q ω)) := by
    intro ω
    rw [map_sum, Finset.sum_mul_sum]
    refine Finset.sum_congr rfl fun p _ => Finset.sum_congr rfl fun q _ => ?_
    rw [map_mul, Complex.conj_ofReal]
    ring
  have hi : ∀ p q, Integrable (fun ω => (a p : ℂ) * a q * (Φ p ω * (starRingEnd ℂ) (Ψ q ω))) P := by
    intro p q
    refine Integrable.const_mul (integrable_bounded ((hΦ p).mul (Complex.continuous_conj.measurable.comp (hΨ q))) fun ω => ?_) _
    change ‖Φ p ω * (starRingEnd ℂ) (Ψ q ω)‖ ≤ 1
    rw [norm_mul, RCLike.norm_conj]
    exact mul_le_one₀ (bΦ p ω) (norm_nonneg _) (bΨ q ω)
  simp only [e]
  rw [integral_finsetSum _ fun p _ => integrable_finsetSum _ fun q _ => hi p q]
  refine Finset.sum_congr rfl fun p _ => ?_
  rw [integral_finsetSum _ fun q _ => hi p q]
  refine Finset.sum_congr rfl fun q _ => ?_
  rw [integral_const_mul]

end
end Pmesh
