import Mathlib.Probability.Distributions.Gaussian.HasGaussianLaw.Independence
import Mathlib.Probability.Distributions.Gaussian.CharFun
import Mathlib.Probability.Distributions.Gaussian.Real
import Mathlib.Probability.Moments.Covariance
import Mathlib.Probability.Moments.CovarianceBilinDual

/-! # Real parts of sums of independent normal modes -/

namespace Pmesh

open MeasureTheory ProbabilityTheory

variable {Ω : Type} [MeasurableSpace Ω] {P : Measure Ω}

/-- The real part of `u z`. -/
noncomputable def reMul (u : ℂ) : ℝ × ℝ →L[ℝ] ℝ := u.re • ContinuousLinearMap.fst ℝ ℝ ℝ - u.im • ContinuousLinearMap.snd ℝ ℝ ℝ

theorem reMul_apply (u : ℂ) (z : ℝ × ℝ) : reMul u z = u.re * z.1 - u.im * z.2 := by simp [reMul]

section
variable {ι : Type} [Fintype ι] {Z : ι → Ω → ℝ × ℝ} (hZ : iIndepFun Z P) (hG : ∀ i, HasGaussianLaw (Z i) P)

/-- A real combination of modes. -/
noncomputable def combine (Z : ι → Ω → ℝ × ℝ) (a : ι → ℂ) (ω : Ω) : ℝ := ∑ i, reMul (a i) (Z i ω)

include hG in
theorem term_gauss (i : ι) (u : ℂ) : HasGaussianLaw (fun ω => reMul u (Z i ω)) P := (hG i).map_fun _

include hZ hG in
theorem combine_joint {κ : Type} [Fintype κ] (a : κ → ι → ℂ) : HasGaussianLaw (fun ω j => combine Z (a j) ω) P := by
  have h := iIndepFun.hasGaussianLaw hG hZ
  let L : (ι → ℝ × ℝ) →L[ℝ] (κ → ℝ) := ContinuousLinearMap.pi fun j => ∑ i, (reMul (a j i)).comp (ContinuousLinearMap.proj i)
  have := h.map_fun L
  refine this.congr (Filter.Eventually.of_forall fun ω => ?_)
  funext j
  simp [L, combine]

include hZ hG in
theorem combine_cov (a b : ι → ℂ) :
    cov[combine Z a, combine Z b; P] = ∑ i, cov[fun ω => reMul (a i) (Z i ω), fun ω => reMul (b i) (Z i ω); P] := by
  have := hZ.isProbabilityMeasure
  unfold combine
  rw [covariance_fun_sum_fun_sum (fun i => (term_gauss hG i (a i)).memLp_two) (fun i => (term_gauss hG i (b i)).memLp_two)]
  apply Finset.sum_congr rfl
  intro i _
  rw [Finset.sum_eq_single i]
  · intro j _ hj
    have hij := hZ.indepFun hj.symm
    exact (hij.comp (φ := reMul (a i)) (ψ := reMul (b j)) (by fun_prop) (by fun_prop)).covariance_eq_zero
      (term_gauss hG i (a i)).memLp_two (term_gauss hG j (b j)).memLp_two
  · intro h; exact absurd (Finset.mem_univ i) h

include hZ hG in
theorem combine_mean (a : ι → ℂ) : ∫ ω, combine Z a ω ∂P = ∑ i, ∫ ω, reMul (a i) (Z i ω) ∂P := by
  unfold combine
  rw [integral_finsetSum]
  intro i _
  exact (term_gauss hG i (a i)).integrable

include hZ hG in
theorem combine_law {κ : Type} [Fintype κ] (a b : κ → ι → ℂ) (hm : ∀ j, ∫ ω, combine Z (a j) ω ∂P = ∫ ω, combine Z (b j) ω ∂P)
    (hc : ∀ i j, cov[combine Z (a i), combine Z (a j); P] = cov[combine Z (b i), combine Z (b j); P]) :
    P.map (fun ω j => combine Z (a j) ω) = P.map (fun ω j => combine Z (b j) ω) := by
  classical
  have := hZ.isProbabilityMeasure
  have key : ∀ c : κ → ι → ℂ, (∀ L : (κ → ℝ) →L[ℝ] ℝ, ∀ ω, L (fun j => combine Z (c j) ω) = ∑ j, combine Z (c j) ω * L (Pi.single j 1)) := by
    intro c L ω
    have e : (fun j => combine Z (c j) ω) = ∑ j, combine Z (c j) ω • (Pi.single j 1 : κ → ℝ) := by
      funext i
      simp [Finset.sum_apply, Pi.single_apply]
    rw [e, map_sum]
    simp
  have hga := combine_joint hZ hG a
  have hgb := combine_joint hZ hG b
  have ga := hga.isGaussian_map
  have gb := hgb.isGaussian_map
  have h2 : ∀ (c : ι → ℂ), MemLp (combine Z c) 2 P := by
    intro c
    have := (combine_joint hZ hG fun _ : Unit => c).eval ()
    exact this.memLp_two
  apply IsGaussian.ext_covarianceBilinDual
  · rw [integral_map hga.aemeasurable (by fun_prop), integral_map hgb.aemeasurable (by fun_prop)]
    funext j
    have ea := eval_integral (μ := P) (f := fun ω j => combine Z (a j) ω) (fun i => ((h2 (a i)).integrable (by norm_num))) j
    have eb := eval_integral (μ := P) (f := fun ω j => combine Z (b j) ω) (fun i => ((h2 (b i)).integrable (by norm_num))) j
    simp only [id]
    rw [ea, eb, hm]
  · ext L L'
    rw [covarianceBilinDual_eq_covariance IsGaussian.memLp_two_id, covarianceBilinDual_eq_covariance IsGaussian.memLp_two_id,
      covariance_map (by fun_prop) (by fun_prop) hga.aemeasurable, covariance_map (by fun_prop) (by fun_prop) hgb.aemeasurable]
    have e : ∀ (c : κ → ι → ℂ) (L : (κ → ℝ) →L[ℝ] ℝ), (L ∘ fun ω j => combine Z (c j) ω) = fun ω => ∑ j, combine Z (c j) ω * L (Pi.single j 1) :=
      fun c L => funext fun ω => key c L ω
    rw [e, e, e, e]
    rw [covariance_fun_sum_fun_sum (fun i => (h2 (a i)).mul_const _) (fun i => (h2 (a i)).mul_const _),
      covariance_fun_sum_fun_sum (fun i => (h2 (b i)).mul_const _) (fun i => (h2 (b i)).mul_const _)]
    apply Finset.sum_congr rfl
    intro i _
    apply Finset.sum_congr rfl
    intro j _
    rw [covariance_mul_const_left, covariance_mul_const_right, covariance_mul_const_left, covariance_mul_const_right, hc]

end

/-! ### one mode -/

theorem pair_cov {Z : Ω → ℝ × ℝ} (hZ : AEMeasurable Z P) (h : P.map Z = (gaussianReal 0 (1 / 2)).prod (gaussianReal 0 (1 / 2))) (u v : ℂ) :
    cov[fun ω => reMul u (Z ω), fun ω => reMul v (Z ω); P] = 1 / 2 * (u.re * v.re + u.im * v.im) ∧ ∫ ω, reMul u (Z ω) ∂P = 0 := by
  have e : cov[fun ω => reMul u (Z ω), fun ω => reMul v (Z ω); P] = cov[fun z => reMul u z, fun z => reMul v z; P.map Z] :=
    (covariance_map_fun (by fun_prop) (by fun_prop) hZ).symm
  have e2 : ∫ ω, reMul u (Z ω) ∂P = ∫ z, reMul u z ∂(P.map Z) := (integral_map hZ (by fun_prop)).symm
  rw [e, e2, h]
  set γ := gaussianReal 0 (1 / 2)
  have m2 : MemLp id 2 γ := IsGaussian.memLp_two_id
  have p1 : MemLp (fun z : ℝ × ℝ => z.1) 2 (γ.prod γ) := m2.comp_fst γ
  have p2 : MemLp (fun z : ℝ × ℝ => z.2) 2 (γ.prod γ) := m2.comp_snd γ
  have i1 : ∫ z : ℝ × ℝ, z.1 ∂(γ.prod γ) = 0 := by
    have := integral_prod_mul (μ := γ) (ν := γ) (fun x : ℝ => x) (fun _ => (1 : ℝ))
    simp only [mul_one] at this
    rw [this, integral_id_gaussianReal, zero_mul]
  have i2 : ∫ z : ℝ × ℝ, z.2 ∂(γ.prod γ) = 0 := by
    have := integral_prod_mul (μ := γ) (ν := γ) (fun _ : ℝ => (1 : ℝ)) (fun x => x)
    simp only [one_mul] at this
    rw [this, integral_id_gaussianReal, mul_zero]
  have hsq : ∫ x, x * x ∂γ = 1 / 2 := by
    have hv := variance_id_gaussianReal (μ := 0) (v := 1 / 2)
    rw [variance_eq_integral (by fun_prop)] at hv
    simp only [id, integral_id_gaussianReal, sub_zero] at hv
    simp only [← sq]
    rw [hv]
    norm_num
  have c11 : ∫ z : ℝ × ℝ, z.1 * z.1 ∂(γ.prod γ) = 1 / 2 := by
    have := integral_prod_mul (μ := γ) (ν := γ) (fun x : ℝ => x * x) (fun _ => (1 : ℝ))
    simp only [mul_one] at this
    rw [this, hsq]
    simp
  have c22 : ∫ z : ℝ × ℝ, z.2 * z.2 ∂(γ.prod γ) = 1 / 2 := by
    have := integral_prod_mul (μ := γ) (ν := γ) (fun _ : ℝ => (1 : ℝ)) (fun x => x * x)
    simp only [one_mul] at this
    rw [this, hsq]
    simp
  have c12 : ∫ z : ℝ × ℝ, z.1 * z.2 ∂(γ.prod γ) = 0 := by
    have := integral_prod_mul (μ := γ) (ν := γ) (fun x : ℝ => x) (fun x => x)
    rw [this, integral_id_gaussianReal, zero_mul]
  have hi : ∀ u : ℂ, ∫ z, reMul u z ∂(γ.prod γ) = 0 := by
    intro u
    simp only [reMul_apply]
    rw [integral_sub ((p1.integrable (by norm_num)).const_mul _) ((p2.integrable (by norm_num)).const_mul _), integral_const_mul, integral_const_mul,
      i1, i2]
    simp
  refine ⟨?_, hi u⟩
  have q11 : Integrable (fun z : ℝ × ℝ => z.1 * z.1) (γ.prod γ) := p1.integrable_mul p1
  have q22 : Integrable (fun z : ℝ × ℝ => z.2 * z.2) (γ.prod γ) := p2.integrable_mul p2
  have q12 : Integrable (fun z : ℝ × ℝ => z.1 * z.2) (γ.prod γ) := p1.integrable_mul p2
  unfold covariance
  rw [hi u, hi v]
  simp only [sub_zero, reMul_apply]
  have e3 : (fun z : ℝ × ℝ => (u.re * z.1 - u.im * z.2) * (v.re * z.1 - v.im * z.2)) = fun z =>
      (u.re * v.re * (z.1 * z.1) + u.im * v.im * (z.2 * z.2)) - (u.re * v.im + u.im * v.re) * (z.1 * z.2) := by
    funext z; ring
  have e4 := integral_sub (f := fun z : ℝ × ℝ => u.re * v.re * (z.1 * z.1) + u.im * v.im * (z.2 * z.2))
    ((q11.const_mul (u.re * v.re)).add (q22.const_mul (u.im * v.im))) (q12.const_mul (u.re * v.im + u.im * v.re))
  rw [e3, e4, integral_add (q11.const_mul _) (q22.const_mul _),
    integral_const_mul, integral_const_mul, integral_const_mul, c11, c22, c12]
  ring

theorem real_cov {X : Ω → ℝ} (hX : AEMeasurable X P) (h : P.map X = gaussianReal 0 (1 / 2)) (u v : ℂ) :
    cov[fun ω => reMul u (X ω, 0), fun ω => reMul v (X ω, 0); P] = 1 / 2 * (u.re * v.re) ∧ ∫ ω, reMul u (X ω, 0) ∂P = 0 := by
  simp only [reMul_apply, mul_zero, sub_zero]
  have i1 : ∫ ω, X ω ∂P = 0 := by
    have := integral_map hX (f := fun x : ℝ => x) (by fun_prop)
    rw [h, integral_id_gaussianReal] at this
    exact this.symm
  rw [covariance_const_mul_left, covariance_const_mul_right, covariance_self hX, integral_const_mul, i1]
  have hv := variance_id_gaussianReal (μ := 0) (v := 1 / 2)
  rw [← h, variance_map (by fun_prop) hX] at hv
  simp only [Function.id_comp] at hv
  rw [hv]
  norm_num
  ring

end Pmesh
