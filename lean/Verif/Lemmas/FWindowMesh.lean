import Verif.Lemmas.FWindowAxis
import Verif.Lemmas.Paint

/-! # The average over shifts on a mesh with several axes -/

set_option linter.unusedSectionVars false

namespace Pmesh

open Complex MeasureTheory intervalIntegral

/-- `Π_d f_d(u_d)` -/
noncomputable def prodAt : List (ℝ → ℂ) → List ℝ → ℂ
  | f :: fs, u :: us => f u * prodAt fs us
  | _, _ => 1

theorem shiftAverage_congr (n : ℕ) {f g : List ℝ → ℂ} (h : ∀ us, us.length = n → f us = g us) : shiftAverage n f = shiftAverage n g := by
  induction n generalizing f g with
  | zero => exact h [] rfl
  | succ n ih =>
    simp only [shiftAverage]
    congr 1
    funext u
    exact ih fun us hus => h (u :: us) (by simp [hus])

theorem intervalIntegrable_list_sum {J : Type} (js : List J) (f : J → ℝ → ℂ) (h : ∀ j ∈ js, IntervalIntegrable (f j) volume 0 1) :
    IntervalIntegrable (fun u => (js.map fun j => f j u).sum) volume 0 1 ∧
      ∫ u in (0 : ℝ)..1, (js.map fun j => f j u).sum = (js.map fun j => ∫ u in (0 : ℝ)..1, f j u).sum := by
  induction js with
  | nil => simp
  | cons j js ih =>
    obtain ⟨h1, h2⟩ := ih fun j hj => h j (List.mem_cons_of_mem _ hj)
    have h0 := h j (List.mem_cons_self ..)
    simp only [List.map_cons, List.sum_cons]
    exact ⟨h0.add h1, by rw [integral_add h0 h1, h2]⟩

theorem shiftAverage_prod {J : Type} (n : ℕ) (js : List J) (c : J → ℂ) (fs : J → List (ℝ → ℂ)) (hl : ∀ j ∈ js, (fs j).length = n)
    (hi : ∀ j ∈ js, ∀ f ∈ fs j, IntervalIntegrable f volume 0 1) :
    shiftAverage n (fun us => (js.map fun j => c j * prodAt (fs j) us).sum) =
      (js.map fun j => c j * ((fs j).map fun f => ∫ u in (0 : ℝ)..1, f u).prod).sum := by
  induction n generalizing c fs with
  | zero =>
    simp only [shiftAverage]
    congr 1
    apply List.map_congr_left
    intro j hj
    rw [List.length_eq_zero_iff.1 (hl j hj)]
    simp [prodAt]
  | succ n ih =>
    simp only [shiftAverage]
    have hcons : ∀ j ∈ js, ∃ f rest, fs j = f :: rest := fun j hj => List.exists_cons_of_length_eq_add_one (hl j hj)
    have h1 : ∀ u : ℝ, shiftAverage n (fun us => (js.map fun j => c j * prodAt (fs j) (u :: us)).sum) =
        (js.map fun j => c j * (fs j).headD 0 u * (((fs j).tail).map fun f => ∫ u in (0 : ℝ)..1, f u).prod).sum := by
      intro u
      rw [← ih (fun j => c j * (fs j).headD 0 u) (fun j => (fs j).tail)]
      · apply shiftAverage_congr
        intro us _
        congr 1
        apply List.map_congr_left
        intro j hj
        obtain ⟨f, rest, e⟩ := hcons j hj
        simp only [e, prodAt, List.headD_cons, List.tail_cons]
        ring
      · intro j hj
        rw [List.length_tail, hl j hj]; rfl
      · intro j hj f hf
        exact hi j hj f (List.mem_of_mem_tail hf)
    simp only [h1]
    rw [(intervalIntegrable_list_sum js (fun j u => c j * (fs j).headD 0 u * (((fs j).tail).map fun f => ∫ u in (0 : ℝ)..1, f u).prod) ?_).2]
    · congr 1
      apply List.map_congr_left
      intro j hj
      obtain ⟨f, rest, e⟩ := hcons j hj
      simp only [e, List.headD_cons, List.tail_cons, List.map_cons, List.prod_cons]
      rw [intervalIntegral.integral_mul_const, intervalIntegral.integral_const_mul]
      ring
    · intro j hj
      obtain ⟨f, rest, e⟩ := hcons j hj
      have := hi j hj f (by rw [e]; exact List.mem_cons_self ..)
      simp only [e, List.headD_cons, List.tail_cons]
      exact (this.const_mul _).mul_const _

/-- The spectrum of one particle along one axis, with the phase of the shift `u` undone. -/
noncomputable def axisMode (t : Tuned) (s : ℝ) (N k : ℕ) (κ : ℤ) (g u : ℝ) : ℂ :=
  ((List.range N).map fun (c : ℕ) => ((∑ᶠ n : ℤ, if IsCell N n c then windowAt (Tuned.kern t) s 0 1 (g + u - n) else 0 : ℝ) : ℂ) *
    exp (-(2 * Real.pi * I * (k * c / N : ℝ)))).sum * exp (I * (2 * Real.pi * κ / N : ℝ) * u)

/-- The functions of the shift along the axes. -/
noncomputable def axisModes (t : Tuned) (s : ℝ) : List (PAxis ℝ) → List ℕ → List ℤ → List ℝ → List (ℝ → ℂ)
  | ax :: axs, k :: ks, κ :: κs, x :: xs => axisMode t s ax.size k κ (x * ax.scale + ax.translate) :: axisModes t s axs ks κs xs
  | _, _, _, _ => []

/-- The axes with the grid shifted by `us`. -/
def shiftAxes (axes : List (PAxis ℝ)) (us : List ℝ) : List (PAxis ℝ) :=
  List.zipWith (fun ax u => { ax with translate := ax.translate + u }) axes us

theorem windowAt_scale (k : Kern ℝ) (s scale scale' x : ℝ) : windowAt k s 0 scale x = windowAt k s 0 scale' x := by
  simp [windowAt]

theorem axisModes_length (t : Tuned) (s : ℝ) : ∀ (axes : List (PAxis ℝ)) (ks : List ℕ) (κs : List ℤ) (xs : List ℝ),
    ks.length = axes.length → κs.length = axes.length → xs.length = axes.length → (axisModes t s axes ks κs xs).length = axes.length
  | [], _, _, _, _, _, _ => by simp [axisModes]
  | ax :: axs, k :: ks, κ :: κs, x :: xs, h1, h2, h3 => by
    simp only [axisModes, List.length_cons]
    rw [axisModes_length t s axs ks κs xs (by simpa using h1) (by simpa using h2) (by simpa using h3)]

/-- The spectrum of the cell weights of a particle on the shifted grid factors into the axes. -/
theorem cellWeight_mode (t : Tuned) (s : ℝ) : ∀ (axes : List (PAxis ℝ)) (ks : List ℕ) (κs : List ℤ) (xs us : List ℝ),
    (∀ ax ∈ axes, ax.order = 0 ∧ ax.period = ax.size) →
    ks.length = axes.length → κs.length = axes.length → xs.length = axes.length → us.length = axes.length →
    ((ndindex (shapeOf axes)).map fun c => ((cellWeight (Tuned.kern t) s (shiftAxes axes us) xs c : ℝ) : ℂ) *
      exp (-(2 * Real.pi * I * phaseArg (shapeOf axes) ks c))).sum * exp (I * dotList (circularFreq κs (shapeOf axes)) us) =
    prodAt (axisModes t s axes ks κs xs) us
  | [], ks, κs, xs, us, _, h1, h2, h3, h4 => by
    cases us <;> simp [ndindex, shapeOf, cellWeight, phaseArg, dotList, circularFreq, axisModes, prodAt, shiftAxes]
  | ax :: axs, k :: ks, κ :: κs, x :: xs, u :: us, hax, h1, h2, h3, h4 => by
    have ih := cellWeight_mode t s axs ks κs xs us (fun a ha => hax a (List.mem_cons_of_mem _ ha)) (by simpa using h1) (by simpa using h2)
      (by simpa using h3) (by simpa using h4)
    obtain ⟨ho, hp⟩ := hax ax (List.mem_cons_self ..)
    have hsh : shapeOf (ax :: axs) = ax.size :: shapeOf axs := rfl
    have hsa : shiftAxes (ax :: axs) (u :: us) = { ax with translate := ax.translate + u } :: shiftAxes axs us := rfl
    rw [hsh, sum_ndindex_cons', hsa]
    simp only [axisModes, prodAt]
    rw [← ih]
    have e1 : dotList (circularFreq (κ :: κs) (ax.size :: shapeOf axs)) (u :: us) =
        2 * Real.pi * κ / ax.size * u + dotList (circularFreq κs (shapeOf axs)) us := by
      simp [dotList, circularFreq]
    rw [e1, ofReal_add, mul_add, exp_add]
    unfold axisMode
    have e2 : ∀ a : ℕ, ((ndindex (shapeOf axs)).map fun c =>
        ((cellWeight (Tuned.kern t) s ({ ax with translate := ax.translate + u } :: shiftAxes axs us) (x :: xs) (a :: c) : ℝ) : ℂ) *
          exp (-(2 * Real.pi * I * phaseArg (ax.size :: shapeOf axs) (k :: ks) (a :: c)))).sum =
        ((∑ᶠ n : ℤ, if IsCell ax.size n a then windowAt (Tuned.kern t) s 0 1 (x * ax.scale + ax.translate + u - n) else 0 : ℝ) : ℂ) *
          exp (-(2 * Real.pi * I * (k * a / ax.size : ℝ))) *
        ((ndindex (shapeOf axs)).map fun c => ((cellWeight (Tuned.kern t) s (shiftAxes axs us) xs c : ℝ) : ℂ) *
          exp (-(2 * Real.pi * I * phaseArg (shapeOf axs) ks c))).sum := by
      intro a
      rw [← sum_cmul]
      congr 1
      apply List.map_congr_left
      intro c _
      simp only [cellWeight, axisWeight, phaseArg, ho, hp]
      have e3 : ∀ n : ℤ, windowAt (Tuned.kern t) s 0 ax.scale (x * ax.scale + (ax.translate + u) - n) =
          windowAt (Tuned.kern t) s 0 1 (x * ax.scale + ax.translate + u - n) := by
        intro n
        rw [windowAt_scale _ _ ax.scale 1]
        congr 1
        ring
      simp only [e3]
      rw [ofReal_mul, ofReal_add, mul_add, neg_add, exp_add]
      ring
    simp only [e2]
    rw [sum_mulc]
    rw [show (2 * Real.pi * κ / ax.size * u : ℝ) = (2 * Real.pi * κ / ax.size : ℝ) * u from rfl, ofReal_mul, ← mul_assoc I]
    ring

end Pmesh
