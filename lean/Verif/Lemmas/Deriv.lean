import Verif.Lemmas.Paint
import Verif.Spec.Deriv
import Mathlib.Analysis.Calculus.Deriv.Pow
import Mathlib.Analysis.Calculus.Deriv.Comp
import Mathlib.Analysis.Calculus.Deriv.Add
import Mathlib.Analysis.Calculus.Deriv.Mul
import Mathlib.Data.Int.Interval

set_option linter.unusedSectionVars false

namespace Pmesh

open Filter Topology

/-! ### truncated powers -/

theorem hasDerivAt_pos_pow (n : ℕ) (x : ℝ) :
    HasDerivAt (fun y : ℝ => (max y 0) ^ (n + 2)) ((n + 2) * (max x 0) ^ (n + 1)) x := by
  have hL : HasDerivWithinAt (fun y : ℝ => (max y 0) ^ (n + 2)) 0 (Set.Iic 0) (min x 0) := by
    apply (hasDerivWithinAt_const (min x 0) (Set.Iic (0 : ℝ)) (0 : ℝ)).congr
    · intro y hy; rw [max_eq_right hy]; simp
    · rw [max_eq_right (min_le_right x 0)]; simp
  rcases lt_trichotomy x 0 with h | h | h
  · rw [max_eq_right h.le]
    have : HasDerivAt (fun _ : ℝ => (0 : ℝ)) 0 x := hasDerivAt_const x 0
    refine (this.congr_of_eventuallyEq ?_).congr_deriv (by simp)
    filter_upwards [Iio_mem_nhds h] with y hy
    rw [max_eq_right (le_of_lt hy)]; simp
  · subst h
    rw [← hasDerivWithinAt_univ, ← Set.Iic_union_Ici (a := (0 : ℝ))]
    apply HasDerivWithinAt.union
    · simpa using hL
    · have := (hasDerivAt_pow (n + 2) (0 : ℝ)).hasDerivWithinAt (s := Set.Ici (0 : ℝ))
      refine (this.congr ?_ ?_).congr_deriv (by simp)
      · intro y hy; rw [max_eq_left hy]
      · simp
  · have := hasDerivAt_pow (n + 2) x
    rw [max_eq_left h.le]
    refine (this.congr_of_eventuallyEq ?_).congr_deriv (by push_cast; simp)
    filter_upwards [Ioi_mem_nhds h] with y hy
    rw [max_eq_left (le_of_lt hy)]

theorem hasDerivAt_pos_pow_shift (n : ℕ) (a x : ℝ) :
    HasDerivAt (fun y : ℝ => (max (y + a) 0) ^ (n + 2)) ((n + 2) * (max (x + a) 0) ^ (n + 1)) x := by
  have := (hasDerivAt_pos_pow n (x + a)).comp x ((hasDerivAt_id x).add_const a)
  simpa [Function.comp_def] using this

theorem quadratic_trunc (x : ℝ) : quadraticKernel x =
    1 / 2 * (max (x + 3 / 2) 0 ^ 2 - 3 * max (x + 1 / 2) 0 ^ 2 + 3 * max (x + (-1 / 2)) 0 ^ 2 - max (x + (-3 / 2)) 0 ^ 2) := by
  unfold quadraticKernel
  simp only
  rcases lt_or_ge x (-3 / 2) with h1 | h1
  · rw [abs_of_neg (by linarith), if_neg (by linarith), if_neg (by linarith), max_eq_right (by linarith),
      max_eq_right (by linarith), max_eq_right (by linarith), max_eq_right (by linarith)]; ring
  rcases lt_or_ge x (-1 / 2) with h2 | h2
  · rw [abs_of_neg (by linarith), if_neg (by linarith), max_eq_left (by linarith),
      max_eq_right (by linarith), max_eq_right (by linarith), max_eq_right (by linarith)]
    split
    · ring
    · have : x = -3 / 2 := by linarith
      subst this; norm_num
  rcases le_or_gt x (1 / 2) with h3 | h3
  · rw [if_pos (abs_le.mpr ⟨by linarith, by linarith⟩), abs_mul_abs_self, max_eq_left (by linarith),
      max_eq_left (by linarith), max_eq_right (by linarith), max_eq_right (by linarith)]; ring
  rcases lt_or_ge x (3 / 2) with h4 | h4
  · rw [abs_of_pos (by linarith), if_neg (by linarith), if_pos h4, max_eq_left (by linarith),
      max_eq_left (by linarith), max_eq_left (by linarith), max_eq_right (by linarith)]; ring
  · rw [abs_of_pos (by linarith), if_neg (by linarith), if_neg (by linarith), max_eq_left (by linarith),
      max_eq_left (by linarith), max_eq_left (by linarith), max_eq_left (by linarith)]; ring

theorem quadraticDiff_trunc (x : ℝ) : quadraticDiff x =
    max (x + 3 / 2) 0 - 3 * max (x + 1 / 2) 0 + 3 * max (x + (-1 / 2)) 0 - max (x + (-3 / 2)) 0 := by
  unfold quadraticDiff
  rcases lt_or_ge x 0 with h0 | h0
  · rw [if_pos h0]
    simp only
    rcases lt_or_ge x (-3 / 2) with h1 | h1
    · rw [if_neg (by linarith), if_neg (by linarith), max_eq_right (by linarith),
        max_eq_right (by linarith), max_eq_right (by linarith), max_eq_right (by linarith)]; ring
    rcases lt_or_ge x (-1 / 2) with h2 | h2
    · rw [if_neg (by linarith), max_eq_left (by linarith),
        max_eq_right (by linarith), max_eq_right (by linarith), max_eq_right (by linarith)]
      split
      · ring
      · have : x = -3 / 2 := by linarith
        subst this; norm_num
    · rw [if_pos (by linarith), max_eq_left (by linarith),
        max_eq_left (by linarith), max_eq_right (by linarith), max_eq_right (by linarith)]; ring
  · rw [if_neg (show ¬ x < 0 by linarith)]
    simp only
    rcases le_or_gt x (1 / 2) with h3 | h3
    · rw [if_pos h3, max_eq_left (by linarith),
        max_eq_left (by linarith), max_eq_right (by linarith), max_eq_right (by linarith)]; ring
    rcases lt_or_ge x (3 / 2) with h4 | h4
    · rw [if_neg (by linarith), if_pos h4, max_eq_left (by linarith),
        max_eq_left (by linarith), max_eq_left (by linarith), max_eq_right (by linarith)]; ring
    · rw [if_neg (by linarith), if_neg (by linarith), max_eq_left (by linarith),
        max_eq_left (by linarith), max_eq_left (by linarith), max_eq_left (by linarith)]; ring

theorem cubic_trunc (x : ℝ) : cubicKernel x =
    1 / 6 * (max (x + 2) 0 ^ 3 - 4 * max (x + 1) 0 ^ 3 + 6 * max (x + 0) 0 ^ 3 - 4 * max (x + (-1)) 0 ^ 3 +
      max (x + (-2)) 0 ^ 3) := by
  unfold cubicKernel
  simp only
  rcases lt_or_ge x (-2) with h1 | h1
  · rw [abs_of_neg (by linarith), if_neg (by linarith), if_neg (by linarith), max_eq_right (by linarith),
      max_eq_right (by linarith), max_eq_right (by linarith), max_eq_right (by linarith), max_eq_right (by linarith)]; ring
  rcases le_or_gt x (-1) with h2 | h2
  · rw [abs_of_neg (by linarith), if_neg (by linarith), max_eq_left (by linarith),
      max_eq_right (by linarith), max_eq_right (by linarith), max_eq_right (by linarith), max_eq_right (by linarith)]
    split
    · ring
    · have : x = -2 := by linarith
      subst this; norm_num
  rcases lt_or_ge x 0 with h3 | h3
  · rw [abs_of_neg h3, if_pos (by linarith), max_eq_left (by linarith),
      max_eq_left (by linarith), max_eq_right (by linarith), max_eq_right (by linarith), max_eq_right (by linarith)]; ring
  rcases lt_or_ge x 1 with h4 | h4
  · rw [abs_of_nonneg h3, if_pos h4, max_eq_left (by linarith),
      max_eq_left (by linarith), max_eq_left (by linarith), max_eq_right (by linarith), max_eq_right (by linarith)]; ring
  rcases lt_or_ge x 2 with h5 | h5
  · rw [abs_of_nonneg h3, if_neg (by linarith), if_pos h5, max_eq_left (by linarith),
      max_eq_left (by linarith), max_eq_left (by linarith), max_eq_left (by linarith), max_eq_right (by linarith)]; ring
  · rw [abs_of_nonneg h3, if_neg (by linarith), if_neg (by linarith), max_eq_left (by linarith),
      max_eq_left (by linarith), max_eq_left (by linarith), max_eq_left (by linarith), max_eq_left (by linarith)]; ring

theorem cubicDiff_trunc (x : ℝ) : cubicDiff x =
    1 / 2 * (max (x + 2) 0 ^ 2 - 4 * max (x + 1) 0 ^ 2 + 6 * max (x + 0) 0 ^ 2 - 4 * max (x + (-1)) 0 ^ 2 +
      max (x + (-2)) 0 ^ 2) := by
  unfold cubicDiff
  rcases lt_or_ge x 0 with h0 | h0
  · rw [if_pos h0]
    simp only
    rcases lt_or_ge x (-2) with h1 | h1
    · rw [if_neg (by linarith), if_neg (by linarith), max_eq_right (by linarith),
        max_eq_right (by linarith), max_eq_right (by linarith), max_eq_right (by linarith), max_eq_right (by linarith)]; ring
    rcases le_or_gt x (-1) with h2 | h2
    · rw [if_neg (by linarith), max_eq_left (by linarith),
        max_eq_right (by linarith), max_eq_right (by linarith), max_eq_right (by linarith), max_eq_right (by linarith)]
      split
      · ring
      · have : x = -2 := by linarith
        subst this; norm_num
    · rw [if_pos (by linarith), max_eq_left (by linarith),
        max_eq_left (by linarith), max_eq_right (by linarith), max_eq_right (by linarith), max_eq_right (by linarith)]; ring
  · rw [if_neg (show ¬ x < 0 by linarith)]
    simp only
    rcases lt_or_ge x 1 with h4 | h4
    · rw [if_pos h4, max_eq_left (by linarith),
        max_eq_left (by linarith), max_eq_left (by linarith), max_eq_right (by linarith), max_eq_right (by linarith)]; ring
    rcases lt_or_ge x 2 with h5 | h5
    · rw [if_neg (by linarith), if_pos h5, max_eq_left (by linarith),
        max_eq_left (by linarith), max_eq_left (by linarith), max_eq_left (by linarith), max_eq_right (by linarith)]; ring
    · rw [if_neg (by linarith), if_neg (by linarith), max_eq_left (by linarith),
        max_eq_left (by linarith), max_eq_left (by linarith), max_eq_left (by linarith), max_eq_left (by linarith)]; ring

theorem quadratic_hasDerivAt (x : ℝ) : HasDerivAt (quadraticKernel : ℝ → ℝ) (quadraticDiff x) x := by
  have h := ((((hasDerivAt_pos_pow_shift 0 (3 / 2) x).sub ((hasDerivAt_pos_pow_shift 0 (1 / 2) x).const_mul 3)).add
    ((hasDerivAt_pos_pow_shift 0 (-1 / 2) x).const_mul 3)).sub (hasDerivAt_pos_pow_shift 0 (-3 / 2) x)).const_mul (1 / 2)
  refine (h.congr_of_eventuallyEq ?_).congr_deriv ?_
  · filter_upwards with y
    rw [quadratic_trunc]; rfl
  · rw [quadraticDiff_trunc]; push_cast; ring

theorem cubic_hasDerivAt (x : ℝ) : HasDerivAt (cubicKernel : ℝ → ℝ) (cubicDiff x) x := by
  have h := (((((hasDerivAt_pos_pow_shift 1 2 x).sub ((hasDerivAt_pos_pow_shift 1 1 x).const_mul 4)).add
    ((hasDerivAt_pos_pow_shift 1 0 x).const_mul 6)).sub ((hasDerivAt_pos_pow_shift 1 (-1) x).const_mul 4)).add
    (hasDerivAt_pos_pow_shift 1 (-2) x)).const_mul (1 / 6)
  refine (h.congr_of_eventuallyEq ?_).congr_deriv ?_
  · filter_upwards with y
    rw [cubic_trunc]; rfl
  · rw [cubicDiff_trunc]; push_cast; ring

theorem linear_hasDerivAt (x : ℝ) (h1 : x ≠ -1) (h2 : x ≠ 0) (h3 : x ≠ 1) :
    HasDerivAt (linearKernel : ℝ → ℝ) (linearDiff x) x := by
  rcases lt_or_gt_of_ne h1 with h | h
  · have e : linearDiff x = 0 := by
      unfold linearDiff; rw [if_pos (show x < 0 by linarith)]; simp only; rw [if_neg (by linarith)]
    rw [e]
    refine (hasDerivAt_const x (0 : ℝ)).congr_of_eventuallyEq ?_
    filter_upwards [Iio_mem_nhds h] with y hy
    rw [Set.mem_Iio] at hy
    unfold linearKernel; rw [abs_of_neg (by linarith), if_neg (by linarith)]
  rcases lt_or_gt_of_ne h2 with h' | h'
  · have e : linearDiff x = 1 := by
      unfold linearDiff; rw [if_pos (show x < 0 by linarith)]; simp only; rw [if_pos (by linarith)]
    rw [e]
    refine ((hasDerivAt_id x).const_add 1).congr_of_eventuallyEq ?_
    filter_upwards [Ioo_mem_nhds h h'] with y hy
    unfold linearKernel; rw [abs_of_neg hy.2, if_pos (by linarith [hy.1])]; simp
  rcases lt_or_gt_of_ne h3 with h'' | h''
  · have e : linearDiff x = -1 := by
      unfold linearDiff; rw [if_neg (show ¬ x < 0 by linarith), if_pos (show x > 0 by linarith)]; simp only; rw [if_pos (by linarith)]
    rw [e]
    refine ((hasDerivAt_id x).const_sub 1).congr_of_eventuallyEq ?_
    filter_upwards [Ioo_mem_nhds h' h''] with y hy
    unfold linearKernel; rw [abs_of_pos hy.1, if_pos (by linarith [hy.2])]; simp
  · have e : linearDiff x = 0 := by
      unfold linearDiff; rw [if_neg (show ¬ x < 0 by linarith), if_pos (show x > 0 by linarith)]; simp only; rw [if_neg (by linarith)]
    rw [e]
    refine (hasDerivAt_const x (0 : ℝ)).congr_of_eventuallyEq ?_
    filter_upwards [Ioi_mem_nhds h''] with y hy
    rw [Set.mem_Ioi] at hy
    unfold linearKernel; rw [abs_of_pos (by linarith), if_neg (by linarith)]

theorem nearest_hasDerivAt (x : ℝ) (h1 : x ≠ -(1 / 2)) (h2 : x ≠ 1 / 2) :
    HasDerivAt (nearestKernel : ℝ → ℝ) (nearestDiff x) x := by
  unfold nearestDiff
  rcases lt_or_gt_of_ne h1 with h | h
  · refine (hasDerivAt_const x (0 : ℝ)).congr_of_eventuallyEq ?_
    filter_upwards [Iio_mem_nhds h] with y hy
    rw [Set.mem_Iio] at hy
    unfold nearestKernel; rw [if_neg]; rintro ⟨_, h⟩; linarith
  rcases lt_or_gt_of_ne h2 with h' | h'
  · refine (hasDerivAt_const x (1 : ℝ)).congr_of_eventuallyEq ?_
    filter_upwards [Ioo_mem_nhds h h'] with y hy
    unfold nearestKernel; rw [if_pos ⟨hy.2, hy.1.le⟩]
  · refine (hasDerivAt_const x (0 : ℝ)).congr_of_eventuallyEq ?_
    filter_upwards [Ioi_mem_nhds h'] with y hy
    rw [Set.mem_Ioi] at hy
    unfold nearestKernel; rw [if_neg]; rintro ⟨h, _⟩; linarith

/-! ### weights -/

theorem windowAt_hasDerivAt (k : Kern ℝ) (s : ℝ) (ax : PAxis ℝ) (x : ℝ) (n : ℤ)
    (h : SmoothAt k s (x * ax.scale + ax.translate)) :
    HasDerivAt (fun y => windowAt k s 0 ax.scale (y * ax.scale + ax.translate - n))
      (windowAt k s 1 ax.scale (x * ax.scale + ax.translate - n)) x := by
  have h1 : HasDerivAt (fun y : ℝ => (y * ax.scale + ax.translate - n) * (k.native / s)) (ax.scale * (k.native / s)) x := by
    have := ((((hasDerivAt_id x).mul_const ax.scale).add_const ax.translate).sub_const (n : ℝ)).mul_const (k.native / s : ℝ)
    simpa using this
  have h2 := ((h n).comp x h1).mul_const (k.native / s : ℝ)
  have e : (fun y => windowAt k s 0 ax.scale (y * ax.scale + ax.translate - n)) =
      fun y => (k.kernel ∘ fun y : ℝ => (y * ax.scale + ax.translate - n) * (k.native / s)) y * (k.native / s) := by
    funext y; simp [windowAt]
  rw [e]
  refine h2.congr_deriv ?_
  simp only [windowAt]
  rw [if_neg (by norm_num)]
  ring

theorem axisWeight_eq_sum {k : Kern ℝ} (hk : Confined k) {s : ℝ} (hs : 0 < s) (ax : PAxis ℝ) (x : ℝ) (c : ℤ)
    (F : Finset ℤ) (hF : ∀ n : ℤ, -(s / 2) ≤ x * ax.scale + ax.translate - n →
      x * ax.scale + ax.translate - n < s / 2 → n ∈ F) :
    axisWeight k s ax x c = ∑ n ∈ F, if IsCell ax.period n c then
      windowAt k s ax.order ax.scale (x * ax.scale + ax.translate - n) else 0 := by
  unfold axisWeight
  apply finsum_eq_sum_of_support_subset
  intro n hn
  rw [Function.mem_support] at hn
  split at hn
  · have h1 : ¬ (x * ax.scale + ax.translate - n < -(s / 2)) := fun h => hn (windowAt_zero_of hk hs _ _ (Or.inl h))
    have h2 : ¬ (s / 2 ≤ x * ax.scale + ax.translate - n) := fun h => hn (windowAt_zero_of hk hs _ _ (Or.inr h))
    exact hF n (not_lt.mp h1) (not_le.mp h2)
  · exact absurd rfl hn

theorem axisWeight_hasDerivAt {k : Kern ℝ} (hk : Confined k) {s : ℝ} (hs : 0 < s) (ax : PAxis ℝ) (ho : ax.order = 0)
    (x : ℝ) (c : ℤ) (h : SmoothAt k s (x * ax.scale + ax.translate)) :
    HasDerivAt (fun y => axisWeight k s ax y c) (axisWeight k s ax.grad x c) x := by
  set g := x * ax.scale + ax.translate with hg
  let F : Finset ℤ := Finset.Icc (⌊g - s / 2⌋ - 1) (⌊g + s / 2⌋ + 1)
  have hcont : Continuous fun y : ℝ => y * ax.scale + ax.translate := by fun_prop
  have hnear : ∀ᶠ y in 𝓝 x, |y * ax.scale + ax.translate - g| < 1 := by
    have := hcont.tendsto x
    have := Metric.tendsto_nhds.mp this 1 one_pos
    simpa [Real.dist_eq, hg] using this
  have hF : ∀ y, |y * ax.scale + ax.translate - g| < 1 → ∀ n : ℤ, -(s / 2) ≤ y * ax.scale + ax.translate - n →
      y * ax.scale + ax.translate - n < s / 2 → n ∈ F := by
    intro y hy n h1 h2
    rw [abs_lt] at hy
    rw [Finset.mem_Icc]
    constructor
    · have h3 : (⌊g - s / 2⌋ : ℝ) ≤ g - s / 2 := Int.floor_le _
      have h4 : ((⌊g - s / 2⌋ - 1 : ℤ) : ℝ) ≤ (n : ℝ) := by push_cast; linarith
      exact_mod_cast h4
    · have h3 := Int.lt_floor_add_one (g + s / 2)
      have h4 : (n : ℝ) < ((⌊g + s / 2⌋ + 1 + 1 : ℤ) : ℝ) := by push_cast; linarith
      have h5 : n < ⌊g + s / 2⌋ + 1 + 1 := by exact_mod_cast h4
      omega
  have e1 : axisWeight k s ax.grad x c = ∑ n ∈ F, if IsCell ax.period n c then
      windowAt k s 1 ax.scale (x * ax.scale + ax.translate - n) else 0 :=
    axisWeight_eq_sum hk hs ax.grad x c F (hF x (by simp [← hg]))
  rw [e1]
  have h1 : HasDerivAt (fun y => ∑ n ∈ F, if IsCell ax.period n c then
      windowAt k s 0 ax.scale (y * ax.scale + ax.translate - n) else 0)
      (∑ n ∈ F, if IsCell ax.period n c then windowAt k s 1 ax.scale (x * ax.scale + ax.translate - n) else 0) x := by
    apply HasDerivAt.fun_sum
    intro n _
    split
    · exact windowAt_hasDerivAt k s ax x n h
    · exact hasDerivAt_const x 0
  refine h1.congr_of_eventuallyEq ?_
  filter_upwards [hnear] with y hy
  rw [axisWeight_eq_sum hk hs ax y c F (hF y hy), ho]

theorem cellWeight_hasDerivAt {k : Kern ℝ} (hk : Confined k) {s : ℝ} (hs : 0 < s) : ∀ (axes : List (PAxis ℝ))
    (pos : List ℝ) (c : List ℕ) (d : ℕ) (hd : d < axes.length) (hd' : d < pos.length),
    axes[d].order = 0 → SmoothAt k s (pos[d] * axes[d].scale + axes[d].translate) → c.length = axes.length →
    HasDerivAt (fun y => cellWeight k s axes (pos.set d y) c) (cellWeight k s (axes.set d axes[d].grad) pos c) pos[d] := by
  intro axes
  induction axes with
  | nil => intro pos c d hd; simp at hd
  | cons ax axs ih =>
    intro pos c d hd hd' ho hsm hc
    match pos, c, hd', hc with
    | x :: xs, i :: is, hd', hc =>
      cases d with
      | zero =>
        simp only [List.set_cons_zero, List.getElem_cons_zero, cellWeight] at *
        exact (axisWeight_hasDerivAt hk hs ax ho x i hsm).mul_const _
      | succ d =>
        simp only [List.set_cons_succ, List.getElem_cons_succ, cellWeight] at *
        exact (ih xs is d (by simpa using hd) (by simpa using hd') ho hsm (by simpa using hc)).const_mul _

/-! ### painters -/

theorem shapeOf_set_grad (axes : List (PAxis ℝ)) (d : ℕ) (hd : d < axes.length) (ax : PAxis ℝ)
    (h : ax.size = axes[d].size) : shapeOf (axes.set d ax) = shapeOf axes := by
  unfold shapeOf
  rw [List.map_set, h]
  apply List.ext_getElem
  · simp
  · intro i h1 h2
    rw [List.getElem_set]
    split
    · subst_vars; simp
    · rfl

theorem elemAddr_set_grad : ∀ (axes : List (PAxis ℝ)) (d : ℕ) (hd : d < axes.length) (ax : PAxis ℝ) (c : List ℕ),
    ax.stride = axes[d].stride → elemAddr (axes.set d ax) c = elemAddr axes c := by
  intro axes
  induction axes with
  | nil => intro d hd; simp at hd
  | cons a axs ih =>
    intro d hd ax c h
    cases d with
    | zero =>
      cases c with
      | nil => rfl
      | cons i is => simp only [List.set_cons_zero, elemAddr, h, List.getElem_cons_zero]
    | succ d =>
      cases c with
      | nil => rfl
      | cons i is =>
        simp only [List.set_cons_succ, elemAddr]
        rw [ih d (by simpa using hd) ax is h]

theorem grad_axes_length (P : Painter ℝ) (d : ℕ) : (P.grad d).axes.length = P.axes.length := by
  unfold Painter.grad
  split <;> simp

theorem grad_axes (P : Painter ℝ) (d : ℕ) (hd : d < P.axes.length) :
    (P.grad d).axes = P.axes.set d P.axes[d].grad := by
  unfold Painter.grad; rw [dif_pos hd]

theorem grad_rest (P : Painter ℝ) (d : ℕ) :
    (P.grad d).kern = P.kern ∧ (P.grad d).tuned = P.tuned ∧ (P.grad d).support = P.support := by
  unfold Painter.grad
  split <;> exact ⟨rfl, rfl, rfl⟩

theorem grad_windowSize (P : Painter ℝ) (d : ℕ) (h : ℝ) : windowSize (P.grad d) h = windowSize P h := by
  unfold windowSize; rw [(grad_rest P d).1, (grad_rest P d).2.2]

theorem grad_valid {P : Painter ℝ} (hP : P.Valid) (d : ℕ) : (P.grad d).Valid := by
  obtain ⟨h1, h2, h3⟩ := grad_rest P d
  refine ⟨by rw [h1]; exact hP.native_pos, ?_, by rw [h1, h2]; exact hP.tuned_kern⟩
  intro h
  have := grad_axes_length P d
  rw [h] at this
  exact hP.axes_ne (List.length_eq_zero_iff.mp this.symm)

theorem faithful_of_values {P : Painter ℝ} {p : Particle ℝ} (hv : ∀ ax ∈ P.axes, ax.order = 0)
    (h : ∀ t, P.tuned = some t → 3 < P.axes.length ∨ windowSize P p.hsml ≤ P.kern.native - 1 ∨
      (P.kern.native : ℝ) ≤ windowSize P p.hsml) : Faithful P p := by
  intro t ht
  rcases h t ht with h | h | h
  · exact Or.inl h
  · exact Or.inr (Or.inl h)
  · rcases h.lt_or_eq with h | h
    · exact Or.inr (Or.inr (Or.inl h))
    · refine Or.inr (Or.inr (Or.inr ⟨h.symm, fun q hq => Or.inl (hv _ ?_)⟩))
      exact (List.of_mem_zip (a := q.1) (b := q.2) hq).1

theorem faithful_values_of_grad {P : Painter ℝ} {d : ℕ} {p q : Particle ℝ} (hv : ∀ ax ∈ P.axes, ax.order = 0)
    (hh : q.hsml = p.hsml) (hf : Faithful (P.grad d) p) : Faithful P q := by
  apply faithful_of_values hv
  intro t ht
  have := hf t (by rw [(grad_rest P d).2.1]; exact ht)
  rw [grad_axes_length, grad_windowSize, (grad_rest P d).1, ← hh] at this
  rcases this with h | h | h | h
  · exact Or.inl h
  · exact Or.inr (Or.inl h)
  · exact Or.inr (Or.inr h.le)
  · exact Or.inr (Or.inr h.1.ge)

theorem sum_hasDerivAt {α : Type*} (l : List α) (f : α → ℝ → ℝ) (f' : α → ℝ) (x : ℝ)
    (h : ∀ a ∈ l, HasDerivAt (f a) (f' a) x) :
    HasDerivAt (fun y => (l.map fun a => f a y).sum) (l.map f').sum x := by
  induction l with
  | nil => simpa using hasDerivAt_const x (0 : ℝ)
  | cons a l ih =>
    simp only [List.map_cons, List.sum_cons]
    exact (h a (by simp)).add (ih fun b hb => h b (by simp [hb]))

theorem cellWeight_unscale (k : Kern ℝ) (s : ℝ) : ∀ (axes : List (PAxis ℝ)) (pos : List ℝ) (c : List ℕ) (d : ℕ)
    (hd : d < axes.length) (hd' : d < pos.length), c.length = axes.length →
    cellWeight k s (axes.set d axes[d].grad) pos c = axes[d].scale *
      cellWeight k s (axes.set d { axes[d] with order := 1, scale := 1, translate := 0 })
        (pos.set d (pos[d] * axes[d].scale + axes[d].translate)) c := by
  intro axes
  induction axes with
  | nil => intro pos c d hd; simp at hd
  | cons ax axs ih =>
    intro pos c d hd hd' hc
    match pos, c, hd', hc with
    | x :: xs, i :: is, hd', hc =>
      cases d with
      | zero =>
        simp only [List.set_cons_zero, List.getElem_cons_zero, cellWeight]
        rw [← mul_assoc]
        congr 1
        unfold axisWeight
        rw [mul_finsum]
        apply finsum_congr
        intro n
        show (if IsCell ax.period n (i : ℤ) then windowAt k s 1 ax.scale (x * ax.scale + ax.translate - n) else 0) =
          ax.scale * (if IsCell ax.period n (i : ℤ) then
            windowAt k s 1 1 ((x * ax.scale + ax.translate) * 1 + 0 - n) else 0)
        by_cases h : IsCell ax.period n (i : ℤ)
        · rw [if_pos h, if_pos h, mul_one, add_zero]
          simp only [windowAt, if_neg one_ne_zero]; ring
        · rw [if_neg h, if_neg h, mul_zero]
      | succ d =>
        simp only [List.set_cons_succ, List.getElem_cons_succ, cellWeight]
        rw [ih xs is d (by simpa using hd) (by simpa using hd') (by simpa using hc)]
        ring

theorem zipWith_set {α β γ : Type*} (f : α → β → γ) : ∀ (l : List α) (m : List β) (d : ℕ) (hd : d < l.length)
    (hd' : d < m.length) (a : α) (b : β), List.zipWith f (l.set d a) (m.set d b) = (List.zipWith f l m).set d (f a b)
  | x :: l, y :: m, 0, _, _, a, b => by simp
  | x :: l, y :: m, d + 1, h, h', a, b => by
    simp only [List.set_cons_succ, List.zipWith_cons_cons]
    rw [zipWith_set f l m d (by simpa using h) (by simpa using h')]

end Pmesh
