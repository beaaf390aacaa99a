import Verif.Lemmas.FWindowMesh
import Verif.Props.Window
import Verif.Model.Fourier
import Mathlib.Analysis.SpecialFunctions.Trigonometric.Sinc
import Mathlib.Analysis.SpecialFunctions.Trigonometric.Bounds
import Mathlib.Analysis.Real.Pi.Bounds
import Mathlib.Tactic.NormNum

/-!
# C55: `get_fwindow` is the Fourier transform of the window, and compensation undoes the window
-/

set_option linter.unusedSectionVars false

namespace Pmesh

open Complex

theorem expSinc_eq (y : ℝ) : expSinc (I * y) = (Real.sinc (y / 2) : ℂ) := by
  unfold expSinc
  by_cases hy : y = 0
  · simp [hy]
  · have hyc : (y : ℂ) ≠ 0 := by exact_mod_cast hy
    rw [if_neg (mul_ne_zero I_ne_zero hyc), Real.sinc_of_ne_zero (by positivity), ofReal_div, ofReal_sin, Complex.sin]
    push_cast
    rw [show I * (y : ℂ) / 2 = y / 2 * I by ring, show -((y : ℂ) / 2 * I) = -(y / 2) * I by ring]
    have h3 := I_mul_I
    field_simp
    ring_nf
    rw [I_sq]
    ring

theorem sizeOf_pos {native : ℕ} (hn : 0 < native) (support : ℤ) : 0 < sizeOf native support := by
  unfold sizeOf
  split_ifs with h
  · exact_mod_cast hn
  · push Not at h
    exact_mod_cast h

theorem vfactor_eq (native : ℕ) (support : ℤ) : (windowInfo native (support : ℝ)).vfactor = native / sizeOf native support := by
  unfold windowInfo sizeOf
  simp only [Int.cast_nonpos]

/-- The argument of the sinc function. -/
noncomputable def sincArg (native : ℕ) (support : ℤ) (w : ℝ) : ℝ := w * sizeOf native support / (2 * native)

theorem windowFourier_sinc (t : Tuned) (support : ℤ) (w : ℝ) :
    windowFourier (Tuned.kern t) (sizeOf (Tuned.kern t : Kern ℝ).native support) w =
      ((Real.sinc (sincArg (Tuned.kern t : Kern ℝ).native support w) ^ (Tuned.kern t : Kern ℝ).native : ℝ) : ℂ) := by
  have hn := tuned_native_pos t
  have hs := sizeOf_pos hn support
  rw [windowFourier_eq t hs]
  have : I * (w : ℂ) / (((Tuned.kern t : Kern ℝ).native / sizeOf (Tuned.kern t : Kern ℝ).native support : ℝ) : ℂ) =
      I * ((w / ((Tuned.kern t : Kern ℝ).native / sizeOf (Tuned.kern t : Kern ℝ).native support) : ℝ) : ℂ) := by
    push_cast; ring
  rw [this, expSinc_eq, ofReal_pow]
  congr 3
  unfold sincArg
  have : ((Tuned.kern t : Kern ℝ).native : ℝ) ≠ 0 := by exact_mod_cast hn.ne'
  field_simp

theorem getFwindow_sinc (t : Tuned) (support : ℤ) (w : ℝ) :
    getFwindow (Tuned.kern t : Kern ℝ).native (some t.fwindow) support w =
      sincUnnormed (sincArg (Tuned.kern t : Kern ℝ).native support w) ^ (Tuned.kern t : Kern ℝ).native := by
  have hn := tuned_native_pos t
  have hs := sizeOf_pos hn support
  have e : 1 / 2 * (w / (windowInfo (Tuned.kern t : Kern ℝ).native (support : ℝ)).vfactor) =
      sincArg (Tuned.kern t : Kern ℝ).native support w := by
    rw [vfactor_eq]
    unfold sincArg
    have : ((Tuned.kern t : Kern ℝ).native : ℝ) ≠ 0 := by exact_mod_cast hn.ne'
    field_simp
  unfold getFwindow
  simp only
  cases t
  · simp only [Tuned.fwindow, nearestFwindow, e]
    exact (pow_one _).symm
  · simp only [Tuned.fwindow, linearFwindow, e]
    exact (pow_two _).symm
  · simp only [Tuned.fwindow, quadraticFwindow, e]
    exact (pow_three' _).symm
  · simp only [Tuned.fwindow, cubicFwindow, e]
    change _ = _ ^ 4
    ring

theorem sincUnnormed_exact {x : ℝ} (h : x = 0 ∨ 1 / 100000 ≤ |x|) : sincUnnormed x = Real.sinc x := by
  unfold sincUnnormed
  rcases h with rfl | h
  · simp
  · rw [if_neg (by rintro ⟨h1, h2⟩; exact absurd (abs_lt.2 ⟨h2, h1⟩) (not_lt.2 h)), Real.sinc_of_ne_zero]
    rintro rfl
    norm_num at h

theorem sincUnnormed_close (x : ℝ) : |sincUnnormed x - Real.sinc x| ≤ 1 / 5 * (1 / 10) ^ 21 := by
  by_cases h : x < 1 / 100000 ∧ x > -(1 / 100000)
  · by_cases hx : x = 0
    · rw [sincUnnormed_exact (.inl hx)]
      norm_num
    have hax : |x| < 1 / 100000 := abs_lt.2 ⟨h.2, h.1⟩
    have h0 : 0 < |x| := abs_pos.2 hx
    have hb := Real.sin_bound (x := x) (by linarith)
    have e : sincUnnormed x - Real.sinc x = (-(Real.sin x - (x - x ^ 3 / 6)) + x ^ 5 / 120) / x := by
      unfold sincUnnormed
      rw [if_pos h, Real.sinc_of_ne_zero hx]
      field_simp
      ring
    rw [e, abs_div, div_le_iff₀ h0]
    have h1 : |-(Real.sin x - (x - x ^ 3 / 6)) + x ^ 5 / 120| ≤ |x| ^ 5 / 100 + |x| ^ 5 / 120 := by
      refine (abs_add_le _ _).trans (add_le_add (by rw [abs_neg]; exact hb) ?_)
      rw [abs_div, abs_pow]
      norm_num
    refine h1.trans ?_
    have h4 : |x| ^ 4 ≤ (1 / 100000) ^ 4 := pow_le_pow_left₀ h0.le hax.le 4
    have : |x| ^ 5 = |x| ^ 4 * |x| := pow_succ _ _
    rw [this]
    nlinarith
  · rw [sincUnnormed_exact]
    · norm_num
    · right
      by_contra hlt
      push Not at hlt
      exact h ⟨(abs_lt.1 hlt).2, (abs_lt.1 hlt).1⟩

theorem sincUnnormed_abs_le (x : ℝ) : |sincUnnormed x| ≤ 1 := by
  by_cases h : x < 1 / 100000 ∧ x > -(1 / 100000)
  · unfold sincUnnormed
    rw [if_pos h]
    have hx : x * x ≤ 1 := by nlinarith [h.1, h.2]
    have h0 : 0 ≤ x * x := mul_self_nonneg x
    rw [abs_le]
    constructor <;> nlinarith
  · rw [sincUnnormed_exact]
    · exact Real.abs_sinc_le_one x
    · right
      by_contra hlt
      push Not at hlt
      exact h ⟨(abs_lt.1 hlt).2, (abs_lt.1 hlt).1⟩

theorem pow_close {a b e : ℝ} (ha : |a| ≤ 1) (hb : |b| ≤ 1) (h : |a - b| ≤ e) (n : ℕ) : |a ^ n - b ^ n| ≤ n * e := by
  induction n with
  | zero => simp
  | succ n ih =>
    have : a ^ (n + 1) - b ^ (n + 1) = (a ^ n - b ^ n) * a + b ^ n * (a - b) := by ring
    rw [this]
    refine (abs_add_le _ _).trans ?_
    rw [abs_mul, abs_mul, abs_pow]
    have h1 : |b| ^ n ≤ 1 := pow_le_one₀ (abs_nonneg b) hb
    have h2 : |a ^ n - b ^ n| * |a| ≤ n * e := (mul_le_of_le_one_right (abs_nonneg _) ha).trans ih
    have h3 : |b| ^ n * |a - b| ≤ e := (mul_le_of_le_one_left (abs_nonneg _) h1).trans h
    push_cast
    linarith

/-- **C55**: for every window with a kernel in closed form (nearest, linear, quadratic, cubic and the tuned nnb, cic, tsc, pcs), resized to any
support, and every frequency, `get_fwindow(w)` is the Fourier transform of the window, to `1e-21`; exactly, unless the frequency is in the
small range where the code uses a Taylor expansion. -/
theorem C55_fwindow (t : Tuned) (support : ℤ) (w : ℝ) :
    ‖(getFwindow (Tuned.kern t : Kern ℝ).native (some t.fwindow) support w : ℂ) -
      windowFourier (Tuned.kern t) (sizeOf (Tuned.kern t : Kern ℝ).native support) w‖ ≤ (1 / 10) ^ 21 ∧
    (w = 0 ∨ 1 / 50000 * (Tuned.kern t : Kern ℝ).native ≤ |w| * sizeOf (Tuned.kern t : Kern ℝ).native support →
      (getFwindow (Tuned.kern t : Kern ℝ).native (some t.fwindow) support w : ℂ) =
        windowFourier (Tuned.kern t) (sizeOf (Tuned.kern t : Kern ℝ).native support) w) := by
  have hn := tuned_native_pos t
  have hs := sizeOf_pos hn support
  have hnr : (0 : ℝ) < (Tuned.kern t : Kern ℝ).native := by exact_mod_cast hn
  rw [windowFourier_sinc, getFwindow_sinc]
  constructor
  · rw [← ofReal_sub, norm_real, Real.norm_eq_abs]
    refine (pow_close (sincUnnormed_abs_le _) (Real.abs_sinc_le_one _) (sincUnnormed_close _) _).trans ?_
    have : ((Tuned.kern t : Kern ℝ).native : ℝ) ≤ 4 := by
      have : (Tuned.kern t : Kern ℝ).native ≤ 4 := by cases t <;> decide
      exact_mod_cast this
    have h21 : (0 : ℝ) < (1 / 10) ^ 21 := by positivity
    nlinarith
  · intro h
    rw [sincUnnormed_exact]
    rcases h with h | h
    · left; simp [sincArg, h]
    · right
      unfold sincArg
      rw [abs_div, abs_mul, abs_of_pos hs, abs_of_pos (by positivity : (0 : ℝ) < 2 * ((Tuned.kern t : Kern ℝ).native : ℝ)),
        le_div_iff₀ (by positivity)]
      linarith

/-- **C55**: on the frequencies of a mesh, `|w| ≤ π`, the transform of a window of native size (or smaller) is at least `(2/π)^native` and at
most one, so that the compensation never divides by zero and amplifies by at most `(π/2)^native` per axis. -/
theorem C55_bounds (t : Tuned) (support : ℤ) (hsup : support ≤ (Tuned.kern t : Kern ℝ).native) (w : ℝ) (hw : |w| ≤ Real.pi) :
    (2 / Real.pi) ^ (Tuned.kern t : Kern ℝ).native ≤ getFwindow (Tuned.kern t : Kern ℝ).native (some t.fwindow) support w ∧
      getFwindow (Tuned.kern t : Kern ℝ).native (some t.fwindow) support w ≤ 1 := by
  have hn := tuned_native_pos t
  have hs := sizeOf_pos hn support
  have hnr : (0 : ℝ) < (Tuned.kern t : Kern ℝ).native := by exact_mod_cast hn
  have hpi := Real.pi_pos
  have hs1 : sizeOf (Tuned.kern t : Kern ℝ).native support ≤ (Tuned.kern t : Kern ℝ).native := by
    unfold sizeOf
    split_ifs
    · exact le_rfl
    · exact_mod_cast hsup
  rw [getFwindow_sinc]
  have harg : |sincArg (Tuned.kern t : Kern ℝ).native support w| ≤ Real.pi / 2 := by
    unfold sincArg
    rw [abs_div, abs_mul, abs_of_pos hs, abs_of_pos (by positivity : (0 : ℝ) < 2 * ((Tuned.kern t : Kern ℝ).native : ℝ)),
      div_le_iff₀ (by positivity)]
    have := mul_le_mul hw hs1 hs.le hpi.le
    linarith
  constructor
  · apply pow_le_pow_left₀ (by positivity)
    generalize sincArg (Tuned.kern t : Kern ℝ).native support w = x at harg
    by_cases h : x < 1 / 100000 ∧ x > -(1 / 100000)
    · unfold sincUnnormed
      rw [if_pos h]
      have h3 : 2 / Real.pi ≤ 2 / 3 := by
        rw [div_le_div_iff₀ hpi (by norm_num)]
        linarith [Real.pi_gt_three]
      have hx : x * x ≤ 1 := by nlinarith [h.1, h.2]
      have h0 : 0 ≤ x * x := mul_self_nonneg x
      show _ ≤ 1 - x * x / 6 + x * x * (x * x) / 120
      nlinarith
    · have hx : x ≠ 0 := by
        rintro rfl
        exact h ⟨by norm_num, by norm_num⟩
      have hax : 0 < |x| := abs_pos.2 hx
      rw [sincUnnormed_exact (by
        right
        by_contra hlt
        push Not at hlt
        exact h ⟨(abs_lt.1 hlt).2, (abs_lt.1 hlt).1⟩)]
      rcases abs_cases x with ⟨e, _⟩ | ⟨e, _⟩
      · rw [Real.sinc_of_ne_zero hx, le_div_iff₀ (by linarith)]
        exact Real.mul_le_sin (by linarith) (by linarith)
      · rw [← Real.sinc_neg, Real.sinc_of_ne_zero (neg_ne_zero.2 hx), le_div_iff₀ (by linarith)]
        exact Real.mul_le_sin (by linarith) (by linarith)
  · exact (le_abs_self _).trans (by rw [abs_pow]; exact pow_le_one₀ (abs_nonneg _) (sincUnnormed_abs_le _))

/-! ### painting and compensating -/

/-- `Affine.shift` moves the grid coordinates. -/
theorem shift_axes (a : Affine ℝ) (dd : Option ℕ) (shape : List ℕ) (strides : List ℤ) (us : List ℝ) (hu : us.length = shape.length)
    (ht : a.translate.length = shape.length) : (a.shift us).axes dd shape strides = shiftAxes (a.axes dd shape strides) us := by
  apply List.ext_getElem
  · simp [Affine.axes, shiftAxes, hu]
  · intro d h1 h2
    have hd : d < shape.length := by simpa [Affine.axes] using h1
    simp only [Affine.axes, shiftAxes, List.getElem_map, List.getElem_range, List.getElem_zipWith, Affine.shift]
    have : (List.zipWith (· + ·) a.translate us).getD d 0 = a.translate.getD d 0 + us[d] := by
      rw [List.getD_eq_getElem _ _ (by simp [ht, hu, hd]), List.getElem_zipWith, List.getD_eq_getElem _ _ (by omega)]
    rw [this]

theorem axes_shape (a : Affine ℝ) (dd : Option ℕ) (shape : List ℕ) (strides : List ℤ) : shapeOf (a.axes dd shape strides) = shape := by
  apply List.ext_getElem
  · simp [shapeOf, Affine.axes]
  · intro d h1 h2
    simp only [shapeOf, Affine.axes, List.getElem_map, List.getElem_range]
    exact List.getD_eq_getElem _ _ h2

theorem shiftAxes_shape (axes : List (PAxis ℝ)) (us : List ℝ) (h : us.length = axes.length) : shapeOf (shiftAxes axes us) = shapeOf axes := by
  apply List.ext_getElem
  · simp [shapeOf, shiftAxes, h]
  · intro d h1 h2
    simp [shapeOf, shiftAxes]

theorem shiftAxes_elemAddr : ∀ (axes : List (PAxis ℝ)) (us : List ℝ) (_ : us.length = axes.length) (c : List ℕ),
    elemAddr (shiftAxes axes us) c = elemAddr axes c
  | [], [], _, c => rfl
  | ax :: axs, u :: us, h, [] => rfl
  | ax :: axs, u :: us, h, i :: is => by
    have := shiftAxes_elemAddr axs us (by simpa using h) is
    simp only [shiftAxes, List.zipWith_cons_cons, elemAddr] at this ⊢
    rw [this]

theorem painter_support {native : ℕ} (hn : 0 < native) (support : ℤ) :
    ((windowInfo native (support : ℝ)).support : ℝ) = sizeOf native support := by
  unfold windowInfo sizeOf
  simp only [Int.cast_nonpos]
  split_ifs with h1 h2
  · rfl
  · push Not at h1
    rw [Int.floor_intCast] at h2
    exfalso
    apply h2
    have : ((support.toNat : ℤ) : ℝ) = (support : ℝ) := by rw [Int.toNat_of_nonneg h1.le]
    exact_mod_cast this.symm
  · push Not at h1
    rw [Int.floor_intCast, add_zero]
    have : ((support.toNat : ℤ) : ℝ) = (support : ℝ) := by rw [Int.toNat_of_nonneg h1.le]
    exact_mod_cast this

theorem exp_dot_prod : ∀ (w g : List ℝ), w.length = g.length →
    exp (-(I * dotList w g)) = (List.zipWith (fun (a b : ℝ) => exp (-(I * a * b))) w g).prod
  | [], [], _ => by simp [dotList]
  | a :: w, b :: g, h => by
    have := exp_dot_prod w g (by simpa using h)
    rw [List.zipWith_cons_cons, List.prod_cons, ← this, ← exp_add]
    congr 1
    simp only [dotList, List.zipWith_cons_cons, List.sum_cons]
    push_cast
    ring

/-- The integrals of the functions of the shift. -/
theorem axisModes_integral (t : Tuned) {s : ℝ} (hs : 0 < s) : ∀ (axes : List (PAxis ℝ)) (ks : List ℕ) (κs : List ℤ) (xs : List ℝ),
    List.Forall₂ (fun (ax : PAxis ℝ) (q : ℤ × ℕ) => 0 < ax.size ∧ q.1 % ax.size = q.2) axes (κs.zip ks) →
    ks.length = axes.length → κs.length = axes.length → xs.length = axes.length →
    (∀ f ∈ axisModes t s axes ks κs xs, IntervalIntegrable f MeasureTheory.volume 0 1) ∧
    ((axisModes t s axes ks κs xs).map fun f => ∫ u in (0 : ℝ)..1, f u).prod =
      exp (-(I * dotList (circularFreq κs (shapeOf axes)) (List.zipWith (fun x (ax : PAxis ℝ) => x * ax.scale + ax.translate) xs axes))) *
        ((circularFreq κs (shapeOf axes)).map fun w => windowFourier (Tuned.kern t) s w).prod
  | [], ks, κs, xs, _, h1, h2, h3 => by
    have : κs = [] := List.length_eq_zero_iff.1 (by simpa using h2)
    subst this
    simp [axisModes, shapeOf, circularFreq, dotList]
  | ax :: axs, k :: ks, κ :: κs, x :: xs, h, h1, h2, h3 => by
    rw [List.zip_cons_cons, List.forall₂_cons] at h
    obtain ⟨ih1, ih2⟩ := axisModes_integral t hs axs ks κs xs h.2 (by simpa using h1) (by simpa using h2) (by simpa using h3)
    obtain ⟨a1, a2⟩ := axis_average t hs h.1.1 κ k h.1.2 (x * ax.scale + ax.translate)
    constructor
    · intro f hf
      simp only [axisModes, List.mem_cons] at hf
      rcases hf with rfl | hf
      · exact a1
      · exact ih1 f hf
    · simp only [axisModes, List.map_cons, List.prod_cons]
      rw [ih2]
      have e : (∫ u in (0 : ℝ)..1, axisMode t s ax.size k κ (x * ax.scale + ax.translate) u) =
          exp (-(I * (2 * Real.pi * κ / ax.size : ℝ) * (x * ax.scale + ax.translate : ℝ))) *
            windowFourier (Tuned.kern t) s (2 * Real.pi * κ / ax.size) := a2
      rw [e]
      have e1 : circularFreq (κ :: κs) (shapeOf (ax :: axs)) = (2 * Real.pi * κ / ax.size) :: circularFreq κs (shapeOf axs) := rfl
      rw [e1, List.map_cons, List.prod_cons]
      have ed : ∀ (a b : ℝ) (as bs : List ℝ), dotList (a :: as) (b :: bs) = a * b + dotList as bs := by intros; simp [dotList]
      rw [List.zipWith_cons_cons, ed]
      generalize x * ax.scale + ax.translate = g
      rw [ofReal_add, mul_add, neg_add, exp_add, ofReal_mul, ← mul_assoc I]
      ring

theorem compensation_prod (native : ℕ) (fw : Option (ℝ → ℝ)) (support : ℤ) (w : List ℝ) (v : ℂ) :
    compensation native fw support w v = v / ((w.map fun wi => getFwindow native fw support wi).prod : ℝ) := by
  unfold compensation
  congr 2
  have : ∀ (a : ℝ), w.foldl (fun tf wi => tf * getFwindow native fw support wi) a =
      a * (w.map fun wi => getFwindow native fw support wi).prod := by
    induction w with
    | nil => simp
    | cons b w ih =>
      intro a
      rw [List.foldl_cons, ih, List.map_cons, List.prod_cons, mul_assoc]
  rw [this, one_mul]

/-- The particles are painted with a window in closed form onto a fully periodic array, through an affine transform shifted by `us`. -/
noncomputable def shiftedPainter (t : Tuned) (tuned : Bool) (support : ℤ) (a : Affine ℝ) (shape : List ℕ) (strides : List ℤ) (us : List ℝ) :
    Painter ℝ :=
  painterInit (Tuned.kern t) (if tuned then some t else none) support ((a.shift us).axes none shape strides)

theorem shiftedPainter_paint (t : Tuned) (tuned : Bool) (support : ℤ) (a : Affine ℝ) (shape : List ℕ) (strides : List ℤ) (us : List ℝ)
    (hne : shape ≠ []) (hu : us.length = shape.length) (hat : a.translate.length = shape.length)
    (hd : DistinctElems (a.axes none shape strides)) (ps : List (Particle ℝ)) (hps : ∀ p ∈ ps, p.pos.length = shape.length ∧ p.hsml = 1) :
    ∃ mem, paint (shiftedPainter t tuned support a shape strides us) (fun _ => 0) ps = some mem ∧ ∀ c, ValidIndex shape c →
    mem (elemAddr (a.axes none shape strides) c) = (ps.map fun p => p.mass * cellWeight (Tuned.kern t)
      (sizeOf (Tuned.kern t : Kern ℝ).native support) (shiftAxes (a.axes none shape strides) us) p.pos c).sum := by
  have hn := tuned_native_pos t
  have hlen : (a.axes none shape strides).length = shape.length := by simp [Affine.axes]
  have hax : (shiftedPainter t tuned support a shape strides us).axes = shiftAxes (a.axes none shape strides) us := by
    simp only [shiftedPainter, painterInit]
    exact shift_axes a none shape strides us hu hat
  have hk : (shiftedPainter t tuned support a shape strides us).kern = Tuned.kern t := rfl
  have hsh : shapeOf (shiftedPainter t tuned support a shape strides us).axes = shape := by
    rw [hax, shiftAxes_shape _ _ (by rw [hu, hlen]), axes_shape]
  have hsz : windowSize (shiftedPainter t tuned support a shape strides us) 1 = sizeOf (Tuned.kern t : Kern ℝ).native support := by
    have hs := sizeOf_pos hn support
    unfold windowSize
    rw [mul_one]
    have : ((shiftedPainter t tuned support a shape strides us).support : ℝ) = sizeOf (Tuned.kern t : Kern ℝ).native support :=
      painter_support hn support
    rw [this, if_neg (not_le.2 hs)]
  have hV : (shiftedPainter t tuned support a shape strides us).Valid := by
    refine ⟨hn, ?_, ?_⟩
    · rw [hax]
      intro h
      have := congrArg List.length h
      rw [shiftAxes, List.length_zipWith, hu, hlen] at this
      exact hne (List.length_eq_zero_iff.1 (by simpa using this))
    · intro t' ht'
      simp only [shiftedPainter, painterInit] at ht'
      cases tuned <;> simp at ht'
      rw [hk, ht']
  have hD : DistinctElems (shiftedPainter t tuned support a shape strides us).axes := by
    intro c c' hc hc' he
    rw [hsh] at hc hc'
    rw [hax, shiftAxes_elemAddr _ _ (by rw [hu, hlen]), shiftAxes_elemAddr _ _ (by rw [hu, hlen])] at he
    exact hd c c' (by rw [axes_shape]; exact hc) (by rw [axes_shape]; exact hc') he
  have hP : ∀ p ∈ ps, p.pos.length = (shiftedPainter t tuned support a shape strides us).axes.length ∧
      Faithful (shiftedPainter t tuned support a shape strides us) p := by
    intro p hp
    refine ⟨by rw [hax, shiftAxes, List.length_zipWith, hlen, hu, (hps p hp).1]; simp, ?_⟩
    intro t' ht'
    rw [(hps p hp).2, hsz, hk]
    have hcase : sizeOf (Tuned.kern t : Kern ℝ).native support ≤ (Tuned.kern t : Kern ℝ).native - 1 ∨
        ((Tuned.kern t : Kern ℝ).native : ℝ) < sizeOf (Tuned.kern t : Kern ℝ).native support ∨
        sizeOf (Tuned.kern t : Kern ℝ).native support = (Tuned.kern t : Kern ℝ).native := by
      unfold sizeOf
      split_ifs with h
      · right; right; rfl
      · rcases lt_trichotomy support ((Tuned.kern t : Kern ℝ).native : ℤ) with h | h | h
        · left
          have : support ≤ ((Tuned.kern t : Kern ℝ).native : ℤ) - 1 := by omega
          exact_mod_cast this
        · right; right; exact_mod_cast h
        · right; left; exact_mod_cast h
    right
    rcases hcase with h | h | h
    · left; exact h
    · right; left; exact h
    · right; right
      refine ⟨h, ?_⟩
      intro q hq
      left
      have : q.1 ∈ (shiftedPainter t tuned support a shape strides us).axes := (List.of_mem_zip hq).1
      simp only [shiftedPainter, painterInit, Affine.axes, List.mem_map] at this
      obtain ⟨d, _, e⟩ := this
      rw [← e]
      simp
  obtain ⟨mem', h1, h2, _⟩ := C14_paint_partial (shiftedPainter t tuned support a shape strides us) hV
    (by rw [hk]; exact tuned_confined t) hD ps hP (fun _ => 0)
  refine ⟨mem', h1, fun c hc => ?_⟩
  have := h2 c (by rw [hsh]; exact hc)
  rw [hax, shiftAxes_elemAddr _ _ (by rw [hu, hlen])] at this
  rw [this, zero_add]
  congr 1
  apply List.map_congr_left
  intro p hp
  rw [(hps p hp).2, hsz, hk]

/-- **C55**: particles painted onto a periodic mesh, transformed with `r2c` and compensated have, on average over the position of the grid
relative to the particles, exactly the Fourier amplitudes of the point particles.  `κ` are the integer wavenumbers that `k` is stored for
(any of the aliases), `circularFreq κ shape` the circular frequencies that `apply(kind='circular')` hands to the compensation; the condition
on `κ` says that the transform of the window is not in the range of the Taylor expansion and does not vanish (see `C55_modes` for the
frequencies of a mesh). -/
theorem C55_compensated (t : Tuned) (tuned : Bool) (support : ℤ) (a : Affine ℝ) (shape : List ℕ) (strides : List ℤ)
    (hne : shape ≠ []) (hpos : ∀ n ∈ shape, 0 < n) (hsc : a.scale.length = shape.length) (hat : a.translate.length = shape.length)
    (hper : a.period = shape) (hd : DistinctElems (a.axes none shape strides))
    (ps : List (Particle ℝ)) (hps : ∀ p ∈ ps, p.pos.length = shape.length ∧ p.hsml = 1)
    (κ : List ℤ) (k : List ℕ) (hκ : κ.length = shape.length) (hk : k = List.zipWith (fun (q : ℤ) (n : ℕ) => (q % n).toNat) κ shape)
    (hw : ∀ w ∈ circularFreq κ shape, (getFwindow (Tuned.kern t : Kern ℝ).native (some t.fwindow) support w : ℂ) =
      windowFourier (Tuned.kern t) (sizeOf (Tuned.kern t : Kern ℝ).native support) w ∧
      getFwindow (Tuned.kern t : Kern ℝ).native (some t.fwindow) support w ≠ 0)
    (mesh : List ℝ → ℤ → ℝ)
    (hmesh : ∀ us, us.length = shape.length →
      paint (shiftedPainter t tuned support a shape strides us) (fun _ => 0) ps = some (mesh us)) :
    shiftAverage shape.length (fun us =>
      compensation (Tuned.kern t : Kern ℝ).native (some t.fwindow) support (circularFreq κ shape)
        (r2c shape (fun c => mesh us (elemAddr (a.axes none shape strides) c)) k) *
      exp (I * dotList (circularFreq κ shape) us)) =
    (shape.prod : ℂ)⁻¹ * (ps.map fun p => (p.mass : ℂ) * exp (-(I * dotList (circularFreq κ shape) (a.apply p.pos)))).sum := by
  obtain ⟨axes, haxes⟩ : ∃ axes, a.axes none shape strides = axes := ⟨_, rfl⟩
  have hlen : axes.length = shape.length := by rw [← haxes]; simp [Affine.axes]
  have hshape : shapeOf axes = shape := by rw [← haxes, axes_shape]
  obtain ⟨s, hs⟩ : ∃ s, sizeOf (Tuned.kern t : Kern ℝ).native support = s := ⟨_, rfl⟩
  have hs0 : 0 < s := by rw [← hs]; exact sizeOf_pos (tuned_native_pos t) support
  have hkl : k.length = axes.length := by rw [hk, List.length_zipWith, hκ, hlen, Nat.min_self]
  obtain ⟨W, hW⟩ : ∃ W : ℝ, ((circularFreq κ shape).map fun wi =>
    getFwindow (Tuned.kern t : Kern ℝ).native (some t.fwindow) support wi).prod = W := ⟨_, rfl⟩
  have hW1 : (W : ℂ) = ((circularFreq κ shape).map fun w => windowFourier (Tuned.kern t) s w).prod := by
    rw [← hW, ← ofRealHom_eq_coe, map_list_prod, List.map_map]
    congr 1
    apply List.map_congr_left
    intro w hww
    rw [← hs, ← (hw w hww).1]
    rfl
  have hW0 : (W : ℂ) ≠ 0 := by
    rw [ofReal_ne_zero, ← hW]
    apply List.prod_ne_zero
    intro h
    obtain ⟨w, hww, e⟩ := List.mem_map.1 h
    exact (hw w hww).2 e
  have hord : ∀ ax ∈ axes, ax.order = 0 ∧ ax.period = ax.size := by
    intro ax hax
    rw [← haxes] at hax
    obtain ⟨d, _, e⟩ := List.mem_map.1 hax
    rw [← e, hper]
    simp
  have hF : List.Forall₂ (fun (ax : PAxis ℝ) (q : ℤ × ℕ) => 0 < ax.size ∧ q.1 % ax.size = q.2) axes (κ.zip k) := by
    rw [List.forall₂_iff_get]
    refine ⟨by rw [List.length_zip, hkl, hκ, hlen, Nat.min_self], ?_⟩
    intro d h1 h2
    have hd' : d < shape.length := by omega
    have hsz : axes[d].size = shape[d] := by
      have : (shapeOf axes)[d]? = shape[d]? := by rw [hshape]
      simpa [shapeOf, h1, hd'] using this
    simp only [List.get_eq_getElem, List.getElem_zip, hsz]
    have hp := hpos shape[d] (List.getElem_mem hd')
    refine ⟨hp, ?_⟩
    subst hk
    rw [List.getElem_zipWith, Int.toNat_of_nonneg]
    exact Int.emod_nonneg _ (by omega)
  -- the function of the shift
  have h1 : ∀ us : List ℝ, us.length = shape.length →
      compensation (Tuned.kern t : Kern ℝ).native (some t.fwindow) support (circularFreq κ shape)
        (r2c shape (fun c => mesh us (elemAddr axes c)) k) * exp (I * dotList (circularFreq κ shape) us) =
      (ps.map fun p => ((p.mass : ℂ) * (shape.prod : ℂ)⁻¹ * (W : ℂ)⁻¹) * prodAt (axisModes t s axes k κ p.pos) us).sum := by
    intro us hus
    rw [compensation_prod, hW]
    unfold r2c dftForward
    have e1 : (ndindex shape).map (fun x => ((mesh us (elemAddr axes x) : ℝ) : ℂ) * exp (-(2 * Real.pi * I * phaseArg shape k x))) =
        (ndindex shape).map fun c => (ps.map fun p => (p.mass : ℂ) * (((cellWeight (Tuned.kern t) s (shiftAxes axes us) p.pos c : ℝ) : ℂ) *
          exp (-(2 * Real.pi * I * phaseArg shape k c)))).sum := by
      apply List.map_congr_left
      intro c hc
      obtain ⟨m, hm, this⟩ := shiftedPainter_paint t tuned support a shape strides us hne hus hat hd ps hps
      rw [hmesh us hus] at hm
      cases hm
      have := this c (mem_ndindex.1 hc)
      rw [haxes, hs] at this
      rw [this, ← ofRealHom_eq_coe, map_list_sum, List.map_map, ← sum_mulc]
      congr 1
      apply List.map_congr_left
      intro p _
      simp only [Function.comp, ofRealHom_eq_coe, ofReal_mul]
      ring
    rw [e1, sum_swapC]
    rw [← sum_mulc, div_eq_mul_inv, ← sum_mulc, ← sum_mulc]
    congr 1
    apply List.map_congr_left
    intro p hp
    have e2 := cellWeight_mode t s axes k κ p.pos us hord hkl (by rw [hκ, hlen]) (by rw [(hps p hp).1, hlen]) (by rw [hus, hlen])
    rw [hshape] at e2
    rw [← e2, sum_cmul]
    have e3 : (((shape.map fun (n : ℕ) => ((n : ℝ)⁻¹)).prod : ℝ) : ℂ) = (shape.prod : ℂ)⁻¹ := by
      rw [prod_inv, ofReal_inv, ofReal_natCast]
    rw [e3]
    ring
  rw [haxes, shiftAverage_congr _ h1, shiftAverage_prod]
  · rw [← sum_cmul]
    congr 1
    apply List.map_congr_left
    intro p hp
    obtain ⟨_, e2⟩ := axisModes_integral t hs0 axes k κ p.pos hF hkl (by rw [hκ, hlen]) (by rw [(hps p hp).1, hlen])
    rw [e2, hshape, ← hW1]
    have e3 : List.zipWith (fun x (ax : PAxis ℝ) => x * ax.scale + ax.translate) p.pos axes = a.apply p.pos := by
      have hpl := (hps p hp).1
      unfold Affine.apply
      apply List.ext_getElem
      · simp [hlen, hpl, hsc, hat]
      · intro d h1 h2
        have hd' : d < shape.length := by
          simp only [List.length_zipWith] at h1
          omega
        simp only [List.getElem_zipWith]
        subst haxes
        simp only [Affine.axes, List.getElem_map, List.getElem_range]
        rw [List.getD_eq_getElem _ _ (by omega), List.getD_eq_getElem _ _ (by omega)]
    rw [e3]
    field_simp
  · intro p hp
    rw [axisModes_length _ _ _ _ _ _ hkl (by rw [hκ, hlen]) (by rw [(hps p hp).1, hlen]), hlen]
  · intro p hp
    exact (axisModes_integral t hs0 axes k κ p.pos hF hkl (by rw [hκ, hlen]) (by rw [(hps p hp).1, hlen])).1

/-- **C55**: the condition of `C55_compensated` holds for all modes `|κ_d| ≤ N_d / 2` of a mesh of at most 314159 cells per side, with windows
of native size. -/
theorem C55_modes (t : Tuned) (support : ℤ) (hsup : support ≤ 0 ∨ support = (Tuned.kern t : Kern ℝ).native) (κ : List ℤ) (shape : List ℕ)
    (hN : ∀ n ∈ shape, 0 < n ∧ n ≤ 314159) (hκ : List.Forall₂ (fun (q : ℤ) (n : ℕ) => 2 * |q| ≤ n) κ shape) :
    ∀ w ∈ circularFreq κ shape, |w| ≤ Real.pi ∧ (getFwindow (Tuned.kern t : Kern ℝ).native (some t.fwindow) support w : ℂ) =
      windowFourier (Tuned.kern t) (sizeOf (Tuned.kern t : Kern ℝ).native support) w ∧
      getFwindow (Tuned.kern t : Kern ℝ).native (some t.fwindow) support w ≠ 0 := by
  intro w hw
  unfold circularFreq at hw
  obtain ⟨d, hd, rfl⟩ := List.mem_iff_getElem.1 hw
  have hd2 : d < κ.length ∧ d < shape.length := by simpa using hd
  rw [List.getElem_zipWith]
  have h1 := (List.forall₂_iff_get.1 hκ).2 d hd2.1 hd2.2
  simp only [List.get_eq_getElem] at h1
  obtain ⟨h2, h3⟩ := hN shape[d] (List.getElem_mem hd2.2)
  generalize κ[d] = q at *
  generalize shape[d] = N at *
  have hNr : (0 : ℝ) < N := by exact_mod_cast h2
  have hN3 : (N : ℝ) ≤ 314159 := by exact_mod_cast h3
  have hq : 2 * |(q : ℝ)| ≤ N := by exact_mod_cast h1
  have hpi := Real.pi_gt_d6
  have hpi0 := Real.pi_pos
  have habs : |2 * Real.pi * q / N| = 2 * Real.pi * |(q : ℝ)| / N := by
    rw [abs_div, abs_mul, abs_of_pos (by positivity : 0 < 2 * Real.pi), abs_of_pos hNr]
  have hpi1 : |2 * Real.pi * q / N| ≤ Real.pi := by
    rw [habs, div_le_iff₀ hNr]
    nlinarith
  have hn := tuned_native_pos t
  have hnr : (0 : ℝ) < (Tuned.kern t : Kern ℝ).native := by exact_mod_cast hn
  have hsz : sizeOf (Tuned.kern t : Kern ℝ).native support = (Tuned.kern t : Kern ℝ).native := by
    unfold sizeOf
    rcases hsup with h | h
    · rw [if_pos h]
    · rw [if_neg (by omega), h]
      simp
  refine ⟨hpi1, (C55_fwindow t support _).2 ?_, ?_⟩
  · by_cases hq0 : q = 0
    · left; simp [hq0]
    · right
      rw [hsz, habs]
      have : (1 : ℝ) ≤ |(q : ℝ)| := by
        have : 1 ≤ |q| := Int.one_le_abs hq0
        exact_mod_cast this
      apply mul_le_mul_of_nonneg_right _ hnr.le
      rw [le_div_iff₀ hNr]
      nlinarith
  · have := (C55_bounds t support (by omega) _ hpi1).1
    have : 0 < (2 / Real.pi) ^ (Tuned.kern t : Kern ℝ).native := by positivity
    linarith

/-- **C55 fails for enlarged windows**: resized to twice the native size, the transform of the window vanishes at the Nyquist frequency, which
every mesh of even size stores: the compensation divides by zero. -/
theorem C55_violated_resized (t : Tuned) :
    getFwindow (Tuned.kern t : Kern ℝ).native (some t.fwindow) (2 * (Tuned.kern t : Kern ℝ).native) Real.pi = 0 := by
  have hn := tuned_native_pos t
  have hnr : (0 : ℝ) < (Tuned.kern t : Kern ℝ).native := by exact_mod_cast hn
  have hpi := Real.pi_gt_three
  rw [getFwindow_sinc]
  have e : sincArg (Tuned.kern t : Kern ℝ).native (2 * (Tuned.kern t : Kern ℝ).native) Real.pi = Real.pi := by
    unfold sincArg sizeOf
    rw [if_neg (by omega)]
    push_cast
    field_simp
  rw [e, sincUnnormed_exact, Real.sinc_of_ne_zero (by positivity), Real.sin_pi, zero_div, zero_pow hn.ne']
  right
  rw [abs_of_pos Real.pi_pos]
  linarith

/-! ### a concrete case -/

/-- Two particles on a 4×3 mesh with a stretched and shifted grid. -/
noncomputable def exAffine : Affine ℝ := ⟨[2, 1 / 2], [1 / 3, 0], [4, 3]⟩

noncomputable def exShiftParts : List (Particle ℝ) := [⟨[1 / 4, 2], 3, 1⟩, ⟨[-7, 1], -1, 1⟩]

theorem exAffine_distinct : DistinctElems (exAffine.axes none [4, 3] [3, 1]) :=
  C14_contiguous_distinct 1 one_pos _ ⟨by simp [Affine.axes, shapeOf], by simp [Affine.axes, shapeOf], trivial⟩

noncomputable def exShiftMesh (us : List ℝ) : ℤ → ℝ :=
  (paint (shiftedPainter .tsc true (-1) exAffine [4, 3] [3, 1] us) (fun _ => 0) exShiftParts).getD fun _ => 0

/-- Non-vacuity of C55: all hypotheses are met, for the mode (-1, 1), which is stored at (3, 1). -/
example : shiftAverage 2 (fun us =>
      compensation 3 (some (Tuned.fwindow .tsc)) (-1) (circularFreq [-1, 1] [4, 3])
        (r2c [4, 3] (fun c => exShiftMesh us (elemAddr (exAffine.axes none [4, 3] [3, 1]) c)) [3, 1]) *
      exp (I * dotList (circularFreq [-1, 1] [4, 3]) us)) =
    (([4, 3].prod : ℕ) : ℂ)⁻¹ * (exShiftParts.map fun p =>
      (p.mass : ℂ) * exp (-(I * dotList (circularFreq [-1, 1] [4, 3]) (exAffine.apply p.pos)))).sum := by
  have hps : ∀ p ∈ exShiftParts, p.pos.length = [4, 3].length ∧ p.hsml = 1 := by
    intro p hp
    simp only [exShiftParts, List.mem_cons, List.not_mem_nil, or_false] at hp
    rcases hp with rfl | rfl <;> simp
  refine C55_compensated .tsc true (-1) exAffine [4, 3] [3, 1] (by decide) (by decide) rfl rfl rfl exAffine_distinct exShiftParts hps
    [-1, 1] [3, 1] rfl (by decide) ?_ exShiftMesh ?_
  · intro w hw
    exact (C55_modes .tsc (-1) (.inl (by decide)) [-1, 1] [4, 3] (by decide) (by simp) w hw).2
  · intro us hus
    obtain ⟨m, hm, _⟩ := shiftedPainter_paint .tsc true (-1) exAffine [4, 3] [3, 1] us (by decide) hus rfl exAffine_distinct exShiftParts hps
    unfold exShiftMesh
    rw [hm]
    rfl

/-- The transform is not trivial: cic at the Nyquist frequency. -/
example : getFwindow 2 (some (Tuned.fwindow .cic)) (-1) Real.pi = (2 / Real.pi) ^ 2 := by
  have hpi := Real.pi_gt_three
  have := getFwindow_sinc .cic (-1) Real.pi
  rw [show (Tuned.kern .cic : Kern ℝ).native = 2 from rfl] at this
  rw [this]
  have e : sincArg 2 (-1) Real.pi = Real.pi / 2 := by
    unfold sincArg sizeOf
    rw [if_pos (by decide)]
    push_cast
    field_simp
  rw [e, sincUnnormed_exact, Real.sinc_of_ne_zero (by positivity), Real.sin_pi_div_two]
  · congr 1
    field_simp
  · right
    rw [abs_of_pos (by positivity)]
    linarith

#print axioms C55_fwindow
#print axioms C55_bounds
#print axioms C55_compensated
#print axioms C55_modes
#print axioms C55_violated_resized

end Pmesh
