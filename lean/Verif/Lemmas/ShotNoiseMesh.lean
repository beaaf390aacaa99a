import Verif.Lemmas.ShotNoise
import Verif.Lemmas.Slice
import Mathlib.RingTheory.RootsOfUnity.Complex

/-! # The spectrum of painted particles -/

namespace Pmesh

open Complex

/-- Factor from cell to cell of the mode with `k` waves in `n` cells. -/
noncomputable def modeQ (n k : ℕ) : ℂ := exp (-(((2 * Real.pi * k / n : ℝ) : ℂ) * I))

theorem modeQ_norm (n k : ℕ) : ‖modeQ n k‖ = 1 := by
  unfold modeQ
  rw [← neg_mul, ← Complex.ofReal_neg, Complex.norm_exp_ofReal_mul_I]

theorem modeQ_root {n : ℕ} (k : ℕ) : modeQ n k = ((exp (2 * Real.pi * I / n)) ^ k)⁻¹ := by
  unfold modeQ
  rw [← Complex.exp_nat_mul, ← Complex.exp_neg]
  congr 1
  push_cast
  ring

theorem modeQ_pow {n : ℕ} (hn : 0 < n) (k : ℕ) : modeQ n k ^ n = 1 := by
  rw [modeQ_root, inv_pow, pow_right_comm, (Complex.isPrimitiveRoot_exp n hn.ne').pow_eq_one, one_pow, inv_one]

theorem modeQ_inj {n k l : ℕ} (hk : k < n) (hl : l < n) (h : modeQ n k = modeQ n l) : k = l := by
  rw [modeQ_root, modeQ_root, inv_inj] at h
  exact (Complex.isPrimitiveRoot_exp n (by omega)).pow_inj hk hl h

theorem modeQ_zero (n : ℕ) : modeQ n 0 = 1 := by simp [modeQ]

theorem modeQ_ne (n k : ℕ) : modeQ n k ≠ 0 := Complex.exp_ne_zero _

theorem modeQ_conj (n k l : ℕ) : modeQ n k * (starRingEnd ℂ) (modeQ n l) = 1 ↔ modeQ n k = modeQ n l := by
  have h : (starRingEnd ℂ) (modeQ n l) = (modeQ n l)⁻¹ := (Complex.inv_eq_conj (modeQ_norm n l)).symm
  rw [h, ← div_eq_mul_inv, div_eq_one_iff_eq (modeQ_ne n l)]

theorem modeQ_add (n k : ℕ) : modeQ n k + (starRingEnd ℂ) (modeQ n k) = 2 * ((1 - 2 * Real.sin (Real.pi * k / n) ^ 2 : ℝ) : ℂ) := by
  obtain ⟨c, s, -, h2, h3⟩ := exp_facts (2 * Real.pi * k / n)
  unfold modeQ
  rw [h2]
  have e : 2 * Real.pi * k / n / 2 = Real.pi * k / n := by ring
  rw [e] at h3
  rw [← h3]
  apply Complex.ext <;> simp
  ring

/-- Sum of the weights on one axis times the wave. -/
theorem gridW_wave {w : Resampler ℝ} (hw : w.Valid) {kind : Tuned} (hk : w.kern = Tuned.kern kind) (hsup : w.support = w.kern.native)
    (d : ℕ) {n : ℕ} (hn : 0 < n) (u : ℝ) {q : ℂ} (hq : q ^ n = 1) :
    ((List.range n).map fun c => ((gridW w d n u c : ℝ) : ℂ) * q ^ c).sum = waveAmp kind q u := by
  have hnat := hw.native_pos
  have hsz : w.width1 = w.kern.native := by
    unfold Resampler.width1
    split_ifs
    · rfl
    · rw [mul_one, hsup]
  have e : ∀ c : ℕ, gridW w d n u c = cw (tunedStencil kind (unitAxis n) u) c := by
    intro c
    rw [gridW_axisWeight hw (by rw [hk]; exact tuned_confined kind), hsz,
      tunedStencil_eq kind (unitAxis n) u 0 (by simp) (Or.inl rfl), cw_eq_axisWeight (tuned_confined kind), hk]
    simp
  have hin : ∀ q ∈ tunedStencil kind (unitAxis n) u, 0 ≤ q.1 ∧ q.1 < ((n : ℕ) : ℤ) := by
    intro q hq
    unfold tunedStencil at hq
    obtain ⟨t, _, ht⟩ := List.mem_map.mp (List.of_mem_zip hq).1
    rw [← ht, tunedWrap_eq]
    exact genWrap_range _ hn t
  have hq0 : q ≠ 0 := by
    rintro rfl
    rw [zero_pow hn.ne'] at hq
    exact zero_ne_one hq
  have hwrap : ∀ i : ℤ, q ^ genWrap n i = q ^ i := by
    intro i
    unfold genWrap
    rw [if_pos hn, wrapLoop_eq (by omega)]
    conv_rhs => rw [← Int.emod_add_mul_ediv i n, zpow_add₀ hq0, zpow_mul, zpow_natCast, hq, one_zpow, mul_one]
  have gen : ∀ (f : ℤ → ℝ) (l : List (ℤ × ℝ)), (∀ p ∈ l, 0 ≤ p.1 ∧ p.1 < (n : ℤ)) →
      ((List.range n).map fun (c : ℕ) => cw l c * f c).sum = (l.map fun p => p.2 * f p.1).sum := fun f l h => sum_cw_all n l h f
  have hre := gen (fun i => (q ^ i).re) _ hin
  have him := gen (fun i => (q ^ i).im) _ hin
  have sre : ∀ {α : Type} (l : List α) (f : α → ℂ), (l.map f).sum.re = (l.map fun a => (f a).re).sum := by
    intro α l f
    induction l with
    | nil => simp
    | cons a l ih => simp [ih]
  have sim : ∀ {α : Type} (l : List α) (f : α → ℂ), (l.map f).sum.im = (l.map fun a => (f a).im).sum := by
    intro α l f
    induction l with
    | nil => simp
    | cons a l ih => simp [ih]
  have main : ((List.range n).map fun c => ((gridW w d n u c : ℝ) : ℂ) * q ^ c).sum = ((tunedStencil kind (unitAxis n) u).map fun p => (p.2 : ℂ) * q ^ p.1).sum := by
    apply Complex.ext
    · rw [sre, sre]
      simp only [Complex.re_ofReal_mul, e, ← hre, zpow_natCast]
    · rw [sim, sim]
      simp only [Complex.im_ofReal_mul, e, ← him, zpow_natCast]
  rw [main, rawStencil_wrap, List.map_map]
  unfold waveAmp
  have : rawStencil kind (unitAxis n) u = rawStencil kind (unitAxis 0) u := by
    unfold rawStencil tunedSetup
    cases kind <;> simp [unitAxis, PAxis.grid]
  rw [this]
  congr 1
  apply List.map_congr_left
  intro p _
  simp only [Function.comp]
  rw [show (unitAxis n : PAxis ℝ).period = n from rfl, hwrap]

theorem phase_prod (d : ℕ) (nmesh k x : List ℕ) (h1 : nmesh.length = d) (h2 : k.length = d) (h3 : x.length = d) :
    exp (-(2 * Real.pi * I * phaseArg nmesh k x)) = ((List.range d).map fun j => modeQ (nmesh.getD j 0) (k.getD j 0) ^ (x.getD j 0)).prod := by
  rw [phaseArg_range d nmesh k x h1 h2 h3]
  generalize List.range d = l
  induction l with
  | nil => simp
  | cons j l ih =>
    rw [List.map_cons, List.map_cons, List.sum_cons, List.prod_cons, ← ih]
    unfold modeQ
    rw [← Complex.exp_nat_mul, ← Complex.exp_add]
    congr 1
    push_cast
    ring

/-- The mode of one particle. -/
theorem weightAt_wave {m : PMesh ℝ} (hm : m.OK) {w : Resampler ℝ} (hw : w.Valid) {kind : Tuned} (hk : w.kern = Tuned.kern kind) (hsup : w.support = w.kern.native)
    {x : List ℝ} (hx : x.length = m.nmesh.length) {k : List ℕ} (hkl : k.length = m.nmesh.length) :
    ((ndindex m.nmesh).map fun g => (m.weightAt w x g : ℂ) * exp (-(2 * Real.pi * I * phaseArg m.nmesh k g))).sum =
      ∏ j ∈ Finset.range m.nmesh.length, waveAmp kind (modeQ (m.nmesh.getD j 0) (k.getD j 0)) (x.getD j 0 * ((m.nmesh.getD j 0 : ℕ) / m.box.getD j 0)) := by
  have e : ((ndindex m.nmesh).map fun g => (m.weightAt w x g : ℂ) * exp (-(2 * Real.pi * I * phaseArg m.nmesh k g))) =
      (ndindex m.nmesh).map fun g => ((List.range m.nmesh.length).map fun j =>
        (fun j i => ((gridW w m.nmesh.length (m.nmesh.getD j 0) (x.getD j 0 * ((m.nmesh.getD j 0 : ℕ) / m.box.getD j 0)) i : ℝ) : ℂ) *
          modeQ (m.nmesh.getD j 0) (k.getD j 0) ^ i) j (g.getD j 0)).prod := by
    apply List.map_congr_left
    intro g hg
    have hg' := mem_ndindex.1 hg
    rw [weightAt_prod hm w hx hg'.len, phase_prod m.nmesh.length _ _ _ rfl hkl hg'.len, List.prod_map_mul]
    congr 1
    have cast : ∀ (l : List ℕ) (f : ℕ → ℝ), (((l.map f).prod : ℝ) : ℂ) = (l.map fun a => (f a : ℂ)).prod := by
      intro l f
      induction l with
      | nil => simp
      | cons a l ih => rw [List.map_cons, List.map_cons, List.prod_cons, List.prod_cons, ← ih, Complex.ofReal_mul]
    exact cast _ _
  have e2 := sum_prod_axes m.nmesh (fun j i => ((gridW w m.nmesh.length (m.nmesh.getD j 0) (x.getD j 0 * ((m.nmesh.getD j 0 : ℕ) / m.box.getD j 0)) i : ℝ) : ℂ) *
          modeQ (m.nmesh.getD j 0) (k.getD j 0) ^ i)
  rw [e]
  refine e2.trans ?_
  rw [Finset.prod_range, ← List.prod_ofFn]
  congr 1
  apply List.ext_getElem
  · simp
  · intro i h1 h2
    have hi : i < m.nmesh.length := by simpa using h1
    rw [List.getElem_map, List.getElem_range, List.getElem_ofFn]
    exact gridW_wave hw hk hsup _ (hm.nmesh_pos hi) _ (modeQ_pow (hm.nmesh_pos hi) _)

end Pmesh
