import Verif.Model.Window
import Mathlib.Analysis.Calculus.Deriv.Add
import Mathlib.Analysis.Calculus.Deriv.Mul
import Mathlib.Analysis.Calculus.Deriv.Comp
import Mathlib.Topology.Order.Basic
import Mathlib.Tactic.FieldSimp
import Mathlib.Tactic.Ring
import Mathlib.Tactic.Linarith

/-!
# C14 and C21 for the tabulated kernels

The kernels of the lanczos, acg and wavelet windows interpolate linearly in a table, and the kernels for gradients are the derivatives of
the interpolants between the nodes.
-/

namespace Pmesh

section
variable {K : Type*} [Field K] [LinearOrder K] [IsStrictOrderedRing K] [FloorRing K]

private theorem truncInt_node (i : ℕ) {t : K} (h0 : 0 ≤ t) (h1 : t < 1) : truncInt ((i : K) + t) = i := by
  unfold truncInt
  rw [if_pos (by positivity), Int.floor_eq_iff]
  exact ⟨by push_cast; linarith, by push_cast; linarith⟩

/-- **C14**: the kernels of lanczos and acg are even, linear between the `n` nodes `i h`, where they have the values of the table, and zero
from the last node on. -/
theorem C14_table_interpolates (tab : ℕ → K) (n : ℕ) (h : K) (hh : 0 < h) :
    (∀ x, symTableKernel tab n h (-x) = symTableKernel tab n h x) ∧
    (∀ i, i + 1 < n → ∀ t, 0 ≤ t → t < 1 → symTableKernel tab n h (((i : K) + t) * h) = (1 - t) * tab i + t * tab (i + 1)) ∧
    (∀ x, ((n - 1 : ℕ) : K) * h ≤ x → symTableKernel tab n h x = 0) := by
  refine ⟨fun x => by simp [symTableKernel], ?_, ?_⟩
  · intro i hi t h0 h1
    have hf : |((i : K) + t) * h| / h = (i : K) + t := by
      rw [abs_of_nonneg (by positivity), mul_div_assoc, div_self hh.ne', mul_one]
    simp only [symTableKernel]
    rw [hf, truncInt_node i h0 h1, if_neg (by omega), if_neg (by omega)]
    simp only [Int.toNat_natCast, Int.cast_natCast]
    ring
  · intro x hx
    simp only [symTableKernel]
    have h0 : (0 : K) ≤ ((n - 1 : ℕ) : K) * h := by positivity
    have hf : ((n - 1 : ℕ) : K) ≤ |x| / h := by
      rw [abs_of_nonneg (h0.trans hx), le_div_iff₀ hh]
      exact hx
    have h2 : ((n - 1 : ℕ) : ℤ) ≤ truncInt (|x| / h) := by
      unfold truncInt
      rw [if_pos (by positivity), Int.le_floor]
      exact_mod_cast hf
    rw [if_neg (by omega), if_pos (by omega)]

/-- **C14**: the kernels of the wavelets are linear between the `n` nodes `i h - off`, where they have the values of the table, and zero
outside. -/
theorem C14_wavelet_interpolates (tab : ℕ → K) (n : ℕ) (h off : K) (hh : 0 < h) :
    (∀ i, i + 1 < n → ∀ t, 0 ≤ t → t < 1 → waveTableKernel tab n h off (((i : K) + t) * h - off) = (1 - t) * tab i + t * tab (i + 1)) ∧
    (∀ x, x < -off → waveTableKernel tab n h off x = 0) ∧
    (∀ x, ((n - 1 : ℕ) : K) * h - off ≤ x → waveTableKernel tab n h off x = 0) := by
  refine ⟨?_, ?_, ?_⟩
  · intro i hi t h0 h1
    have hf : (((i : K) + t) * h - off + off) / h = (i : K) + t := by
      rw [sub_add_cancel, mul_div_assoc, div_self hh.ne', mul_one]
    simp only [waveTableKernel]
    rw [hf, truncInt_node i h0 h1, if_neg (not_lt.2 (by positivity)), if_neg (by omega)]
    simp only [Int.toNat_natCast, Int.cast_natCast]
    ring
  · intro x hx
    simp only [waveTableKernel]
    rw [if_pos (div_neg_of_neg_of_pos (by linarith) hh)]
  · intro x hx
    simp only [waveTableKernel]
    have hf : ((n - 1 : ℕ) : K) ≤ (x + off) / h := by
      rw [le_div_iff₀ hh]
      linarith
    have h0 : 0 ≤ (x + off) / h := le_trans (by positivity) hf
    have h2 : ((n - 1 : ℕ) : ℤ) ≤ truncInt ((x + off) / h) := by
      unfold truncInt
      rw [if_pos h0, Int.le_floor]
      exact_mod_cast hf
    rw [if_neg (not_lt.2 h0), if_pos (by omega)]

end

/-! ### Derivatives -/

private theorem floor_near {f : ℝ} (hf : ∀ i : ℤ, f ≠ i) : ∀ᶠ y in nhds f, ⌊y⌋ = ⌊f⌋ := by
  have h1 : ((⌊f⌋ : ℤ) : ℝ) < f := lt_of_le_of_ne (Int.floor_le f) (Ne.symm (hf _))
  filter_upwards [Ioo_mem_nhds h1 (Int.lt_floor_add_one f)] with y hy
  exact Int.floor_eq_iff.2 ⟨hy.1.le, hy.2⟩

/-- Derivative of the interpolant of a table, away from the nodes. -/
private theorem interp_deriv (tab : ℕ → ℝ) (n : ℕ) (h off x : ℝ) (hx : ∀ i : ℤ, (x + off) / h ≠ i) (hpos : 0 < (x + off) / h) :
    HasDerivAt (waveTableKernel tab n h off) (waveTableDiff tab n h off x) x := by
  have hc : ContinuousAt (fun y : ℝ => (y + off) / h) x := by fun_prop
  have e : waveTableKernel tab n h off =ᶠ[nhds x] fun y => if truncInt ((x + off) / h) ≥ (n : ℤ) - 1 then 0
      else tab (truncInt ((x + off) / h)).toNat * (1 - ((y + off) / h - (truncInt ((x + off) / h) : ℤ))) +
        tab ((truncInt ((x + off) / h)).toNat + 1) * ((y + off) / h - (truncInt ((x + off) / h) : ℤ)) := by
    filter_upwards [hc.eventually (floor_near hx), hc.eventually (lt_mem_nhds hpos)] with y hy hy0
    have e1 : truncInt ((y + off) / h) = truncInt ((x + off) / h) := by
      unfold truncInt
      rw [if_pos hy0.le, if_pos hpos.le, hy]
    simp only [waveTableKernel]
    rw [if_neg (not_lt.2 hy0.le), e1]
  refine HasDerivAt.congr_of_eventuallyEq ?_ e
  have hi : 0 ≤ truncInt ((x + off) / h) := by
    unfold truncInt
    rw [if_pos hpos.le]
    exact Int.floor_nonneg.2 hpos.le
  simp only [waveTableDiff]
  generalize truncInt ((x + off) / h) = i at *
  rw [if_neg (by omega)]
  split_ifs with hn
  · exact hasDerivAt_const _ _
  · have d : HasDerivAt (fun y : ℝ => (y + off) / h - (i : ℝ)) (1 / h) x :=
      (((hasDerivAt_id x).add_const off).div_const h).sub_const _
    have := ((d.const_sub 1).const_mul (tab i.toNat)).add (d.const_mul (tab (i.toNat + 1)))
    refine HasDerivAt.congr_deriv this ?_
    ring

/-- **C21**: the gradient kernels of lanczos and acg are the derivatives of their kernels, except on the nodes of the table. -/
theorem C21_kernel_table (tab : ℕ → ℝ) (n : ℕ) (h : ℝ) (hh : 0 < h) (x : ℝ) (hx : ∀ i : ℤ, x ≠ i * h) :
    HasDerivAt (symTableKernel tab n h) (symTableDiff tab n h x) x := by
  have hx0 : x ≠ 0 := by simpa using hx 0
  have key : ∀ y : ℝ, 0 < y → (∀ i : ℤ, y ≠ i * h) → HasDerivAt (symTableKernel tab n h) (waveTableDiff tab n h 0 y) y := by
    intro y hy hyi
    have := interp_deriv tab n h 0 y (fun i hi => hyi i (by rw [add_zero, div_eq_iff hh.ne'] at hi; exact hi)) (by rw [add_zero]; positivity)
    refine this.congr_of_eventuallyEq ?_
    filter_upwards [lt_mem_nhds hy] with z hz
    simp only [symTableKernel, waveTableKernel, add_zero, abs_of_pos hz]
    have h0 : 0 ≤ z / h := by positivity
    have h1 : 0 ≤ truncInt (z / h) := by
      unfold truncInt
      rw [if_pos h0]
      exact Int.floor_nonneg.2 h0
    rw [if_neg (by omega), if_neg (not_lt.2 h0)]
  rcases lt_or_gt_of_ne hx0 with hneg | hpos
  · have k := key (-x) (by linarith) (fun i hi => hx (-i) (by push_cast; linarith))
    have e : symTableKernel tab n h = fun y => symTableKernel tab n h (-y) := by
      funext y
      exact ((C14_table_interpolates tab n h hh).1 y).symm
    rw [e]
    refine HasDerivAt.congr_deriv (k.comp x (hasDerivAt_neg x)) ?_
    simp only [symTableDiff, waveTableDiff, if_neg (not_le.2 hneg), add_zero]
    split_ifs <;> ring
  · refine HasDerivAt.congr_deriv (key x hpos hx) ?_
    simp only [symTableDiff, waveTableDiff, if_pos hpos.le, add_zero]
    split_ifs <;> ring

/-- **C21**: the gradient kernels of the wavelets are the derivatives of their kernels, except on the nodes of the table.  Partial: it fails
in the interval of length `h` before the table, `C21_violated_wavelet`. -/
theorem C21_kernel_wavelet_partial (tab : ℕ → ℝ) (n : ℕ) (h off : ℝ) (hh : 0 < h) (x : ℝ) (hx : ∀ i : ℤ, x ≠ i * h - off)
    (hlow : ¬(-off - h < x ∧ x < -off)) : HasDerivAt (waveTableKernel tab n h off) (waveTableDiff tab n h off x) x := by
  have hx' : ∀ i : ℤ, (x + off) / h ≠ i := by
    intro i hi
    rw [div_eq_iff hh.ne'] at hi
    exact hx i (by linarith)
  rcases lt_or_ge 0 ((x + off) / h) with hp | hp
  · exact interp_deriv tab n h off x hx' hp
  · have hne : (x + off) / h ≠ 0 := by simpa using hx' 0
    have hneg : (x + off) / h < 0 := lt_of_le_of_ne hp hne
    have hxo : x + off < 0 := by
      by_contra hc
      exact absurd hneg (not_lt.2 (div_nonneg (not_lt.1 hc) hh.le))
    have hlt : (x + off) / h < -1 := by
      have h1 : (x + off) / h ≤ -1 := by
        rw [div_le_iff₀ hh]
        by_contra hc
        exact hlow ⟨by linarith, by linarith⟩
      exact lt_of_le_of_ne h1 (by simpa using hx' (-1))
    have e0 : waveTableDiff tab n h off x = 0 := by
      simp only [waveTableDiff]
      have : truncInt ((x + off) / h) < 0 := by
        unfold truncInt
        rw [if_neg (not_le.2 hneg)]
        have : 1 ≤ ⌊-((x + off) / h)⌋ := by
          rw [Int.le_floor]
          push_cast
          linarith
        omega
      rw [if_pos this]
    rw [e0]
    refine (hasDerivAt_const x (0 : ℝ)).congr_of_eventuallyEq ?_
    have hxx : x < -off := by linarith
    filter_upwards [gt_mem_nhds hxx] with y hy
    exact (C14_wavelet_interpolates tab n h off hh).2.1 y hy

/-- **C21 is violated** by the wavelets: before the table, where the kernel is 0, the C conversion to `int` rounds up to 0, so that the gradient
kernel has the slope of the first interval there. -/
theorem C21_violated_wavelet (tab : ℕ → ℝ) (n : ℕ) (hn : 2 ≤ n) (h off : ℝ) (hh : 0 < h) (h01 : tab 0 ≠ tab 1) (x : ℝ)
    (hx : -off - h < x ∧ x < -off) : HasDerivAt (waveTableKernel tab n h off) 0 x ∧ waveTableDiff tab n h off x ≠ 0 := by
  constructor
  · refine (hasDerivAt_const x (0 : ℝ)).congr_of_eventuallyEq ?_
    filter_upwards [gt_mem_nhds hx.2] with y hy
    exact (C14_wavelet_interpolates tab n h off hh).2.1 y hy
  · have h1 : (x + off) / h < 0 := div_neg_of_neg_of_pos (by linarith [hx.2]) hh
    have h2 : -1 < (x + off) / h := by
      rw [lt_div_iff₀ hh]
      linarith [hx.1]
    have ht : truncInt ((x + off) / h) = 0 := by
      unfold truncInt
      rw [if_neg (not_le.2 h1)]
      have : ⌊-((x + off) / h)⌋ = 0 := by
        rw [Int.floor_eq_iff]
        exact ⟨by push_cast; linarith, by push_cast; linarith⟩
      omega
    simp only [waveTableDiff, ht]
    rw [if_neg (by omega), if_neg (by omega)]
    simp only [Int.toNat_zero, zero_add]
    exact div_ne_zero (sub_ne_zero.2 h01.symm) hh.ne'

/-- With the step and the offset of sym6, and a table that starts like its table. -/
example : waveTableDiff (fun i => if i = 0 then 202856 / 100000000 else 207116 / 100000000 : ℕ → ℝ) 1796 (3906250 / 1000000000) (35 / 10)
    (-(3501 / 1000)) ≠ 0 :=
  (C21_violated_wavelet _ 1796 (by norm_num) _ _ (by norm_num) (by norm_num) _ (by norm_num)).2

example : HasDerivAt (symTableKernel (fun i => 2 - (i : ℝ)) 3 1) (-1) (1 / 2) := by
  have := C21_kernel_table (fun i => 2 - (i : ℝ)) 3 1 one_pos (1 / 2) (fun i hi => by
    have h2 : ((2 * i : ℤ) : ℝ) = ((1 : ℤ) : ℝ) := by push_cast; linarith
    have := Int.cast_injective h2
    omega)
  refine HasDerivAt.congr_deriv this ?_
  have h0 : truncInt (1 / 2 : ℝ) = 0 := by
    have := truncInt_node (K := ℝ) 0 (t := 1 / 2) (by norm_num) (by norm_num)
    simpa using this
  simp only [symTableDiff, if_pos (show (1 / 2 : ℝ) ≥ 0 by norm_num), div_one, h0]
  norm_num

end Pmesh

#print axioms Pmesh.C14_table_interpolates
#print axioms Pmesh.C14_wavelet_interpolates
#print axioms Pmesh.C21_kernel_table
#print axioms Pmesh.C21_kernel_wavelet_partial
#print axioms Pmesh.C21_violated_wavelet
