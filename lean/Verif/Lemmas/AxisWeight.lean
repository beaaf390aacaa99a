import Verif.Lemmas.Stencil
import Mathlib.Tactic.Positivity
import Mathlib.Tactic.FieldSimp

set_option linter.unusedSectionVars false

namespace Pmesh
section
variable {K : Type*} [Field K] [LinearOrder K] [IsStrictOrderedRing K] [FloorRing K]

theorem genWrap_isCell (period : ℕ) (t c : ℤ) : genWrap period t = c ↔ IsCell period t c := by
  unfold genWrap IsCell
  by_cases h : period = 0
  · subst h; simp; exact eq_comm
  · rw [if_pos (by omega), if_neg h, wrapLoop_eq (by omega)]; exact eq_comm

theorem tunedWrap_eq (period : ℕ) (t : ℤ) : tunedWrap period t = genWrap period t := by
  unfold tunedWrap genWrap
  by_cases h : period = 0
  · subst h; simp
  · have hp : (0 : ℤ) < period := by omega
    rw [if_neg h, if_pos (by omega), wrapLoop_eq hp, wrapDown_eq hp, wrapUp_eq hp]
    split
    · rw [if_neg (not_lt.mpr (Int.emod_nonneg _ hp.ne'))]; exact Int.emod_emod_of_dvd _ dvd_rfl
    · rfl

/-- Facts about `windowInfo`. -/
theorem windowInfo_eq {native : ℕ} (hn : 0 < native) (s0 : K) :
    ∃ s : K, 0 < s ∧ (s = if s0 ≤ 0 then (native : K) else s0) ∧
      (windowInfo native s0).vfactor = native / s ∧
      (∀ g : K, ⌊g + (windowInfo native s0).shift⌋ - (windowInfo native s0).left =
        ⌊g + s / 2⌋ - ((windowInfo native s0).support - 1)) ∧
      s ≤ (windowInfo native s0).support ∧ ((windowInfo native s0).support : K) < s + 1 := by
  have hpos := windowInfo_support_pos hn s0
  set S := (windowInfo native s0).support with hS
  refine ⟨if s0 ≤ 0 then (native : K) else s0, ?_, rfl, rfl, ?_, ?_, ?_⟩
  · split
    · exact_mod_cast hn
    · next h => exact not_le.mp h
  · intro g
    have h1 : (windowInfo native s0).shift = (if s0 ≤ 0 then (native : K) else s0) / 2 - ((S / 2 : ℕ) : K) := rfl
    have h2 : (windowInfo native s0).left = ((S : ℤ) - 1) / 2 := rfl
    rw [h1, h2]
    have : g + ((if s0 ≤ 0 then (native : K) else s0) / 2 - ((S / 2 : ℕ) : K)) =
      (g + (if s0 ≤ 0 then (native : K) else s0) / 2) - (((S / 2 : ℕ) : ℤ) : K) := by rw [Int.cast_natCast]; ring
    rw [this, Int.floor_sub_intCast]
    omega
  · rw [hS]; unfold windowInfo; simp only
    split
    · simp
    · next h =>
      have hs : 0 < s0 := not_le.mp h
      have h0 : 0 ≤ ⌊s0⌋ := Int.floor_nonneg.mpr hs.le
      have hc : ((⌊s0⌋.toNat : ℕ) : K) = (⌊s0⌋ : K) := by
        have : ((⌊s0⌋.toNat : ℕ) : ℤ) = ⌊s0⌋ := Int.toNat_of_nonneg h0
        exact_mod_cast congrArg (Int.cast : ℤ → K) this
      push_cast
      rw [hc]
      split
      · have := Int.lt_floor_add_one s0; push_cast; linarith
      · next h => rw [not_not] at h; push_cast; linarith
  · rw [hS]; unfold windowInfo; simp only
    split
    · simp
    · next h =>
      have hs : 0 < s0 := not_le.mp h
      have h0 : 0 ≤ ⌊s0⌋ := Int.floor_nonneg.mpr hs.le
      have hc : ((⌊s0⌋.toNat : ℕ) : K) = (⌊s0⌋ : K) := by
        have : ((⌊s0⌋.toNat : ℕ) : ℤ) = ⌊s0⌋ := Int.toNat_of_nonneg h0
        exact_mod_cast congrArg (Int.cast : ℤ → K) this
      push_cast
      rw [hc]
      have := Int.floor_le s0
      split
      · next h =>
        have := lt_of_le_of_ne this (Ne.symm h); push_cast; linarith
      · push_cast; linarith

theorem list_sum_range (n : ℕ) (f : ℕ → K) : ((List.range n).map f).sum = ∑ r ∈ Finset.range n, f r := by
  induction n with
  | zero => simp
  | succ n ih => rw [List.range_succ, List.map_append, List.sum_append, ih, Finset.sum_range_succ]; simp

/-- Weight of one image cell, as computed. -/
theorem windowAt_zero_of {k : Kern K} (hk : Confined k) {s : K} (hs : 0 < s) (order : ℕ) (scale : K) {x : K}
    (hx : x < -(s / 2) ∨ s / 2 ≤ x) : windowAt k s order scale x = 0 := by
  have hnp : (0 : K) < k.native := by exact_mod_cast hk.native_pos
  have hv : 0 < (k.native : K) / s := div_pos hnp hs
  have key : (s / 2) * ((k.native : K) / s) = k.native / 2 := by field_simp
  unfold windowAt
  rcases hx with hx | hx
  · have : x * (k.native / s) < -(k.native / 2 : K) := by rw [← key, ← neg_mul]; exact mul_lt_mul_of_pos_right hx hv
    rw [hk.kernel_left _ this, hk.diff_left _ this]; simp
  · have : (k.native / 2 : K) ≤ x * (k.native / s) := by rw [← key]; exact mul_le_mul_of_nonneg_right hx hv.le
    rw [hk.kernel_right _ this, hk.diff_right _ this]; simp

/-- Without any assumption on the kernel: the weight is the sum over the visited cells. -/
theorem cw_genStencil (k : Kern K) (w : Win K) (ax : PAxis K) (x : K) (c : ℤ) :
    cw (genStencil k w ax x) c = ∑ r ∈ Finset.range w.support,
      if IsCell ax.period (⌊ax.grid x + w.shift⌋ - w.left + r) c then
        (if ax.order = 0 then k.kernel ((ax.grid x - (⌊ax.grid x + w.shift⌋ - w.left) - r) * w.vfactor) * w.vfactor
         else k.diff ((ax.grid x - (⌊ax.grid x + w.shift⌋ - w.left) - r) * w.vfactor) * ax.scale * w.vfactor * w.vfactor)
      else 0 := by
  unfold cw genStencil
  rw [List.map_map, list_sum_range]
  apply Finset.sum_congr rfl
  intro r hr
  simp only [Function.comp, genWrap_isCell]
  congr 1
  simp only [fillAxis]
  rw [List.getD_eq_getElem _ _ (by simpa using hr)]
  simp

theorem cw_gen_window {native0 : K} (k : Kern K) (hnp : 0 < k.native) (ax : PAxis K) (x : K) (c : ℤ) (s : K)
    (hs : s = if native0 ≤ 0 then (k.native : K) else native0) :
    cw (genStencil k (windowInfo k.native native0) ax x) c =
      ∑ r ∈ Finset.range (windowInfo k.native native0).support,
        (if IsCell ax.period (⌊ax.grid x + s / 2⌋ - ((windowInfo k.native native0).support - 1) + r) c then
          windowAt k s ax.order ax.scale
            (ax.grid x - (⌊ax.grid x + s / 2⌋ - ((windowInfo k.native native0).support - 1) + r : ℤ)) else 0) := by
  obtain ⟨s', hspos, hs', hvf, hip, _, _⟩ := windowInfo_eq hnp native0
  have : s' = s := by rw [hs, hs']
  subst this
  rw [cw_genStencil]
  apply Finset.sum_congr rfl
  intro r _
  have hip' := hip (ax.grid x)
  have hipK : (⌊ax.grid x + (windowInfo k.native native0).shift⌋ : K) - ((windowInfo k.native native0).left : K) =
      ((⌊ax.grid x + s' / 2⌋ - ((windowInfo k.native native0).support - 1) : ℤ) : K) := by
    rw [← hip']; push_cast; ring
  rw [hip', hvf, hipK]
  congr 1
  unfold windowAt
  have e : ax.grid x - ((⌊ax.grid x + s' / 2⌋ - (((windowInfo k.native native0).support : ℤ) - 1) : ℤ) : K) - (r : K) =
    ax.grid x - ((⌊ax.grid x + s' / 2⌋ - (((windowInfo k.native native0).support : ℤ) - 1) + (r : ℤ) : ℤ) : K) := by
    push_cast; ring
  rw [e]

/-- The window is exactly covered by the visited cells. -/
theorem cw_eq_axisWeight {k : Kern K} (hk : Confined k) (s0 : K) (ax : PAxis K) (x : K) (c : ℤ) :
    cw (genStencil k (windowInfo k.native s0) ax x) c =
      axisWeight k (if s0 ≤ 0 then (k.native : K) else s0) ax x c := by
  rw [cw_gen_window k hk.native_pos ax x c _ rfl]
  obtain ⟨s, hspos, hs, hvf, hip, hle, hlt⟩ := windowInfo_eq hk.native_pos s0
  rw [← hs]
  unfold axisWeight
  set S := (windowInfo k.native s0).support
  set I : ℤ := ⌊ax.grid x + s / 2⌋ - ((S : ℤ) - 1) with hI
  have hinj : Function.Injective (fun r : ℕ => I + (r : ℤ)) := by intro a b h; simp at h; exact h
  rw [finsum_eq_sum_of_support_subset (s := (Finset.range S).image (fun r : ℕ => I + (r : ℤ)))]
  · rw [Finset.sum_image hinj.injOn]
    rfl
  · intro n hn
    simp only [Finset.coe_image, Finset.coe_range, Set.mem_image, Set.mem_Iio]
    by_contra hcon
    apply hn
    simp only
    split
    · apply windowAt_zero_of hk hspos
      have hg : x * ax.scale + ax.translate = ax.grid x := rfl
      rw [hg]
      by_cases h1 : n < I
      · right
        have h3 : (n : K) ≤ (⌊ax.grid x + s / 2⌋ : K) - S := by
          have : n ≤ ⌊ax.grid x + s / 2⌋ - (S : ℤ) := by omega
          exact_mod_cast this
        have := Int.floor_le (ax.grid x + s / 2)
        linarith
      · left
        have h2 : ¬ n < I + S := by
          intro h2
          exact hcon ⟨(n - I).toNat, by omega, by omega⟩
        have h3 : (⌊ax.grid x + s / 2⌋ : K) + 1 ≤ (n : K) := by
          have : ⌊ax.grid x + s / 2⌋ + 1 ≤ n := by omega
          exact_mod_cast this
        have := Int.lt_floor_add_one (ax.grid x + s / 2)
        linarith
    · rfl

/-! ### the kernels are confined -/

theorem nearest_confined : Confined (nearestK : Kern K) := by
  constructor <;> simp only [nearestK, nearestKernel, nearestDiff] <;> try intro x hx
  · norm_num
  · rw [if_neg]; rintro ⟨h1, h2⟩; norm_num at *; linarith
  · rw [if_neg]; rintro ⟨h1, h2⟩; norm_num at *; linarith
  · trivial
  · trivial

theorem linear_confined : Confined (linearK : Kern K) := by
  constructor <;> simp only [linearK, linearKernel, linearDiff] <;> try intro x hx
  · norm_num
  · norm_num at hx; rw [if_neg]; rw [abs_lt]; rintro ⟨h1, h2⟩; linarith
  · norm_num at hx; rw [if_neg]; rw [abs_lt]; rintro ⟨h1, h2⟩; linarith
  · norm_num at hx; rw [if_pos (by linarith : x < 0)]; simp only; rw [if_neg]; linarith
  · norm_num at hx; rw [if_neg (by linarith : ¬ x < 0), if_pos (by linarith : x > 0)]; simp only; rw [if_neg]; linarith

theorem quadratic_confined : Confined (quadraticK : Kern K) := by
  constructor <;> simp only [quadraticK, quadraticKernel, quadraticDiff] <;> try intro x hx
  · norm_num
  · norm_num at hx; have : |x| = -x := abs_of_neg (by linarith)
    rw [this, if_neg (by linarith), if_neg (by linarith)]
  · norm_num at hx; have : |x| = x := abs_of_pos (by linarith)
    rw [this, if_neg (by linarith), if_neg (by linarith)]
  · norm_num at hx; rw [if_pos (by linarith : x < 0)]; simp only; rw [if_neg (by linarith), if_neg (by linarith)]
  · norm_num at hx; rw [if_neg (by linarith : ¬ x < 0)]; simp only; rw [if_neg (by linarith), if_neg (by linarith)]

theorem cubic_confined : Confined (cubicK : Kern K) := by
  constructor <;> simp only [cubicK, cubicKernel, cubicDiff] <;> try intro x hx
  · norm_num
  · norm_num at hx; have : |x| = -x := abs_of_neg (by linarith)
    rw [this, if_neg (by linarith), if_neg (by linarith)]
  · norm_num at hx; have : |x| = x := abs_of_pos (by linarith)
    rw [this, if_neg (by linarith), if_neg (by linarith)]
  · norm_num at hx; rw [if_pos (by linarith : x < 0)]; simp only; rw [if_neg (by linarith), if_neg (by linarith)]
  · norm_num at hx; rw [if_neg (by linarith : ¬ x < 0)]; simp only; rw [if_neg (by linarith), if_neg (by linarith)]

/-- Tabulated symmetric kernels are confined if the table ends within half of the native support. -/
theorem symTable_confined (tab : ℕ → K) (n native : ℕ) (h : K) (hh : 0 < h) (hnat : 0 < native)
    (hfit : ((n : K) - 1) * h ≤ native / 2) :
    Confined (⟨native, symTableKernel tab n h, symTableDiff tab n h⟩ : Kern K) := by
  have key : ∀ y : K, 0 ≤ y → (native / 2 : K) ≤ y → (n : ℤ) - 1 ≤ truncInt (y / h) := by
    intro y h0 hy
    unfold truncInt
    rw [if_pos (by positivity)]
    apply Int.le_floor.mpr
    rw [le_div_iff₀ hh]
    push_cast
    linarith
  have hnat' : (0 : K) < native := by exact_mod_cast hnat
  constructor <;> simp only [symTableKernel, symTableDiff] <;> try intro x hx
  · exact hnat
  · have : |x| = -x := abs_of_neg (by linarith)
    rw [this]
    have := key (-x) (by linarith) (by linarith)
    rw [if_pos this, ite_self]
  · have : |x| = x := abs_of_pos (by linarith)
    rw [this]
    have := key x (by linarith) (by linarith)
    rw [if_pos this, ite_self]
  · rw [if_neg (by linarith : ¬ x ≥ 0)]
    have := key (-x) (by linarith) (by linarith)
    rw [if_pos this, ite_self]
  · rw [if_pos (by linarith : x ≥ 0)]
    have := key x (by linarith) (by linarith)
    rw [if_pos this, ite_self]

/-! ### tuned stencils -/

theorem fillAxis_native (k : Kern K) (hn : 0 < k.native) (s0 : K)
    (hs : (if s0 ≤ 0 then (k.native : K) else s0) = k.native) (ax : PAxis K) (x : K) :
    (windowInfo k.native s0).support = k.native ∧
    fillAxis k (windowInfo k.native s0) ax x =
      (⌊ax.grid x + k.native / 2⌋ - ((k.native : ℤ) - 1), (List.range k.native).map fun (i : ℕ) =>
        if ax.order = 0 then k.kernel (ax.grid x - (⌊ax.grid x + k.native / 2⌋ - ((k.native : ℤ) - 1) + i : ℤ))
        else k.diff (ax.grid x - (⌊ax.grid x + k.native / 2⌋ - ((k.native : ℤ) - 1) + i : ℤ)) * ax.scale) := by
  obtain ⟨s, hspos, hs', hvf, hip, hle, hlt⟩ := windowInfo_eq hn s0
  have e : s = k.native := by rw [hs', hs]
  subst e
  have hS : (windowInfo k.native s0).support = k.native := by
    have h1 : k.native ≤ (windowInfo k.native s0).support := by exact_mod_cast hle
    have h2 : (windowInfo k.native s0).support < k.native + 1 := by exact_mod_cast hlt
    omega
  refine ⟨hS, ?_⟩
  unfold fillAxis
  simp only
  have hip' := hip (ax.grid x)
  rw [hS] at hip'
  have hne : (k.native : K) ≠ 0 := hspos.ne'
  have hv1 : (windowInfo k.native s0).vfactor = 1 := by rw [hvf]; exact div_self hne
  rw [hS, hip', hv1]
  congr 1
  apply List.map_congr_left
  intro i _
  have : (ax.grid x - ((⌊ax.grid x + (k.native : K) / 2⌋ - ((k.native : ℤ) - 1) : ℤ) : K) - (i : K)) * 1 =
    ax.grid x - ((⌊ax.grid x + (k.native : K) / 2⌋ - ((k.native : ℤ) - 1) + (i : ℤ) : ℤ) : K) := by push_cast; ring
  rw [this]
  simp

theorem genStencil_native (k : Kern K) (hn : 0 < k.native) (s0 : K)
    (hs : (if s0 ≤ 0 then (k.native : K) else s0) = k.native) (ax : PAxis K) (x : K) :
    genStencil k (windowInfo k.native s0) ax x = (List.range k.native).map fun (i : ℕ) =>
      (genWrap ax.period (⌊ax.grid x + k.native / 2⌋ - ((k.native : ℤ) - 1) + i),
        if ax.order = 0 then k.kernel (ax.grid x - (⌊ax.grid x + k.native / 2⌋ - ((k.native : ℤ) - 1) + i : ℤ))
        else k.diff (ax.grid x - (⌊ax.grid x + k.native / 2⌋ - ((k.native : ℤ) - 1) + i : ℤ)) * ax.scale) := by
  obtain ⟨h1, h2⟩ := fillAxis_native k hn s0 hs ax x
  unfold genStencil
  rw [h1, h2]
  apply List.map_congr_left
  intro i hi
  have hi' : i < k.native := by simpa using hi
  simp only [Prod.mk.injEq, true_and]
  rw [List.getD_eq_getElem _ _ (by simpa using hi')]
  simp

theorem tunedStencil_nnb (ax : PAxis K) (x s0 : K) (hs : (if s0 ≤ 0 then ((1 : ℕ) : K) else s0) = ((1 : ℕ) : K)) :
    tunedStencil .nnb ax x = genStencil nearestK (windowInfo 1 s0) ax x := by
  rw [show (1 : ℕ) = (nearestK : Kern K).native from rfl] at *
  rw [genStencil_native nearestK nearest_confined.native_pos s0 hs]
  have e1 : ⌊ax.grid x + ((nearestK : Kern K).native : K) / 2⌋ - (((nearestK : Kern K).native : ℤ) - 1) =
    ⌊ax.grid x + 1 / 2⌋ := by simp [nearestK]
  rw [e1]
  have h1 := Int.floor_le (ax.grid x + 1 / 2)
  have h2 := Int.lt_floor_add_one (ax.grid x + 1 / 2)
  simp only [tunedStencil, tunedSetup, nearestK, nearestKernel, nearestDiff, List.range_one, List.map_cons, List.map_nil,
    tunedWrap_eq, Nat.cast_zero, add_zero, zero_mul]
  split
  · rw [if_pos ⟨by linarith, by linarith⟩]; rfl
  · rfl

theorem tunedStencil_cic (ax : PAxis K) (x s0 : K) (hs : (if s0 ≤ 0 then ((2 : ℕ) : K) else s0) = ((2 : ℕ) : K))
    (hx : TunedExact .cic ax x) :
    tunedStencil .cic ax x = genStencil linearK (windowInfo 2 s0) ax x := by
  rw [show (2 : ℕ) = (linearK : Kern K).native from rfl] at *
  rw [genStencil_native linearK linear_confined.native_pos s0 hs]
  have e1 : ⌊ax.grid x + ((linearK : Kern K).native : K) / 2⌋ - (((linearK : Kern K).native : ℤ) - 1) =
    ⌊ax.grid x⌋ := by simp [linearK]
  rw [e1]
  have h1 := Int.floor_le (ax.grid x)
  have h2 := Int.lt_floor_add_one (ax.grid x)
  have hr : List.range 2 = [0, 1] := rfl
  simp only [tunedStencil, tunedSetup, linearK, hr, List.map_cons, List.map_nil, tunedWrap_eq, Nat.cast_zero, add_zero,
    Nat.cast_one]
  split
  · have k0 : linearKernel (ax.grid x - (⌊ax.grid x⌋ : K)) = 1 - (ax.grid x - (⌊ax.grid x⌋ : K)) := by
      unfold linearKernel
      rw [abs_of_nonneg (by linarith), if_pos (by linarith)]
    have k1 : linearKernel (ax.grid x - ((⌊ax.grid x⌋ + 1 : ℤ) : K)) = ax.grid x - (⌊ax.grid x⌋ : K) := by
      unfold linearKernel
      push_cast
      rw [abs_of_neg (by linarith)]
      split
      · ring
      · linarith
    rw [k0, k1]; rfl
  · next ho =>
    have hne : ax.grid x ≠ (⌊ax.grid x⌋ : K) := by
      rcases hx with h | h | h | h | h
      · exact absurd h ho
      · cases h
      · cases h
      · exact h.2
      · cases h.1
    have hlt : (⌊ax.grid x⌋ : K) < ax.grid x := lt_of_le_of_ne h1 (Ne.symm hne)
    have k0 : linearDiff (ax.grid x - (⌊ax.grid x⌋ : K)) = -1 := by
      unfold linearDiff
      rw [if_neg (by linarith : ¬ ax.grid x - (⌊ax.grid x⌋ : K) < 0), if_pos (by linarith : ax.grid x - (⌊ax.grid x⌋ : K) > 0)]
      simp only
      rw [if_pos (by linarith)]
    have k1 : linearDiff (ax.grid x - ((⌊ax.grid x⌋ + 1 : ℤ) : K)) = 1 := by
      unfold linearDiff
      push_cast
      rw [if_pos (by linarith : ax.grid x - ((⌊ax.grid x⌋ : K) + 1) < 0)]
      simp only
      rw [if_pos (by linarith)]
    rw [k0, k1]; simp

theorem tunedStencil_tsc (ax : PAxis K) (x s0 : K) (hs : (if s0 ≤ 0 then ((3 : ℕ) : K) else s0) = ((3 : ℕ) : K)) :
    tunedStencil .tsc ax x = genStencil quadraticK (windowInfo 3 s0) ax x := by
  rw [show (3 : ℕ) = (quadraticK : Kern K).native from rfl] at *
  rw [genStencil_native quadraticK quadratic_confined.native_pos s0 hs]
  have e1 : ⌊ax.grid x + ((quadraticK : Kern K).native : K) / 2⌋ - (((quadraticK : Kern K).native : ℤ) - 1) =
    ⌊ax.grid x + 1 / 2⌋ - 1 := by
    simp only [quadraticK]
    rw [show ax.grid x + ((3 : ℕ) : K) / 2 = (ax.grid x + 1 / 2) + (1 : ℤ) by push_cast; ring, Int.floor_add_intCast]
    push_cast; ring
  rw [e1]
  have h1 := Int.floor_le (ax.grid x + 1 / 2)
  have h2 := Int.lt_floor_add_one (ax.grid x + 1 / 2)
  have hr : List.range 3 = [0, 1, 2] := rfl
  have e2 : ⌊ax.grid x + 1 / 2⌋ - 1 + ((1 : ℕ) : ℤ) = ⌊ax.grid x + 1 / 2⌋ := by push_cast; ring
  have e3 : ⌊ax.grid x + 1 / 2⌋ - 1 + ((2 : ℕ) : ℤ) = ⌊ax.grid x + 1 / 2⌋ + 1 := by push_cast; ring
  simp only [tunedStencil, tunedSetup, quadraticK, hr, List.map_cons, List.map_nil, tunedWrap_eq, Nat.cast_zero, add_zero,
    e2, e3]
  set i := ⌊ax.grid x + 1 / 2⌋
  split
  · have k0 : quadraticKernel (ax.grid x - ((i - 1 : ℤ) : K)) =
        (3 / 2 - (ax.grid x - ((i - 1 : ℤ) : K))) * (3 / 2 - (ax.grid x - ((i - 1 : ℤ) : K))) * (1 / 2) := by
      unfold quadraticKernel
      push_cast
      rw [abs_of_nonneg (by linarith)]
      split
      · next h =>
        have : ax.grid x = i - 1 / 2 := by linarith
        rw [this]; ring
      · rw [if_pos (by linarith)]
    have k1 : quadraticKernel (ax.grid x - (i : K)) = 3 / 4 - (ax.grid x - (i : K)) * (ax.grid x - (i : K)) := by
      unfold quadraticKernel
      simp only
      rw [if_pos (abs_le.mpr ⟨by linarith, by linarith⟩), abs_mul_abs_self]
    have k2 : quadraticKernel (ax.grid x - ((i + 1 : ℤ) : K)) =
        (3 / 2 + (ax.grid x - ((i + 1 : ℤ) : K))) * (3 / 2 + (ax.grid x - ((i + 1 : ℤ) : K))) * (1 / 2) := by
      unfold quadraticKernel
      push_cast
      rw [abs_of_neg (by linarith), if_neg (by linarith)]
      split
      · ring
      · next h =>
        have : ax.grid x = i - 1 / 2 := by linarith
        rw [this]; ring
    rw [k0, k1, k2]; rfl
  · have k0 : quadraticDiff (ax.grid x - ((i - 1 : ℤ) : K)) = -(3 / 2 - (ax.grid x - ((i - 1 : ℤ) : K))) := by
      unfold quadraticDiff
      push_cast
      rw [if_neg (by linarith : ¬ ax.grid x - ((i : K) - 1) < 0)]
      simp only
      split
      · next h =>
        have : ax.grid x = i - 1 / 2 := by linarith
        rw [this]; ring
      · rw [if_pos (by linarith)]; ring
    have k1 : quadraticDiff (ax.grid x - (i : K)) = -2 * (ax.grid x - (i : K)) := by
      unfold quadraticDiff
      by_cases h : ax.grid x - (i : K) < 0
      · rw [if_pos h]; simp only; rw [if_pos (by linarith)]; ring
      · rw [if_neg h]; simp only; rw [if_pos (by linarith)]; ring
    have k2 : quadraticDiff (ax.grid x - ((i + 1 : ℤ) : K)) = 3 / 2 + (ax.grid x - ((i + 1 : ℤ) : K)) := by
      unfold quadraticDiff
      push_cast
      rw [if_pos (by linarith : ax.grid x - ((i : K) + 1) < 0)]
      simp only
      rw [if_neg (by linarith)]
      split
      · ring
      · next h =>
        have : ax.grid x = i - 1 / 2 := by linarith
        rw [this]; ring
    rw [k0, k1, k2]; rfl

theorem tunedStencil_pcs (ax : PAxis K) (x s0 : K) (hs : (if s0 ≤ 0 then ((4 : ℕ) : K) else s0) = ((4 : ℕ) : K))
    (hx : TunedExact .pcs ax x) :
    tunedStencil .pcs ax x = genStencil cubicK (windowInfo 4 s0) ax x := by
  rw [show (4 : ℕ) = (cubicK : Kern K).native from rfl] at *
  rw [genStencil_native cubicK cubic_confined.native_pos s0 hs]
  have e1 : ⌊ax.grid x + ((cubicK : Kern K).native : K) / 2⌋ - (((cubicK : Kern K).native : ℤ) - 1) =
    ⌊ax.grid x⌋ - 1 := by
    simp only [cubicK]
    rw [show ax.grid x + ((4 : ℕ) : K) / 2 = ax.grid x + (2 : ℤ) by push_cast; ring, Int.floor_add_intCast]
    push_cast; ring
  rw [e1]
  have h1 := Int.floor_le (ax.grid x)
  have h2 := Int.lt_floor_add_one (ax.grid x)
  have hr : List.range 4 = [0, 1, 2, 3] := rfl
  have e2 : ⌊ax.grid x⌋ - 1 + ((1 : ℕ) : ℤ) = ⌊ax.grid x⌋ := by push_cast; ring
  have e3 : ⌊ax.grid x⌋ - 1 + ((2 : ℕ) : ℤ) = ⌊ax.grid x⌋ + 1 := by push_cast; ring
  have e4 : ⌊ax.grid x⌋ - 1 + ((3 : ℕ) : ℤ) = ⌊ax.grid x⌋ + 1 + 1 := by push_cast; ring
  simp only [tunedStencil, tunedSetup, cubicK, hr, List.map_cons, List.map_nil, tunedWrap_eq, Nat.cast_zero, add_zero,
    e2, e3, e4]
  set i := ⌊ax.grid x⌋
  split
  · have k0 : cubicKernel (ax.grid x - ((i - 1 : ℤ) : K)) = 1 / 6 * (2 - (ax.grid x - ((i - 1 : ℤ) : K))) *
        (2 - (ax.grid x - ((i - 1 : ℤ) : K))) * (2 - (ax.grid x - ((i - 1 : ℤ) : K))) := by
      unfold cubicKernel
      push_cast
      rw [abs_of_nonneg (by linarith), if_neg (by linarith), if_pos (by linarith)]
    have k1 : cubicKernel (ax.grid x - (i : K)) = 1 / 6 * (4 - 6 * (ax.grid x - (i : K)) * (ax.grid x - (i : K)) +
        3 * (ax.grid x - (i : K)) * (ax.grid x - (i : K)) * (ax.grid x - (i : K))) := by
      unfold cubicKernel
      simp only
      rw [abs_of_nonneg (by linarith), if_pos (by linarith)]; ring
    have k2 : cubicKernel (ax.grid x - ((i + 1 : ℤ) : K)) = 1 / 6 * (4 - 6 * (ax.grid x - ((i + 1 : ℤ) : K)) *
        (ax.grid x - ((i + 1 : ℤ) : K)) - 3 * (ax.grid x - ((i + 1 : ℤ) : K)) * (ax.grid x - ((i + 1 : ℤ) : K)) *
        (ax.grid x - ((i + 1 : ℤ) : K))) := by
      unfold cubicKernel
      push_cast
      rw [abs_of_neg (by linarith)]
      split
      · ring
      · next h =>
        have : ax.grid x = i := by linarith
        rw [if_pos (by linarith), this]; ring
    have k3 : cubicKernel (ax.grid x - ((i + 1 + 1 : ℤ) : K)) = 1 / 6 * (2 + (ax.grid x - ((i + 1 + 1 : ℤ) : K))) *
        (2 + (ax.grid x - ((i + 1 + 1 : ℤ) : K))) * (2 + (ax.grid x - ((i + 1 + 1 : ℤ) : K))) := by
      unfold cubicKernel
      push_cast
      rw [abs_of_neg (by linarith), if_neg (by linarith)]
      split
      · ring
      · next h =>
        have : ax.grid x = i := by linarith
        rw [this]; ring
    rw [k0, k1, k2, k3]; rfl
  · next ho =>
    have hsc : ax.scale = 1 := by
      rcases hx with h | h | h | h | h
      · exact absurd h ho
      · cases h
      · cases h
      · cases h.1
      · exact h.2
    have k0 : cubicDiff (ax.grid x - ((i - 1 : ℤ) : K)) = -1 / 2 * (2 - (ax.grid x - ((i - 1 : ℤ) : K))) *
        (2 - (ax.grid x - ((i - 1 : ℤ) : K))) := by
      unfold cubicDiff
      push_cast
      rw [if_neg (by linarith : ¬ ax.grid x - ((i : K) - 1) < 0)]
      simp only
      rw [if_neg (by linarith), if_pos (by linarith)]; ring
    have k1 : cubicDiff (ax.grid x - (i : K)) = 1 / 6 * (-12 * (ax.grid x - (i : K)) +
        9 * (ax.grid x - (i : K)) * (ax.grid x - (i : K))) := by
      unfold cubicDiff
      rw [if_neg (by linarith : ¬ ax.grid x - (i : K) < 0)]
      simp only
      rw [if_pos (by linarith)]; ring
    have k2 : cubicDiff (ax.grid x - ((i + 1 : ℤ) : K)) = -1 / 6 * (12 * (ax.grid x - ((i + 1 : ℤ) : K)) +
        9 * (ax.grid x - ((i + 1 : ℤ) : K)) * (ax.grid x - ((i + 1 : ℤ) : K))) := by
      unfold cubicDiff
      push_cast
      rw [if_pos (by linarith : ax.grid x - ((i : K) + 1) < 0)]
      simp only
      split
      · ring
      · next h =>
        have : ax.grid x = i := by linarith
        rw [if_pos (by linarith), this]; ring
    have k3 : cubicDiff (ax.grid x - ((i + 1 + 1 : ℤ) : K)) = 1 / 2 * (2 + (ax.grid x - ((i + 1 + 1 : ℤ) : K))) *
        (2 + (ax.grid x - ((i + 1 + 1 : ℤ) : K))) := by
      unfold cubicDiff
      push_cast
      rw [if_pos (by linarith : ax.grid x - ((i : K) + 1 + 1) < 0)]
      simp only
      rw [if_neg (by linarith)]
      split
      · ring
      · next h =>
        have : ax.grid x = i := by linarith
        rw [this]; ring
    rw [k0, k1, k2, k3, hsc]; simp

theorem tuned_confined (t : Tuned) : Confined (Tuned.kern t : Kern K) := by
  cases t
  · exact nearest_confined
  · exact linear_confined
  · exact quadratic_confined
  · exact cubic_confined

/-- Tuned and generic code have the same stencil. -/
theorem tunedStencil_eq (t : Tuned) (ax : PAxis K) (x s0 : K)
    (hs : (if s0 ≤ 0 then ((Tuned.kern t : Kern K).native : K) else s0) = (Tuned.kern t : Kern K).native)
    (hx : TunedExact t ax x) :
    tunedStencil t ax x = genStencil (Tuned.kern t) (windowInfo (Tuned.kern t : Kern K).native s0) ax x := by
  cases t
  · exact tunedStencil_nnb ax x s0 hs
  · exact tunedStencil_cic ax x s0 hs hx
  · exact tunedStencil_tsc ax x s0 hs
  · exact tunedStencil_pcs ax x s0 hs hx

end
end Pmesh
