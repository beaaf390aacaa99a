import Verif.Lemmas.TableSums
import Verif.Lemmas.Paint
import Verif.Spec.TableWindows
import Mathlib.Algebra.BigOperators.Intervals

/-! # Stencils of native size as sums of kernels -/

set_option linter.unusedSectionVars false

namespace Pmesh
section
variable {K : Type*} [Field K] [LinearOrder K] [IsStrictOrderedRing K] [FloorRing K]

theorem windowInfo_native {n : ℕ} (hn : 0 < n) {s : K} (hs : (if s ≤ 0 then (n : K) else s) = n) :
    (windowInfo n s).support = n ∧ (windowInfo n s).vfactor = 1 ∧
      ∀ g : K, ⌊g + (windowInfo n s).shift⌋ - (windowInfo n s).left = ⌊g + (n : K) / 2⌋ - (n - 1) := by
  obtain ⟨s', hpos, e, hv, hf, h1, h2⟩ := windowInfo_eq hn s
  rw [hs] at e
  subst e
  have e : (windowInfo n s).support = n := by
    have a : n ≤ (windowInfo n s).support := by exact_mod_cast h1
    have b : (windowInfo n s).support < n + 1 := by exact_mod_cast h2
    omega
  refine ⟨e, by rw [hv]; exact div_self hpos.ne', fun g => ?_⟩
  rw [hf g, e]

theorem range_reverse_sum (n : ℕ) (F : ℕ → K) : ((List.range n).map F).sum = ((List.range n).map fun j => F (n - 1 - j)).sum := by
  rw [list_sum_range, list_sum_range, Finset.sum_range_reflect]

/-- The values of a stencil of native size, with the distances of its cells from the particle before wrapping. -/
theorem genStencil_cells {k : Kern K} (hn : 0 < k.native) {s : K} (hs : (if s ≤ 0 then (k.native : K) else s) = k.native) (ax : PAxis K)
    (ho : ax.order = 0) (x : K) :
    genStencil k (windowInfo k.native s) ax x = (List.range k.native).map fun (r : ℕ) =>
      (genWrap ax.period (⌊ax.grid x + (k.native : K) / 2⌋ - (k.native - 1) + r),
        k.kernel (ax.grid x - ((⌊ax.grid x + (k.native : K) / 2⌋ - (k.native - 1) + r : ℤ) : K))) := by
  obtain ⟨e1, e2, e3⟩ := windowInfo_native hn hs
  unfold genStencil
  rw [e1]
  apply List.map_congr_left
  intro r hr
  rw [List.mem_range] at hr
  have hr1 : r < (windowInfo k.native s).support := by rw [e1]; exact hr
  simp only [fillAxis, e3, Prod.mk.injEq, true_and]
  rw [List.getD_eq_getElem _ _ (by simpa using hr1)]
  simp only [List.getElem_map, List.getElem_range, ho, if_true, e2, mul_one]
  congr 1
  push_cast
  ring

theorem genStencil_sum {k : Kern K} (hn : 0 < k.native) {s : K} (hs : (if s ≤ 0 then (k.native : K) else s) = k.native) (ax : PAxis K)
    (ho : ax.order = 0) (x : K) :
    ((genStencil k (windowInfo k.native s) ax x).map Prod.snd).sum =
      kernelSum k.kernel k.native (Int.fract (ax.grid x + (k.native : K) / 2)) := by
  rw [genStencil_cells hn hs ax ho, List.map_map, range_reverse_sum]
  unfold kernelSum
  congr 1
  apply List.map_congr_left
  intro j hj
  rw [List.mem_range] at hj
  simp only [Function.comp]
  congr 1
  rw [← Int.self_sub_floor]
  have : ((k.native - 1 - j : ℕ) : ℤ) = (k.native : ℤ) - 1 - j := by omega
  rw [this]
  push_cast
  ring

theorem genStencil_moment {k : Kern K} (hn : 0 < k.native) {s : K} (hs : (if s ≤ 0 then (k.native : K) else s) = k.native) (ax : PAxis K)
    (ho : ax.order = 0) (x : K) (hw : ∀ r < k.native, genWrap ax.period (⌊ax.grid x + (k.native : K) / 2⌋ - (k.native - 1) + r) =
      ⌊ax.grid x + (k.native : K) / 2⌋ - (k.native - 1) + r) :
    ((genStencil k (windowInfo k.native s) ax x).map fun p => p.2 * ((p.1 : K) - ax.grid x)).sum =
      -kernelMoment k.kernel k.native (Int.fract (ax.grid x + (k.native : K) / 2)) := by
  rw [genStencil_cells hn hs ax ho, List.map_map]
  have e : ∀ (l : List ℕ) (F G : ℕ → K), (∀ i ∈ l, F i = -G i) → (l.map F).sum = -(l.map G).sum := by
    intro l F G h
    induction l with
    | nil => simp
    | cons a l ih =>
      simp only [List.map_cons, List.sum_cons]
      rw [h a (by simp), ih fun i hi => h i (by simp [hi])]; ring
  rw [e _ _ (fun (r : ℕ) => k.kernel (ax.grid x - ((⌊ax.grid x + (k.native : K) / 2⌋ - (k.native - 1) + r : ℤ) : K)) *
    (ax.grid x - ((⌊ax.grid x + (k.native : K) / 2⌋ - (k.native - 1) + r : ℤ) : K)))]
  · rw [range_reverse_sum]
    unfold kernelMoment
    congr 2
    apply List.map_congr_left
    intro j hj
    rw [List.mem_range] at hj
    have hx : ax.grid x - ((⌊ax.grid x + (k.native : K) / 2⌋ - (k.native - 1) + (k.native - 1 - j : ℕ) : ℤ) : K) =
        Int.fract (ax.grid x + (k.native : K) / 2) + j - (k.native : K) / 2 := by
      rw [← Int.self_sub_floor]
      have : ((k.native - 1 - j : ℕ) : ℤ) = (k.native : ℤ) - 1 - j := by omega
      rw [this]
      push_cast
      ring
    simp only [hx]
  · intro r hr
    rw [List.mem_range] at hr
    simp only [Function.comp, hw r hr]
    ring

/-- Products of factors near 1. -/
theorem prod_near_one (t : K) (ht : 0 ≤ t) : ∀ l : List K, (∀ y ∈ l, |y - 1| ≤ t) → |l.prod - 1| ≤ (1 + t) ^ l.length - 1
  | [], _ => by simp
  | y :: l, h => by
    have h1 := h y (by simp)
    have h2 := prod_near_one t ht l fun z hz => h z (by simp [hz])
    rw [List.prod_cons, List.length_cons, show y * l.prod - 1 = y * (l.prod - 1) + (y - 1) by ring]
    have h3 : |y| ≤ 1 + t := by
      calc |y| = |(y - 1) + 1| := by congr 1; ring
        _ ≤ |y - 1| + |1| := abs_add_le _ _
        _ ≤ 1 + t := by rw [abs_one]; linarith
    calc |y * (l.prod - 1) + (y - 1)| ≤ |y * (l.prod - 1)| + |y - 1| := abs_add_le _ _
      _ = |y| * |l.prod - 1| + |y - 1| := by rw [abs_mul]
      _ ≤ (1 + t) * ((1 + t) ^ l.length - 1) + t := add_le_add (mul_le_mul h3 h2 (abs_nonneg _) (by linarith)) h1
      _ = (1 + t) ^ (l.length + 1) - 1 := by ring

/-- All weights of one particle together. -/
theorem weights_near (P : Painter K) (hP : P.Valid) (hu : P.tuned = none) (tol : K) (htol : 0 ≤ tol)
    (hsum : ∀ u : K, 0 ≤ u → u < 1 → |kernelSum P.kern.kernel P.kern.native u - 1| ≤ tol)
    (hper : ∀ ax ∈ P.axes, ax.order = 0 ∧ 0 < ax.size ∧ ax.period = ax.size) (p : Particle K)
    (hp : p.pos.length = P.axes.length ∧ windowSize P p.hsml = P.kern.native) :
    |((ndindex (shapeOf P.axes)).map fun c => cwProd (List.zipWith (axisStencil P p.hsml) P.axes p.pos) c).sum - 1| ≤
      (1 + tol) ^ P.axes.length - 1 := by
  have hf : Faithful P p := by intro t ht; rw [hu] at ht; cases ht
  have h1 : List.zipWith (axisStencil P p.hsml) P.axes p.pos = List.zipWith (genStencil P.kern (partWin P p.hsml)) P.axes p.pos := by
    apply zipWith_congr_mem
    intro ax x hx
    exact axisStencil_gen hP hf hx
  rw [h1, sum_ndindex_cwProd _ _ (by simp [hp.1])]
  have hlen : (List.zipWith (fun (ax : PAxis K) st => ((List.range ax.size).map fun (c : ℕ) => cw st c).sum) P.axes
      (List.zipWith (genStencil P.kern (partWin P p.hsml)) P.axes p.pos)).length = P.axes.length := by
    simp [hp.1]
  rw [← hlen]
  apply prod_near_one tol htol
  intro y hy
  obtain ⟨i, hi, rfl⟩ := List.getElem_of_mem hy
  simp only [List.getElem_zipWith]
  rw [hlen] at hi
  obtain ⟨ho, hsz, hpe⟩ := hper _ (List.getElem_mem hi)
  have hi' : i < p.pos.length := by rw [hp.1]; exact hi
  have hin : ∀ q ∈ genStencil P.kern (partWin P p.hsml) P.axes[i] p.pos[i], 0 ≤ q.1 ∧ q.1 < ((P.axes[i].size : ℕ) : ℤ) := by
    intro q hq
    unfold genStencil at hq
    obtain ⟨r, _, rfl⟩ := List.mem_map.mp hq
    rw [← hpe]
    exact genWrap_range _ (by omega) _
  have := sum_cw_all P.axes[i].size _ hin (fun _ => 1)
  simp only [mul_one] at this
  rw [this]
  unfold partWin
  have hs := hp.2
  unfold windowSize at hs
  have e := genStencil_sum hP.native_pos hs P.axes[i] ho p.pos[i]
  rw [show ((genStencil P.kern (windowInfo P.kern.native (P.support * p.hsml)) P.axes[i] p.pos[i]).map fun p => p.2).sum = _ from e]
  exact hsum _ (Int.fract_nonneg _) (Int.fract_lt_one _)
/-- Total painted with any window whose kernel sums are near 1. -/
theorem total_near (P : Painter K) (hP : P.Valid) (hu : P.tuned = none) (tol : K) (htol : 0 ≤ tol)
    (hsum : ∀ u : K, 0 ≤ u → u < 1 → |kernelSum P.kern.kernel P.kern.native u - 1| ≤ tol)
    (hper : ∀ ax ∈ P.axes, ax.order = 0 ∧ 0 < ax.size ∧ ax.period = ax.size) (hd : DistinctElems P.axes)
    (ps : List (Particle K))
    (hps : ∀ p ∈ ps, p.pos.length = P.axes.length ∧ windowSize P p.hsml = P.kern.native) (mem : ℤ → K) :
    ∃ mem', paint P mem ps = some mem' ∧
      |total P.axes mem' - total P.axes mem - (ps.map (·.mass)).sum| ≤ ((1 + tol) ^ P.axes.length - 1) * (ps.map fun p => |p.mass|).sum := by
  refine ⟨_, paint_eq P hP ps (fun p hp => (hps p hp).1) mem, ?_⟩
  have hunit : ∀ p ∈ ps, |((ndindex (shapeOf P.axes)).map fun c => unitDeposit P p (elemAddr P.axes c)).sum - 1| ≤
      (1 + tol) ^ P.axes.length - 1 := by
    intro p hp
    rw [← show _ = _ from congrArg List.sum (List.map_congr_left fun c hc => (unitDeposit_elem P hd p c (mem_ndindex.mp hc)).symm)]
    exact weights_near P hP hu tol htol hsum hper p (hps p hp)
  unfold total
  simp only
  rw [sum_map_add, add_sub_cancel_left]
  clear hps
  induction ps with
  | nil => simp
  | cons p ps ih =>
    simp only [List.map_cons, List.sum_cons]
    rw [sum_map_add, sum_mul_left']
    have h1 := hunit p (by simp)
    have h2 := ih fun q hq => hunit q (by simp [hq])
    generalize ((ndindex (shapeOf P.axes)).map fun c => unitDeposit P p (elemAddr P.axes c)).sum = U at h1 ⊢
    generalize ((ndindex (shapeOf P.axes)).map fun c => (ps.map fun p => p.mass * unitDeposit P p (elemAddr P.axes c)).sum).sum = V at h2 ⊢
    rw [show p.mass * U + V - (p.mass + (ps.map (·.mass)).sum) = p.mass * (U - 1) + (V - (ps.map (·.mass)).sum) by ring, mul_add]
    refine (abs_add_le _ _).trans (add_le_add ?_ h2)
    rw [abs_mul, mul_comm]
    exact mul_le_mul_of_nonneg_right h1 (abs_nonneg _)

/-- What the particles read from a constant field. -/
theorem constant_near (P : Painter K) (hP : P.Valid) (hu : P.tuned = none) (tol : K) (htol : 0 ≤ tol)
    (hsum : ∀ u : K, 0 ≤ u → u < 1 → |kernelSum P.kern.kernel P.kern.native u - 1| ≤ tol)
    (hper : ∀ ax ∈ P.axes, ax.order = 0 ∧ 0 < ax.size ∧ ax.period = ax.size) (ps : List (Particle K))
    (hps : ∀ p ∈ ps, p.pos.length = P.axes.length ∧ windowSize P p.hsml = P.kern.native) (b : K) :
    ∃ vs, readout P (fun _ => b) ps = some vs ∧ vs.length = ps.length ∧
      ∀ v ∈ vs, |v - b| ≤ ((1 + tol) ^ P.axes.length - 1) * |b| := by
  refine ⟨_, readout_eq P hP ps (fun p hp => (hps p hp).1) _, by simp, ?_⟩
  intro v hv
  obtain ⟨p, hp, rfl⟩ := List.mem_map.1 hv
  have h := weights_near P hP hu tol htol hsum hper p (hps p hp)
  rw [sum_mul_const]
  generalize ((ndindex (shapeOf P.axes)).map fun c => cwProd (List.zipWith (axisStencil P p.hsml) P.axes p.pos) c).sum = U at h ⊢
  rw [show U * b - b = (U - 1) * b by ring, abs_mul]
  exact mul_le_mul_of_nonneg_right h (abs_nonneg _)

/-- Displacement of the mass of one particle on an open axis, by the first moment of the kernel. -/
theorem moment_near (P : Painter K) (hP : P.Valid) (hu : P.tuned = none) {ax : PAxis K} (hax : P.axes = [ax]) (ho : ax.order = 0)
    (hst : ax.stride ≠ 0) {x : K} (hint : Interior P.kern.native ax x) (mass h : K) (hs : windowSize P h = P.kern.native) (mem : ℤ → K) :
    ∃ mem', paint P mem [⟨[x], mass, h⟩] = some mem' ∧
      ((List.range ax.size).map fun (c : ℕ) => ((c : K) - ax.grid x) * (mem' (c * ax.stride) - mem (c * ax.stride))).sum =
        mass * -kernelMoment P.kern.kernel P.kern.native (Int.fract (ax.grid x + (P.kern.native : K) / 2)) := by
  refine ⟨_, paint_eq P hP _ (by simp [hax]) mem, ?_⟩
  have hd : DistinctElems P.axes := by
    rw [hax]
    intro c c' hc hc' he
    match c, c', hc, hc' with
    | [a], [b], hc, hc' =>
      simp only [elemAddr, add_zero] at he
      have := mul_right_cancel₀ hst he
      simp at this
      rw [this]
    | [], _, hc, _ => simp [shapeOf, ValidIndex] at hc
    | [_], [], _, hc => simp [shapeOf, ValidIndex] at hc
    | [_], _ :: _ :: _, _, hc => simp [shapeOf, ValidIndex] at hc
    | _ :: _ :: _, _, hc, _ => simp [shapeOf, ValidIndex] at hc
  have hf : Faithful P ⟨[x], mass, h⟩ := by intro t ht; rw [hu] at ht; cases ht
  have hs' := hs
  unfold windowSize at hs'
  have hnn : (0 : K) < P.kern.native := by exact_mod_cast hP.native_pos
  obtain ⟨i1, i2, i3⟩ := hint
  have hg : x * ax.scale + ax.translate = ax.grid x := rfl
  rw [hg] at i1 i2
  have hcells : ∀ r < P.kern.native, 0 ≤ ⌊ax.grid x + (P.kern.native : K) / 2⌋ - (P.kern.native - 1) + (r : ℤ) ∧
      ⌊ax.grid x + (P.kern.native : K) / 2⌋ - (P.kern.native - 1) + (r : ℤ) < ax.size := by
    intro r hr
    have h1 : (P.kern.native : ℤ) - 1 ≤ ⌊ax.grid x + (P.kern.native : K) / 2⌋ := by
      rw [Int.le_floor]; push_cast; linarith
    have h2 : ⌊ax.grid x + (P.kern.native : K) / 2⌋ < ax.size := by
      rw [Int.floor_lt]; push_cast; linarith
    omega
  have hw : ∀ r < P.kern.native, genWrap ax.period (⌊ax.grid x + (P.kern.native : K) / 2⌋ - (P.kern.native - 1) + r) =
      ⌊ax.grid x + (P.kern.native : K) / 2⌋ - (P.kern.native - 1) + r := by
    intro r hr
    obtain ⟨c1, c2⟩ := hcells r hr
    rw [genWrap_isCell]
    unfold IsCell
    split
    · rfl
    · rw [Int.emod_eq_of_lt c1 (by omega)]
  have e := genStencil_moment hP.native_pos hs' ax ho x hw
  rw [← e, ← sum_cw_all ax.size _ (fun q hq => ?_) fun c => (c : K) - ax.grid x, ← sum_mul_left']
  · congr 1
    apply List.map_congr_left
    intro c hc
    rw [List.mem_range] at hc
    have := unitDeposit_elem P hd ⟨[x], mass, h⟩ [c] (by rw [hax]; simpa [shapeOf, ValidIndex] using hc)
    rw [hax] at this
    simp only [elemAddr, add_zero, List.zipWith_cons_cons, List.zipWith_nil_right, cwProd, mul_one] at this
    have hg := axisStencil_gen hP hf (ax := ax) (x := x) (by rw [hax]; simp)
    simp only [List.map_cons, List.map_nil, List.sum_cons, List.sum_nil, add_zero, add_sub_cancel_left]
    rw [this, hg]
    unfold partWin
    push_cast
    ring
  · rw [genStencil_cells hP.native_pos hs' ax ho] at hq
    obtain ⟨r, hr, rfl⟩ := List.mem_map.mp hq
    rw [List.mem_range] at hr
    simp only [hw r hr]
    exact hcells r hr

theorem SymWin.sum_tolerance (w : SymWin) {u : K} (h0 : 0 ≤ u) (h1 : u < 1) :
    |kernelSum w.kern.kernel w.native u - 1| ≤ (w.tolerance : K) := by
  refine (w.sum_range h0 h1).trans ?_
  cases w <;> simp only [SymWin.lo, SymWin.hi, SymWin.native, SymWin.diffs, SymWin.step, SymWin.tolerance] <;>
    (rw [← le_sub_iff_add_le]; apply max_le <;> norm_num)

theorem WaveWin.sum_tolerance (w : WaveWin) {u : K} (h0 : 0 ≤ u) (h1 : u < 1) :
    |kernelSum w.kern.kernel w.native u - 1| ≤ (waveTolerance : K) := by
  obtain ⟨a, b⟩ := w.sum_range h0 h1
  rw [abs_le]
  revert a b
  cases w <;> simp only [WaveWin.lo, WaveWin.hi, waveTolerance] <;> intro a b <;> push_cast at a b ⊢ <;> constructor <;> linarith

theorem WaveWin.moment_tolerance (w : WaveWin) {u : K} (h0 : 0 ≤ u) (h1 : u < 1) :
    |-kernelMoment w.kern.kernel w.native u - w.displacement| ≤ 1 / 100 := by
  obtain ⟨a, b⟩ := w.moment_range h0 h1
  rw [abs_le]
  revert a b
  cases w <;> simp only [WaveWin.lo, WaveWin.hi, WaveWin.dlo, WaveWin.dhi, WaveWin.displacement] <;> intro a b <;> push_cast at a b ⊢ <;>
    constructor <;> linarith

end
end Pmesh
