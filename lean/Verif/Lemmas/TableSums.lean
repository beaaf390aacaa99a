import Verif.Lemmas.TableChecked
import Mathlib.Algebra.Order.Floor.Semifield
import Mathlib.Tactic.FieldSimp
import Mathlib.Tactic.Linarith
import Mathlib.Tactic.Ring

/-!
# Sums of tabulated kernels over the stencil

Linear interpolation in a table is Lipschitz; the sums over the stencil at all positions follow from those at multiples of a small step.
-/

namespace Pmesh

section
variable {K : Type*} [Field K] [LinearOrder K] [IsStrictOrderedRing K] [FloorRing K]

/-- Linear interpolation in a table. -/
def lerp (tab : ℕ → K) (f : K) : K := tab ⌊f⌋₊ * (1 - (f - ⌊f⌋₊)) + tab (⌊f⌋₊ + 1) * (f - ⌊f⌋₊)

theorem truncInt_natFloor {f : K} (hf : 0 ≤ f) : truncInt f = (⌊f⌋₊ : ℤ) := by
  unfold truncInt
  rw [if_pos hf, Int.natCast_floor_eq_floor hf]

theorem symTableKernel_eq (tab : ℕ → K) (n : ℕ) {h : K} (hh : 0 < h) (x : K) :
    symTableKernel tab (n + 1) h x = if n ≤ ⌊|x| / h⌋₊ then 0 else lerp tab (|x| / h) := by
  have hf : 0 ≤ |x| / h := by positivity
  unfold symTableKernel lerp
  simp only [truncInt_natFloor hf]
  rw [if_neg (by omega)]
  by_cases hn : n ≤ ⌊|x| / h⌋₊
  · rw [if_pos (by push_cast; omega), if_pos hn]
  · rw [if_neg (by push_cast; omega), if_neg hn]
    simp

theorem waveTableKernel_eq (tab : ℕ → K) (n : ℕ) (h off : K) {x : K} (hf : 0 ≤ (x + off) / h) (hn : ⌊(x + off) / h⌋₊ < n) :
    waveTableKernel tab (n + 1) h off x = lerp tab ((x + off) / h) := by
  unfold waveTableKernel lerp
  simp only [truncInt_natFloor hf]
  rw [if_neg (not_lt.2 hf), if_neg (by push_cast; omega)]
  simp

variable {tab : ℕ → K} {n : ℕ} {D : K}

theorem tab_chain (hD : ∀ i < n, |tab (i + 1) - tab i| ≤ D) {i j : ℕ} (hij : i ≤ j) (hj : j ≤ n) : |tab j - tab i| ≤ D * ((j : K) - i) := by
  induction j, hij using Nat.le_induction with
  | base => simp
  | succ j hij ih =>
    have h1 := ih (by omega)
    have h2 := hD j (by omega)
    have h3 := abs_sub_le (tab (j + 1)) (tab j) (tab i)
    push_cast
    linarith

theorem lerp_node_right (hD : ∀ i < n, |tab (i + 1) - tab i| ≤ D) {f : K} (hf : 0 ≤ f) {j : ℕ} (hj : j ≤ n) (hfj : ⌊f⌋₊ < j) :
    |lerp tab f - tab j| ≤ D * ((j : K) - f) := by
  obtain ⟨i, hi⟩ : ∃ i, i = ⌊f⌋₊ := ⟨_, rfl⟩
  have h1 := Nat.floor_le hf
  have h2 := Nat.lt_floor_add_one f
  unfold lerp
  rw [← hi] at h1 h2 hfj ⊢
  have a := tab_chain hD (show i ≤ j by omega) hj
  have b := tab_chain hD (show i + 1 ≤ j by omega) hj
  push_cast at b
  rw [abs_le] at a b ⊢
  have t0 : 0 ≤ f - i := by linarith
  have t1 : 0 ≤ 1 - (f - i) := by linarith
  constructor <;> nlinarith [mul_le_mul_of_nonneg_left a.1 t1, mul_le_mul_of_nonneg_left a.2 t1, mul_le_mul_of_nonneg_left b.1 t0,
    mul_le_mul_of_nonneg_left b.2 t0]

theorem lerp_node_left (hD : ∀ i < n, |tab (i + 1) - tab i| ≤ D) {f : K} (hf : 0 ≤ f) (hn : ⌊f⌋₊ < n) {j : ℕ} (hfj : j ≤ ⌊f⌋₊) :
    |lerp tab f - tab j| ≤ D * (f - j) := by
  obtain ⟨i, hi⟩ : ∃ i, i = ⌊f⌋₊ := ⟨_, rfl⟩
  have h1 := Nat.floor_le hf
  have h2 := Nat.lt_floor_add_one f
  unfold lerp
  rw [← hi] at h1 h2 hfj hn ⊢
  have a := tab_chain hD hfj (by omega)
  have b := tab_chain hD (show j ≤ i + 1 by omega) (by omega)
  push_cast at b
  rw [abs_le] at a b ⊢
  have t0 : 0 ≤ f - i := by linarith
  have t1 : 0 ≤ 1 - (f - i) := by linarith
  constructor <;> nlinarith [mul_le_mul_of_nonneg_left a.1 t1, mul_le_mul_of_nonneg_left a.2 t1, mul_le_mul_of_nonneg_left b.1 t0,
    mul_le_mul_of_nonneg_left b.2 t0]

theorem lerp_lipschitz (hD : ∀ i < n, |tab (i + 1) - tab i| ≤ D) {f g : K} (hf : 0 ≤ f) (hfg : f ≤ g) (hg : ⌊g⌋₊ < n) :
    |lerp tab f - lerp tab g| ≤ D * (g - f) := by
  have hfl : ⌊f⌋₊ ≤ ⌊g⌋₊ := Nat.floor_mono hfg
  rcases Nat.eq_or_lt_of_le hfl with h | h
  · have hd := hD ⌊g⌋₊ hg
    unfold lerp
    rw [h, show tab ⌊g⌋₊ * (1 - (f - ⌊g⌋₊)) + tab (⌊g⌋₊ + 1) * (f - ⌊g⌋₊) - (tab ⌊g⌋₊ * (1 - (g - ⌊g⌋₊)) + tab (⌊g⌋₊ + 1) * (g - ⌊g⌋₊)) =
      (tab (⌊g⌋₊ + 1) - tab ⌊g⌋₊) * (f - g) by ring, abs_mul, abs_sub_comm f g, abs_of_nonneg (sub_nonneg.2 hfg)]
    exact mul_le_mul_of_nonneg_right hd (sub_nonneg.2 hfg)
  · have h1 := lerp_node_right hD hf (show ⌊g⌋₊ ≤ n by omega) h
    have h2 := lerp_node_left hD (hf.trans hfg) hg le_rfl
    have h3 := abs_sub_le (lerp tab f) (tab ⌊g⌋₊) (lerp tab g)
    rw [abs_sub_comm (tab ⌊g⌋₊)] at h3
    linarith

/-- The tabulated kernel is Lipschitz up to the jump at the end of the table. -/
theorem symTable_lipschitz (hD : ∀ i < n, |tab (i + 1) - tab i| ≤ D) (hD0 : 0 ≤ D) {δ : K} (hδ : |tab n| ≤ δ) {h : K} (hh : 0 < h) (x y : K) :
    |symTableKernel tab (n + 1) h x - symTableKernel tab (n + 1) h y| ≤ D * (|x - y| / h) + δ := by
  have hδ0 : 0 ≤ δ := (abs_nonneg _).trans hδ
  wlog hxy : |x| ≤ |y| generalizing x y
  · have := this y x (le_of_not_ge hxy)
    rwa [abs_sub_comm, abs_sub_comm y x] at this
  have hle : |x| / h ≤ |y| / h := div_le_div_of_nonneg_right hxy hh.le
  have h0 : 0 ≤ |x| / h := by positivity
  have hd : |y| / h - |x| / h ≤ |x - y| / h := by
    rw [← sub_div]
    refine div_le_div_of_nonneg_right ?_ hh.le
    rw [abs_sub_comm]
    exact abs_sub_abs_le_abs_sub y x
  have hDd := mul_le_mul_of_nonneg_left hd hD0
  rw [symTableKernel_eq _ _ hh, symTableKernel_eq _ _ hh]
  by_cases hy : n ≤ ⌊|y| / h⌋₊
  · rw [if_pos hy]
    by_cases hx : n ≤ ⌊|x| / h⌋₊
    · rw [if_pos hx, sub_zero, abs_zero]
      positivity
    · rw [if_neg hx, sub_zero]
      have h1 := lerp_node_right hD h0 (le_refl n) (by omega)
      have h2 : (n : K) ≤ |y| / h := (Nat.cast_le.2 hy).trans (Nat.floor_le (h0.trans hle))
      have h3 := abs_sub_abs_le_abs_sub (lerp tab (|x| / h)) (tab n)
      have h4 : D * ((n : K) - |x| / h) ≤ D * (|y| / h - |x| / h) := mul_le_mul_of_nonneg_left (by linarith) hD0
      linarith
  · have hx : ¬ n ≤ ⌊|x| / h⌋₊ := fun hx => hy (hx.trans (Nat.floor_mono hle))
    rw [if_neg hx, if_neg hy]
    have := lerp_lipschitz hD h0 hle (by omega)
    linarith

end

/-! ### symmetric tables -/

section
variable {K : Type*} [Field K] [LinearOrder K] [IsStrictOrderedRing K] [FloorRing K]

/-- Sum of a kernel over the stencil of a particle; `u` is the place of the particle between the ends of its window and the cells. -/
def kernelSum (κ : K → K) (S : ℕ) (u : K) : K := ((List.range S).map fun (j : ℕ) => κ (u + j - S / 2)).sum

theorem SymWin.step_pos (w : SymWin) : 0 < w.step := by cases w <;> decide

theorem abs_tabulated_sub (rows : List ℕ) {i D : ℕ} (h : |packedEntry rows (i + 1) - packedEntry rows i| ≤ D) :
    |(tabulated rows (i + 1) : K) - tabulated rows i| ≤ D / 10 ^ 8 := by
  unfold tabulated
  rw [← sub_div, abs_div, abs_of_pos (show (0 : K) < 10 ^ 8 by positivity)]
  refine div_le_div_of_nonneg_right ?_ (by positivity)
  have h' : ((|packedEntry rows (i + 1) - packedEntry rows i| : ℤ) : K) ≤ ((D : ℤ) : K) := Int.cast_le.2 h
  push_cast at h'
  exact h'

/-- The tabulated kernel at a rational place. -/
theorem symLerp_eq (w : SymWin) (N a : ℕ) (hN : 0 < N) (x : K) (hx : |x| = a / (2 * N)) :
    ((w.kern.kernel x : K) + 1) * (10 ^ 8 * ((2 * N * w.step : ℕ) : K)) = (rawLerp w.rows (2 * N * w.step) a : ℕ) := by
  obtain ⟨den, hden⟩ : ∃ den, den = 2 * N * w.step := ⟨_, rfl⟩
  have hs := w.step_pos
  have hd : 0 < den := by rw [hden]; positivity
  have hdK : (0 : K) < den := Nat.cast_pos.2 hd
  have hf : |x| / ((w.step : K) / 10 ^ 10) = ((a * 10 ^ 10 : ℕ) : K) / (den : ℕ) := by
    have : (w.step : K) ≠ 0 := by positivity
    have : (N : K) ≠ 0 := by positivity
    rw [hx, hden]
    push_cast
    field_simp
    norm_num
  have hk : (w.kern.kernel x : K) = symTableKernel (tabulated w.rows) (8191 + 1) ((w.step : K) / 10 ^ 10) x := rfl
  rw [hk, symTableKernel_eq _ _ (by positivity), hf, Nat.floor_div_eq_div, ← hden]
  obtain ⟨q, hq⟩ : ∃ q, q = a * 10 ^ 10 / den := ⟨_, rfl⟩
  obtain ⟨r, hr⟩ : ∃ r, r = a * 10 ^ 10 % den := ⟨_, rfl⟩
  have hqr : a * 10 ^ 10 = den * q + r := by rw [hq, hr]; exact (Nat.div_add_mod _ _).symm
  have hrd : r < den := by rw [hr]; exact Nat.mod_lt _ hd
  have hraw : rawLerp w.rows den a = cond (Nat.ble 8191 q) (100000000 * den) (rawEntry w.rows q * (den - r) + rawEntry w.rows (q + 1) * r) := by
    rw [hq, hr]; rfl
  rw [hraw]
  unfold lerp
  rw [Nat.floor_div_eq_div, ← hq]
  by_cases h : 8191 ≤ q
  · rw [if_pos h, Nat.ble_eq_true_of_le h, cond_true]
    push_cast
    ring
  · rw [if_neg h]
    have hb : Nat.ble 8191 q = false := by
      cases hc : Nat.ble 8191 q with
      | false => rfl
      | true => exact absurd (Nat.le_of_ble_eq_true hc) h
    rw [hb, cond_false]
    have e1 : ((rawEntry w.rows q : ℕ) : K) = (packedEntry w.rows q : K) + 10 ^ 8 := by
      have := congrArg (Int.cast : ℤ → K) (rawEntry_eq w.rows q)
      push_cast at this
      rw [this]; norm_num
    have e2 : ((rawEntry w.rows (q + 1) : ℕ) : K) = (packedEntry w.rows (q + 1) : K) + 10 ^ 8 := by
      have := congrArg (Int.cast : ℤ → K) (rawEntry_eq w.rows (q + 1))
      push_cast at this
      rw [this]; norm_num
    have e3 : ((a * 10 ^ 10 : ℕ) : K) = den * q + r := by rw [hqr]; push_cast; ring
    rw [e3]
    push_cast [Nat.cast_sub hrd.le]
    rw [e1, e2]
    unfold tabulated
    have : (den : K) ≠ 0 := hdK.ne'
    field_simp
    ring

omit [LinearOrder K] [IsStrictOrderedRing K] [FloorRing K] in
theorem cast_list_sum (l : List ℕ) : ((l.sum : ℕ) : K) = (l.map (Nat.cast : ℕ → K)).sum := by
  induction l with
  | nil => simp
  | cons a l ih => simp [ih]

omit [LinearOrder K] [IsStrictOrderedRing K] [FloorRing K] in
theorem sum_add_one {ι : Type*} (l : List ι) (f : ι → K) : (l.map fun j => f j + 1).sum = (l.map f).sum + l.length := by
  induction l with
  | nil => simp
  | cons a l ih => simp only [List.map_cons, List.sum_cons, ih, List.length_cons]; push_cast; ring

omit [LinearOrder K] [IsStrictOrderedRing K] [FloorRing K] in
theorem sum_mul_const {ι : Type*} (l : List ι) (f : ι → K) (c : K) : (l.map fun j => f j * c).sum = (l.map f).sum * c := by
  induction l with
  | nil => simp
  | cons a l ih => simp only [List.map_cons, List.sum_cons, ih]; ring

/-- At the multiples of `1/2048` the sums are in the range that was checked. -/
theorem SymWin.node_range (w : SymWin) {k : ℕ} (hk : k ≤ 2048) :
    (w.lo : K) / 10 ^ 8 ≤ kernelSum w.kern.kernel w.native (k / 2048 : K) ∧ kernelSum w.kern.kernel w.native (k / 2048 : K) ≤ (w.hi : K) / 10 ^ 8 := by
  have h := w.nodes_ok hk
  have hs := w.step_pos
  obtain ⟨den, hden⟩ : ∃ den, den = 2 * 2048 * w.step := ⟨_, rfl⟩
  have hdK : (0 : K) < den := by rw [hden]; positivity
  have h' : within ((w.native * 100000000 + w.lo) * den) ((w.native * 100000000 + w.hi) * den) (rawNode w.rows w.native 2048 den k) = true := by
    rw [hden]; exact h
  obtain ⟨h1, h2⟩ := within_spec h'
  have e : ((rawNode w.rows w.native 2048 den k : ℕ) : K) = (kernelSum w.kern.kernel w.native (k / 2048 : K) + w.native) * (10 ^ 8 * den) := by
    have e0 : rawNode w.rows w.native 2048 den k = natSum (fun j => rawLerp w.rows den
      ((2 * k + 2 * j * 2048 - w.native * 2048) + (w.native * 2048 - (2 * k + 2 * j * 2048)))) w.native := rfl
    rw [e0, natSum_eq]
    unfold kernelSum
    have e1 := sum_add_one (List.range w.native) (fun (j : ℕ) => (w.kern.kernel ((k : K) / 2048 + j - w.native / 2) : K))
    rw [List.length_range] at e1
    rw [← e1, ← sum_mul_const, cast_list_sum, List.map_map]
    congr 1
    apply List.map_congr_left
    intro j hj
    simp only [Function.comp]
    rw [hden, ← symLerp_eq w 2048 _ (by norm_num) ((k : K) / 2048 + j - w.native / 2)]
    rw [show (k : K) / 2048 + j - w.native / 2 = (2 * k + 2 * j * 2048 - w.native * 2048) / (2 * (2048 : ℕ)) by push_cast; ring, abs_div,
      abs_of_pos (show (0 : K) < 2 * (2048 : ℕ) by positivity)]
    congr 1
    rcases le_total (w.native * 2048) (2 * k + 2 * j * 2048) with hc | hc
    · have hc' : ((w.native * 2048 : ℕ) : K) ≤ ((2 * k + 2 * j * 2048 : ℕ) : K) := Nat.cast_le.2 hc
      rw [Nat.sub_eq_zero_of_le hc, add_zero, Nat.cast_sub hc]
      push_cast at hc' ⊢
      rw [abs_of_nonneg (by linarith)]
    · have hc' : ((2 * k + 2 * j * 2048 : ℕ) : K) ≤ ((w.native * 2048 : ℕ) : K) := Nat.cast_le.2 hc
      rw [Nat.sub_eq_zero_of_le hc, zero_add, Nat.cast_sub hc]
      push_cast at hc' ⊢
      rw [abs_of_nonpos (by linarith)]
      ring
  have h1' : (((w.native * 100000000 + w.lo) * den : ℕ) : K) ≤ ((rawNode w.rows w.native 2048 den k : ℕ) : K) := Nat.cast_le.2 h1
  have h2' : ((rawNode w.rows w.native 2048 den k : ℕ) : K) ≤ (((w.native * 100000000 + w.hi) * den : ℕ) : K) := Nat.cast_le.2 h2
  rw [e] at h1' h2'
  push_cast at h1' h2'
  have h1'' := le_of_mul_le_mul_right (show ((w.native : K) * 100000000 + w.lo) * den ≤
    ((kernelSum w.kern.kernel w.native (k / 2048 : K) + w.native) * 10 ^ 8) * den by linarith) hdK
  have h2'' := le_of_mul_le_mul_right (show ((kernelSum w.kern.kernel w.native (k / 2048 : K) + w.native) * 10 ^ 8) * den ≤
    ((w.native : K) * 100000000 + w.hi) * den by linarith) hdK
  rw [div_le_iff₀ (by positivity), le_div_iff₀ (by positivity)]
  constructor <;> linarith

/-- Sums at two places are close. -/
theorem SymWin.sum_close (w : SymWin) (u v : K) :
    |kernelSum w.kern.kernel w.native u - kernelSum w.kern.kernel w.native v| ≤
      w.native * (w.diffs / 10 ^ 8 * (|u - v| / (w.step / 10 ^ 10)) + 1 / 10 ^ 8) := by
  have hs := w.step_pos
  have hsK : (0 : K) < w.step := Nat.cast_pos.2 hs
  have key : ∀ l : List ℕ, |(l.map fun (j : ℕ) => (w.kern.kernel (u + j - w.native / 2) : K)).sum -
      (l.map fun (j : ℕ) => (w.kern.kernel (v + j - w.native / 2) : K)).sum| ≤
      l.length * (w.diffs / 10 ^ 8 * (|u - v| / (w.step / 10 ^ 10)) + 1 / 10 ^ 8) := by
    intro l
    induction l with
    | nil => simp
    | cons j l ih =>
      have h1 := symTable_lipschitz (tab := tabulated w.rows) (n := 8191) (D := (w.diffs : K) / 10 ^ 8) (δ := 1 / 10 ^ 8)
        (fun i hi => abs_tabulated_sub w.rows (w.steps_ok hi)) (by positivity) (by
          unfold tabulated
          rw [abs_div, abs_of_pos (show (0 : K) < 10 ^ 8 by positivity)]
          refine div_le_div_of_nonneg_right ?_ (by positivity)
          have := (Int.cast_le (R := K)).2 w.last_ok
          push_cast at this
          exact this) (h := (w.step : K) / 10 ^ 10) (by positivity) (u + j - w.native / 2) (v + j - w.native / 2)
      rw [show u + (j : K) - w.native / 2 - (v + j - w.native / 2) = u - v by ring] at h1
      simp only [List.map_cons, List.sum_cons, List.length_cons]
      have h2 := abs_add_le ((w.kern.kernel (u + j - w.native / 2) : K) - w.kern.kernel (v + j - w.native / 2))
        ((l.map fun (j : ℕ) => (w.kern.kernel (u + j - w.native / 2) : K)).sum - (l.map fun (j : ℕ) => (w.kern.kernel (v + j - w.native / 2) : K)).sum)
      have h1' : |(w.kern.kernel (u + j - w.native / 2) : K) - w.kern.kernel (v + j - w.native / 2)| ≤
        (w.diffs : K) / 10 ^ 8 * (|u - v| / (w.step / 10 ^ 10)) + 1 / 10 ^ 8 := h1
      push_cast
      rw [add_sub_add_comm]
      linarith
  have := key (List.range w.native)
  rwa [List.length_range] at this

/-- How much the sum of a symmetric window can differ from one. -/
theorem SymWin.sum_range (w : SymWin) {u : K} (h0 : 0 ≤ u) (h1 : u < 1) :
    |kernelSum w.kern.kernel w.native u - 1| ≤
      max (1 - (w.lo : K) / 10 ^ 8) ((w.hi : K) / 10 ^ 8 - 1) + w.native * (w.diffs / 10 ^ 8 * ((1 / 4096) / (w.step / 10 ^ 10)) + 1 / 10 ^ 8) := by
  obtain ⟨k, hk⟩ : ∃ k, k = ⌊u * 2048 + 1 / 2⌋₊ := ⟨_, rfl⟩
  have a1 := Nat.floor_le (show 0 ≤ u * 2048 + 1 / 2 by positivity)
  have a2 := Nat.lt_floor_add_one (u * 2048 + 1 / 2)
  rw [← hk] at a1 a2
  have hk2 : k ≤ 2048 := by
    have : (k : K) < ((2049 : ℕ) : K) := by push_cast; linarith
    have := Nat.cast_lt.1 this
    omega
  have hd : |u - k / 2048| ≤ 1 / 4096 := by
    rw [abs_le]
    constructor <;> linarith
  obtain ⟨b1, b2⟩ := w.node_range (K := K) hk2
  have c := w.sum_close u ((k : K) / 2048)
  have hs : (0 : K) < (w.step : K) / 10 ^ 10 := by have := w.step_pos; positivity
  have c2 : (w.native : K) * (w.diffs / 10 ^ 8 * (|u - k / 2048| / (w.step / 10 ^ 10)) + 1 / 10 ^ 8) ≤
      w.native * (w.diffs / 10 ^ 8 * ((1 / 4096) / (w.step / 10 ^ 10)) + 1 / 10 ^ 8) := by
    refine mul_le_mul_of_nonneg_left ?_ (by positivity)
    have := mul_le_mul_of_nonneg_left (div_le_div_of_nonneg_right hd hs.le) (show (0 : K) ≤ w.diffs / 10 ^ 8 by positivity)
    linarith
  have d1 := le_max_left (1 - (w.lo : K) / 10 ^ 8) ((w.hi : K) / 10 ^ 8 - 1)
  have d2 := le_max_right (1 - (w.lo : K) / 10 ^ 8) ((w.hi : K) / 10 ^ 8 - 1)
  rw [abs_le] at c ⊢
  constructor <;> linarith

/-! ### wavelets -/

theorem WaveWin.size_eq (w : WaveWin) : w.size = 256 * w.native + 3 + 1 := by cases w <;> rfl

theorem WaveWin.offset_eq (w : WaveWin) : w.offset = w.native := by cases w <;> rfl

/-- The kernel of a wavelet at a place between two entries. -/
theorem WaveWin.kernel_eq (w : WaveWin) {m j : ℕ} (hm : m < 256) (hj : j < w.native) {t : K} (h0 : 0 ≤ t) (h1 : t < 1) :
    (w.kern.kernel ((m + t) / 256 + j - w.native / 2) : K) =
      (1 - t) * (tabulated w.rows (m + 256 * j)) + t * tabulated w.rows (m + 1 + 256 * j) := by
  have hk : (w.kern.kernel ((m + t) / 256 + j - w.native / 2) : K) =
      waveTableKernel (tabulated w.rows) w.size (390625 / 10 ^ 8) ((w.offset : K) / 2) ((m + t) / 256 + j - w.native / 2) := rfl
  have hf : (((m : K) + t) / 256 + j - w.native / 2 + (w.offset : K) / 2) / (390625 / 10 ^ 8) = ((m + 256 * j : ℕ) : K) + t := by
    rw [w.offset_eq]
    push_cast
    ring
  have hfl : ⌊((m + 256 * j : ℕ) : K) + t⌋₊ = m + 256 * j := by
    rw [Nat.floor_eq_iff (by positivity)]
    constructor <;> linarith
  rw [hk, w.size_eq, waveTableKernel_eq _ _ _ _ (by rw [hf]; positivity) (by rw [hf, hfl]; omega), hf]
  unfold lerp
  rw [hfl, show m + 256 * j + 1 = m + 1 + 256 * j by ring]
  ring

/-- The sum of the entries at `m / 256` of a cell. -/
def WaveWin.colSum (w : WaveWin) (m : ℕ) : K := ((List.range w.native).map fun (j : ℕ) => (tabulated w.rows (m + 256 * j) : K)).sum

/-- The first moment of the entries at `m / 256` of a cell. -/
def WaveWin.colMoment (w : WaveWin) (m : ℕ) : K :=
  ((List.range w.native).map fun (j : ℕ) => (tabulated w.rows (m + 256 * j) : K) * ((m : K) / 256 + j - w.native / 2)).sum

theorem raw_tabulated (rows : List ℕ) (i : ℕ) : ((rawEntry rows i : ℕ) : K) = (tabulated rows i + 1) * 10 ^ 8 := by
  have := congrArg (Int.cast : ℤ → K) (rawEntry_eq rows i)
  push_cast at this
  rw [this]
  unfold tabulated
  field_simp
  norm_num

theorem WaveWin.colSum_range (w : WaveWin) {m : ℕ} (hm : m ≤ 256) :
    (w.lo : K) / 10 ^ 8 ≤ w.colSum m ∧ (w.colSum m : K) ≤ (w.hi : K) / 10 ^ 8 := by
  obtain ⟨h1, h2⟩ := within_spec (w.nodes_ok hm)
  rw [natSum_eq] at h1 h2
  have e : ((((List.range w.native).map fun j => rawEntry w.rows (m + 256 * j)).sum : ℕ) : K) = (w.colSum m + w.native) * 10 ^ 8 := by
    have e1 := sum_add_one (List.range w.native) (fun (j : ℕ) => (tabulated w.rows (m + 256 * j) : K))
    rw [List.length_range] at e1
    unfold WaveWin.colSum
    rw [← e1, ← sum_mul_const, cast_list_sum, List.map_map]
    congr 1
    apply List.map_congr_left
    intro j hj
    exact raw_tabulated w.rows _
  have h1' := (Nat.cast_le (α := K)).2 h1
  have h2' := (Nat.cast_le (α := K)).2 h2
  rw [e] at h1' h2'
  push_cast at h1' h2'
  rw [div_le_iff₀ (by positivity), le_div_iff₀ (by positivity)]
  constructor <;> linarith

omit [LinearOrder K] [IsStrictOrderedRing K] [FloorRing K] in
theorem sum_range_places (S m : ℕ) : ((List.range S).map fun (j : ℕ) => (2 * ((m : K) + 256 * j))).sum = 2 * m * S + 256 * (S * (S - 1)) := by
  induction S with
  | zero => simp
  | succ S ih =>
    rw [List.range_succ, List.map_append, List.sum_append, ih]
    simp only [List.map_cons, List.map_nil, List.sum_cons, List.sum_nil]
    push_cast
    ring

omit [LinearOrder K] [IsStrictOrderedRing K] [FloorRing K] in
theorem sum_map_add_map {ι : Type*} (l : List ι) (f g : ι → K) : (l.map fun j => f j + g j).sum = (l.map f).sum + (l.map g).sum := by
  induction l with
  | nil => simp
  | cons a l ih => simp only [List.map_cons, List.sum_cons, ih]; ring

theorem WaveWin.colMoment_range (w : WaveWin) {m : ℕ} (hm : m ≤ 256) :
    (w.dlo : K) / 10 ^ 8 ≤ -w.colMoment m ∧ -(w.colMoment m : K) ≤ (w.dhi : K) / 10 ^ 8 := by
  have h := w.moments_ok hm
  unfold WaveWin.moment at h
  rw [Bool.and_eq_true] at h
  have h1 := Nat.le_of_ble_eq_true h.1
  have h2 := Nat.le_of_ble_eq_true h.2
  clear h
  rw [natSum_eq, natSum_eq] at h1 h2
  obtain ⟨T, hT⟩ : ∃ T : K, T = w.colSum m := ⟨_, rfl⟩
  obtain ⟨A, hA⟩ : ∃ A : K, A = ((List.range w.native).map fun (j : ℕ) => (tabulated w.rows (m + 256 * j) : K) * (2 * ((m : K) + 256 * j))).sum := ⟨_, rfl⟩
  have eA : ((((List.range w.native).map fun j => rawEntry w.rows (m + 256 * j) * (2 * (m + 256 * j))).sum : ℕ) : K) =
      (A + (2 * m * w.native + 256 * (w.native * (w.native - 1)))) * 10 ^ 8 := by
    rw [hA, ← sum_range_places w.native m, ← sum_map_add_map, ← sum_mul_const, cast_list_sum, List.map_map]
    congr 1
    apply List.map_congr_left
    intro j hj
    simp only [Function.comp]
    push_cast
    rw [raw_tabulated]
    ring
  have eB : ((((List.range w.native).map fun j => rawEntry w.rows (m + 256 * j) * (256 * w.native)).sum : ℕ) : K) =
      (T + w.native) * (256 * w.native) * 10 ^ 8 := by
    have e1 := sum_add_one (List.range w.native) (fun (j : ℕ) => (tabulated w.rows (m + 256 * j) : K))
    rw [List.length_range] at e1
    rw [hT]
    unfold WaveWin.colSum
    rw [← e1, ← sum_mul_const, ← sum_mul_const, cast_list_sum, List.map_map]
    congr 1
    apply List.map_congr_left
    intro j hj
    simp only [Function.comp]
    push_cast
    rw [raw_tabulated]
    ring
  have eM : (w.colMoment m : K) * 512 = A - T * (256 * w.native) := by
    rw [hA, hT]
    unfold WaveWin.colMoment WaveWin.colSum
    have : ∀ l : List ℕ, (l.map fun (j : ℕ) => (tabulated w.rows (m + 256 * j) : K) * ((m : K) / 256 + j - w.native / 2)).sum * 512 =
        (l.map fun (j : ℕ) => (tabulated w.rows (m + 256 * j) : K) * (2 * ((m : K) + 256 * j))).sum -
          (l.map fun (j : ℕ) => (tabulated w.rows (m + 256 * j) : K)).sum * (256 * w.native) := by
      intro l
      induction l with
      | nil => simp
      | cons a l ih =>
        simp only [List.map_cons, List.sum_cons]
        rw [add_mul, ih]
        ring
    exact this _
  have h1' := (Nat.cast_le (α := K)).2 h1
  have h2' := (Nat.cast_le (α := K)).2 h2
  push_cast [eA, eB] at h1' h2'
  rw [div_le_iff₀ (by positivity), le_div_iff₀ (by positivity)]
  constructor <;> nlinarith

/-- Where between two entries a place is. -/
theorem place_split {u : K} (h0 : 0 ≤ u) (h1 : u < 1) : ∃ m : ℕ, m < 256 ∧ ∃ t : K, 0 ≤ t ∧ t < 1 ∧ u = (m + t) / 256 := by
  have a1 := Nat.floor_le (show 0 ≤ u * 256 by positivity)
  have a2 := Nat.lt_floor_add_one (u * 256)
  refine ⟨⌊u * 256⌋₊, ?_, u * 256 - ⌊u * 256⌋₊, by linarith, by linarith, by ring⟩
  rw [Nat.floor_lt (by positivity)]
  push_cast
  linarith

theorem WaveWin.sum_eq (w : WaveWin) {m : ℕ} (hm : m < 256) {t : K} (h0 : 0 ≤ t) (h1 : t < 1) :
    kernelSum w.kern.kernel w.native (((m : K) + t) / 256) = (1 - t) * w.colSum m + t * w.colSum (m + 1) := by
  unfold kernelSum WaveWin.colSum
  rw [mul_comm (1 - t), mul_comm t, ← sum_mul_const, ← sum_mul_const, ← sum_map_add_map]
  congr 1
  apply List.map_congr_left
  intro j hj
  rw [w.kernel_eq hm (List.mem_range.1 hj) h0 h1]
  ring

theorem WaveWin.sum_range (w : WaveWin) {u : K} (h0 : 0 ≤ u) (h1 : u < 1) :
    (w.lo : K) / 10 ^ 8 ≤ kernelSum w.kern.kernel w.native u ∧ kernelSum w.kern.kernel w.native u ≤ (w.hi : K) / 10 ^ 8 := by
  obtain ⟨m, hm, t, t0, t1, rfl⟩ := place_split h0 h1
  rw [w.sum_eq hm t0 t1]
  obtain ⟨a1, a2⟩ := w.colSum_range (K := K) (show m ≤ 256 by omega)
  obtain ⟨b1, b2⟩ := w.colSum_range (K := K) (show m + 1 ≤ 256 by omega)
  have s0 : 0 ≤ 1 - t := by linarith
  constructor <;> nlinarith [mul_le_mul_of_nonneg_left a1 s0, mul_le_mul_of_nonneg_left a2 s0, mul_le_mul_of_nonneg_left b1 t0,
    mul_le_mul_of_nonneg_left b2 t0]

/-- The first moment of a kernel over the stencil. -/
def kernelMoment (κ : K → K) (S : ℕ) (u : K) : K := ((List.range S).map fun (j : ℕ) => κ (u + j - S / 2) * (u + j - S / 2)).sum

theorem WaveWin.moment_eq (w : WaveWin) {m : ℕ} (hm : m < 256) {t : K} (h0 : 0 ≤ t) (h1 : t < 1) :
    kernelMoment w.kern.kernel w.native (((m : K) + t) / 256) = (1 - t) * w.colMoment m + t * w.colMoment (m + 1) +
      (w.colSum m * (t * (1 - t) / 256) + w.colSum (m + 1) * (-(t * (1 - t) / 256))) := by
  unfold kernelMoment WaveWin.colMoment WaveWin.colSum
  rw [mul_comm (1 - t), mul_comm t, ← sum_mul_const, ← sum_mul_const, ← sum_mul_const, ← sum_mul_const, ← sum_map_add_map, ← sum_map_add_map, ← sum_map_add_map]
  congr 1
  apply List.map_congr_left
  intro j hj
  rw [w.kernel_eq hm (List.mem_range.1 hj) h0 h1]
  push_cast
  ring

omit [FloorRing K] in
theorem moment_arith {s s' M M' t L H X Y : K} (t0 : 0 ≤ t) (t1 : t < 1) (a1 : L ≤ s) (a2 : s ≤ H) (b1 : L ≤ s') (b2 : s' ≤ H)
    (c1 : X ≤ -M) (c2 : -M ≤ Y) (d1 : X ≤ -M') (d2 : -M' ≤ Y) :
    X - (H - L) / 1024 ≤ -((1 - t) * M + t * M' + (s * (t * (1 - t) / 256) + s' * (-(t * (1 - t) / 256)))) ∧
      -((1 - t) * M + t * M' + (s * (t * (1 - t) / 256) + s' * (-(t * (1 - t) / 256)))) ≤ Y + (H - L) / 1024 := by
  have s0 : 0 ≤ 1 - t := by linarith
  have q0 : 0 ≤ t * (1 - t) / 256 := by positivity
  have q1 : t * (1 - t) / 256 ≤ 1 / 1024 := by nlinarith [sq_nonneg (t - 1 / 2)]
  generalize t * (1 - t) / 256 = q at q0 q1 ⊢
  have e1 : |s * q + s' * -q| ≤ (H - L) / 1024 := by
    rw [show s * q + s' * -q = (s - s') * q by ring, abs_mul, abs_of_nonneg q0]
    have : |s - s'| ≤ H - L := by rw [abs_le]; constructor <;> linarith
    calc |s - s'| * q ≤ (H - L) * (1 / 1024) := mul_le_mul this q1 q0 ((abs_nonneg _).trans this)
      _ = _ := by ring
  rw [abs_le] at e1
  constructor <;> nlinarith [mul_le_mul_of_nonneg_left c1 s0, mul_le_mul_of_nonneg_left c2 s0, mul_le_mul_of_nonneg_left d1 t0,
    mul_le_mul_of_nonneg_left d2 t0]

theorem WaveWin.moment_range (w : WaveWin) {u : K} (h0 : 0 ≤ u) (h1 : u < 1) :
    (w.dlo : K) / 10 ^ 8 - ((w.hi : K) / 10 ^ 8 - w.lo / 10 ^ 8) / 1024 ≤ -kernelMoment w.kern.kernel w.native u ∧
      -kernelMoment w.kern.kernel w.native u ≤ (w.dhi : K) / 10 ^ 8 + ((w.hi : K) / 10 ^ 8 - w.lo / 10 ^ 8) / 1024 := by
  obtain ⟨m, hm, t, t0, t1, rfl⟩ := place_split h0 h1
  rw [w.moment_eq hm t0 t1]
  obtain ⟨a1, a2⟩ := w.colSum_range (K := K) (show m ≤ 256 by omega)
  obtain ⟨b1, b2⟩ := w.colSum_range (K := K) (show m + 1 ≤ 256 by omega)
  obtain ⟨c1, c2⟩ := w.colMoment_range (K := K) (show m ≤ 256 by omega)
  obtain ⟨d1, d2⟩ := w.colMoment_range (K := K) (show m + 1 ≤ 256 by omega)
  exact moment_arith t0 t1 a1 a2 b1 b2 c1 c2 d1 d2

end
end Pmesh
