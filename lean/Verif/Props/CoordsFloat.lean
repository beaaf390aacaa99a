import Verif.Lemmas.CoordsFloat
import Verif.Props.Coords
import Verif.Props.Field
import Verif.Spec.Field
import Verif.Lemmas.Field
import Mathlib.Analysis.Real.Pi.Bounds

/-!
# C102: coordinates and wavenumbers in floating point

`p` digits in the arithmetic, `u = 2^-p` the rounding error.
-/

namespace Pmesh

/-- **C102**, ranks: the number that a mesh point or a mode gets does not depend on the piece of the mesh a rank has, bit for bit. -/
theorem C102_ranks (p N : ℕ) (hN : N < 2 ^ p) (box : ℚ) (start len j start' len' j' : ℕ) (hj : j < len) (hle : start + len ≤ N)
    (hj' : j' < len') (hle' : start' + len' ≤ N) (hsame : start + j = start' + j') :
    (relAxisF p start len N box)[j]? = (relAxisF p start' len' N box)[j']? ∧
    (wavAxisF p start len N box)[j]? = (wavAxisF p start' len' N box)[j']? := by
  rw [relAxisF_getElem box hj (by omega) hN, relAxisF_getElem box hj' (by omega) hN, wavAxisF_getElem box hj (by omega) hN, wavAxisF_getElem box hj' (by omega) hN, hsame]
  exact ⟨rfl, rfl⟩

theorem pow_three_le {u : ℚ} (h0 : 0 ≤ u) (h1 : u ≤ 1 / 4) : (1 + u) ^ 3 - 1 ≤ 4 * u := by
  nlinarith [mul_nonneg h0 (sub_nonneg.2 h1), mul_nonneg (mul_nonneg h0 h0) (sub_nonneg.2 h1)]

theorem pow_eight_le {u : ℝ} (h0 : 0 ≤ u) (h1 : u ≤ 1 / 256) : (1 + u) ^ 8 - 1 ≤ 9 * u := by
  have h2 : (1 + u) ^ 2 ≤ 1 + (2 + 1 / 256) * u := by nlinarith
  have h4 : (1 + u) ^ 4 ≤ 1 + (4 + 1 / 32) * u := by
    have : (1 + u) ^ 4 = ((1 + u) ^ 2) ^ 2 := by ring
    rw [this]
    calc ((1 + u) ^ 2) ^ 2 ≤ (1 + (2 + 1 / 256) * u) ^ 2 := by gcongr
      _ ≤ _ := by nlinarith
  have : (1 + u) ^ 8 = ((1 + u) ^ 4) ^ 2 := by ring
  rw [this]
  have : ((1 + u) ^ 4) ^ 2 ≤ (1 + (4 + 1 / 32) * u) ^ 2 := by gcongr
  nlinarith

theorem pi64_err : |(pi64 : ℝ) - Real.pi| ≤ 1 / 2 ^ 53 * |Real.pi| := by
  have h1 := Real.pi_gt_d20
  have h2 := Real.pi_lt_d20
  rw [abs_of_pos Real.pi_pos, abs_le]
  unfold pi64
  push_cast
  constructor <;> norm_num at h1 h2 ⊢ <;> linarith

/-- **C102**, accuracy (partial: even mesh sizes, or not the index `N // 2`, see C26).  The coordinate of the element with global index `i = start + j`
is `z box / N` with a relative error of at most `4u` and its wavenumber `2 π z / box` with a relative error of at most `9u`, where `z` is the representative
of `i` modulo `N` in `[-N/2, N/2)`.  In particular both are exactly zero for `z = 0`. -/
theorem C102_accuracy_partial (p N : ℕ) (hp : 8 ≤ p) (hp53 : p ≤ 53) (hN : N < 2 ^ p) (box : ℚ) (start len j : ℕ) (hj : j < len)
    (hle : start + len ≤ N) (hodd : N % 2 = 0 ∨ start + j ≠ N / 2) :
    ∃ (z : ℤ) (x k : ℚ), Representative N ((start + j : ℕ) : ℤ) z ∧
      (relAxisF p start len N box)[j]? = some x ∧ (wavAxisF p start len N box)[j]? = some k ∧
      |x - z * (box / N)| ≤ 4 / 2 ^ p * |z * (box / N)| ∧
      |(k : ℝ) - 2 * Real.pi * z / box| ≤ 9 / 2 ^ p * |2 * Real.pi * z / box| := by
  refine ⟨wrapIndex N ((start + j : ℕ) : ℤ), _, _, wrapIndex_rep (by omega) (by omega) ?_, relAxisF_getElem box hj (by omega) hN,
    wavAxisF_getElem box hj (by omega) hN, ?_, ?_⟩
  · rcases hodd with h | h
    · exact Or.inl h
    · exact Or.inr (by exact_mod_cast h)
  · obtain ⟨z, hz⟩ : ∃ z, z = wrapIndex N ((start + j : ℕ) : ℤ) := ⟨_, rfl⟩
    rw [← hz]
    have h := relF_err hN box z
    obtain ⟨a, ha⟩ : ∃ a, a = relF p N box z := ⟨_, rfl⟩
    rw [← ha] at h ⊢
    unfold RelErr at h
    rw [← mul_div_assoc]
    refine h.trans (mul_le_mul_of_nonneg_right ?_ (abs_nonneg _))
    have hu : (1 : ℚ) / 2 ^ p ≤ 1 / 4 := by
      have : (2 : ℚ) ^ 2 ≤ 2 ^ p := pow_le_pow_right₀ (by norm_num) (by omega)
      exact one_div_le_one_div_of_le (by norm_num) (by linarith)
    calc _ ≤ _ := pow_three_le (by positivity) hu
      _ = _ := by ring
  · obtain ⟨z, hz⟩ : ∃ z, z = wrapIndex N ((start + j : ℕ) : ℤ) := ⟨_, rfl⟩
    rw [← hz]
    have h := wavF_err (by omega) hp53 (by omega) hN box z
    obtain ⟨a, ha⟩ : ∃ a, a = wavF p N box z := ⟨_, rfl⟩
    rw [← ha] at h ⊢
    have hu0 : (0 : ℝ) ≤ 1 / 2 ^ p := by positivity
    have hu : (1 : ℝ) / 2 ^ p ≤ 1 / 256 := by
      have : (2 : ℝ) ^ 8 ≤ 2 ^ p := pow_le_pow_right₀ (by norm_num) hp
      exact one_div_le_one_div_of_le (by norm_num) (by linarith)
    have h1 : RelErr ((1 : ℝ) / 2 ^ p) 7 (a : ℝ) (2 * pi64 * z / box : ℝ) := by
      unfold RelErr at h ⊢
      have h' := (Rat.cast_le (K := ℝ)).2 h
      push_cast at h'
      exact h'
    have h2 : RelErr ((1 : ℝ) / 2 ^ p) 1 (pi64 : ℝ) Real.pi := by
      unfold RelErr
      refine pi64_err.trans (mul_le_mul_of_nonneg_right ?_ (abs_nonneg _))
      have : (1 : ℝ) / 2 ^ 53 ≤ 1 / 2 ^ p := one_div_le_one_div_of_le (by positivity) (pow_le_pow_right₀ (by norm_num) hp53)
      linarith
    have h3 := h2.mul_left (2 * z / box : ℝ)
    have e1 : (2 * z / box : ℝ) * pi64 = 2 * pi64 * z / box := by ring
    have e2 : (2 * z / box : ℝ) * Real.pi = 2 * Real.pi * z / box := by ring
    rw [e1, e2] at h3
    have h4 : RelErr ((1 : ℝ) / 2 ^ p) 8 (a : ℝ) (2 * Real.pi * z / box) := h1.trans hu0 h3 rfl
    unfold RelErr at h4
    refine h4.trans (mul_le_mul_of_nonneg_right ?_ (abs_nonneg _))
    calc _ ≤ _ := pow_eight_le hu0 hu
      _ = _ := by ring

theorem relF_lt {p N : ℕ} (hp : 2 ≤ p) (hN0 : 0 < N) (hN : 4 * (N + 1) < 2 ^ p) {box : ℚ} (hbox : 0 < box) {z z' : ℤ} (h : z < z')
    (hz : |z| ≤ (N + 1) / 2) (hz' : |z'| ≤ (N + 1) / 2) : relF p N box z < relF p N box z' := by
  have e1 := relF_err (p := p) (N := N) (by omega) box z
  have e2 := relF_err (p := p) (N := N) (by omega) box z'
  obtain ⟨a, ha⟩ : ∃ a, a = relF p N box z := ⟨_, rfl⟩
  obtain ⟨b, hb⟩ : ∃ b, b = relF p N box z' := ⟨_, rfl⟩
  rw [← ha] at e1 ⊢
  rw [← hb] at e2 ⊢
  unfold RelErr at e1 e2
  have hu : (1 : ℚ) / 2 ^ p ≤ 1 / 4 := by
    have : (2 : ℚ) ^ 2 ≤ 2 ^ p := pow_le_pow_right₀ (by norm_num) (by omega)
    exact one_div_le_one_div_of_le (by norm_num) (by linarith)
  have h4 := pow_three_le (u := 1 / 2 ^ p) (by positivity) hu
  obtain ⟨c, hc⟩ : ∃ c : ℚ, c = box / N := ⟨_, rfl⟩
  have hc0 : 0 < c := by rw [hc]; positivity
  rw [mul_div_assoc, ← hc, abs_mul, abs_of_pos hc0] at e1 e2
  have hM : (4 : ℚ) * (1 / 2 ^ p) * (N + 1) < 1 := by
    have : ((4 * (N + 1) : ℕ) : ℚ) < 2 ^ p := by exact_mod_cast hN
    have hpos : (0 : ℚ) < 2 ^ p := by positivity
    have e : (4 : ℚ) * (1 / 2 ^ p) * (N + 1) = ((4 * (N + 1) : ℕ) : ℚ) / 2 ^ p := by push_cast; ring
    rw [e, div_lt_one hpos]
    exact this
  have b1 : |(z : ℚ)| * 2 ≤ N + 1 := by
    have : |z| * 2 ≤ N + 1 := by omega
    exact_mod_cast this
  have b2 : |(z' : ℚ)| * 2 ≤ N + 1 := by
    have : |z'| * 2 ≤ N + 1 := by omega
    exact_mod_cast this
  have f1 : |a - z * c| ≤ 4 * (1 / 2 ^ p) * (|(z : ℚ)| * c) := e1.trans (mul_le_mul_of_nonneg_right h4 (by positivity))
  have f2 : |b - z' * c| ≤ 4 * (1 / 2 ^ p) * (|(z' : ℚ)| * c) := e2.trans (mul_le_mul_of_nonneg_right h4 (by positivity))
  have hu0 : (0 : ℚ) ≤ 4 * (1 / 2 ^ p) := by positivity
  have g1 : 4 * (1 / 2 ^ p) * (|(z : ℚ)| * c) + 4 * (1 / 2 ^ p) * (|(z' : ℚ)| * c) < c := by
    have : 4 * (1 / 2 ^ p) * (|(z : ℚ)| * c) + 4 * (1 / 2 ^ p) * (|(z' : ℚ)| * c) ≤ (4 * (1 / 2 ^ p) * (N + 1)) * c := by
      have : (|(z : ℚ)| + |(z' : ℚ)|) * c ≤ (N + 1) * c := mul_le_mul_of_nonneg_right (by linarith) hc0.le
      nlinarith
    nlinarith
  have g2 : (z : ℚ) * c + c ≤ z' * c := by
    have : (z : ℚ) + 1 ≤ z' := by exact_mod_cast h
    nlinarith
  have := (abs_le.1 f1).2
  have := (abs_le.1 f2).1
  linarith

theorem wrapIndex_abs {N : ℕ} {i : ℕ} (hi : i < N) : |wrapIndex N (i : ℤ)| ≤ (N + 1) / 2 := by
  unfold wrapIndex
  rw [abs_le]
  split_ifs <;> constructor <;> omega

/-- **C102**, order: the coordinates of a mesh along an axis are in the order of the representatives of the indices, in particular no two points
of the mesh get the same coordinate, as long as `4 (N + 1) < 2^p`. -/
theorem C102_order (p N : ℕ) (hp : 2 ≤ p) (hN : 4 * (N + 1) < 2 ^ p) (box : ℚ) (hbox : 0 < box) (i i' : ℕ) (hi : i < N) (hi' : i' < N)
    (x x' : ℚ) (hx : (relAxisF p 0 N N box)[i]? = some x) (hx' : (relAxisF p 0 N N box)[i']? = some x') :
    x < x' ↔ (N / 2 ≤ i ∧ i' < N / 2) ∨ ((N / 2 ≤ i ↔ N / 2 ≤ i') ∧ i < i') := by
  rw [relAxisF_getElem box hi (by omega) (by omega), Option.some.injEq] at hx
  rw [relAxisF_getElem box hi' (by omega) (by omega), Option.some.injEq] at hx'
  rw [zero_add] at hx hx'
  have key : wrapIndex N (i : ℤ) < wrapIndex N (i' : ℤ) ↔ (N / 2 ≤ i ∧ i' < N / 2) ∨ ((N / 2 ≤ i ↔ N / 2 ≤ i') ∧ i < i') := by
    unfold wrapIndex
    split_ifs <;> omega
  rw [← key, ← hx, ← hx']
  constructor
  · intro h
    by_contra hc
    rcases (not_lt.1 hc).lt_or_eq with h' | h'
    · exact absurd (relF_lt hp (by omega) hN hbox h' (wrapIndex_abs hi') (wrapIndex_abs hi)) (not_lt.2 h.le)
    · rw [h'] at h
      exact lt_irrefl _ h
  · exact fun h => relF_lt hp (by omega) hN hbox h (wrapIndex_abs hi) (wrapIndex_abs hi')

theorem wrapIndex_oppositeF {N i : ℕ} (hi : i < N) (hodd : N % 2 = 0 ∨ (i ≠ N / 2 ∧ (N - i) % N ≠ N / 2)) :
    wrapIndex N (((N - i) % N : ℕ) : ℤ) = if 2 * i = N then wrapIndex N (i : ℤ) else -wrapIndex N (i : ℤ) := by
  by_cases h0 : i = 0
  · subst h0
    have h2 : (N - 0) % N = 0 := by simp
    rw [h2] at hodd ⊢
    rw [if_neg (by omega)]
    unfold wrapIndex
    split_ifs <;> omega
  · have e : (N - i) % N = N - i := Nat.mod_eq_of_lt (by omega)
    rw [e] at hodd ⊢
    unfold wrapIndex
    split_ifs <;> omega

/-- **C102**, opposite modes (partial: even mesh size, or neither index is `N // 2`, see C26): the wavenumbers of opposite modes are exactly opposite
numbers, bit for bit; the Nyquist mode is its own opposite. -/
theorem C102_opposite_partial (p N : ℕ) (hN : N < 2 ^ p) (box : ℚ) (i : ℕ) (hi : i < N)
    (hodd : N % 2 = 0 ∨ (i ≠ N / 2 ∧ (N - i) % N ≠ N / 2)) (k k' : ℚ) (hk : (wavAxisF p 0 N N box)[i]? = some k)
    (hk' : (wavAxisF p 0 N N box)[(N - i) % N]? = some k') : k' = if 2 * i = N then k else -k := by
  have hm : (N - i) % N < N := Nat.mod_lt _ (by omega)
  rw [wavAxisF_getElem box hi (by omega) hN, Option.some.injEq] at hk
  rw [wavAxisF_getElem box hm (by omega) hN, Option.some.injEq] at hk'
  rw [zero_add] at hk hk'
  rw [← hk, ← hk', wrapIndex_oppositeF hi hodd]
  split_ifs
  · rfl
  · rw [wavF_neg]

theorem kVectorF_entry (p : ℕ) (t : Tiling) (ht : t.OK) (hN : ∀ n ∈ t.nmesh, n < 2 ^ p) (box : List ℚ) {r : ℕ} (hr : r < t.nrank) {c : List ℕ}
    (hc : ValidIndex (t.lshape r) c) {d : ℕ} (hd : d < t.nmesh.length) :
    (wavAxisF p ((t.start r).getD d 0) ((t.lshape r).getD d 0) (t.nmesh.getD d 0) (box.getD d 0)).getD (c.getD d 0) 0 =
      wavF p (t.nmesh.getD d 0) (box.getD d 0) (wrapIndex (t.nmesh.getD d 0) (((t.global r c).getD d 0 : ℕ) : ℤ)) ∧
    (t.global r c).getD d 0 < t.nmesh.getD d 0 := by
  have hl := ht.shape_len r hr
  have hs := ht.start_len r hr
  have hcl := (validIndex_iff.1 hc).1
  have hcd := (validIndex_iff.1 hc).2 d (by omega)
  have hg := ht.inside r hr c hc
  have hgd : (t.global r c).getD d 0 = (t.start r).getD d 0 + c.getD d 0 := by
    unfold Tiling.global
    simp [List.getD_eq_getElem?_getD, List.getElem?_zipWith, List.getElem?_eq_getElem (show d < (t.start r).length by omega),
      List.getElem?_eq_getElem (show d < c.length by omega)]
  have hcs := ht.stored_le
  have hcsl := hcs.length_eq
  have hg2 := (validIndex_iff.1 hg).2 d (by omega)
  have hle : t.cshape.getD d 0 ≤ t.nmesh.getD d 0 := by
    have := (List.forall₂_iff_get.1 hcs).2 d (by omega) hd
    simpa [List.getD_eq_getElem?_getD, List.getElem?_eq_getElem (show d < t.cshape.length by omega), List.getElem?_eq_getElem hd] using this
  have hlt : (t.start r).getD d 0 + c.getD d 0 < t.nmesh.getD d 0 := by omega
  have hmem : t.nmesh.getD d 0 ∈ t.nmesh := by
    rw [List.getD_eq_getElem?_getD, List.getElem?_eq_getElem hd]
    exact List.getElem_mem hd
  refine ⟨?_, by omega⟩
  rw [List.getD_eq_getElem?_getD, wavAxisF_getElem _ hcd hlt (hN _ hmem), hgd]
  rfl

theorem kVectorF_eq (p : ℕ) (t : Tiling) (ht : t.OK) (hN : ∀ n ∈ t.nmesh, n < 2 ^ p) (box : List ℚ) {r : ℕ} (hr : r < t.nrank) {c : List ℕ}
    (hc : ValidIndex (t.lshape r) c) : kVectorF p t box r c = (List.range t.nmesh.length).map fun d =>
      wavF p (t.nmesh.getD d 0) (box.getD d 0) (wrapIndex (t.nmesh.getD d 0) (((t.global r c).getD d 0 : ℕ) : ℤ)) := by
  unfold kVectorF
  refine List.map_congr_left fun d hd => ?_
  exact (kVectorF_entry p t ht hN box hr hc (List.mem_range.1 hd)).1

/-- **C102**, ranks, for filters: with any real function of the wavevector, and on meshes of any size, the result in a mode is the same whatever the
ranks and the pieces of the mesh are, bit for bit. -/
theorem C102_filter_ranks (p q : ℕ) (t t' : Tiling) (ht : t.OK) (ht' : t'.OK) (hsame : t'.nmesh = t.nmesh) (hN : ∀ n ∈ t.nmesh, n < 2 ^ p)
    (box : List ℚ) (H : List ℚ → ℚ) (f f' : ℕ → List ℕ → Cx ℚ) (G : List ℕ → Cx ℚ) (hf : t.Holds f G) (hf' : t'.Holds f' G)
    (r r' : ℕ) (hr : r < t.nrank) (hr' : r' < t'.nrank) (c c' : List ℕ) (hc : ValidIndex (t.lshape r) c) (hc' : ValidIndex (t'.lshape r') c')
    (hg : t.global r c = t'.global r' c') : filterF p q t box H r (f r) c = filterF p q t' box H r' (f' r') c' := by
  unfold filterF
  rw [kVectorF_eq p t ht hN box hr hc, kVectorF_eq p t' ht' (by rwa [hsame]) box hr' hc', hf r hr c hc, hf' r' hr' c' hc', hg, hsame]

/-- The wavevector of a mode, up to the signs of its components. -/
theorem kVectorF_abs (p : ℕ) (t : Tiling) (ht : t.OK) (hN : ∀ n ∈ t.nmesh, n < 2 ^ p) (heven : ∀ n ∈ t.nmesh, n % 2 = 0) (box : List ℚ)
    {r r' : ℕ} (hr : r < t.nrank) (hr' : r' < t.nrank) {c c' : List ℕ} (hc : ValidIndex (t.lshape r) c) (hc' : ValidIndex (t.lshape r') c')
    (h : t.global r' c' = t.global r c ∨ t.global r' c' = opposite t.nmesh (t.global r c)) :
    (kVectorF p t box r' c').map abs = (kVectorF p t box r c).map abs := by
  unfold kVectorF
  rw [List.map_map, List.map_map]
  refine List.map_congr_left fun d hd => ?_
  rw [List.mem_range] at hd
  obtain ⟨e, _⟩ := kVectorF_entry p t ht hN box hr hc hd
  obtain ⟨e', _⟩ := kVectorF_entry p t ht hN box hr' hc' hd
  obtain ⟨_, hlt⟩ := kVectorF_entry p t ht hN box hr hc hd
  simp only [Function.comp]
  rw [e, e']
  rcases h with h | h
  · rw [h]
  · have hglen : (t.global r c).length = t.nmesh.length := by
      have := (validIndex_iff.1 (ht.inside r hr c hc)).1
      have := ht.stored_le.length_eq
      omega
    have ho : (t.global r' c').getD d 0 = (t.nmesh.getD d 0 - (t.global r c).getD d 0) % t.nmesh.getD d 0 := by
      rw [h]
      unfold opposite
      simp [List.getD_eq_getElem?_getD, List.getElem?_zipWith, List.getElem?_eq_getElem hd,
        List.getElem?_eq_getElem (show d < (t.global r c).length by omega)]
    have hmem : t.nmesh.getD d 0 ∈ t.nmesh := by
      rw [List.getD_eq_getElem?_getD, List.getElem?_eq_getElem hd]
      exact List.getElem_mem hd
    rw [ho, wrapIndex_oppositeF hlt (Or.inl (heven _ hmem))]
    split_ifs
    · rfl
    · rw [wavF_neg, abs_neg]

/-- **C102**, filters (partial: even mesh sizes).  A filter that is a real function of the sizes of the components of the wavevector, in floating point and
on any number of ranks: the result does not depend on the ranks, and opposite modes remain exact complex conjugates, bit for bit, whatever the function is. -/
theorem C102_hermitian_partial (p q : ℕ) (t : Tiling) (ht : t.OK) (hN : ∀ n ∈ t.nmesh, n < 2 ^ p) (heven : ∀ n ∈ t.nmesh, n % 2 = 0)
    (box : List ℚ) (H : List ℚ → ℚ) (hH : ∀ k, H (k.map abs) = H k) (f : ℕ → List ℕ → Cx ℚ) (G : List ℕ → Cx ℚ) (hf : t.Holds f G)
    (hG : t.Hermitian G) :
    ∃ G', t.Holds (fun r => filterF p q t box H r (f r)) G' ∧ t.Hermitian G' := by
  classical
  refine ⟨fun g => if h : ∃ rc : ℕ × List ℕ, rc.1 < t.nrank ∧ ValidIndex (t.lshape rc.1) rc.2 ∧ t.global rc.1 rc.2 = g then
      filterF p q t box H h.choose.1 (f h.choose.1) h.choose.2 else 0, ?_, ?_⟩
  · intro r hr c hc
    have hex : ∃ rc : ℕ × List ℕ, rc.1 < t.nrank ∧ ValidIndex (t.lshape rc.1) rc.2 ∧ t.global rc.1 rc.2 = t.global r c := ⟨(r, c), hr, hc, rfl⟩
    simp only [dif_pos hex]
    obtain ⟨h1, h2, h3⟩ := hex.choose_spec
    have hk := kVectorF_abs p t ht hN heven box hr h1 hc h2 (Or.inl h3)
    unfold filterF
    rw [← hH (kVectorF p t box r c), ← hk, hH, hf r hr c hc, hf _ h1 _ h2, h3]
  · intro i hi ho
    have hex : ∃ rc : ℕ × List ℕ, rc.1 < t.nrank ∧ ValidIndex (t.lshape rc.1) rc.2 ∧ t.global rc.1 rc.2 = i := by
      obtain ⟨r, hr, c, hc, e⟩ := ht.owner i hi
      exact ⟨(r, c), hr, hc, e⟩
    have hexo : ∃ rc : ℕ × List ℕ, rc.1 < t.nrank ∧ ValidIndex (t.lshape rc.1) rc.2 ∧ t.global rc.1 rc.2 = opposite t.nmesh i := by
      obtain ⟨r, hr, c, hc, e⟩ := ht.owner _ ho
      exact ⟨(r, c), hr, hc, e⟩
    simp only [dif_pos hex, dif_pos hexo]
    obtain ⟨h1, h2, h3⟩ := hex.choose_spec
    obtain ⟨o1, o2, o3⟩ := hexo.choose_spec
    have hk := kVectorF_abs p t ht hN heven box h1 o1 h2 o2 (Or.inr (by rw [o3, h3]))
    unfold filterF
    rw [← hH (kVectorF p t box hexo.choose.1 _), hk, hH, hf _ h1 _ h2, hf _ o1 _ o2, h3, o3, hG i hi ho]
    simp only [cxConj]
    rw [mul_neg, flRound_neg]

/-! ## Non-vacuity and violation -/

/-- **C102 violated** by odd meshes: the filter `|k|` makes different numbers of the modes 2 and 3 of a mesh of 5 points, which are opposite and equal to 1
before. -/
theorem C102_violated_odd : ∃ f' : List ℕ → Cx ℚ, f' = filterF 53 53 ⟨[5], [5], 1, fun _ => [0], fun _ => [5]⟩ [1] (fun k => |k.getD 0 0|) 0 (fun _ => (1, 0)) ∧
    f' [3] ≠ cxConj (f' [2]) := by
  refine ⟨_, rfl, ?_⟩
  decide +kernel

example := C102_accuracy_partial 24 6 (by norm_num) (by norm_num) (by norm_num) (1 / 3) 2 2 1 (by norm_num) (by norm_num) (Or.inl (by norm_num))
example := C102_ranks 24 6 (by norm_num) (1 / 3) 2 2 1 0 6 3 (by norm_num) (by norm_num) (by norm_num) (by norm_num) (by norm_num)

example := C102_order 24 6 (by norm_num) (by norm_num) (1 / 3) (by norm_num) 2 4 (by norm_num) (by norm_num)
example := C102_opposite_partial 24 6 (by norm_num) (1 / 3) 2 (by norm_num) (Or.inl (by norm_num))
example := C102_hermitian_partial 24 24 exTiling exTiling_ok (by decide) (by decide) [1 / 3, 2] (fun k => 1 / (1 + (k.map fun x => x * x).sum))
  (fun k => by simp [List.map_map, Function.comp_def]) (fun r c => exSpec (exTiling.global r c)) exSpec (fun _ _ _ _ => rfl) exSpec_hermitian
example := C102_filter_ranks 24 24 exTiling ⟨[4, 4], [4, 3], 1, fun _ => [0, 0], fun _ => [4, 3]⟩ exTiling_ok (tiling_ok_of_decide (by decide)) rfl (by decide)
  [1 / 3, 2] (fun k => k.sum) (fun r c => exSpec (exTiling.global r c)) (fun r c => exSpec (List.zipWith (· + ·) [0, 0] c)) exSpec (fun _ _ _ _ => rfl)
  (fun _ _ _ _ => rfl) 1 0 (by decide) (by decide) [0, 2] [3, 2] (.cons (by decide) (.cons (by decide) .nil)) (.cons (by decide) (.cons (by decide) .nil)) rfl

#print axioms C102_ranks
#print axioms C102_accuracy_partial
#print axioms C102_order
#print axioms C102_opposite_partial
#print axioms C102_filter_ranks
#print axioms C102_hermitian_partial
#print axioms C102_violated_odd

end Pmesh
