import Verif.Model.Domain
import Mathlib.Data.List.GetD
import Mathlib.Tactic.Linarith

namespace Pmesh

theorem countP_range_interval (n a b : ℕ) (hab : a ≤ b) :
    (List.range n).countP (fun k => decide (a ≤ k ∧ k < b)) = min b n - min a n := by
  induction n with
  | zero => simp
  | succ n ih =>
    rw [List.range_succ, List.countP_append, ih]
    by_cases h : a ≤ n ∧ n < b
    · simp [h]; omega
    · simp [h]; omega

theorem defaultAssign_spec (size nrank : ℕ) (junk : ℕ → ℕ) (hn : nrank < size) (h0 : 0 < nrank) :
    (defaultAssign size nrank junk).length = size ∧
    ∀ k < size, ∃ v < nrank, (defaultAssign size nrank junk)[k]? = some v ∧
      v * size / nrank ≤ k ∧ k < (v + 1) * size / nrank := by
  have key : ∀ m ≤ nrank, ∀ acc, acc = (List.range m).foldl
      (fun acc i => acc.mapIdx fun k a =>
        if i * size / nrank ≤ k ∧ k < (i + 1) * size / nrank then i else a) ((List.range size).map junk) →
      acc.length = size ∧ ∀ k, k < m * size / nrank → ∃ v < m, acc[k]? = some v ∧
        v * size / nrank ≤ k ∧ k < (v + 1) * size / nrank := by
    intro m
    induction m with
    | zero => intro _ acc h; subst h; simp
    | succ m ih =>
      intro hm acc h
      rw [List.range_succ, List.foldl_append] at h
      simp only [List.foldl_cons, List.foldl_nil] at h
      obtain ⟨h1, h2⟩ := ih (by omega) _ rfl
      have hlen : acc.length = size := by rw [h, List.length_mapIdx, h1]
      refine ⟨hlen, fun k hk => ?_⟩
      have hks : k < size := by
        have : (m + 1) * size / nrank ≤ size := by
          apply Nat.div_le_of_le_mul
          exact Nat.mul_le_mul_right _ hm
        omega
      by_cases hc : m * size / nrank ≤ k
      · refine ⟨m, by omega, ?_, hc, hk⟩
        rw [h, List.getElem?_mapIdx, List.getElem?_eq_getElem (by rw [h1]; exact hks)]
        simp [hc, hk]
      · obtain ⟨v, v1, v2, v3⟩ := h2 k (by omega)
        refine ⟨v, by omega, ?_, v3⟩
        rw [h, List.getElem?_mapIdx, v2]
        simp [hc]
  have hk := key nrank le_rfl _ rfl
  unfold defaultAssign
  rw [if_neg (by omega)]
  refine ⟨hk.1, fun k hk' => hk.2 k ?_⟩
  rw [Nat.mul_div_cancel_left _ h0]; exact hk'

theorem block_mono {size nrank v w : ℕ} (h : v ≤ w) : v * size / nrank ≤ w * size / nrank :=
  Nat.div_le_div_right (Nat.mul_le_mul_right _ h)

theorem block_unique {size nrank v w k : ℕ} (h1 : v * size / nrank ≤ k) (h2 : k < (v + 1) * size / nrank)
    (h3 : w * size / nrank ≤ k) (h4 : k < (w + 1) * size / nrank) : v = w := by
  by_contra hne
  rcases Nat.lt_or_gt_of_ne hne with h | h
  · have := block_mono (size := size) (nrank := nrank) (show v + 1 ≤ w from h); omega
  · have := block_mono (size := size) (nrank := nrank) (show w + 1 ≤ v from h); omega

theorem defaultAssign_count (size nrank : ℕ) (junk : ℕ → ℕ) (hn : nrank < size) (h0 : 0 < nrank) (r : ℕ)
    (hr : r < nrank) :
    (defaultAssign size nrank junk).count r = (r + 1) * size / nrank - r * size / nrank := by
  obtain ⟨h1, h2⟩ := defaultAssign_spec size nrank junk hn h0
  have e : (defaultAssign size nrank junk) = (List.range size).map
      (fun k => (defaultAssign size nrank junk).getD k 0) := by
    apply List.ext_getElem
    · simp [h1]
    · intro k a b
      simp only [List.getElem_map, List.getElem_range]
      rw [List.getD_eq_getElem _ _ a]
  rw [e, List.count, List.countP_map]
  have : ((List.range size).countP fun k => decide (r * size / nrank ≤ k ∧ k < (r + 1) * size / nrank)) =
      (List.range size).countP ((fun x => x == r) ∘
        fun k => (defaultAssign size nrank junk).getD k 0) := by
    apply List.countP_congr
    intro k hk
    obtain ⟨v, v1, v2, v3, v4⟩ := h2 k (List.mem_range.1 hk)
    have hv : (defaultAssign size nrank junk).getD k 0 = v := by
      rw [List.getD_eq_getElem?_getD, v2]; rfl
    simp only [Function.comp, hv, beq_iff_eq, decide_eq_true_eq]
    constructor
    · rintro ⟨a, b⟩; exact block_unique v3 v4 a b
    · rintro rfl; exact ⟨v3, v4⟩
  rw [← this, countP_range_interval _ _ _ (block_mono (by omega))]
  have a1 : (r + 1) * size / nrank ≤ size := by
    apply Nat.div_le_of_le_mul
    exact Nat.mul_le_mul_right _ hr
  have a2 : r * size / nrank ≤ (r + 1) * size / nrank := block_mono (by omega)
  omega

theorem block_len (size nrank r : ℕ) (h0 : 0 < nrank) :
    size / nrank ≤ (r + 1) * size / nrank - r * size / nrank ∧
      (r + 1) * size / nrank - r * size / nrank ≤ size / nrank + 1 := by
  rw [Nat.succ_mul]
  generalize r * size = a
  have h1 := Nat.div_add_mod a nrank
  have h2 := Nat.div_add_mod size nrank
  have m1 := Nat.mod_lt a h0
  have m2 := Nat.mod_lt size h0
  have e : a + size = (a % nrank + size % nrank) + nrank * (a / nrank + size / nrank) := by
    rw [Nat.mul_add]; omega
  rw [e, Nat.add_mul_div_left _ _ h0]
  have c : (a % nrank + size % nrank) / nrank ≤ 1 := by
    rw [Nat.div_le_iff_le_mul_add_pred h0]; omega
  generalize (a % nrank + size % nrank) / nrank = q at *
  generalize size / nrank = u at *
  generalize a / nrank = w at *
  omega

end Pmesh
