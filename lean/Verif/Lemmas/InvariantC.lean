import Verif.Model.InvariantC
import Verif.Lemmas.InvariantMesh
import Mathlib.Tactic.NormNum

/-! # The invariant index in C integers: no intermediate result exceeds the number of points of the cube of the shell -/

namespace Pmesh

theorem ptrEnd_pos : 1 < ptrEnd := by decide

theorem cPtr_ok {z : ℤ} (h0 : 0 ≤ z) (h : z < ptrEnd) : cPtr z = some z := if_pos ⟨by have := ptrEnd_pos; omega, h⟩

theorem cPtr_eq {z : ℤ} (h0 : -ptrEnd ≤ z) (h : z < ptrEnd) : cPtr z = some z := if_pos ⟨h0, h⟩

theorem absmaxC_ok {x : List ℤ} (h : absmax x ≤ 2147483647) : absmaxC x = some (absmax x) := by
  have habs : ∀ a ∈ x, cAbs a = some a.natAbs := fun a ha => by
    have := absmax_le_iff.1 h a ha
    exact if_pos (by omega)
  clear h
  cases x with
  | nil => rfl
  | cons x0 x =>
    have key : ∀ (l : List ℤ) (s : ℕ), (∀ a ∈ l, cAbs a = some a.natAbs) →
        l.foldlM (fun s xd => do
          let a ← cAbs xd
          return if a > s then a else s) s = some (l.foldl (fun s xd => if xd.natAbs > s then xd.natAbs else s) s) := by
      intro l
      induction l with
      | nil => intro s _; rfl
      | cons a l ih =>
        intro s hl
        rw [List.foldlM_cons, hl a (by simp)]
        exact ih _ fun b hb => hl b (by simp [hb])
    simp only [absmaxC, absmax]
    rw [habs x0 (by simp)]
    exact key _ _ habs

theorem ipowLoopC_ok {n : ℤ} (hn : 1 ≤ n) (p : ℕ) {r : ℤ} (hr : 1 ≤ r) (h : r * n ^ p < ptrEnd) : ipowLoopC n p r = some (r * n ^ p) := by
  induction p generalizing r with
  | zero => simp [ipowLoopC]
  | succ p ih =>
    have h1 : 1 ≤ n ^ p := one_le_pow₀ hn
    have h2 : r * n * n ^ p < ptrEnd := by rw [mul_assoc, ← pow_succ']; exact h
    have h3 : 1 ≤ r * n := by nlinarith
    simp only [ipowLoopC]
    rw [cPtr_ok (by omega) (lt_of_le_of_lt (le_mul_of_one_le_right (by omega) h1) h2)]
    show ipowLoopC n p (r * n) = _
    rw [ih h3 h2, pow_succ']
    congr 1
    ring

theorem ipowC_ok {n : ℤ} (hn : 1 ≤ n) (p : ℕ) (h : n ^ p < ptrEnd) : ipowC n p = some (n ^ p) := by
  unfold ipowC
  rw [ipowLoopC_ok hn p le_rfl (by rwa [one_mul]), one_mul]

theorem capSizeC_ok {n s cm b : ℕ} (hs : 1 ≤ s) (h : (capSize n s cm b : ℤ) < ptrEnd) : capSizeC n s cm b = some (capSize n s cm b : ℤ) := by
  unfold capSize at *
  simp only at *
  unfold capSizeC
  simp only
  generalize n - swarBits b - swarBits (cm.ldiff b) = p at *
  generalize swarBits (cm.ldiff b) = q at *
  have e : ((s * 2 + 1 - 2 : ℕ) : ℤ) = (s : ℤ) * 2 + 1 - 2 := by omega
  rw [Nat.cast_mul, Nat.cast_pow, Nat.cast_pow, e] at h ⊢
  have h1 : (1 : ℤ) ≤ (s : ℤ) * 2 + 1 - 2 := by omega
  have h2 : (1 : ℤ) ≤ (s : ℤ) := by omega
  have p1 : (1 : ℤ) ≤ ((s : ℤ) * 2 + 1 - 2) ^ p := one_le_pow₀ h1
  have p2 : (1 : ℤ) ≤ (s : ℤ) ^ q := one_le_pow₀ h2
  generalize hA : ((s : ℤ) * 2 + 1 - 2) ^ p = A at *
  generalize hB : (s : ℤ) ^ q = B at *
  have l1 : A ≤ A * B := by nlinarith
  have l2 : B ≤ A * B := by nlinarith
  rw [ipowC_ok h1 p (by rw [hA]; exact lt_of_le_of_lt l1 h), ipowC_ok h2 q (by rw [hB]; exact lt_of_le_of_lt l2 h), hA, hB]
  exact cPtr_ok (by nlinarith) h

theorem bind_ok {A B : Type} {o : Option A} {a : A} (h : o = some a) (f : A → Option B) : (o >>= f) = f a := by
  subst h
  rfl

/-- The hosting cap. -/
theorem capHost_ok {ml : ℤ} (hml : ml < ptrEnd) {subC : ℤ → Option ℤ} {sub : ℤ → ℤ} (hsub : ∀ m < ptrEnd, subC m = some (sub m)) {w ind : ℕ}
    (hle : ∀ m, -1 ≤ sub m ∧ sub m ≤ w) (hsum : ((ind + w : ℕ) : ℤ) < ptrEnd) :
    (do
      let maxLength1 ← (if ml ≥ 0 then cPtr (ml - ind) else some (-1))
      let subind ← subC maxLength1
      if subind = -1 then some (-1)
      else do
        let ind ← cPtr ((ind : ℤ) + subind)
        if ml ≥ 0 ∧ ind ≥ ml then some (-1) else some ind) =
      some (if sub (if ml ≥ 0 then ml - ind else -1) = -1 then -1
        else if ml ≥ 0 ∧ (ind : ℤ) + sub (if ml ≥ 0 then ml - ind else -1) ≥ ml then -1
        else (ind : ℤ) + sub (if ml ≥ 0 then ml - ind else -1)) := by
  have hpe := ptrEnd_pos
  push_cast at hsum
  have hm : (if ml ≥ 0 then cPtr (ml - ind) else some (-1)) = some (if ml ≥ 0 then ml - ind else -1) := by
    split_ifs with h
    · exact cPtr_eq (by omega) (by omega)
    · rfl
  rw [bind_ok hm]
  have hm2 : (if ml ≥ 0 then ml - (ind : ℤ) else -1) < ptrEnd := by split_ifs <;> omega
  generalize (if ml ≥ 0 then ml - (ind : ℤ) else -1) = m at hm2 ⊢
  rw [bind_ok (hsub m hm2)]
  have hb := hle m
  generalize sub m = y at hb ⊢
  by_cases hy : y = -1
  · rw [if_pos hy, if_pos hy]
  · rw [if_neg hy, if_neg hy, bind_ok (cPtr_ok (by omega) (by omega))]
    by_cases hc : ml ≥ 0 ∧ (ind : ℤ) + y ≥ ml
    · rw [if_pos hc, if_pos hc]
    · rw [if_neg hc, if_neg hc]

/-- Another cap. -/
theorem capStep_ok {ml : ℤ} {w ind T : ℕ} (hsum : ((ind + (w + T) : ℕ) : ℤ) < ptrEnd) (L : ℤ → ℤ) (LC : ℤ → ℤ → Option ℤ)
    (h : ((ind + w + T : ℕ) : ℤ) < ptrEnd → LC w ((ind + w : ℕ) : ℤ) = some (L ((ind + w : ℕ) : ℤ))) :
    (do
      let s ← some (w : ℤ)
      let i ← cPtr ((ind : ℤ) + s)
      if ml ≥ 0 ∧ i ≥ ml then some (-1) else LC s i) =
      some (if ml ≥ 0 ∧ (ind : ℤ) + w ≥ ml then -1 else L ((ind : ℤ) + w)) := by
  have hi : (ind : ℤ) + (w : ℤ) = ((ind + w : ℕ) : ℤ) := (Int.natCast_add _ _).symm
  rw [bind_ok rfl, hi, bind_ok (cPtr_ok (Int.natCast_nonneg _) (lt_of_le_of_lt (Int.ofNat_le.2 (by omega)) hsum))]
  rw [h (by rw [Nat.add_assoc]; exact hsum)]
  by_cases hc : ml ≥ 0 ∧ ((ind + w : ℕ) : ℤ) ≥ ml
  · rw [if_pos hc, if_pos hc]
  · rw [if_neg hc, if_neg hc]

theorem capLoopC_ok {n s cm a b : ℕ} (hs : 1 ≤ s) {ml : ℤ} (hml : ml < ptrEnd) {subC : ℤ → Option ℤ} {sub : ℤ → ℤ}
    (hsub : ∀ m < ptrEnd, subC m = some (sub m)) (hle : ∀ m, -1 ≤ sub m ∧ sub m ≤ capSize n s cm b) (ps : List (ℕ × ℕ)) (size : ℕ → ℤ)
    (hsize : ∀ q, size q = 0 ∨ size q = capSize n s cm q) (ind : ℕ)
    (hsum : ((ind + (ps.map (capWeight n s cm)).sum : ℕ) : ℤ) < ptrEnd) :
    capLoopC n s cm a b ml subC ps size ind = some (capLoop n s cm a b ml sub ps ind) := by
  induction ps generalizing size ind with
  | nil => rw [capLoopC, capLoop]
  | cons p ps ih =>
    obtain ⟨a', b'⟩ := p
    rw [List.map_cons, List.sum_cons] at hsum
    rw [capLoopC, capLoop]
    by_cases h1 : a'.ldiff b' ≠ 0
    · rw [if_pos h1, if_pos h1]
      exact ih size hsize ind (lt_of_le_of_lt (Int.ofNat_le.2 (by omega)) hsum)
    · rw [if_neg h1, if_neg h1]
      by_cases h2 : a' &&& cm ≠ 0
      · rw [if_pos h2, if_pos h2]
        exact ih size hsize ind (lt_of_le_of_lt (Int.ofNat_le.2 (by omega)) hsum)
      · rw [if_neg h2, if_neg h2]
        have hw : capWeight n s cm (a', b') = capSize n s cm b' := by
          unfold capWeight
          rw [if_pos ⟨not_not.1 h1, not_not.1 h2⟩]
        rw [hw] at hsum
        by_cases h3 : a' = a ∧ b' = b
        · rw [if_pos h3, if_pos h3]
          refine capHost_ok hml hsub hle (lt_of_le_of_lt (Int.ofNat_le.2 ?_) hsum)
          rw [h3.2]
          omega
        · rw [if_neg h3, if_neg h3]
          have hc : (if size b' = 0 then capSizeC n s cm b' else some (size b')) = some (capSize n s cm b' : ℤ) := by
            by_cases h : size b' = 0
            · rw [if_pos h]; exact capSizeC_ok hs (lt_of_le_of_lt (Int.ofNat_le.2 (by omega)) hsum)
            · rw [if_neg h, (hsize b').resolve_left h]
          rw [hc]
          refine capStep_ok (T := (ps.map (capWeight n s cm)).sum) hsum (fun i => capLoop n s cm a b ml sub ps i)
            (fun w i => capLoopC n s cm a b ml subC ps (fun q => if q = b' then w else size q) i) (fun h => ?_)
          refine ih _ (fun q => ?_) _ h
          by_cases h : q = b'
          · right; rw [if_pos h, h]
          · rw [if_neg h]; exact hsize q

theorem invariantIndex_le {k : ℕ} {x : List ℤ} {cm : ℕ} (hk : x.length ≤ k) (h32 : x.length ≤ 32) (hc : cm < 2 ^ x.length) (ha : Adm cm x) (ml : ℤ) :
    -1 ≤ invariantIndex k x cm ml ∧ invariantIndex k x cm ml ≤ idx k x cm := by
  by_cases h : ml ≠ 0 ∨ absmax x ≠ 0
  · rw [invariantIndex_eq hk h32 hc ha ml h]
    split_ifs <;> omega
  · push Not at h
    cases k with
    | zero => simp [invariantIndex]
    | succ k =>
      simp only [invariantIndex, h.2, if_true]
      omega

theorem boxVol_le (u v n cm : ℕ) (h : v ≤ u) : boxVol u v n cm ≤ u ^ n := by
  induction n generalizing cm with
  | zero => simp [boxVol]
  | succ n ih =>
    simp only [boxVol, pow_succ']
    exact Nat.mul_le_mul (by split_ifs <;> omega) (ih _)

theorem invariantIndexC_ok {k : ℕ} {x : List ℤ} {cm : ℕ} (hk : x.length ≤ k) (h30 : x.length ≤ 30) (hc : cm < 2 ^ x.length)
    (hS : absmax x ≤ 2147483647) (hV : (2 * absmax x + 1) ^ x.length < 2 ^ 63) {ml : ℤ} (hml : ml < ptrEnd) :
    invariantIndexC k x cm ml = some (invariantIndex k x cm ml) := by
  induction k generalizing x cm ml with
  | zero => rfl
  | succ k ih =>
    simp only [invariantIndexC, invariantIndex]
    rw [absmaxC_ok hS]
    show (if absmax x = 0 then _ else _) = _
    by_cases h0 : absmax x = 0
    · rw [if_pos h0, if_pos h0]
    · rw [if_neg h0, if_neg h0, if_neg (by omega)]
      by_cases ha : ((List.range x.length).any fun d => cm.testBit d && decide (x.getD d 0 < 0)) = true
      · rw [if_pos ha, if_pos ha]
      · rw [if_neg ha, if_neg ha]
        have hadm : Adm cm x := (adm_iff cm x).2 (by simpa using ha)
        rw [capSplit_eq]
        simp only [Nat.shiftRight_zero, pow_zero, one_mul, zero_add, List.nil_append, List.length_nil]
        have hrl := rest_length_lt h0
        have hra := rest_absmax h0
        have hs1 : 1 ≤ absmax x := by omega
        have hrest : (2 * absmax (restOf (absmax x) x) + 1) ^ (restOf (absmax x) x).length < 2 ^ 63 :=
          lt_of_le_of_lt (le_trans (Nat.pow_le_pow_left (by omega) _) (Nat.pow_le_pow_right (by omega) hrl.le)) hV
        have e1 : 2 * (absmax x - 1) + 1 = 2 * absmax x - 1 := by omega
        have e2 : absmax x - 1 + 1 = absmax x := by omega
        have := capLoopC_ok (n := x.length) (s := absmax x) (cm := cm) (a := capOf (absmax x) x) (b := capsetOf (absmax x) x) hs1 hml
          (subC := fun ml => invariantIndexC k (restOf (absmax x) x) (restMask (absmax x) cm x) ml)
          (sub := fun ml => invariantIndex k (restOf (absmax x) x) (restMask (absmax x) cm x) ml)
          (fun m hm => ih (by omega) (by omega) (restMask_lt _ _ _) (by omega) hrest hm)
          (fun m => by
            have h1 := invariantIndex_le (k := k) (x := restOf (absmax x) x) (by omega) (by omega) (restMask_lt _ _ _) (adm_rest hadm) m
            have h2 := idx_lt (k := k) (x := restOf (absmax x) x) (by omega) (adm_rest hadm) hra
            rw [e1, e2, ← capVol_rest, ← capSize_eq (by omega) hc (capsetOf_lt _ _)] at h2
            exact ⟨h1.1, by omega⟩)
          (capPairs x.length) (fun _ => 0) (fun _ => Or.inl rfl) 0 (by
            rw [Nat.zero_add, capPairs_eq, sum_capWeight (by omega) hc, capOff_full]
            have h1 := boxVol_le (2 * absmax x - 1 + 2) (absmax x + 1) x.length cm (by omega)
            have e3 : 2 * absmax x - 1 + 2 = 2 * absmax x + 1 := by omega
            rw [e3] at h1 ⊢
            have h2 := lt_of_le_of_lt h1 hV
            have e4 : ptrEnd = ((2 ^ 63 : ℕ) : ℤ) := by norm_num [ptrEnd]
            rw [e4]
            exact Int.ofNat_lt.2 h2)
        exact this

end Pmesh
