import Verif.Spec.FloatSum
import Verif.Model.FloatSum
import Verif.Lemmas.Preview
import Verif.Lemmas.Dtype
import Mathlib.Algebra.Order.BigOperators.Group.Multiset
import Mathlib.Tactic.Linarith
import Mathlib.Tactic.Positivity

/-! # Sums in floating point -/

namespace Pmesh

theorem perm_lift {α β : Type} (f : α → β) {l l' : List β} (h : l.Perm l') :
    ∀ N : List α, N.map f = l' → ∃ N' : List α, N'.map f = l ∧ N'.Perm N := by
  induction h with
  | nil => exact fun N hN => ⟨N, hN, .refl _⟩
  | cons a _ ih =>
    intro N hN
    match N, hN with
    | x :: N, hN =>
      simp only [List.map_cons, List.cons.injEq] at hN
      obtain ⟨N', h1, h2⟩ := ih N hN.2
      exact ⟨x :: N', by simp [h1, hN.1], h2.cons x⟩
  | swap a b l =>
    intro N hN
    match N, hN with
    | x :: y :: N, hN =>
      simp only [List.map_cons, List.cons.injEq] at hN
      exact ⟨y :: x :: N, by simp [hN], .swap _ _ _⟩
  | trans _ _ ih1 ih2 =>
    intro N hN
    obtain ⟨N', h1, h2⟩ := ih2 N hN
    obtain ⟨N'', h3, h4⟩ := ih1 N' h1
    exact ⟨N'', h3, h4.trans h2⟩

/-- Sums of sums are sums. -/
theorem FlSum.bind {p : ℕ} {M : Multiset ℚ} {t : ℚ} (h : FlSum p M t) :
    ∀ N : List (Multiset ℚ × ℚ), ((N.map Prod.snd : List ℚ) : Multiset ℚ) = M → (∀ q ∈ N, FlSum p q.1 q.2) →
      FlSum p (N.map Prod.fst).sum t := by
  induction h with
  | zero =>
    intro N hN _
    have : N = [] := by simpa using hN
    subst this
    exact .zero
  | one x =>
    intro N hN hq
    have hN : N.map Prod.snd = [x] := by simpa using hN
    match N, hN with
    | [q], hN =>
      simp only [List.map_cons, List.map_nil, List.cons.injEq, and_true] at hN
      subst hN
      simpa using hq q (by simp)
  | @add A B a b _ _ ih1 ih2 =>
    intro N hN hq
    induction A using Quotient.inductionOn with | _ la => ?_
    induction B using Quotient.inductionOn with | _ lb => ?_
    simp only [Multiset.quot_mk_to_coe, Multiset.coe_add, Multiset.coe_eq_coe] at hN
    obtain ⟨N', h1, h2⟩ := perm_lift Prod.snd hN.symm N rfl
    obtain ⟨Na, Nb, rfl, h3, h4⟩ := List.map_eq_append_iff.1 h1
    rw [← (h2.map Prod.fst).sum_eq, List.map_append, List.sum_append]
    exact .add (ih1 Na (by simp [h3]) fun q hqa => hq q (h2.mem_iff.1 (by simp [hqa])))
      (ih2 Nb (by simp [h4]) fun q hqb => hq q (h2.mem_iff.1 (by simp [hqb])))

theorem Sums.bind {p : ℕ} {S : List ℚ → ℚ} (hS : Sums p S) {ι : Type} (l : List ι) (s : ι → ℚ) (L : ι → Multiset ℚ)
    (h : ∀ i ∈ l, FlSum p (L i) (s i)) : FlSum p (l.map L).sum (S (l.map s)) := by
  have := (hS (l.map s)).bind (l.map fun i => (L i, s i)) (by simp [Function.comp_def]) (by
    intro q hq
    obtain ⟨i, hi, rfl⟩ := List.mem_map.1 hq
    exact h i hi)
  simpa [Function.comp_def] using this

theorem sumLastF_sum {p : ℕ} {np : List ℚ → ℚ} (hnp : Sums p np) : ∀ (n : ℕ) (shape : List ℕ) (f : List ℕ → ℚ)
    (L : List ℕ → Multiset ℚ), shape.length = n → (∀ i, ValidIndex shape i → FlSum p (L i) (f i)) →
    FlSum p (sumLast shape L) (sumLastF np shape f)
  | 0, shape, f, L, h, hf => by
    have : shape = [] := by simpa using h
    subst this
    simp only [sumLast, sumLastF]
    exact hf [] .nil
  | n + 1, shape, f, L, h, hf => by
    rcases List.eq_nil_or_concat shape with rfl | ⟨ns, N, rfl⟩
    · simp at h
    rw [List.concat_eq_append] at *
    obtain ⟨a, l, hal⟩ : ∃ a l, ns ++ [N] = a :: l := by cases ns <;> simp
    have e1 : sumLast (ns ++ [N]) L = sumLast ns fun i => ((List.range N).map fun j => L (i ++ [j])).sum := by
      rw [hal, sumLast, ← hal]
      simp
    have e2 : sumLastF np (ns ++ [N]) f = sumLastF np ns fun i => np ((List.range N).map fun j => f (i ++ [j])) := by
      rw [hal, sumLastF, ← hal]
      simp
    rw [e1, e2]
    refine sumLastF_sum hnp n ns _ _ (by simpa using h) fun i hi => ?_
    refine hnp.bind (List.range N) _ _ fun j hj => hf _ ?_
    exact List.rel_append hi (.cons (List.mem_range.1 hj) .nil)

/-! ### what sums in floating point satisfy -/

theorem FlSum.isFloat {p : ℕ} (hp : 1 ≤ p) {M : Multiset ℚ} {s : ℚ} (h : FlSum p M s) (hM : ∀ x ∈ M, IsFloat p x) : IsFloat p s := by
  cases h with
  | zero => exact flRound_zero p
  | one => exact hM _ (by simp)
  | add => exact flRound_idem hp _

theorem FlSum.card_zero {p : ℕ} {M : Multiset ℚ} {s : ℚ} (h : FlSum p M s) (hM : M = 0) : s = 0 := by
  induction h with
  | zero => rfl
  | one x => simp at hM
  | @add A B a b _ _ ih1 ih2 =>
    rw [add_eq_zero] at hM
    rw [ih1 hM.1, ih2 hM.2, add_zero, flRound_zero]

theorem sum_abs_nonneg (M : Multiset ℚ) : 0 ≤ (M.map fun x => |x|).sum := by
  apply Multiset.sum_nonneg
  intro x hx
  obtain ⟨y, _, rfl⟩ := Multiset.mem_map.1 hx
  exact abs_nonneg _

theorem abs_sum_le_sum_abs (M : Multiset ℚ) : |M.sum| ≤ (M.map fun x => |x|).sum := by
  induction M using Multiset.induction_on with
  | empty => simp
  | cons a M ih =>
    simp only [Multiset.sum_cons, Multiset.map_cons]
    exact (abs_add_le _ _).trans (by linarith)

/-- Error of a sum of `n` numbers: `(1 + u)^(n-1) - 1` times the sum of the absolute values. -/
theorem FlSum.error {p : ℕ} (hp : 1 ≤ p) {M : Multiset ℚ} {s : ℚ} (h : FlSum p M s) (hM : ∀ x ∈ M, IsFloat p x) :
    |s - M.sum| ≤ ((1 + 1 / 2 ^ p) ^ (Multiset.card M - 1) - 1) * (M.map fun x => |x|).sum := by
  induction h with
  | zero => simp
  | one x => simp
  | @add A B a b hA hB ih1 ih2 =>
    have ih1 := ih1 fun x hx => hM x (by simp [hx])
    have ih2 := ih2 fun x hx => hM x (by simp [hx])
    rcases eq_or_ne A 0 with rfl | hA0
    · have hb := hB.isFloat hp fun x hx => hM x (by simp [hx])
      rw [hA.card_zero rfl, zero_add, zero_add, hb]
      exact ih2
    rcases eq_or_ne B 0 with rfl | hB0
    · have ha := hA.isFloat hp fun x hx => hM x (by simp [hx])
      rw [hB.card_zero rfl, add_zero, add_zero, ha]
      exact ih1
    have cA : 1 ≤ Multiset.card A := Multiset.card_pos.2 hA0
    have cB : 1 ≤ Multiset.card B := Multiset.card_pos.2 hB0
    have u0 : (0 : ℚ) ≤ 1 / 2 ^ p := by positivity
    obtain ⟨u, hu⟩ : ∃ u : ℚ, u = 1 / 2 ^ p := ⟨_, rfl⟩
    rw [← hu] at ih1 ih2 u0 ⊢
    obtain ⟨E, hE⟩ : ∃ E : ℚ, E = (1 + u) ^ (Multiset.card (A + B) - 1 - 1) := ⟨_, rfl⟩
    have pos := fun M => sum_abs_nonneg M
    have m1 : (1 + u) ^ (Multiset.card A - 1) ≤ E := by
      rw [hE, Multiset.card_add]
      exact pow_le_pow_right₀ (by linarith) (by omega)
    have m2 : (1 + u) ^ (Multiset.card B - 1) ≤ E := by
      rw [hE, Multiset.card_add]
      exact pow_le_pow_right₀ (by linarith) (by omega)
    have m3 : (1 + u) ^ (Multiset.card (A + B) - 1) = E * (1 + u) := by
      rw [hE, ← pow_succ]
      congr 1
      rw [Multiset.card_add]
      omega
    have i1 : |a - A.sum| ≤ (E - 1) * (A.map fun x => |x|).sum :=
      ih1.trans (mul_le_mul_of_nonneg_right (by linarith) (pos A))
    have i2 : |b - B.sum| ≤ (E - 1) * (B.map fun x => |x|).sum :=
      ih2.trans (mul_le_mul_of_nonneg_right (by linarith) (pos B))
    have r := flRound_err p (a + b)
    rw [div_eq_mul_one_div, ← hu] at r
    have b1 : |a| ≤ E * (A.map fun x => |x|).sum := by
      have := abs_sub_abs_le_abs_sub a A.sum
      have := abs_sum_le_sum_abs A
      linarith
    have b2 : |b| ≤ E * (B.map fun x => |x|).sum := by
      have := abs_sub_abs_le_abs_sub b B.sum
      have := abs_sum_le_sum_abs B
      linarith
    have b3 : |a + b| * u ≤ (E * (A.map fun x => |x|).sum + E * (B.map fun x => |x|).sum) * u :=
      mul_le_mul_of_nonneg_right ((abs_add_le a b).trans (add_le_add b1 b2)) u0
    rw [m3, Multiset.sum_add, Multiset.map_add, Multiset.sum_add]
    have t : |flRound p (a + b) - (A.sum + B.sum)| ≤ |flRound p (a + b) - (a + b)| + (|a - A.sum| + |b - B.sum|) := by
      have e : flRound p (a + b) - (A.sum + B.sum) = (flRound p (a + b) - (a + b)) + ((a - A.sum) + (b - B.sum)) := by ring
      rw [e]
      exact (abs_add_le _ _).trans (by linarith [abs_add_le (a - A.sum) (b - B.sum)])
    nlinarith

/-- Sums of multiples of a power of two that stay below `2^p` such units are exact. -/
theorem FlSum.exact {p : ℕ} (hp : 1 ≤ p) (k : ℤ) {M : Multiset ℚ} {s : ℚ} (h : FlSum p M s) (hM : ∀ x ∈ M, ∃ n : ℤ, x = n * 2 ^ k)
    (hb : (M.map fun x => |x|).sum ≤ 2 ^ p * 2 ^ k) : s = M.sum := by
  induction h with
  | zero => simp
  | one x => simp
  | @add A B a b hA hB ih1 ih2 =>
    rw [Multiset.map_add, Multiset.sum_add] at hb
    have ih1 := ih1 (fun x hx => hM x (by simp [hx])) (by linarith [sum_abs_nonneg B])
    have ih2 := ih2 (fun x hx => hM x (by simp [hx])) (by linarith [sum_abs_nonneg A])
    subst ih1 ih2
    have hdig : ∀ N : Multiset ℚ, (∀ x ∈ N, ∃ n : ℤ, x = n * 2 ^ k) → ∃ n : ℤ, N.sum = n * 2 ^ k := by
      intro N
      induction N using Multiset.induction_on with
      | empty => exact fun _ => ⟨0, by simp⟩
      | cons x N ih =>
        intro h
        obtain ⟨n, hn⟩ := ih fun y hy => h y (by simp [hy])
        obtain ⟨l, hl⟩ := h x (by simp)
        exact ⟨l + n, by rw [Multiset.sum_cons, hn, hl]; push_cast; ring⟩
    obtain ⟨n, hn⟩ := hdig _ hM
    rw [Multiset.sum_add] at hn ⊢
    refine flRound_of_digits hp hn ?_
    have h1 : |A.sum + B.sum| ≤ 2 ^ p * 2 ^ k := by
      refine (abs_add_le _ _).trans (le_trans (add_le_add (abs_sum_le_sum_abs A) (abs_sum_le_sum_abs B)) hb)
    have h2 : (0 : ℚ) < 2 ^ k := zpow_pos (by norm_num) k
    rw [hn, abs_mul, abs_of_pos h2] at h1
    have := le_of_mul_le_mul_right h1 h2
    exact_mod_cast this

theorem FlSum.nonneg {p : ℕ} (hp : 1 ≤ p) {M : Multiset ℚ} {s : ℚ} (h : FlSum p M s) (hM : ∀ x ∈ M, 0 ≤ x) : 0 ≤ s := by
  induction h with
  | zero => rfl
  | one x => exact hM x (by simp)
  | @add A B a b hA hB ih1 ih2 =>
    have := flRound_mono (K := ℚ) hp (add_nonneg (ih1 fun x hx => hM x (by simp [hx])) (ih2 fun x hx => hM x (by simp [hx])))
    rwa [flRound_zero] at this

theorem FlSum.eq_zero {p : ℕ} (hp : 1 ≤ p) {M : Multiset ℚ} {s : ℚ} (h : FlSum p M s) (hM : ∀ x ∈ M, 0 ≤ x) (hs : s = 0) :
    ∀ x ∈ M, x = 0 := by
  induction h with
  | zero => simp
  | one x => simpa using hs
  | @add A B a b hA hB ih1 ih2 =>
    have a0 := hA.nonneg hp fun x hx => hM x (by simp [hx])
    have b0 := hB.nonneg hp fun x hx => hM x (by simp [hx])
    have hz : a + b = 0 := by
      by_contra hne
      have : 0 < a + b := lt_of_le_of_ne (add_nonneg a0 b0) (Ne.symm hne)
      exact absurd hs (flRound_pos hp this).ne'
    intro x hx
    rcases Multiset.mem_add.1 hx with hx | hx
    · exact ih1 (fun x hx => hM x (by simp [hx])) (by linarith) x hx
    · exact ih2 (fun x hx => hM x (by simp [hx])) (by linarith) x hx

/-- Zeros do not change the other number. -/
theorem FlSum.single {p : ℕ} {M : Multiset ℚ} {s : ℚ} (h : FlSum p M s) {y : ℚ} (hy : IsFloat p y) :
    ∀ n : ℕ, (M = Multiset.replicate n 0 → s = 0) ∧ (M = y ::ₘ Multiset.replicate n 0 → s = y) := by
  induction h with
  | zero => intro n; exact ⟨fun _ => rfl, fun h => absurd h (by simp)⟩
  | one x =>
    intro n
    refine ⟨fun h => ?_, fun h => ?_⟩
    · have : x ∈ Multiset.replicate n (0 : ℚ) := by rw [← h]; simp
      exact Multiset.eq_of_mem_replicate this
    · have hc := congrArg Multiset.card h
      simp only [Multiset.card_singleton, Multiset.card_cons, Multiset.card_replicate] at hc
      have : n = 0 := by omega
      subst this
      simpa using h
  | @add A B a b hA hB ih1 ih2 =>
    intro n
    have hz : ∀ {C D : Multiset ℚ} {n : ℕ}, C + D = Multiset.replicate n 0 → ∃ j, C = Multiset.replicate j 0 := by
      intro C D n h
      refine ⟨Multiset.card C, Multiset.eq_replicate.2 ⟨rfl, fun x hx => ?_⟩⟩
      have : x ∈ Multiset.replicate n (0 : ℚ) := by rw [← h]; simp [hx]
      exact Multiset.eq_of_mem_replicate this
    refine ⟨fun h => ?_, fun h => ?_⟩
    · obtain ⟨j, hj⟩ := hz h
      obtain ⟨l, hl⟩ := hz ((add_comm B A).trans h)
      rw [(ih1 j).1 hj, (ih2 l).1 hl, add_zero, flRound_zero]
    · have hm : y ∈ A + B := by rw [h]; simp
      rcases Multiset.mem_add.1 hm with hm | hm
      · obtain ⟨C, rfl⟩ := Multiset.exists_cons_of_mem hm
        rw [Multiset.cons_add, Multiset.cons_inj_right] at h
        obtain ⟨j, hj⟩ := hz h
        obtain ⟨l, hl⟩ := hz ((add_comm B C).trans h)
        rw [(ih1 j).2 (by rw [hj]), (ih2 l).1 hl, add_zero]
        exact hy
      · obtain ⟨C, rfl⟩ := Multiset.exists_cons_of_mem hm
        rw [Multiset.add_cons, Multiset.cons_inj_right] at h
        obtain ⟨j, hj⟩ := hz h
        obtain ⟨l, hl⟩ := hz ((add_comm C A).trans h)
        rw [(ih1 j).1 hj, (ih2 l).2 (by rw [hl]), zero_add]
        exact hy

/-- One rounding if there are at most two numbers. -/
theorem FlSum.two {p : ℕ} (hp : 1 ≤ p) {M : Multiset ℚ} {s : ℚ} (h : FlSum p M s) (hM : ∀ x ∈ M, IsFloat p x) (hc : Multiset.card M ≤ 2) :
    s = flRound p M.sum := by
  induction h with
  | zero => simp [flRound_zero]
  | one x => simpa using (hM x (by simp)).symm
  | @add A B a b hA hB ih1 ih2 =>
    rw [Multiset.card_add] at hc
    have fA : ∀ x ∈ A, IsFloat p x := fun x hx => hM x (by simp [hx])
    have fB : ∀ x ∈ B, IsFloat p x := fun x hx => hM x (by simp [hx])
    rcases eq_or_ne A 0 with rfl | hA0
    · rw [hA.card_zero rfl, zero_add, zero_add, hB.isFloat hp fB, ih2 fB (by omega)]
    rcases eq_or_ne B 0 with rfl | hB0
    · rw [hB.card_zero rfl, add_zero, add_zero, hA.isFloat hp fA, ih1 fA (by omega)]
    have cA : 1 ≤ Multiset.card A := Multiset.card_pos.2 hA0
    have cB : 1 ≤ Multiset.card B := Multiset.card_pos.2 hB0
    obtain ⟨x, rfl⟩ := Multiset.card_eq_one.1 (show Multiset.card A = 1 by omega)
    obtain ⟨y, rfl⟩ := Multiset.card_eq_one.1 (show Multiset.card B = 1 by omega)
    have ha := ih1 fA (by simp)
    have hb := ih2 fB (by simp)
    rw [Multiset.sum_singleton] at ha hb
    rw [ha, hb, fA x (by simp), fB y (by simp)]
    simp

end Pmesh
