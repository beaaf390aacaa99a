import Verif.Spec.Force
import Verif.Lemmas.UniformGrid
import Verif.Lemmas.Regrid
import Verif.Props.Fourier
import Verif.Props.MeshDeriv
import Mathlib.Tactic.LinearCombination

/-! # Lemmas for forces from a mesh -/

set_option linter.unusedSectionVars false

namespace Pmesh

/-- The ranks return one result only. -/
theorem AllReturn.unique_ok {V E R : Type} {n : ℕ} {p : ℕ → Prog V (Except E R)} {f g : ℕ → R}
    (hf : AllReturn n p fun r => .ok (f r)) (hg : AllReturn n p fun r => .ok (g r)) : ∀ r < n, f r = g r := by
  intro r hr
  have h := Runs.unique hf hg
  have h2 := List.map_inj_left.1 h r (List.mem_range.2 hr)
  simpa using h2

/-- Inner products of distributed fields are inner products of the global fields. -/
theorem fieldDot_global {K : Type} [Field K] [LinearOrder K] [IsStrictOrderedRing K] [FloorRing K] {m : PMesh K} (hm : m.OK)
    {u v : ℕ → ℤ → K} {A B : List ℕ → K} (hu : m.HoldsField u A) (hv : m.HoldsField v B) :
    m.fieldDot u v = ((ndindex m.nmesh).map fun x => A x * B x).sum := by
  rw [← sum_ranks hm]
  unfold PMesh.fieldDot
  apply sum_congr'
  intro r hr
  rw [List.mem_range] at hr
  apply sum_congr'
  intro c hc
  rw [hu r hr c (mem_ndindex.1 hc), hv r hr c (mem_ndindex.1 hc)]

/-- Local arrays always hold some global field. -/
theorem exists_global {K : Type} [Field K] [LinearOrder K] [IsStrictOrderedRing K] [FloorRing K] {m : PMesh K} (hm : m.OK)
    (u : ℕ → ℤ → K) : ∃ A, m.HoldsField u A := by
  classical
  refine ⟨fun g => if h : ∃ r c, r < m.nrank ∧ ValidIndex (m.localShape r) c ∧ m.global r c = g then
    u h.choose (m.addr h.choose h.choose_spec.choose) else 0, ?_⟩
  intro r hr c hc
  have h : ∃ r' c', r' < m.nrank ∧ ValidIndex (m.localShape r') c' ∧ m.global r' c' = m.global r c := ⟨r, c, hr, hc, rfl⟩
  beta_reduce
  rw [dif_pos h]
  obtain ⟨h1, h2, h3⟩ := h.choose_spec.choose_spec
  obtain ⟨e1, e2⟩ := global_inj_ranks hm h1 hr h2 hc h3
  rw [e2, e1]

section
variable {nmesh cshape : List ℕ} (hs : StoredShape nmesh cshape) (hne : nmesh ≠ []) (hpos : ∀ n ∈ nmesh, 0 < n)
include hs hne hpos

/-- Exchange of the two fields in `⟨c2r(T r2c(a)), b⟩`; `s` is 1 for a real transfer function and -1 for an imaginary one. -/
theorem transfer_swap (s : ℝ) (T : List ℕ → ℂ) (hT : ∀ k, ValidIndex cshape k → (starRingEnd ℂ) (T k) = s * T k)
    (a b : List ℕ → ℝ) :
    ((ndindex nmesh).map fun x => c2r nmesh cshape (fun k => T k * r2c nmesh a k) x * b x).sum =
      s * ((ndindex nmesh).map fun x => c2r nmesh cshape (fun k => T k * r2c nmesh b k) x * a x).sum := by
  rw [← dot_transform, ← dot_transform]
  have hs1 : ∀ (l : List (List ℕ)) (g : List ℕ → ℝ), s * (l.map g).sum = (l.map fun k => s * g k).sum := by
    intro l g
    induction l with
    | nil => simp
    | cons a l ih => simp [mul_add, ih]
  rw [hs1]
  apply sum_congr'
  intro k hk
  have hk' := mem_ndindex.1 hk
  have h0 : ((nmesh.prod : ℕ) : ℂ) ≠ 0 := Nat.cast_ne_zero.2 (prod_ne hpos)
  have hd : ∀ v : List ℕ → ℝ, dftForward nmesh (fun x => (v x : ℂ)) k = (nmesh.prod : ℕ) * r2c nmesh v k := by
    intro v
    unfold r2c
    rw [prod_inv, Complex.ofReal_inv, Complex.ofReal_natCast]
    field_simp
  have key : ∀ (τ : ℂ), (starRingEnd ℂ) τ = s * τ → ∀ A B : ℂ,
      (τ * A * (starRingEnd ℂ) (((nmesh.prod : ℕ) : ℂ) * B)).re = s * (τ * B * (starRingEnd ℂ) (((nmesh.prod : ℕ) : ℂ) * A)).re := by
    intro τ hτ A B
    rw [← Complex.conj_re (τ * A * _)]
    simp only [map_mul, Complex.conj_conj, Complex.conj_natCast, hτ]
    rw [show (s : ℂ) * τ * (starRingEnd ℂ) A * (((nmesh.prod : ℕ) : ℂ) * B) =
      (s : ℂ) * (τ * B * (((nmesh.prod : ℕ) : ℂ) * (starRingEnd ℂ) A)) by ring, Complex.re_ofReal_mul]
  rw [hd, hd, decompress_stored hs hne hk', decompress_stored hs hne hk']
  by_cases h : ValidIndex cshape k
  · rw [if_pos h, if_pos h]
    exact key _ (hT k h) _ _
  · rw [if_neg h, if_neg h]
    simp only [map_mul (starRingEnd ℂ) (T _), r2c_opposite nmesh _ hk', Complex.conj_conj]
    refine key _ ?_ _ _
    rw [hT _ (opposite_stored hs hne hk' h), map_mul, Complex.conj_ofReal, hT _ (opposite_stored hs hne hk' h)]

/-- The energy of a field with itself is not negative if the transfer function is not. -/
theorem transfer_nonneg (T : List ℕ → ℂ) (hT : ∀ k, ValidIndex cshape k → (T k).im = 0 ∧ 0 ≤ (T k).re) (a : List ℕ → ℝ) :
    0 ≤ ((ndindex nmesh).map fun x => c2r nmesh cshape (fun k => T k * r2c nmesh a k) x * a x).sum := by
  rw [← dot_transform]
  apply List.sum_nonneg
  intro e he
  obtain ⟨k, hk, rfl⟩ := List.mem_map.1 he
  have hk' := mem_ndindex.1 hk
  have h0 : ((nmesh.prod : ℕ) : ℂ) ≠ 0 := Nat.cast_ne_zero.2 (prod_ne hpos)
  have hd : dftForward nmesh (fun x => (a x : ℂ)) k = (nmesh.prod : ℕ) * r2c nmesh a k := by
    unfold r2c
    rw [prod_inv, Complex.ofReal_inv, Complex.ofReal_natCast]
    field_simp
  have key : ∀ τ : ℂ, τ.im = 0 ∧ 0 ≤ τ.re → ∀ A : ℂ, 0 ≤ (τ * A * (starRingEnd ℂ) (((nmesh.prod : ℕ) : ℂ) * A)).re := by
    intro τ hτ A
    have e : τ = (τ.re : ℂ) := Complex.ext rfl (by rw [hτ.1, Complex.ofReal_im])
    rw [map_mul, Complex.conj_natCast, e, show (τ.re : ℂ) * A * (((nmesh.prod : ℕ) : ℂ) * (starRingEnd ℂ) A) =
      ((τ.re * (nmesh.prod : ℕ) : ℝ) : ℂ) * (A * (starRingEnd ℂ) A) by rw [Complex.ofReal_mul, Complex.ofReal_natCast]; ring, Complex.re_ofReal_mul, Complex.mul_conj,
      Complex.ofReal_re]
    exact mul_nonneg (mul_nonneg hτ.2 (Nat.cast_nonneg _)) (Complex.normSq_nonneg _)
  simp only [hd]
  rw [decompress_stored hs hne hk']
  by_cases h : ValidIndex cshape k
  · rw [if_pos h]
    exact key _ (hT k h) _
  · rw [if_neg h]
    rw [map_mul (starRingEnd ℂ) (T _), r2c_opposite nmesh _ hk', Complex.conj_conj]
    refine key _ ?_ _
    have := hT _ (opposite_stored hs hne hk' h)
    rw [Complex.conj_im, Complex.conj_re, this.1]
    exact ⟨neg_zero, this.2⟩

end

end Pmesh
