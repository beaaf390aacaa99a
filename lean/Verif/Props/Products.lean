import Verif.Lemmas.Spectral
import Verif.Model.CdotVjp
import Verif.Props.Fourier
import Verif.Props.Norm

/-!
# C77: products of spectra: inner products, convolutions, correlations
-/

namespace Pmesh
open Complex

theorem decompress_r2c {nmesh cshape : List ℕ} (hs : StoredShape nmesh cshape) (hne : nmesh ≠ []) (u : List ℕ → ℝ) {k : List ℕ}
    (hk : ValidIndex nmesh k) : decompress nmesh cshape (r2c nmesh u) k = r2c nmesh u k := by
  rw [decompress_stored hs hne hk]
  split_ifs
  · rfl
  · rw [r2c_opposite _ _ hk, Complex.conj_conj]

theorem decompress_congr {nmesh cshape : List ℕ} (hs : StoredShape nmesh cshape) (hne : nmesh ≠ []) {F G : List ℕ → ℂ}
    (h : ∀ k, ValidIndex cshape k → F k = G k) {k : List ℕ} (hk : ValidIndex nmesh k) :
    decompress nmesh cshape F k = decompress nmesh cshape G k := by
  rw [decompress_stored hs hne hk, decompress_stored hs hne hk]
  split_ifs with hv
  · exact h k hv
  · rw [h _ (opposite_stored hs hne hk hv)]

/-- The full spectrum of a Hermitian compressed spectrum is the transform of what `c2r` gives. -/
theorem decompress_c2r {nmesh cshape : List ℕ} (hs : StoredShape nmesh cshape) (hne : nmesh ≠ []) (hpos : ∀ n ∈ nmesh, 0 < n)
    {G : List ℕ → ℂ} (hG : HermitianStored nmesh cshape G) {k : List ℕ} (hk : ValidIndex nmesh k) :
    decompress nmesh cshape G k = r2c nmesh (c2r nmesh cshape G) k := by
  rw [← decompress_r2c hs hne _ hk]
  exact decompress_congr hs hne (fun k hk => (C29_r2c_c2r nmesh cshape hne hpos hs G hG k hk).symm) hk

theorem movedCell_forth {nmesh : List ℕ} {y : List ℕ} (hy : ValidIndex nmesh y) {g : List ℕ} (hg : ValidIndex nmesh g) :
    movedCell nmesh (y.map fun (j : ℕ) => -(j : ℤ)) (movedCell nmesh (y.map fun (j : ℕ) => (j : ℤ)) g) = g ∧
      movedCell nmesh (y.map fun (j : ℕ) => (j : ℤ)) (movedCell nmesh (y.map fun (j : ℕ) => -(j : ℤ)) g) = g := by
  induction hy generalizing g with
  | nil =>
    cases hg
    exact ⟨rfl, rfl⟩
  | @cons n a ns as ha _ ih =>
    cases hg with
    | @cons _ c _ cs hc hcs =>
      have e : ∀ z : ℤ, (((((c : ℤ) + z) % (n : ℤ)).toNat : ℤ) + -z) % (n : ℤ) = c := by
        intro z
        have hn : (0 : ℤ) < n := by omega
        rw [Int.toNat_of_nonneg (Int.emod_nonneg _ hn.ne'), Int.emod_add_emod, add_neg_cancel_right,
          Int.emod_eq_of_lt (by omega) (by omega)]
      obtain ⟨h1, h2⟩ := ih hcs
      have e1 := e a
      have e2 := e (-(a : ℤ))
      rw [neg_neg] at e2
      simp only [List.map_cons, movedCell, h1, h2, e1, e2]
      exact ⟨rfl, rfl⟩

theorem shiftArg_cast : ∀ (nmesh k y : List ℕ), shiftArg nmesh k (y.map fun (j : ℕ) => (j : ℤ)) = phaseArg nmesh k y
  | [], _, _ => by simp [shiftArg, phaseArg]
  | _ :: _, [], _ => by simp [shiftArg, phaseArg]
  | _ :: _, _ :: _, [] => by simp [shiftArg, phaseArg]
  | n :: ns, k :: ks, y :: ys => by
    rw [List.map_cons, shiftArg, phaseArg, shiftArg_cast ns ks ys]
    simp

theorem shiftArg_neg : ∀ (nmesh k y : List ℕ), shiftArg nmesh k (y.map fun (j : ℕ) => -(j : ℤ)) = -phaseArg nmesh k y
  | [], _, _ => by simp [shiftArg, phaseArg]
  | _ :: _, [], _ => by simp [shiftArg, phaseArg]
  | _ :: _, _ :: _, [] => by simp [shiftArg, phaseArg]
  | n :: ns, k :: ks, y :: ys => by
    rw [List.map_cons, shiftArg, phaseArg, shiftArg_neg ns ks ys]
    push_cast
    ring

theorem r2c_mulc (nmesh : List ℕ) (f : List ℕ → ℝ) (a : ℝ) (k : List ℕ) :
    r2c nmesh (fun x => a * f x) k = (a : ℂ) * r2c nmesh f k := by
  unfold r2c dftForward
  rw [← mul_assoc, ← sum_cmul]
  congr 2
  apply List.map_congr_left
  intro x _
  push_cast
  ring

/-- Parseval. -/
theorem full_dot {nmesh cshape : List ℕ} (hs : StoredShape nmesh cshape) (hne : nmesh ≠ []) (hpos : ∀ n ∈ nmesh, 0 < n)
    (F : List ℕ → ℂ) {G : List ℕ → ℂ} (hG : HermitianStored nmesh cshape G) :
    ((ndindex nmesh).map fun k => (decompress nmesh cshape F k * (starRingEnd ℂ) (decompress nmesh cshape G k)).re).sum =
      ((ndindex nmesh).map fun x => c2r nmesh cshape F x * c2r nmesh cshape G x).sum / (nmesh.prod : ℕ) := by
  rw [← dot_transform, div_eq_mul_inv, ← sum_mulc]
  apply sum_congr'
  intro k hk
  rw [decompress_c2r hs hne hpos hG (mem_ndindex.1 hk)]
  unfold r2c
  rw [prod_inv]
  simp only [Complex.mul_re, Complex.mul_im, Complex.conj_re, Complex.conj_im, Complex.ofReal_re, Complex.ofReal_im]
  ring

section
variable (t : Tiling) (ht : t.OK) (hne : t.nmesh ≠ []) (hst : t.Storage)
  (tr : Tiling) (htr : tr.OK) (hmesh : tr.nmesh = t.nmesh) (hfull : tr.cshape = t.nmesh)
include ht hne hst

section
variable (heven : t.cshape ≠ t.nmesh → t.nmesh.getLastD 0 % 2 = 0)
include heven htr hmesh hfull

/-- **C77**, inner product (partial: the compressed axis has an even size).  "The real part of the result is effectively
`self.c2r().cdot(other.c2r()) / Nmesh.prod()`", on all ranks and for any partition of the complex and the real fields. -/
theorem C77_cdot_partial (F G : List ℕ → ℂ) (hF : HermitianStored t.nmesh t.cshape F) (hG : HermitianStored t.nmesh t.cshape G)
    (f g : ℕ → List ℕ → Cx ℝ) (hf : t.Holds f fun k => toCx (F k)) (hg : t.Holds g fun k => toCx (G k))
    (y w : ℕ → List ℕ → ℝ) (hy : tr.Holds y (c2r t.nmesh t.cshape F)) (hw : tr.Holds w (c2r t.nmesh t.cshape G)) :
    ∃ a im, AllReturn tr.nrank (fun r => realCdot tr r (y r) (w r)) (fun _ => a) ∧
      AllReturn t.nrank (fun r => cdot Real.pi t [] none r (f r) (g r)) (fun _ => some (a / (t.nmesh.prod : ℕ), im)) := by
  obtain ⟨im, h1⟩ := cdot_return t ht hne hst heven tr htr hmesh hfull F G hF hG f g hf hg
  refine ⟨_, im, realCdot_return t ht hne hst heven tr htr hmesh hfull y w _ _ hy hw, ?_⟩
  rwa [full_dot hst hne ht.mesh_pos F hG] at h1

/-- **C77**, norm (partial, as above).  The norm of the transform of a real field is the sum of the squares of the field divided by
the number of mesh points, on all ranks. -/
theorem C77_cnorm_partial (u : List ℕ → ℝ) (f : ℕ → List ℕ → Cx ℝ) (hf : t.Holds f fun k => toCx (r2c t.nmesh u k))
    (y : ℕ → List ℕ → ℝ) (hy : tr.Holds y u) :
    ∃ a, AllReturn tr.nrank (fun r => realCdot tr r (y r) (y r)) (fun _ => a) ∧
      AllReturn t.nrank (fun r => cnorm Real.pi t [] none (fun z => z.1 ^ 2 + z.2 ^ 2) r (f r))
        (fun _ => some (a / (t.nmesh.prod : ℕ), 0)) := by
  refine ⟨_, realCdot_return t ht hne hst heven tr htr hmesh hfull y y u u hy hy, ?_⟩
  have hh : HermitianSpectrum t.nmesh fun k => toCx (r2c t.nmesh u k) := by
    intro k hk
    show toCx (r2c t.nmesh u (opposite t.nmesh k)) = cxConj (toCx (r2c t.nmesh u k))
    rw [r2c_opposite _ _ hk, toCx_conj]
  have h1 := C28_cnorm_partial Real.pi t ht hne hst heven [] none (Or.inl rfl) (fun z : Cx ℝ => z.1 ^ 2 + z.2 ^ 2)
    (by intro z; simp [cxConj]) (fun k => toCx (r2c t.nmesh u k)) hh f hf
  have hH : HermitianStored t.nmesh t.cshape (r2c t.nmesh u) :=
    fun k hk _ => r2c_opposite _ _ (stored_valid hst hne ht.mesh_pos hk)
  have h2 := full_dot hst hne ht.mesh_pos (r2c t.nmesh u) hH
  refine AllReturn.congr (fun _ _ => rfl) (fun r hr => ?_) h1
  congr 2
  refine Eq.trans (Eq.trans ?_ h2.symm) ?_
  · congr 1
    apply sum_congr'
    intro x hx
    rw [C29_c2r_r2c t.nmesh t.cshape hne ht.mesh_pos hst u _ (fun _ _ => rfl) x (mem_ndindex.1 hx)]
  · apply sum_congr'
    intro k hk
    rw [decompress_r2c hst hne u (mem_ndindex.1 hk)]
    simp [toCx]
    ring

end

/-- **C77**, convolution.  The product of the transforms of two real fields, on each rank, is the transform of their mean-normalised
periodic convolution `x ↦ 1/N Σ_y f(y) g(x - y)`. -/
theorem C77_convolution (u v : List ℕ → ℝ) (f g : ℕ → List ℕ → ℂ) (hf : t.Holds f (r2c t.nmesh u)) (hg : t.Holds g (r2c t.nmesh v)) :
    ∃ P, t.Holds (fun r c => f r c * g r c) P ∧ ∀ x, ValidIndex t.nmesh x → c2r t.nmesh t.cshape P x =
      ((ndindex t.nmesh).map fun y => u y * v (movedCell t.nmesh (y.map fun (j : ℕ) => -(j : ℤ)) x)).sum / (t.nmesh.prod : ℕ) := by
  refine ⟨fun k => r2c t.nmesh u k * r2c t.nmesh v k, fun r hr c hc => by beta_reduce; rw [hf r hr c hc, hg r hr c hc], fun x hx => ?_⟩
  refine C29_c2r_r2c t.nmesh t.cshape hne ht.mesh_pos hst (fun x =>
    ((ndindex t.nmesh).map fun y => u y * v (movedCell t.nmesh (y.map fun (j : ℕ) => -(j : ℤ)) x)).sum / (t.nmesh.prod : ℕ)) _ ?_ x hx
  intro k hk
  have e : ∀ x, ((ndindex t.nmesh).map fun y => u y * v (movedCell t.nmesh (y.map fun (j : ℕ) => -(j : ℤ)) x)).sum / (t.nmesh.prod : ℕ) =
      ((ndindex t.nmesh).map fun y => (u y * ((t.nmesh.prod : ℕ) : ℝ)⁻¹) * v (movedCell t.nmesh (y.map fun (j : ℕ) => -(j : ℤ)) x)).sum := by
    intro x
    rw [div_eq_mul_inv, ← sum_mulc]
    apply sum_congr'
    intro y _
    ring
  beta_reduce
  simp only [e]
  rw [r2c_sum t.nmesh (ndindex t.nmesh) fun y x =>
    (u y * ((t.nmesh.prod : ℕ) : ℝ)⁻¹) * v (movedCell t.nmesh (y.map fun (j : ℕ) => -(j : ℤ)) x)]
  conv_lhs => rw [r2c, dftForward, ← sum_mulc, ← sum_mulc]
  apply sum_congr'
  intro y hy
  have hy := mem_ndindex.1 hy
  rw [r2c_mulc, r2c_moved (s := y.map fun (j : ℕ) => (j : ℤ)) (f := v)
    (f' := fun x => v (movedCell t.nmesh (y.map fun (j : ℕ) => -(j : ℤ)) x)) (by simpa using hy.len)
    (fun g hg => congrArg v (movedCell_forth hy hg).1), shiftArg_cast, prod_inv]
  push_cast
  ring

/-- **C77**, correlation.  The product of the transform of `u` with the conjugate of that of `v` is the transform of their
correlation function `x ↦ 1/N Σ_y u(x + y) v(y)`. -/
theorem C77_correlation (u v : List ℕ → ℝ) (f g : ℕ → List ℕ → ℂ) (hf : t.Holds f (r2c t.nmesh u)) (hg : t.Holds g (r2c t.nmesh v)) :
    ∃ P, t.Holds (fun r c => f r c * (starRingEnd ℂ) (g r c)) P ∧ ∀ x, ValidIndex t.nmesh x → c2r t.nmesh t.cshape P x =
      ((ndindex t.nmesh).map fun y => u (movedCell t.nmesh (y.map fun (j : ℕ) => (j : ℤ)) x) * v y).sum / (t.nmesh.prod : ℕ) := by
  refine ⟨fun k => r2c t.nmesh u k * (starRingEnd ℂ) (r2c t.nmesh v k), fun r hr c hc => by beta_reduce; rw [hf r hr c hc, hg r hr c hc], fun x hx => ?_⟩
  refine C29_c2r_r2c t.nmesh t.cshape hne ht.mesh_pos hst (fun x =>
    ((ndindex t.nmesh).map fun y => u (movedCell t.nmesh (y.map fun (j : ℕ) => (j : ℤ)) x) * v y).sum / (t.nmesh.prod : ℕ)) _ ?_ x hx
  intro k hk
  have e : ∀ x, ((ndindex t.nmesh).map fun y => u (movedCell t.nmesh (y.map fun (j : ℕ) => (j : ℤ)) x) * v y).sum / (t.nmesh.prod : ℕ) =
      ((ndindex t.nmesh).map fun y => (v y * ((t.nmesh.prod : ℕ) : ℝ)⁻¹) * u (movedCell t.nmesh (y.map fun (j : ℕ) => (j : ℤ)) x)).sum := by
    intro x
    rw [div_eq_mul_inv, ← sum_mulc]
    apply sum_congr'
    intro y _
    ring
  beta_reduce
  simp only [e]
  rw [r2c_sum t.nmesh (ndindex t.nmesh) fun y x =>
    (v y * ((t.nmesh.prod : ℕ) : ℝ)⁻¹) * u (movedCell t.nmesh (y.map fun (j : ℕ) => (j : ℤ)) x)]
  conv_lhs => rw [r2c.eq_def t.nmesh v, dftForward, map_mul, conj_sum, ← sum_mulc, ← sum_cmul]
  apply sum_congr'
  intro y hy
  have hy := mem_ndindex.1 hy
  rw [r2c_mulc, r2c_moved (s := y.map fun (j : ℕ) => -(j : ℤ)) (f := u)
    (f' := fun x => u (movedCell t.nmesh (y.map fun (j : ℕ) => (j : ℤ)) x)) (by simpa using hy.len)
    (fun g hg => congrArg u (movedCell_forth hy hg).2), shiftArg_neg, prod_inv, exp_neg_phase, map_mul, Complex.conj_conj,
    Complex.conj_ofReal, Complex.conj_ofReal, phase]
  push_cast
  rw [show -(2 * (Real.pi : ℂ) * I * -(phaseArg t.nmesh k y : ℂ)) = 2 * Real.pi * I * phaseArg t.nmesh k y by ring]
  ring

end

section
variable {K : Type} [Field K]

theorem cxMul_sum {α : Type} (v : Cx K) (l : List α) (f : α → Cx K) : cxMul v (l.map f).sum = (l.map fun a => cxMul v (f a)).sum := by
  induction l with
  | nil => ext <;> simp [cxMul]
  | cons a l ih =>
    rw [List.map_cons, List.map_cons, List.sum_cons, List.sum_cons, ← ih]
    ext <;> simp [cxMul] <;> ring

theorem cdot_coll (pi : K) (t : Tiling) {comp : Bool} (hc : t.compressed = some comp) (hr : 0 < t.nrank) (box : List K)
    (metric2 : Option (K → K)) (f g : ℕ → List ℕ → Cx K) :
    AllReturn t.nrank (fun r => cdot pi t box metric2 r (f r) (g r)) (fun _ => some (((List.range t.nrank).map fun r =>
      ((ndindex (t.lshape r)).map fun c =>
        cxMul (expandHermitian t comp (t.global r c) (cxMul (cxConj (g r c)) (f r c)))
          (metric2.elim 1 fun m => m (kSquared pi t.nmesh box (t.global r c)), 0)).sum).sum)) := by
  unfold cdot
  rw [hc]
  exact AllReturn.coll hr (AllReturn.ret _ _)

/-- **C77**, gradient.  `self.cdot_vjp(v, metric)` is the gradient of `v * self.cdot(other, metric)` with respect to `other`: for any
change `d` of `other`, on any partition of the modes, `v * (self.cdot(other + d, metric) - self.cdot(other, metric))` is
`self.cdot_vjp(v, metric).cdot(d)` on all ranks. -/
theorem C77_cdot_vjp (pi : K) (t : Tiling) (hc : t.compressed ≠ none) (hr : 0 < t.nrank) (box : List K) (metric2 : Option (K → K)) (v : Cx K)
    (f g d : ℕ → List ℕ → Cx K) :
    ∃ c c' e, AllReturn t.nrank (fun r => cdot pi t box metric2 r (f r) (g r)) (fun _ => some c) ∧
      AllReturn t.nrank (fun r => cdot pi t box metric2 r (f r) fun i => g r i + d r i) (fun _ => some c') ∧
      AllReturn t.nrank (fun r => cdot pi t box none r (cdotVjp pi t box metric2 v r (f r)) (d r)) (fun _ => some e) ∧
      e = cxMul v (c' - c) := by
  obtain ⟨comp, hcomp⟩ := Option.ne_none_iff_exists'.1 hc
  refine ⟨_, _, _, cdot_coll pi t hcomp hr box metric2 f g, cdot_coll pi t hcomp hr box metric2 f fun r i => g r i + d r i,
    cdot_coll pi t hcomp hr box none (fun r => cdotVjp pi t box metric2 v r (f r)) d, ?_⟩
  rw [sub_eq_add_neg, ← neg_one_smul K, List.smul_sum, List.map_map, ← List.sum_map_add, cxMul_sum]
  apply sum_congr'
  intro r _
  simp only [Function.comp]
  rw [List.smul_sum, List.map_map, ← List.sum_map_add, cxMul_sum]
  apply sum_congr'
  intro c _
  obtain ⟨m, hm⟩ : ∃ m, m = metric2.elim 1 fun m => m (kSquared pi t.nmesh box (t.global r c)) := ⟨_, rfl⟩
  simp only [Function.comp, cdotVjp, ← hm, Option.elim_none]
  unfold expandHermitian
  generalize (decide ((t.global r c).getLastD 0 ≠ 0) && decide ((t.global r c).getLastD 0 ≠ t.nmesh.getLastD 0 / 2)) = b
  cases comp <;> cases b <;> ext <;> simp [cxMul, cxConj] <;> ring

end

/-- Three points on a line, of which two modes are stored. -/
def exThreePoints : Tiling := ⟨[3], [2], 1, fun _ => [0], fun _ => [2]⟩

/-- **C77 violated** for an odd size: the field that is 3 in one of three points and zero in the others has modes that are all 1;
`cdot` of the modes is 2, the sum of the squares divided by the number of points is 3. -/
theorem C77_violated_odd :
    exThreePoints.OK ∧ exThreePoints.Storage ∧ (∀ k, r2c [3] (fun x => if x = [0] then 3 else 0) k = 1) ∧
    AllReturn 1 (fun r => cdot Real.pi exThreePoints [] none r (fun _ => (1, 0)) fun _ => (1, 0)) (fun _ => some (2, 0)) ∧
    ((ndindex [3]).map fun x => ((if x = [0] then 3 else 0) * (if x = [0] then 3 else 0) : ℝ)).sum / 3 = 3 := by
  refine ⟨tiling_ok_of_decide (by decide), Or.inr rfl, ?_, ?_, ?_⟩
  · intro k
    cases k <;> simp [r2c, dftForward, ndindex, phaseArg, List.range_succ]
  · have h := cdot_coll Real.pi exThreePoints (comp := true) rfl Nat.one_pos [] none (fun _ _ => ((1, 0) : Cx ℝ)) fun _ _ => (1, 0)
    refine AllReturn.congr (fun _ _ => rfl) (fun _ _ => ?_) h
    have e : (exThreePoints.nrank, exThreePoints.lshape, exThreePoints.nmesh) = (1, (fun _ => [2]), [3]) := rfl
    simp only [Prod.mk.injEq] at e
    rw [e.1, e.2.1]
    simp [ndindex, List.range_succ, cxMul, cxConj, expandHermitian, Tiling.global, e.2.2, exThreePoints]
    norm_num
  · simp [ndindex, List.range_succ]

example := C77_cdot_partial exTiling exTiling_ok (by decide) (Or.inr rfl) exRealTiling exRealTiling_ok rfl rfl (by decide)
  (r2c [4, 4] fun x => x.sum) (r2c [4, 4] fun x => x.prod)
  (fun k hk _ => r2c_opposite _ _ (stored_valid exShape (by decide) (by decide) hk))
  (fun k hk _ => r2c_opposite _ _ (stored_valid exShape (by decide) (by decide) hk))
  _ _ (fun r _ c _ => rfl) (fun r _ c _ => rfl) _ _ (fun r _ c _ => rfl) (fun r _ c _ => rfl)

example := C77_cnorm_partial exTiling exTiling_ok (by decide) (Or.inr rfl) exRealTiling exRealTiling_ok rfl rfl (by decide)
  (fun x => x.sum) _ (fun r _ c _ => rfl) _ (fun r _ c _ => rfl)

example := C77_convolution exTiling exTiling_ok (by decide) (Or.inr rfl) (fun x => x.sum) (fun x => x.prod) _ _
  (fun r _ c _ => rfl) (fun r _ c _ => rfl)

example := C77_correlation exTiling exTiling_ok (by decide) (Or.inr rfl) (fun x => x.sum) (fun x => x.prod) _ _
  (fun r _ c _ => rfl) (fun r _ c _ => rfl)

example := C77_cdot_vjp (22 / 7) exTiling (by decide) (by decide) [1, 2] (some fun k2 => k2 + 1) (2, 0)
  (fun r c => exFull (exTiling.global r c)) (fun _ _ => (1, 2)) (fun _ _ => (1, -1))

#print axioms C77_cdot_partial
#print axioms C77_cnorm_partial
#print axioms C77_convolution
#print axioms C77_correlation
#print axioms C77_cdot_vjp
#print axioms C77_violated_odd

end Pmesh
