import Verif.Props.Liouville
import Verif.Props.NBodySpace
import Verif.Lemmas.Symmetry
import Verif.Lemmas.NnbAxis
import Mathlib.Analysis.Calculus.FDeriv.Mul

/-!
# C93: the force of the mesh is not a gradient

Two particles on a line of four cells with the window cic, on one rank.
-/

namespace Pmesh

open Complex

/-- A line of four cells of unit size, on one rank. -/
noncomputable def exLineMesh : PMesh ℝ := (⟨[4], [4], [[0, 4]], 1, fun _ => [0], fun _ => [1], fun _ => 0⟩ : PMesh ℝ)

theorem exLineMesh_ok : exLineMesh.OK where
  dim := by simp [exLineMesh]
  box_len := rfl
  box_pos := by simp [exLineMesh]
  edges := .cons (by exact ⟨by decide, by decide, by decide, by decide, by decide, by decide⟩) .nil
  ranks := by simp [exLineMesh, PMesh.shape]
  coord_valid := by
    intro r hr
    exact show ValidIndex [1] [0] by decide
  coord_inj := by
    intro r hr r' hr' _
    have h1 : r < 1 := hr
    have h2 : r' < 1 := hr'
    omega
  distinct := by
    intro r hr
    intro c c' hc hc' h
    exact (proper_of_decide (shape := [4]) (strides := [1]) rfl (by decide)).inj c c' hc hc' h

noncomputable def exLine4 : Machine := ⟨exLineMesh, [1], ⟨[4], [3], 1, fun _ => [0], fun _ => [3]⟩⟩

theorem exLine4_ok : exLine4.OK exWinR where
  mesh := exLineMesh_ok
  plain := Or.inr (by
    intro r hr
    have hr : r < 1 := hr
    interval_cases r
    exact show cOrder [1] _ = _ by decide)
  smoothing := ⟨rfl, by simp [exLine4]⟩
  halo := by
    intro j hj d hd
    have hj : j < 1 := hj
    interval_cases j
    have hd : d < 1 := hd
    interval_cases d
    exact Or.inr rfl
  covers := exWinR_covers
  modes := tiling_ok_of_decide (t := ⟨[4], [3], 1, fun _ => [0], fun _ => [3]⟩) (by decide)
  modes_mesh := rfl
  modes_rank := rfl
  storage := Or.inr rfl

/-- The weights of a particle between cells `i` and `i + 1`. -/
theorem exLine4_weight (i : ℕ) (hi : i < 3) {x : ℝ} (h0 : i ≤ x) (h1 : x < i + 1) (c : ℕ) (hc : c < 4) :
    exLineMesh.weightAt exWinR [x] [c] = if c = i then i + 1 - x else if c = i + 1 then x - i else 0 := by
  rw [weightAt_prod exLineMesh_ok exWinR (x := [x]) (g := [c]) rfl rfl]
  have hf : fastOf exWinR 1 = some .cic := by
    simp [fastOf, exWinR, windowInfo, Tuned.kern, linearK]
  have hfl : ⌊x⌋ = (i : ℤ) := by
    rw [Int.floor_eq_iff]
    push_cast
    exact ⟨h0, h1⟩
  simp only [exLineMesh, List.length_singleton, List.range_one, List.map_singleton, List.prod_singleton, List.getD_cons_zero, gridW]
  rw [hf]
  simp only [tunedStencil, tunedSetup, unitAxis, PAxis.grid]
  have e1 : tunedWrap 4 (i : ℤ) = i := by
    rw [tunedWrap_emod (by decide)]
    omega
  have e2 : tunedWrap 4 ((i : ℤ) + 1) = i + 1 := by
    rw [tunedWrap_emod (by decide)]
    omega
  norm_num [hfl, cw, e1, e2]
  by_cases h : c = i
  · subst h
    simp
    ring
  · rw [if_neg (by omega), if_neg h]
    by_cases h' : c = i + 1
    · simp [h']
    · rw [if_neg (by omega), if_neg h']
      simp

theorem exp_quarter (k x : ℕ) : exp (-(2 * Real.pi * I * phaseArg [4] [k] [x])) = (-I) ^ (k * x) := by
  have h : exp (-(Real.pi / 2 * I)) = -I := by
    rw [exp_neg, exp_pi_div_two_mul_I, inv_I]
  rw [← h, ← exp_nat_mul]
  congr 1
  simp only [phaseArg]
  push_cast
  ring

/-- A potential of the density `rho`: modes 1 and 3, and mode 2. -/
noncomputable def linePot (rho : List ℕ → ℝ) (l : List ℕ) : ℝ :=
  2 / Real.pi ^ 2 * (rho l - rho [(l.headD 0 + 2) % 4]) + 1 / (4 * Real.pi ^ 2) * (-1) ^ (l.headD 0) * (rho [0] - rho [1] + rho [2] - rho [3])

theorem linePot_ok (rho : List ℕ → ℝ) : Potential [4] [4] rho (linePot rho) := by
  intro k hk h
  cases hk with
  | @cons _ j _ js hj hjs =>
    cases hjs
    have hpi : (Real.pi : ℂ) ≠ 0 := by exact_mod_cast Real.pi_ne_zero
    have hnd : ndindex [4] = [[0], [1], [2], [3]] := by decide
    have h4 : (-I) ^ 4 = 1 := by rw [neg_pow, I_pow_four]; norm_num
    interval_cases j
    · exact absurd (by simp [waveSq, waveVector]) h
    all_goals
      simp only [waveSq, waveVector, r2c, dftForward, hnd, List.map_cons, List.map_nil, List.sum_cons, List.sum_nil, exp_quarter]
      simp [linePot, Int.bmod, pow_succ]
      field_simp
      ring_nf
      try simp
      try ring_nf

/-- The force of two particles in neighbouring cells on each other. -/
theorem exLine4_force (Q : Fin 2 → Fin 1 → ℝ) (om : ℝ) (S : Fin 2 → Fin 1 → ℝ) {x y : ℝ} (hx : S 0 0 + Q 0 0 = x) (hy : S 1 0 + Q 1 0 = y)
    (hx0 : 0 ≤ x) (hx1 : x < 1) (hy1 : 1 ≤ y) (hy2 : y < 2) (d : Fin 1) :
    pmForce Q exLine4.m exLine4.t.cshape exWinR om [0, 1] S 0 d = 8 * om / Real.pi ^ 2 * (2 - y - 3 * x + 2 * x * y) ∧
      pmForce Q exLine4.m exLine4.t.cshape exWinR om [0, 1] S 1 d = -(8 * om / Real.pi ^ 2 * (2 - y - 3 * x + 2 * x * y)) := by
  obtain rfl : d = 0 := Subsingleton.elim _ _
  have hp : Real.pi ≠ 0 := Real.pi_ne_zero
  have wx := fun c hc => exLine4_weight 0 (by decide) (x := x) (by simpa using hx0) (by simpa using hx1) c hc
  have wy := fun c hc => exLine4_weight 1 (by decide) (x := y) (by simpa using hy1) (by push_cast; linarith) c hc
  obtain ⟨rho, hrho⟩ : ∃ rho : List ℕ → ℝ, rho = fun g => (([0, 1] : List (Fin 2)).map fun j => 1.0 * (exLineMesh.nmesh.prod : ℝ) / (([0, 1] : List (Fin 2)).length : ℝ) *
    exLineMesh.weightAt exWinR (List.ofFn fun d : Fin 1 => S j d + Q j d) g).sum := ⟨_, rfl⟩
  have hr : ∀ c < 4, rho [c] = 2 * (exLineMesh.weightAt exWinR [x] [c] + exLineMesh.weightAt exWinR [y] [c]) := by
    intro c hc
    rw [hrho]
    simp [exLineMesh, hx, hy]
    norm_num
    ring
  have hF : ∀ c < 4, c2r [4] [3] (fun k => forceTransfer [4] [4] 0 k * r2c [4] rho k) [c] = diff4 [4] 1 0 (linePot rho) [c] := by
    intro c hc
    have := c2r_force (nmesh := [4]) (cshape := [3]) (box := [4]) (Or.inr rfl) (by simp) (by simp) rfl (by simp) (d := 0) (by simp) (linePot_ok rho)
      (g := [c]) (.cons hc .nil)
    rw [this]
    norm_num
  have hnd : ndindex exLineMesh.nmesh = [[0], [1], [2], [3]] := by
    show ndindex [4] = _
    decide
  have hval : ∀ i : Fin 2, pmForce Q exLine4.m exLine4.t.cshape exWinR om [0, 1] S i 0 = 1.5 * om * ((ndindex exLineMesh.nmesh).map fun g =>
      exLineMesh.weightAt exWinR [S i 0 + Q i 0] g * c2r [4] [3] (fun k => forceTransfer [4] [4] 0 k * r2c [4] rho k) g).sum := by
    intro i
    rw [hrho]
    simp only [pmForce, exLine4, List.ofFn_succ, List.ofFn_zero]
    rfl
  rw [hval, hval, hnd, hx, hy]
  simp only [List.map_cons, List.map_nil, List.sum_cons, List.sum_nil]
  rw [hF 0 (by decide), hF 1 (by decide), hF 2 (by decide), hF 3 (by decide)]
  simp only [diff4, axisShift, movedCell, linePot, List.length_singleton, List.replicate_one, List.set_cons_zero, List.headD_cons]
  norm_num [hr, wx, wy, show Int.toNat 2 = 2 from rfl, show Int.toNat 3 = 3 from rfl]
  constructor
  · field_simp
    ring
  · field_simp
    ring

/-- **C93**, the force of the mesh.  Two particles on a line of four cells: one step of `symp1`, whatever the factors (the kick not 0), is a map `T` of phase
space that is differentiable where the particles are inside of their cells, and its derivative does not keep the symplectic form.  So the force
is not the gradient of any function of the positions. -/
theorem C93_violated_symplectic (om : ℝ) (hom : om ≠ 0) (fac : Factors) (a0 a1 : ℝ) (hK : fac.K a0 a1 a0 ≠ 0) :
    ∃ (Q : Fin 2 → Fin 1 → ℝ) (T : Phase 2 1 → Phase 2 1), (∀ z : Phase 2 1,
      (∃ s', exLine4.NbRun exWinR om fac (symp1 [a0, a1]) (fun _ => [0, 1].map (z.body Q)) s') ∧
      ∀ s', exLine4.NbRun exWinR om fac (symp1 [a0, a1]) (fun _ => [0, 1].map (z.body Q)) s' → (s' 0).map NBody.state =
        [0, 1].map fun i => ((T z).body Q i).state) ∧
      ∃ (z : Phase 2 1) (T' : Phase 2 1 →L[ℝ] Phase 2 1) (u u' : Phase 2 1), HasFDerivAt T T' z ∧ phaseForm (T' u) (T' u') ≠ phaseForm u u' := by
  obtain ⟨Q, hQ⟩ : ∃ Q : Fin 2 → Fin 1 → ℝ, Q = fun i _ => if i = 0 then 0 else 1 := ⟨_, rfl⟩
  obtain ⟨Φ, hΦ⟩ : ∃ Φ : (Fin 2 → Fin 1 → ℝ) → Fin 2 → Fin 1 → ℝ, Φ = pmForce Q exLine4.m exLine4.t.cshape exWinR om [0, 1] := ⟨_, rfl⟩
  obtain ⟨k, hk⟩ : ∃ k, k = fac.K a0 a1 a0 := ⟨_, rfl⟩
  obtain ⟨D, hD⟩ : ∃ D, D = fac.D a0 a1 a1 := ⟨_, rfl⟩
  refine ⟨Q, fun z => (z.1 + D • (z.2 + k • Φ z.1), z.2 + k • Φ z.1), fun z => ?_, ?_⟩
  · obtain ⟨h1, h2⟩ := nbRun_phase exWinR_valid om fac exLine4_ok [.force, .kick a0 a1 a0, .drift a0 a1 a1, .force] Q (fun _ => [0, 1]) (J := [0, 1]) rfl hΦ z
    refine ⟨h1, fun s' hs' => ?_⟩
    rw [h2 s' hs' 0 (show 0 < 1 by decide), hk, hD]
    rfl
  · obtain ⟨c, hc⟩ : ∃ c, c = 8 * om / Real.pi ^ 2 := ⟨_, rfl⟩
    have hc0 : c ≠ 0 := by
      rw [hc]
      have := Real.pi_ne_zero
      positivity
    obtain ⟨S, hS⟩ : ∃ S : Fin 2 → Fin 1 → ℝ, S = fun _ _ => 1 / 4 := ⟨_, rfl⟩
    -- the force near S
    obtain ⟨P, hP⟩ : ∃ P : (Fin 2 → Fin 1 → ℝ) → ℝ, P = fun S => c * (2 - (S 1 0 + 1) - 3 * S 0 0 + 2 * S 0 0 * (S 1 0 + 1)) := ⟨_, rfl⟩
    have hnear : Φ =ᶠ[nhds S] fun S i _ => if i = 0 then P S else -P S := by
      have h0 : ∀ᶠ S' in nhds S, S' 0 0 ∈ Set.Ioo (0 : ℝ) 1 := by
        refine (show Continuous fun S' : Fin 2 → Fin 1 → ℝ => S' 0 0 by fun_prop).continuousAt.eventually (Ioo_mem_nhds ?_ ?_) <;> simp [hS] <;> norm_num
      have h1 : ∀ᶠ S' in nhds S, S' 1 0 ∈ Set.Ioo (0 : ℝ) 1 := by
        refine (show Continuous fun S' : Fin 2 → Fin 1 → ℝ => S' 1 0 by fun_prop).continuousAt.eventually (Ioo_mem_nhds ?_ ?_) <;> simp [hS] <;> norm_num
      filter_upwards [h0, h1] with S' h0 h1
      funext i d
      obtain ⟨e0, e1⟩ := exLine4_force Q om S' (x := S' 0 0) (y := S' 1 0 + 1) (by simp [hQ]) (by simp [hQ]) h0.1.le h0.2 (by linarith [h1.1]) (by linarith [h1.2]) d
      rw [hΦ, hP, hc]
      fin_cases i
      · exact e0
      · exact e1
    obtain ⟨p, hp⟩ : ∃ p : Fin 2 → (Fin 2 → Fin 1 → ℝ) →L[ℝ] ℝ, ∀ i S, p i S = S i 0 :=
      ⟨fun i => (ContinuousLinearMap.proj (R := ℝ) (φ := fun _ : Fin 1 => ℝ) 0).comp (ContinuousLinearMap.proj (R := ℝ) (φ := fun _ : Fin 2 => Fin 1 → ℝ) i),
        fun _ _ => rfl⟩
    obtain ⟨P', hP'⟩ : ∃ P' : (Fin 2 → Fin 1 → ℝ) →L[ℝ] ℝ, P' = (-c / 2) • (p 0 + p 1) := ⟨_, rfl⟩
    have hd : HasFDerivAt P P' S := by
      have h0 := (p 0).hasFDerivAt (x := S)
      have h1 := (p 1).hasFDerivAt (x := S)
      have h := ((((hasFDerivAt_const (2 : ℝ) S).sub (h1.add (hasFDerivAt_const (1 : ℝ) S))).sub (h0.const_mul 3)).add
        ((h0.const_mul 2).mul (h1.add (hasFDerivAt_const (1 : ℝ) S)))).const_mul c
      have e : P = fun S => c * ((2 - (p 1 S + 1) - 3 * p 0 S) + 2 * p 0 S * (p 1 S + 1)) := by
        rw [hP]
        funext S
        simp only [hp]
      rw [e]
      refine h.congr_fderiv ?_
      ext u
      simp [hP', hp, hS]
      ring
    obtain ⟨Φ', hΦ'⟩ : ∃ Φ' : (Fin 2 → Fin 1 → ℝ) →L[ℝ] (Fin 2 → Fin 1 → ℝ), Φ' = ContinuousLinearMap.pi fun i => ContinuousLinearMap.pi fun _ =>
      if i = 0 then P' else -P' := ⟨_, rfl⟩
    have hdΦ : HasFDerivAt Φ Φ' S := by
      refine HasFDerivAt.congr_of_eventuallyEq ?_ hnear
      rw [hasFDerivAt_pi']
      intro i
      rw [hasFDerivAt_pi']
      intro d
      fin_cases i
      · simpa [hΦ'] using hd
      · have := hd.neg
        simp [hΦ']
        exact this
    have hV : HasFDerivAt (fun z : Phase 2 1 => z.2 + k • Φ z.1)
        (ContinuousLinearMap.snd ℝ _ _ + k • Φ'.comp (ContinuousLinearMap.fst ℝ (Fin 2 → Fin 1 → ℝ) (Fin 2 → Fin 1 → ℝ))) (S, 0) :=
      hasFDerivAt_snd.add ((HasFDerivAt.comp (x := ((S, 0) : Phase 2 1)) (g := Φ) (f := Prod.fst) hdΦ hasFDerivAt_fst).const_smul k)
    refine ⟨(S, 0), _, (fun i _ => if i = 0 then 1 else 0, 0), (fun i _ => if i = 0 then 0 else 1, 0), (hasFDerivAt_fst.add (hV.const_smul D)).prodMk hV, ?_⟩
    intro h
    have hck : k * c ≠ 0 := mul_ne_zero (hk ▸ hK) hc0
    apply hck
    simp [phaseForm, Fin.sum_univ_two, hΦ', hP', hp] at h
    linarith

example := C93_violated_symplectic (3 / 10) (by norm_num) ⟨fun ai af _ => af - ai, fun ai af _ => af - ai⟩ (1 / 2) 1 (by norm_num)

#print axioms C93_violated_symplectic

end Pmesh
