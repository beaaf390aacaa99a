import Verif.Spec.Aliasing
import Verif.Lemmas.AliasingBound
import Verif.Props.ShotNoise

/-!
# C115: aliasing

The modes of the density painted from any particles are the amplitudes of the point particles, filtered by the window, summed over all the waves that look alike on the
mesh.  For waves that are long compared to the cells, the mode divided by `get_fwindow` is the amplitude of the point particles, up to an error of the order of the window.
-/

namespace Pmesh

open Complex

theorem waveIndex_valid {κ : List ℤ} {nmesh : List ℕ} (hκ : κ.length = nmesh.length) (hn : ∀ n ∈ nmesh, 0 < n) : ValidIndex nmesh (waveIndex κ nmesh) := by
  rw [validIndex_iff]
  refine ⟨by simp [waveIndex, hκ], fun j hj => ?_⟩
  rw [List.getD_eq_getElem _ _ (by simp [waveIndex, hκ, hj]), List.getD_eq_getElem _ _ hj]
  simp only [waveIndex, List.getElem_zipWith]
  have h1 := hn _ (List.getElem_mem hj)
  have h2 := Int.emod_lt_of_pos κ[j] (by omega : (0 : ℤ) < (nmesh[j] : ℕ))
  have h3 := Int.emod_nonneg κ[j] (by omega : ((nmesh[j] : ℕ) : ℤ) ≠ 0)
  omega

theorem waveIndex_getD {κ : List ℤ} {nmesh : List ℕ} (hκ : κ.length = nmesh.length) {j : ℕ} (hj : j < nmesh.length) :
    (waveIndex κ nmesh).getD j 0 = (κ.getD j 0 % (nmesh.getD j 0 : ℕ)).toNat := by
  rw [List.getD_eq_getElem _ _ (by simp [waveIndex, hκ, hj]), List.getD_eq_getElem _ _ hj, List.getD_eq_getElem _ _ (by omega)]
  simp [waveIndex]

theorem prod_inv_nmesh (l : List ℕ) : (l.map fun (n : ℕ) => ((n : ℝ)⁻¹)).prod = ((l.prod : ℕ) : ℝ)⁻¹ := by
  induction l with
  | nil => simp
  | cons a l ih => simp [ih, mul_comm]

theorem hasSum_of_eq {β : Type} {f g : β → ℂ} {s : ℂ} (h : ∀ b, f b = g b) (hg : HasSum g s) : HasSum f s := by
  rw [funext h]
  exact hg

section
variable {a : SolverRun} {w : Resampler ℝ} (hw : w.Valid) {kind : Tuned} (hk : w.kern = Tuned.kern kind) (hsup : w.support = w.kern.native) (ht : kind ≠ .nnb)

/-- Amplitude of one particle. -/
noncomputable def particleAmp (kind : Tuned) (m : PMesh ℝ) (κ : List ℤ) (x : List ℝ) : ℂ :=
  ∏ j : Fin m.nmesh.length, waveAmp kind (modeQ (m.nmesh.getD j 0) (κ.getD j 0 % (m.nmesh.getD j 0 : ℕ)).toNat) (x.getD j 0 * ((m.nmesh.getD j 0 : ℕ) / m.box.getD j 0))

include hw hk hsup in
theorem painted_alias (hOK : a.OK w) : ∃ dens : ℕ → ℤ → ℝ, AllReturn a.m.nrank (a.paint w) (fun r => .ok (dens r)) ∧
    ∀ rho, a.m.HoldsField dens rho → ∀ κ : List ℤ, κ.length = a.m.nmesh.length →
      (a.m.nmesh.prod : ℂ) * r2c a.m.nmesh rho (waveIndex κ a.m.nmesh) =
        ∑ r ∈ Finset.range a.m.nrank, ∑ i ∈ Finset.range (a.pos r).length, (((a.mass r).at i : ℝ) : ℂ) * particleAmp kind a.m κ ((a.pos r).getD i []) := by
  obtain ⟨dens, h1, h2⟩ := painted_mode (Ω := Unit) (m := a.m) (sm := a.sm) (mass := a.mass) (pos := fun _ => a.pos) (cnt := fun r => (a.pos r).length) (ω := ())
    hw hk hsup hOK (fun _ _ => rfl)
  refine ⟨dens, h1, fun rho hrho κ hκ => ?_⟩
  have hm := hOK.mesh
  have hpos : ∀ n ∈ a.m.nmesh, 0 < n := by
    intro n hn
    obtain ⟨j, hj, rfl⟩ := List.mem_iff_getElem.1 hn
    have := hm.nmesh_pos hj
    rwa [List.getD_eq_getElem _ _ hj] at this
  have hP : (a.m.nmesh.prod : ℂ) ≠ 0 := by
    have : a.m.nmesh.prod ≠ 0 := by
      rw [Ne, List.prod_eq_zero_iff]
      intro h
      exact absurd (hpos 0 h) (by omega)
    exact_mod_cast this
  rw [h2 rho hrho _ (waveIndex_valid hκ hpos), prod_inv_nmesh, Complex.ofReal_inv, Complex.ofReal_natCast, mul_inv_cancel_left₀ hP, Fintype.sum_sigma, Finset.sum_range]
  refine Finset.sum_congr rfl fun r _ => ?_
  rw [Finset.sum_range]
  refine Finset.sum_congr rfl fun i _ => ?_
  congr 1
  unfold particleAmp
  rw [← Finset.prod_range (fun j => waveAmp kind (modeQ (a.m.nmesh.getD j 0) (κ.getD j 0 % (a.m.nmesh.getD j 0 : ℕ)).toNat)
    (((a.pos r).getD i []).getD j 0 * ((a.m.nmesh.getD j 0 : ℕ) / a.m.box.getD j 0))), ← hm.box_len, Finset.prod_range]
  refine Finset.prod_congr rfl fun j _ => ?_
  unfold axisAmp
  rw [waveIndex_getD hκ (by rw [← hm.box_len]; exact j.2)]
  rfl

/-- Fourier transform of the window in the product of the axes. -/
theorem windowFourier_native (t : Tuned) (n : ℕ) (κ : ℤ) :
    windowFourier (Tuned.kern t) ((Tuned.kern t : Kern ℝ).native : ℝ) (2 * Real.pi * κ / n) = (sincPow t n κ : ℂ) := by
  have h4 := windowFourier_sinc t 0 (2 * Real.pi * κ / n)
  have hnat := tuned_native_pos t
  unfold sizeOf at h4
  rw [if_pos le_rfl] at h4
  rw [h4]
  unfold sincPow sincArg sizeOf
  rw [if_pos le_rfl]
  congr 3
  have : ((Tuned.kern t : Kern ℝ).native : ℝ) ≠ 0 := by exact_mod_cast hnat.ne'
  field_simp

theorem aliasOf_fin (nmesh : List ℕ) (κ : List ℤ) (b : Fin nmesh.length → ℤ) (j : Fin nmesh.length) :
    aliasOf nmesh κ b j = κ.getD j 0 + (nmesh.getD j 0 : ℕ) * b j := by
  unfold aliasOf
  rw [dif_pos j.2]

include hw hk hsup ht in
/-- One particle. -/
theorem particle_hasSum (hm : a.m.OK) (κ : List ℤ) (x : List ℝ) :
    HasSum (fun b : Fin a.m.nmesh.length → ℤ => (∏ j : Fin a.m.nmesh.length, (sincPow kind (a.m.nmesh.getD j 0) (aliasOf a.m.nmesh κ b j) : ℂ)) *
      exp (-(2 * Real.pi * I * ((∑ j ∈ Finset.range a.m.nmesh.length, aliasOf a.m.nmesh κ b j * x.getD j 0 / a.m.box.getD j 0 : ℝ) : ℂ))))
      (particleAmp kind a.m κ x) := by
  have h := (hasSum_pi (d := a.m.nmesh.length) (fun j c => (sincPow kind (a.m.nmesh.getD j 0) (κ.getD j 0 + (a.m.nmesh.getD j 0 : ℕ) * c) : ℂ) *
      exp (-(2 * Real.pi * I * (((κ.getD j 0 + (a.m.nmesh.getD j 0 : ℕ) * c : ℤ) : ℝ) / (a.m.nmesh.getD j 0 : ℕ) * (x.getD j 0 * ((a.m.nmesh.getD j 0 : ℕ) / a.m.box.getD j 0)) : ℝ))))
    _ (fun j => (waveAmp_alias hw hk hsup ht (hm.nmesh_pos j.2) (κ.getD j 0) _).1) (fun j => by
      have := (waveAmp_alias hw hk hsup ht (hm.nmesh_pos j.2) (κ.getD j 0) 0).2
      refine this.congr fun c => ?_
      rw [norm_mul, Complex.norm_real, Real.norm_eq_abs]
      have : ∀ y : ℝ, ‖exp (-(2 * Real.pi * I * (y : ℂ)))‖ = 1 := by
        intro y
        rw [show -(2 * Real.pi * I * (y : ℂ)) = ((-(2 * Real.pi * y) : ℝ) : ℂ) * I by push_cast; ring, Complex.norm_exp_ofReal_mul_I]
      rw [this, mul_one])).1
  have e : ∀ b : Fin a.m.nmesh.length → ℤ, _ = _ := fun b => Finset.prod_mul_distrib (s := Finset.univ)
    (f := fun j : Fin a.m.nmesh.length => (sincPow kind (a.m.nmesh.getD j 0) (κ.getD j 0 + (a.m.nmesh.getD j 0 : ℕ) * b j) : ℂ))
    (g := fun j : Fin a.m.nmesh.length => exp (-(2 * Real.pi * I * (((κ.getD j 0 + (a.m.nmesh.getD j 0 : ℕ) * b j : ℤ) : ℝ) / (a.m.nmesh.getD j 0 : ℕ) *
      (x.getD j 0 * ((a.m.nmesh.getD j 0 : ℕ) / a.m.box.getD j 0)) : ℝ))))
  simp only [e, ← Complex.exp_sum] at h
  refine hasSum_of_eq (fun b => ?_) h
  congr 1
  · exact Finset.prod_congr rfl fun j _ => by rw [aliasOf_fin]
  · congr 1
    rw [Finset.sum_range]
    push_cast
    rw [Finset.mul_sum, ← Finset.sum_neg_distrib]
    refine Finset.sum_congr rfl fun j _ => ?_
    rw [aliasOf_fin]
    have hN : ((a.m.nmesh.getD j 0 : ℕ) : ℂ) ≠ 0 := by exact_mod_cast (hm.nmesh_pos j.2).ne'
    push_cast
    congr 2
    generalize ((a.m.nmesh.getD j 0 : ℕ) : ℂ) = N at hN
    generalize ((a.m.box.getD j 0 : ℝ) : ℂ) = L
    rw [div_eq_mul_inv _ L, div_eq_mul_inv _ L]
    field_simp

include hw hk hsup ht in
/-- **C115** (partial: the restrictions of C23 on the decomposition, in `SolverRun.OK`; the windows cic, tsc and pcs of their native size, whose transforms fall off fast
enough).  Any particles, decomposed and painted on any number of ranks; `κ` are the numbers of periods of a wave along the axes.  The number of cells times the mode in
which `r2c` stores the wave is the sum, over all waves that differ from `κ` by multiples of the number of cells, of the Fourier amplitude of the point particles times the
Fourier transform of the window. -/
theorem C115_aliasing_partial (hOK : a.OK w) :
    ∃ dens : ℕ → ℤ → ℝ, AllReturn a.m.nrank (a.paint w) (fun r => .ok (dens r)) ∧
      ∀ rho, a.m.HoldsField dens rho → ∀ κ : List ℤ, κ.length = a.m.nmesh.length →
        HasSum (fun b : Fin a.m.nmesh.length → ℤ =>
          (∏ j : Fin a.m.nmesh.length, windowFourier w.kern w.support (2 * Real.pi * aliasOf a.m.nmesh κ b j / (a.m.nmesh.getD j 0 : ℕ))) *
            a.pointWave (aliasOf a.m.nmesh κ b))
          ((a.m.nmesh.prod : ℂ) * r2c a.m.nmesh rho (waveIndex κ a.m.nmesh)) := by
  obtain ⟨dens, h1, h2⟩ := painted_alias hw hk hsup hOK
  refine ⟨dens, h1, fun rho hrho κ hκ => ?_⟩
  rw [h2 rho hrho κ hκ]
  have h : HasSum (fun b : Fin a.m.nmesh.length → ℤ => _) _ := hasSum_sum (s := Finset.range a.m.nrank) fun r _ => hasSum_sum (s := Finset.range (a.pos r).length) fun i _ =>
    (particle_hasSum hw hk hsup ht hOK.mesh κ ((a.pos r).getD i [])).mul_left (((a.mass r).at i : ℝ) : ℂ)
  refine hasSum_of_eq (fun b => ?_) h
  unfold SolverRun.pointWave
  simp only [hsup]
  rw [hk]
  simp only [windowFourier_native, Finset.mul_sum]
  refine Finset.sum_congr rfl fun r _ => Finset.sum_congr rfl fun i _ => ?_
  ring

/-- Relative size of the aliases on axis `j`. -/
noncomputable def aliasSize (p : ℕ) (n : ℕ) (κ : ℤ) : ℝ := Real.pi ^ 2 / 4 * (2 * |(κ : ℝ)| / n) ^ p

theorem axis_alias_sum {t : Tuned} (htn : t ≠ .nnb) {n : ℕ} (hn : 0 < n) {κ : ℤ} (hκ : 2 * |κ| ≤ n) (hs : Summable fun b : ℤ => |sincPow t n (κ + n * b)|) :
    ∑' b : ℤ, |sincPow t n (κ + n * b)| ≤ |sincPow t n κ| * (1 + aliasSize (Tuned.kern t : Kern ℝ).native n κ) := by
  have h1 := (hasSum_ite_eq (0 : ℤ) (1 : ℝ)).add (aliasTail_hasSum.mul_left ((2 * |(κ : ℝ)| / n) ^ (Tuned.kern t : Kern ℝ).native))
  have h2 := h1.mul_left |sincPow t n κ|
  refine (hasSum_le (fun b => ?_) hs.hasSum h2).trans (le_of_eq ?_)
  · by_cases hb : b = 0
    · subst hb
      simp [aliasTail]
    · rw [if_neg hb, zero_add]
      exact sincPow_alias htn hn hκ hb
  · unfold aliasSize
    ring

include hw hk hsup ht in
/-- One particle: the wave itself and a bound of its aliases. -/
theorem particle_close (hm : a.m.OK) {κ : List ℤ} (hκ : ∀ j < a.m.nmesh.length, 2 * |κ.getD j 0| ≤ (a.m.nmesh.getD j 0 : ℕ)) (x : List ℝ) :
    ‖particleAmp kind a.m κ x - (∏ j : Fin a.m.nmesh.length, (sincPow kind (a.m.nmesh.getD j 0) (κ.getD j 0) : ℂ)) *
      exp (-(2 * Real.pi * I * ((∑ j ∈ Finset.range a.m.nmesh.length, κ.getD j 0 * x.getD j 0 / a.m.box.getD j 0 : ℝ) : ℂ)))‖ ≤
    |∏ j : Fin a.m.nmesh.length, sincPow kind (a.m.nmesh.getD j 0) (κ.getD j 0)| *
      (∏ j : Fin a.m.nmesh.length, (1 + aliasSize (Tuned.kern kind : Kern ℝ).native (a.m.nmesh.getD j 0) (κ.getD j 0)) - 1) := by
  have h := particle_hasSum hw hk hsup ht hm κ x
  have hs : ∀ j : Fin a.m.nmesh.length, Summable fun b : ℤ => |sincPow kind (a.m.nmesh.getD j 0) (κ.getD j 0 + (a.m.nmesh.getD j 0 : ℕ) * b)| :=
    fun j => (waveAmp_alias hw hk hsup ht (hm.nmesh_pos j.2) (κ.getD j 0) 0).2
  obtain ⟨f, hf⟩ : ∃ f : Fin a.m.nmesh.length → ℤ → ℝ, f = fun (j : Fin a.m.nmesh.length) b => |sincPow kind (a.m.nmesh.getD j 0) (κ.getD j 0 + (a.m.nmesh.getD j 0 : ℕ) * b)| := ⟨_, rfl⟩
  have hs' : ∀ j, Summable (f j) := by
    intro j
    rw [hf]
    exact hs j
  have hg := (hasSum_pi (fun j b => (f j b : ℂ)) (fun j => ((∑' b, f j b : ℝ) : ℂ)) (fun j => Complex.hasSum_ofReal.2 (hs' j).hasSum)
    (fun j => by simpa only [Complex.norm_real] using (hs' j).norm)).1
  simp only [← Complex.ofReal_prod] at hg
  have hg' := Complex.hasSum_ofReal.1 hg
  have hal0 : ∀ j : ℕ, aliasOf a.m.nmesh κ 0 j = κ.getD j 0 := by
    intro j
    unfold aliasOf
    split_ifs <;> simp
  have hu := h.update 0 0
  have hgu := hg'.update 0 0
  have key := hu.norm_le_of_bounded hgu (fun b => by
    by_cases hb : b = 0
    · rw [hb, Function.update_self, Function.update_self, norm_zero]
    · rw [Function.update_of_ne hb, Function.update_of_ne hb, norm_mul]
      have hone : ∀ y : ℝ, ‖exp (-(2 * Real.pi * I * (y : ℂ)))‖ = 1 := by
        intro y
        rw [show -(2 * Real.pi * I * (y : ℂ)) = ((-(2 * Real.pi * y) : ℝ) : ℂ) * I by push_cast; ring, Complex.norm_exp_ofReal_mul_I]
      rw [hone, mul_one, norm_prod, hf]
      refine le_of_eq (Finset.prod_congr rfl fun j _ => ?_)
      rw [Complex.norm_real, Real.norm_eq_abs, aliasOf_fin])
  simp only [hal0] at key
  rw [zero_sub, neg_add_eq_sub] at key
  refine key.trans ?_
  have e0 : ∏ j : Fin a.m.nmesh.length, f j ((0 : Fin a.m.nmesh.length → ℤ) j) = |∏ j : Fin a.m.nmesh.length, sincPow kind (a.m.nmesh.getD j 0) (κ.getD j 0)| := by
    rw [hf, Finset.abs_prod]
    simp
  rw [e0, zero_sub, neg_add_eq_sub, mul_sub, mul_one]
  refine sub_le_sub_right ?_ _
  rw [Finset.abs_prod, ← Finset.prod_mul_distrib]
  refine Finset.prod_le_prod (fun j _ => tsum_nonneg fun b => by rw [hf]; exact abs_nonneg _) fun j _ => ?_
  rw [hf]
  exact axis_alias_sum ht (hm.nmesh_pos j.2) (hκ j j.2) (hs j)

theorem fwindow_prod (t : Tuned) (nmesh : List ℕ) (κ : List ℤ) (hκl : κ.length = nmesh.length) (hN : ∀ n ∈ nmesh, 0 < n ∧ n ≤ 314159)
    (hκ : ∀ j < nmesh.length, 2 * |κ.getD j 0| ≤ (nmesh.getD j 0 : ℕ)) :
    ((((circularFreq κ nmesh).map fun wi => getFwindow (Tuned.kern t : Kern ℝ).native (some t.fwindow) ((Tuned.kern t : Kern ℝ).native : ℕ) wi).prod : ℝ) : ℂ) =
      ((∏ j : Fin nmesh.length, sincPow t (nmesh.getD j 0) (κ.getD j 0) : ℝ) : ℂ) ∧
    ∏ j : Fin nmesh.length, sincPow t (nmesh.getD j 0) (κ.getD j 0) ≠ 0 := by
  have hF : List.Forall₂ (fun (q : ℤ) (n : ℕ) => 2 * |q| ≤ n) κ nmesh := by
    rw [List.forall₂_iff_get]
    refine ⟨hκl, fun j h1 h2 => ?_⟩
    have := hκ j h2
    rwa [List.getD_eq_getElem _ _ h1, List.getD_eq_getElem _ _ h2] at this
  have h := C55_modes t ((Tuned.kern t : Kern ℝ).native : ℕ) (Or.inr rfl) κ nmesh hN hF
  have hsz : sizeOf (Tuned.kern t : Kern ℝ).native ((Tuned.kern t : Kern ℝ).native : ℕ) = (Tuned.kern t : Kern ℝ).native := by
    unfold sizeOf
    have := tuned_native_pos t
    rw [if_neg (by omega)]
    simp
  have hlen : (circularFreq κ nmesh).length = nmesh.length := by simp [circularFreq, hκl]
  have hval : ∀ j : Fin nmesh.length, getFwindow (Tuned.kern t : Kern ℝ).native (some t.fwindow) ((Tuned.kern t : Kern ℝ).native : ℕ) ((circularFreq κ nmesh).getD j 0) =
      sincPow t (nmesh.getD j 0) (κ.getD j 0) ∧ sincPow t (nmesh.getD j 0) (κ.getD j 0) ≠ 0 := by
    intro j
    have hj : (j : ℕ) < (circularFreq κ nmesh).length := by rw [hlen]; exact j.2
    have hm : (circularFreq κ nmesh).getD j 0 ∈ circularFreq κ nmesh := by
      rw [List.getD_eq_getElem _ _ hj]
      exact List.getElem_mem _
    have hc : (circularFreq κ nmesh).getD j 0 = 2 * Real.pi * (κ.getD j 0 : ℤ) / (nmesh.getD j 0 : ℕ) := by
      rw [List.getD_eq_getElem _ _ hj, List.getD_eq_getElem _ _ (by rw [hκl]; exact j.2), List.getD_eq_getElem _ _ j.2]
      simp [circularFreq]
    obtain ⟨-, h2, h3⟩ := h _ hm
    rw [hc, hsz, windowFourier_native] at h2
    rw [hc] at h3 ⊢
    have h4 := Complex.ofReal_injective h2
    exact ⟨h4, h4 ▸ h3⟩
  constructor
  · congr 1
    rw [← List.prod_ofFn]
    congr 1
    apply List.ext_getElem
    · simp [hlen]
    · intro j h1 h2
      rw [List.getElem_map, List.getElem_ofFn]
      have := (hval ⟨j, by simpa using h2⟩).1
      rw [← this]
      congr 1
      rw [List.getD_eq_getElem]
  · exact Finset.prod_ne_zero_iff.2 fun j _ => (hval j).2

include hw hk hsup ht in
/-- **C115** (partial as `C115_aliasing_partial`; at most 314159 cells per side, as in `C55_modes`).  The mode of a wave with up to half a period per cell, compensated with
`get_fwindow`, times the number of cells, is the Fourier amplitude of the point particles, with an error of at most the total mass times
`Π_j (1 + π²/4 (2|κ_j| / N_j)^p) - 1`, where `p` is 2, 3 or 4 for cic, tsc and pcs. -/
theorem C115_compensated_partial (hOK : a.OK w) (hN : ∀ n ∈ a.m.nmesh, n ≤ 314159) :
    ∃ dens : ℕ → ℤ → ℝ, AllReturn a.m.nrank (a.paint w) (fun r => .ok (dens r)) ∧
      ∀ rho, a.m.HoldsField dens rho → ∀ κ : List ℤ, κ.length = a.m.nmesh.length → (∀ j < a.m.nmesh.length, 2 * |κ.getD j 0| ≤ (a.m.nmesh.getD j 0 : ℕ)) →
        ‖(a.m.nmesh.prod : ℂ) * compensation w.kern.native (some kind.fwindow) w.support (circularFreq κ a.m.nmesh) (r2c a.m.nmesh rho (waveIndex κ a.m.nmesh)) -
            a.pointWave fun j => κ.getD j 0‖ ≤
          a.totalMass * (∏ j ∈ Finset.range a.m.nmesh.length, (1 + Real.pi ^ 2 / 4 * (2 * |((κ.getD j 0 : ℤ) : ℝ)| / (a.m.nmesh.getD j 0 : ℕ)) ^ w.kern.native) - 1) := by
  obtain ⟨dens, h1, h2⟩ := painted_alias hw hk hsup hOK
  refine ⟨dens, h1, fun rho hrho κ hκl hκ => ?_⟩
  have hm := hOK.mesh
  have hpos : ∀ n ∈ a.m.nmesh, 0 < n ∧ n ≤ 314159 := by
    intro n hn
    refine ⟨?_, hN n hn⟩
    obtain ⟨j, hj, rfl⟩ := List.mem_iff_getElem.1 hn
    have := hm.nmesh_pos hj
    rwa [List.getD_eq_getElem _ _ hj] at this
  obtain ⟨hW1, hW0⟩ := fwindow_prod kind a.m.nmesh κ hκl hpos hκ
  rw [compensation_prod, hsup, hk, hW1, ← mul_div_assoc, h2 rho hrho κ hκl]
  obtain ⟨W, hW⟩ : ∃ W : ℝ, W = ∏ j : Fin a.m.nmesh.length, sincPow kind (a.m.nmesh.getD j 0) (κ.getD j 0) := ⟨_, rfl⟩
  rw [← hW] at hW0 ⊢
  have hWc : (W : ℂ) ≠ 0 := by exact_mod_cast hW0
  obtain ⟨B, hB⟩ : ∃ B : ℝ, B = ∏ j ∈ Finset.range a.m.nmesh.length, (1 + Real.pi ^ 2 / 4 * (2 * |((κ.getD j 0 : ℤ) : ℝ)| / (a.m.nmesh.getD j 0 : ℕ)) ^ (Tuned.kern kind : Kern ℝ).native) - 1 :=
    ⟨_, rfl⟩
  rw [← hB]
  unfold SolverRun.pointWave SolverRun.totalMass
  rw [Finset.sum_div, ← Finset.sum_sub_distrib, Finset.sum_mul]
  refine (norm_sum_le _ _).trans (Finset.sum_le_sum fun r _ => ?_)
  rw [Finset.sum_div, ← Finset.sum_sub_distrib, Finset.sum_mul]
  refine (norm_sum_le _ _).trans (Finset.sum_le_sum fun i _ => ?_)
  have hc := particle_close hw hk hsup ht hm hκ ((a.pos r).getD i [])
  rw [← Complex.ofReal_prod, ← hW] at hc
  have hB' : ∏ j : Fin a.m.nmesh.length, (1 + aliasSize (Tuned.kern kind : Kern ℝ).native (a.m.nmesh.getD j 0) (κ.getD j 0)) - 1 = B := by
    rw [hB, Finset.prod_range]
    rfl
  rw [hB'] at hc
  rw [mul_div_assoc, ← mul_sub, norm_mul, Complex.norm_real, Real.norm_eq_abs]
  refine mul_le_mul_of_nonneg_left ?_ (abs_nonneg _)
  generalize exp (-(2 * Real.pi * I * ((∑ j ∈ Finset.range a.m.nmesh.length, κ.getD j 0 * ((a.pos r).getD i []).getD j 0 / a.m.box.getD j 0 : ℝ) : ℂ))) = E at hc ⊢
  have e : particleAmp kind a.m κ ((a.pos r).getD i []) / (W : ℂ) - E = (particleAmp kind a.m κ ((a.pos r).getD i []) - W * E) / W := by field_simp
  rw [e, norm_div, Complex.norm_real, Real.norm_eq_abs, div_le_iff₀ (abs_pos.2 hW0), mul_comm B]
  exact hc

end

/-- **C115**: the power of the window in the shot noise of random particles (C111, in the closed form of Jing 2005 for nnb, cic and tsc) is the sum of the squared transform of
the window over all the waves that look alike on the mesh. -/
theorem C115_shot_power (t : Tuned) {n : ℕ} (hn : 0 < n) {k : ℕ} (hkn : k < n) :
    HasSum (fun b : ℤ => ‖windowFourier (Tuned.kern t) ((Tuned.kern t : Kern ℝ).native : ℝ) (2 * Real.pi * ((k + n * b : ℤ) : ℝ) / n)‖ ^ 2) (shotPower t n k) := by
  obtain ⟨w, hw, hk, hsup⟩ : ∃ w : Resampler ℝ, w.Valid ∧ w.kern = Tuned.kern t ∧ w.support = w.kern.native :=
    ⟨⟨Tuned.kern t, some t, (Tuned.kern t : Kern ℝ).native⟩, ⟨tuned_native_pos t, by intro t' ht'; cases ht'; rfl⟩, rfl, rfl⟩
  have hab : cellStart t < cellStart t + 1 := by linarith
  have hc : Continuous (cellWave t n k) := by
    unfold cellWave
    exact (cellPoly_continuous t _).mul (by fun_prop)
  have hL : MeasureTheory.MemLp (cellWave t n k) 2 (MeasureTheory.volume.restrict (Set.Ioc (cellStart t) (cellStart t + 1))) := by
    obtain ⟨C, hC⟩ := (isCompact_Icc (a := cellStart t) (b := cellStart t + 1)).exists_bound_of_continuousOn hc.continuousOn
    exact MeasureTheory.MemLp.of_bound hc.aestronglyMeasurable C
      (MeasureTheory.ae_restrict_of_forall_mem measurableSet_Ioc fun x hx => hC x ⟨hx.1.le, hx.2⟩)
  have h := hasSum_sq_fourierCoeffOn hab hL
  have hco : ∀ i, fourierCoeffOn hab (cellWave t n k) i = (sincPow t n (k + n * -i) : ℂ) := by
    intro i
    rw [fourierCoeffOn_eq_integral, ← cellWave_coeff hw hk hsup hn hkn]
    simp only [add_sub_cancel_left, div_one, one_smul, fourier_coe_apply, smul_eq_mul]
    simp
  simp only [hco] at h
  have h2 := (Equiv.neg ℤ).hasSum_iff.2 h
  have hI : ∫ x in (cellStart t)..(cellStart t + 1), ‖cellWave t n k x‖ ^ 2 = shotPower t n k := by
    have h3 := integral_power t (modeQ_norm n k) (modeQ_add n k)
    have h4 := Function.Periodic.intervalIntegral_add_eq (f := fun x => waveAmp t (modeQ n k) x * (starRingEnd ℂ) (waveAmp t (modeQ n k) x)) (T := 1)
      (power_shift t (modeQ_norm n k)) (cellStart t) 0
    rw [zero_add, h3] at h4
    apply Complex.ofReal_injective
    rw [← intervalIntegral.integral_ofReal]
    have e : ∫ x in (cellStart t)..(cellStart t + 1), ((‖cellWave t n k x‖ ^ 2 : ℝ) : ℂ) =
        ∫ x in (cellStart t)..(cellStart t + 1), waveAmp t (modeQ n k) x * (starRingEnd ℂ) (waveAmp t (modeQ n k) x) := by
      refine intervalIntegral.integral_congr_Ioo_of_le (by linarith) fun x hx => ?_
      rw [waveAmp_cell t _ hx.1.le hx.2, Complex.mul_conj, Complex.normSq_eq_norm_sq]
      unfold cellWave
      rw [norm_mul, mul_comm I, mul_right_comm, ← Complex.ofReal_mul, Complex.norm_exp_ofReal_mul_I, mul_one]
    rw [e, h4]
    unfold shotPower
    cases t <;> rfl
  rw [add_sub_cancel_left, inv_one, one_smul, hI] at h2
  have e : (fun b : ℤ => ‖windowFourier (Tuned.kern t) ((Tuned.kern t : Kern ℝ).native : ℝ) (2 * Real.pi * ((k + n * b : ℤ) : ℝ) / n)‖ ^ 2) =
      (fun i => ‖(sincPow t n (k + n * -i) : ℂ)‖ ^ 2) ∘ Equiv.neg ℤ := by
    funext b
    rw [windowFourier_native]
    simp
  rw [e]
  exact h2

/-! ## Example: two ranks -/

example := C115_aliasing_partial exWinR_valid (kind := .cic) rfl (by simp [exWinR, linearK]) (by decide) exTwo_ok

/-- The condition on the wave can be met. -/
example : (∀ n ∈ exTwo.m.nmesh, n ≤ 314159) ∧ [(-1 : ℤ)].length = exTwo.m.nmesh.length ∧
    (∀ j < exTwo.m.nmesh.length, 2 * |[(-1 : ℤ)].getD j 0| ≤ (exTwo.m.nmesh.getD j 0 : ℕ)) ∧ waveIndex [-1] exTwo.m.nmesh = [7] := by
  simp [exTwo, exMeshR, waveIndex]

example := C115_compensated_partial exWinR_valid (kind := .cic) rfl (by simp [exWinR, linearK]) (by decide) exTwo_ok (by simp [exTwo, exMeshR])

end Pmesh
