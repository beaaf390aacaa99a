import Verif.Spec.AliasRead
import Verif.Props.Aliasing
import Verif.Spec.NoiseReal

/-!
# C116, C117: values read from a mesh as sums over waves

The counterpart of C115 for `readout`, and both together: the response of a particle-mesh solver.
-/

namespace Pmesh

open Complex

theorem hasSum_list {β α : Type} (l : List α) (f : α → β → ℂ) (s : α → ℂ) (h : ∀ a ∈ l, HasSum (f a) (s a)) : HasSum (fun b => (l.map fun a => f a b).sum) (l.map s).sum := by
  induction l with
  | nil => simpa using hasSum_zero
  | cons a l ih =>
    simp only [List.map_cons, List.sum_cons]
    exact (h a (by simp)).add (ih fun a' ha' => h a' (by simp [ha']))

theorem norm_sum_list {α : Type} (l : List α) (f : α → ℂ) (g : α → ℝ) (h : ∀ a ∈ l, ‖f a‖ ≤ g a) : ‖(l.map f).sum‖ ≤ (l.map g).sum := by
  induction l with
  | nil => simp
  | cons a l ih =>
    simp only [List.map_cons, List.sum_cons]
    exact (norm_add_le _ _).trans (add_le_add (h a (by simp)) (ih fun a' ha' => h a' (by simp [ha'])))

theorem sum_sub_list {α : Type} (l : List α) (f g : α → ℂ) : (l.map fun a => f a - g a).sum = (l.map f).sum - (l.map g).sum := by
  induction l with
  | nil => simp
  | cons a l ih =>
    simp only [List.map_cons, List.sum_cons, ih]
    ring

/-- What `readout` returns at `x`. -/
noncomputable def meshValue (m : PMesh ℝ) (w : Resampler ℝ) (rho : List ℕ → ℝ) (x : List ℝ) : ℝ := ((ndindex m.nmesh).map fun g => m.weightAt w x g * rho g).sum

section
variable {a : SolverRun} {w : Resampler ℝ} (hw : w.Valid) {kind : Tuned} (hk : w.kern = Tuned.kern kind) (hsup : w.support = w.kern.native) (ht : kind ≠ .nnb)

theorem readout_meshValue (hw : w.Valid) (hOK : a.OK w) (field : ℕ → ℤ → ℝ) (rho : List ℕ → ℝ) (hf : a.m.HoldsField field rho) :
    AllReturn a.m.nrank (a.readout w field) (fun r => .ok ((a.pos r).map (meshValue a.m w rho))) :=
  readout_all hOK.mesh hOK.plain hw hOK.smoothing hOK.halo hOK.pos hOK.covers field _ hf (cStrides a.m.nmesh)

theorem mesh_pos {m : PMesh ℝ} (hm : m.OK) : ∀ n ∈ m.nmesh, 0 < n := by
  intro n hn
  obtain ⟨j, hj, rfl⟩ := List.mem_iff_getElem.1 hn
  have := hm.nmesh_pos hj
  rwa [List.getD_eq_getElem _ _ hj] at this

include hw hk hsup in
/-- The value in terms of the modes. -/
theorem meshValue_modes (hm : a.m.OK) (rho : List ℕ → ℝ) {x : List ℝ} (hx : x.length = a.m.nmesh.length) (rep : List ℕ → List ℤ)
    (hl : ∀ k, ValidIndex a.m.nmesh k → (rep k).length = a.m.nmesh.length) (hr : ∀ k, ValidIndex a.m.nmesh k → waveIndex (rep k) a.m.nmesh = k) :
    (meshValue a.m w rho x : ℂ) = ((ndindex a.m.nmesh).map fun k => r2c a.m.nmesh rho k * (starRingEnd ℂ) (particleAmp kind a.m (rep k) x)).sum := by
  have hpos := mesh_pos hm
  have h1 : (meshValue a.m w rho x : ℂ) = ((ndindex a.m.nmesh).map fun g => ((ndindex a.m.nmesh).map fun k => (a.m.weightAt w x g : ℂ) * (r2c a.m.nmesh rho k * phase a.m.nmesh k g)).sum).sum := by
    unfold meshValue
    rw [← Complex.ofRealHom_eq_coe, map_list_sum, List.map_map]
    apply sum_congr'
    intro g hg
    have h := (C29_complex a.m.nmesh hpos (fun x => (rho x : ℂ)) g (mem_ndindex.1 hg)).1
    simp only [Function.comp_apply, Complex.ofRealHom_eq_coe, Complex.ofReal_mul]
    rw [← h, List.sum_map_mul_left]
    rfl
  rw [h1, sum_swapC]
  apply sum_congr'
  intro k hk'
  have hkv := mem_ndindex.1 hk'
  have h2 := weightAt_wave hm hw hk hsup hx hkv.len
  have h3 : particleAmp kind a.m (rep k) x = ((ndindex a.m.nmesh).map fun g => (a.m.weightAt w x g : ℂ) * exp (-(2 * Real.pi * I * phaseArg a.m.nmesh k g))).sum := by
    rw [h2]
    unfold particleAmp
    rw [Finset.prod_range]
    refine Finset.prod_congr rfl fun j _ => ?_
    rw [← waveIndex_getD (hl k hkv) j.2, hr k hkv]
  rw [h3, conj_sum, ← List.sum_map_mul_left]
  apply sum_congr'
  intro g _
  rw [exp_neg_phase, map_mul, Complex.conj_conj, Complex.conj_ofReal]
  ring

theorem conj_wave (m : PMesh ℝ) (hm : m.OK) (κ : ℕ → ℤ) (x : List ℝ) :
    (starRingEnd ℂ) (exp (-(2 * Real.pi * I * ((∑ j ∈ Finset.range m.nmesh.length, κ j * x.getD j 0 / m.box.getD j 0 : ℝ) : ℂ)))) = planeWave m.box κ x := by
  unfold planeWave
  rw [← exp_conj, hm.box_len]
  congr 1
  simp only [map_neg, map_mul, conj_I, conj_ofReal, conj_two]
  ring

theorem natRep {nmesh k : List ℕ} (hk : ValidIndex nmesh k) : (k.map Int.ofNat).length = nmesh.length ∧ waveIndex (k.map Int.ofNat) nmesh = k := by
  refine ⟨by simp [hk.len], ?_⟩
  rw [validIndex_iff] at hk
  apply List.ext_getElem
  · simp [waveIndex, hk.1]
  · intro j h1 h2
    have h3 := hk.2 j (by rw [← hk.1]; exact h2)
    rw [List.getD_eq_getElem _ _ h2, List.getD_eq_getElem _ _ (by rw [← hk.1]; exact h2)] at h3
    simp only [waveIndex, List.getElem_zipWith, List.getElem_map]
    change ((((k[j] : ℕ) : ℤ)) % _).toNat = _
    rw [Int.emod_eq_of_lt (by omega) (by omega)]
    simp

include hw hk hsup ht in
/-- **C116** (partial: the restrictions of C23 on the decomposition, in `SolverRun.OK`; the windows cic, tsc and pcs of their native size).  Reading any field at any positions,
on any number of ranks: the value at `x` is the sum of the plane waves `exp(2πi Σ_j q_j x_j / L_j)` over all waves `q`, each with the mode of `r2c` in which the wave is stored
and the Fourier transform of the window as its amplitude.  (Every wave is `aliasOf k b` for exactly one mode `k` and one `b`.) -/
theorem C116_readout_partial (hOK : a.OK w) (field : ℕ → ℤ → ℝ) (rho : List ℕ → ℝ) (hf : a.m.HoldsField field rho) :
    ∃ value : List ℝ → ℝ, AllReturn a.m.nrank (a.readout w field) (fun r => .ok ((a.pos r).map value)) ∧
      ∀ x : List ℝ, x.length = a.m.nmesh.length →
        HasSum (fun b : Fin a.m.nmesh.length → ℤ => ((ndindex a.m.nmesh).map fun k =>
          (∏ j : Fin a.m.nmesh.length, windowFourier w.kern w.support (2 * Real.pi * aliasOf a.m.nmesh (k.map Int.ofNat) b j / (a.m.nmesh.getD j 0 : ℕ))) *
            r2c a.m.nmesh rho k * planeWave a.m.box (aliasOf a.m.nmesh (k.map Int.ofNat) b) x).sum) (value x : ℂ) := by
  refine ⟨_, readout_meshValue hw hOK field rho hf, fun x hx => ?_⟩
  rw [meshValue_modes hw hk hsup hOK.mesh rho hx (fun k => k.map Int.ofNat) (fun k h => (natRep h).1) (fun k h => (natRep h).2)]
  refine hasSum_list _ _ _ fun k _ => ?_
  have h := (particle_hasSum hw hk hsup ht hOK.mesh (k.map Int.ofNat) x).map (starRingEnd ℂ).toAddMonoidHom Complex.continuous_conj
  refine hasSum_of_eq (fun b => ?_) (h.mul_left (r2c a.m.nmesh rho k))
  simp only [Function.comp_apply]
  change _ = _ * (starRingEnd ℂ) (_ * _)
  rw [map_mul, conj_wave a.m hOK.mesh, hsup, hk, map_prod]
  simp only [windowFourier_native, conj_ofReal]
  ring

/-- Product of the window of `get_fwindow` over the axes. -/
theorem compensation_eq (hk : w.kern = Tuned.kern kind) (hsup : w.support = w.kern.native) {nmesh : List ℕ} (hN : ∀ n ∈ nmesh, 0 < n ∧ n ≤ 314159) {κ : List ℤ} (hκl : κ.length = nmesh.length)
    (hκ : ∀ j < nmesh.length, 2 * |κ.getD j 0| ≤ (nmesh.getD j 0 : ℕ)) (v : ℂ) :
    compensation w.kern.native (some kind.fwindow) w.support (circularFreq κ nmesh) v = v / ((∏ j : Fin nmesh.length, sincPow kind (nmesh.getD j 0) (κ.getD j 0) : ℝ) : ℂ) := by
  rw [compensation_prod, hsup, hk, (fwindow_prod kind nmesh κ hκl hN hκ).1]

include hw hk hsup ht in
theorem meshValue_close (hm : a.m.OK) (hN : ∀ n ∈ a.m.nmesh, n ≤ 314159) (rho : List ℕ → ℝ) {x : List ℝ} (hx : x.length = a.m.nmesh.length) {rep : List ℕ → List ℤ}
    (hr : Representatives a.m.nmesh rep) (F : List ℕ → ℂ)
    (hF : ∀ k, ValidIndex a.m.nmesh k → r2c a.m.nmesh rho k = compensation w.kern.native (some kind.fwindow) w.support (circularFreq (rep k) a.m.nmesh) (F k)) :
    ‖(meshValue a.m w rho x : ℂ) - ((ndindex a.m.nmesh).map fun k => F k * planeWave a.m.box (fun j => (rep k).getD j 0) x).sum‖ ≤
      ((ndindex a.m.nmesh).map fun k => ‖F k‖ * aliasError w.kern.native a.m.nmesh (rep k)).sum := by
  rw [meshValue_modes hw hk hsup hm rho hx rep hr.len hr.index, ← sum_sub_list]
  refine norm_sum_list _ _ _ fun k hk' => ?_
  have hkv := mem_ndindex.1 hk'
  have hpos : ∀ n ∈ a.m.nmesh, 0 < n ∧ n ≤ 314159 := fun n hn => ⟨mesh_pos hm n hn, hN n hn⟩
  rw [hF k hkv, compensation_eq hk hsup hpos (hr.len k hkv) (hr.half k hkv)]
  have hW0 := (fwindow_prod kind a.m.nmesh (rep k) (hr.len k hkv) hpos (hr.half k hkv)).2
  have hc := particle_close hw hk hsup ht hm (hr.half k hkv) x
  obtain ⟨W, hW⟩ : ∃ W : ℝ, W = ∏ j : Fin a.m.nmesh.length, sincPow kind (a.m.nmesh.getD j 0) ((rep k).getD j 0) := ⟨_, rfl⟩
  rw [← Complex.ofReal_prod] at hc
  rw [← hW] at hW0 hc ⊢
  have hB' : ∏ j : Fin a.m.nmesh.length, (1 + aliasSize (Tuned.kern kind : Kern ℝ).native (a.m.nmesh.getD j 0) ((rep k).getD j 0)) - 1 = aliasError w.kern.native a.m.nmesh (rep k) := by
    unfold aliasError
    rw [Finset.prod_range, hk]
    rfl
  rw [hB', ← norm_conj, map_sub, map_mul, conj_wave a.m hm, conj_ofReal] at hc
  generalize (starRingEnd ℂ) (particleAmp kind a.m (rep k) x) = A at hc ⊢
  generalize planeWave a.m.box (fun j => (rep k).getD j 0) x = E at hc ⊢
  have hWc : (W : ℂ) ≠ 0 := by exact_mod_cast hW0
  have e : F k / (W : ℂ) * A - F k * E = F k * ((A - W * E) / W) := by field_simp
  rw [e, norm_mul, norm_div, Complex.norm_real, Real.norm_eq_abs]
  refine mul_le_mul_of_nonneg_left ?_ (norm_nonneg _)
  rw [div_le_iff₀ (abs_pos.2 hW0), mul_comm _ |W|]
  exact hc

include hw hk hsup ht in
/-- **C116** (partial as `C116_readout_partial`; at most 314159 cells per side, as in `C55_modes`).  If the modes of the field are amplitudes `F` compensated with `get_fwindow`,
then the value read at `x` is that of the continuous function `Σ_k F_k exp(2πi κ·x/L)`, where `κ` is the wave of the mode `k`, with an error of at most
`Σ_k |F_k| (Π_j (1 + π²/4 (2|κ_j| / N_j)^p) - 1)`. -/
theorem C116_interpolates_partial (hOK : a.OK w) (hN : ∀ n ∈ a.m.nmesh, n ≤ 314159) (field : ℕ → ℤ → ℝ) (rho : List ℕ → ℝ) (hf : a.m.HoldsField field rho)
    {rep : List ℕ → List ℤ} (hr : Representatives a.m.nmesh rep) (F : List ℕ → ℂ)
    (hF : ∀ k, ValidIndex a.m.nmesh k → r2c a.m.nmesh rho k = compensation w.kern.native (some kind.fwindow) w.support (circularFreq (rep k) a.m.nmesh) (F k)) :
    ∃ value : List ℝ → ℝ, AllReturn a.m.nrank (a.readout w field) (fun r => .ok ((a.pos r).map value)) ∧
      ∀ x : List ℝ, x.length = a.m.nmesh.length →
        ‖(value x : ℂ) - ((ndindex a.m.nmesh).map fun k => F k * planeWave a.m.box (fun j => (rep k).getD j 0) x).sum‖ ≤
          ((ndindex a.m.nmesh).map fun k => ‖F k‖ * aliasError w.kern.native a.m.nmesh (rep k)).sum :=
  ⟨_, readout_meshValue hw hOK field rho hf, fun _ hx => meshValue_close hw hk hsup ht hOK.mesh hN rho hx hr F hF⟩

theorem sincPow_even (t : Tuned) (n : ℕ) (κ : ℤ) : sincPow t n (-κ) = sincPow t n κ := by
  unfold sincPow
  rw [← Real.sinc_neg]
  congr 2
  push_cast
  ring

theorem rep_opposite_axis (t : Tuned) {n : ℕ} {κ κ' : ℤ} (h1 : 2 * |κ| ≤ n) (h2 : 2 * |κ'| ≤ n) (h : κ' % n = -κ % n) : sincPow t n κ' = sincPow t n κ := by
  have h3 : (n : ℤ) ∣ κ' + κ := by
    have := Int.emod_emod_of_dvd
    have h4 := Int.ModEq.dvd (show κ' ≡ -κ [ZMOD n] from h)
    have : -κ - κ' = -(κ' + κ) := by ring
    rw [this, dvd_neg] at h4
    exact h4
  obtain ⟨c, hc⟩ := h3
  have h5 := abs_le.1 (show |κ| ≤ |κ| from le_rfl)
  have h6 := abs_le.1 (show |κ'| ≤ |κ'| from le_rfl)
  rcases lt_trichotomy c 0 with h0 | h0 | h0
  · have : (n : ℤ) * c ≤ -n := by nlinarith
    have : κ' = κ := by omega
    rw [this]
  · have : κ' = -κ := by rw [h0] at hc; omega
    rw [this, sincPow_even]
  · have : (n : ℤ) ≤ (n : ℤ) * c := by nlinarith
    have : κ' = κ := by omega
    rw [this]

theorem rep_opposite (t : Tuned) {nmesh : List ℕ} {rep : List ℕ → List ℤ} (hr : Representatives nmesh rep) (hpos : ∀ n ∈ nmesh, 0 < n) {k : List ℕ} (hk : ValidIndex nmesh k) :
    ∏ j : Fin nmesh.length, sincPow t (nmesh.getD j 0) ((rep (opposite nmesh k)).getD j 0) = ∏ j : Fin nmesh.length, sincPow t (nmesh.getD j 0) ((rep k).getD j 0) := by
  have ho := opposite_valid hk
  refine Finset.prod_congr rfl fun j _ => ?_
  refine rep_opposite_axis t (hr.half k hk j j.2) (hr.half _ ho j j.2) ?_
  have h1 := waveIndex_getD (hr.len k hk) j.2
  have h2 := waveIndex_getD (hr.len _ ho) j.2
  rw [hr.index k hk] at h1
  rw [hr.index _ ho] at h2
  have hn : 0 < nmesh.getD j 0 := by
    rw [List.getD_eq_getElem _ _ j.2]
    exact hpos _ (List.getElem_mem _)
  have h3 : (opposite nmesh k).getD j 0 = (nmesh.getD j 0 - k.getD j 0) % nmesh.getD j 0 := by
    unfold opposite
    have hl := hk.len
    rw [List.getD_eq_getElem _ _ (by simp [hl]), List.getD_eq_getElem _ _ j.2, List.getD_eq_getElem _ _ (by rw [hl]; exact j.2)]
    simp
  generalize nmesh.getD j 0 = n at *
  generalize (rep k).getD j 0 = κ at *
  generalize (rep (opposite nmesh k)).getD j 0 = κ' at *
  have hn' : (n : ℤ) ≠ 0 := by omega
  have e1 := Int.emod_nonneg κ hn'
  have e2 := Int.emod_nonneg κ' hn'
  have e3 := Int.emod_lt_of_pos κ (by omega : (0 : ℤ) < n)
  have e4 : κ' % n = ((n - k.getD j 0) % n : ℕ) := by
    rw [← h3, h2]
    omega
  have e5 : ((k.getD j 0 : ℕ) : ℤ) = κ % n := by omega
  rw [e4, Int.natCast_mod, Nat.cast_sub (by omega), e5]
  rw [Int.sub_emod, Int.emod_self, Int.emod_emod_of_dvd _ dvd_rfl, zero_sub]
  exact Int.ModEq.neg (Int.mod_modEq κ n)

include hw hk hsup ht in
/-- **C117** (partial as `C116_interpolates_partial`).  A particle-mesh solver: the particles are painted, the modes of the density are multiplied by a transfer function `G`,
compensated with `get_fwindow` twice (once for painting, once for reading), transformed back, and read at the particles.  The number of cells times the value at `x` is
`Σ_k G_k exp(2πi κ·x/L) P(κ)`, where `P(κ)` is the Fourier amplitude of the point particles, with an error of at most the total mass times
`Σ_k |G_k| (Π_j (1 + π²/4 (2|κ_j| / N_j)^p)² - 1)`: apart from this error the mesh is invisible. -/
theorem C117_solver_partial (hOK : a.OK w) (hN : ∀ n ∈ a.m.nmesh, n ≤ 314159) {rep : List ℕ → List ℤ} (hr : Representatives a.m.nmesh rep)
    {cshape : List ℕ} (hs : StoredShape a.m.nmesh cshape) {G : List ℕ → ℂ} (hG : HermitianTransfer a.m.nmesh G) :
    ∃ dens : ℕ → ℤ → ℝ, AllReturn a.m.nrank (a.paint w) (fun r => .ok (dens r)) ∧
      ∀ rho, a.m.HoldsField dens rho → ∃ value : List ℝ → ℝ,
        (∀ field, a.m.HoldsField field (c2r a.m.nmesh cshape fun k =>
            compensation w.kern.native (some kind.fwindow) w.support (circularFreq (rep k) a.m.nmesh)
              (compensation w.kern.native (some kind.fwindow) w.support (circularFreq (rep k) a.m.nmesh) (G k * r2c a.m.nmesh rho k))) →
          AllReturn a.m.nrank (a.readout w field) (fun r => .ok ((a.pos r).map value))) ∧
        ∀ x : List ℝ, x.length = a.m.nmesh.length →
          ‖(a.m.nmesh.prod : ℂ) * value x - ((ndindex a.m.nmesh).map fun k => G k * planeWave a.m.box (fun j => (rep k).getD j 0) x * a.pointWave fun j => (rep k).getD j 0).sum‖ ≤
            a.totalMass * ((ndindex a.m.nmesh).map fun k => ‖G k‖ * ((1 + aliasError w.kern.native a.m.nmesh (rep k)) ^ 2 - 1)).sum := by
  obtain ⟨dens, h1, h2⟩ := C115_compensated_partial hw hk hsup ht hOK hN
  refine ⟨dens, h1, fun rho hrho => ?_⟩
  have hm := hOK.mesh
  have hpos := mesh_pos hm
  have hpos' : ∀ n ∈ a.m.nmesh, 0 < n ∧ n ≤ 314159 := fun n hn => ⟨hpos n hn, hN n hn⟩
  have hne := hm.dim
  obtain ⟨R, hR⟩ : ∃ R : List ℕ → ℝ, R = c2r a.m.nmesh cshape fun k =>
            compensation w.kern.native (some kind.fwindow) w.support (circularFreq (rep k) a.m.nmesh)
              (compensation w.kern.native (some kind.fwindow) w.support (circularFreq (rep k) a.m.nmesh) (G k * r2c a.m.nmesh rho k)) := ⟨_, rfl⟩
  refine ⟨meshValue a.m w R, fun field hf => readout_meshValue hw hOK field R (hR ▸ hf), fun x hx => ?_⟩
  obtain ⟨F, hF⟩ : ∃ F : List ℕ → ℂ, F = fun k => compensation w.kern.native (some kind.fwindow) w.support (circularFreq (rep k) a.m.nmesh) (G k * r2c a.m.nmesh rho k) := ⟨_, rfl⟩
  have hH : ∀ k, ValidIndex a.m.nmesh k → compensation w.kern.native (some kind.fwindow) w.support (circularFreq (rep (opposite a.m.nmesh k)) a.m.nmesh)
        (compensation w.kern.native (some kind.fwindow) w.support (circularFreq (rep (opposite a.m.nmesh k)) a.m.nmesh) (G (opposite a.m.nmesh k) * r2c a.m.nmesh rho (opposite a.m.nmesh k))) =
      (starRingEnd ℂ) (compensation w.kern.native (some kind.fwindow) w.support (circularFreq (rep k) a.m.nmesh)
        (compensation w.kern.native (some kind.fwindow) w.support (circularFreq (rep k) a.m.nmesh) (G k * r2c a.m.nmesh rho k))) := by
    intro k hkv
    have ho := opposite_valid hkv
    rw [compensation_eq hk hsup hpos' (hr.len _ ho) (hr.half _ ho), compensation_eq hk hsup hpos' (hr.len _ ho) (hr.half _ ho),
      compensation_eq hk hsup hpos' (hr.len _ hkv) (hr.half _ hkv), compensation_eq hk hsup hpos' (hr.len _ hkv) (hr.half _ hkv),
      rep_opposite kind hr hpos hkv, hG k hkv, r2c_opposite _ _ hkv]
    simp only [map_div₀, map_mul, conj_ofReal]
  have hRF : ∀ k, ValidIndex a.m.nmesh k → r2c a.m.nmesh R k = compensation w.kern.native (some kind.fwindow) w.support (circularFreq (rep k) a.m.nmesh) (F k) := by
    have hst : ∀ k, ValidIndex cshape k → r2c a.m.nmesh R k = compensation w.kern.native (some kind.fwindow) w.support (circularFreq (rep k) a.m.nmesh) (F k) := by
      intro k hkc
      rw [hR, C29_r2c_c2r a.m.nmesh cshape hne hpos hs _ (fun k h _ => hH k (stored_valid hs hne hpos h)) k hkc, hF]
    intro k hkv
    by_cases hkc : ValidIndex cshape k
    · exact hst k hkc
    · have ho := opposite_valid hkv
      have h := hst _ (opposite_stored hs hne hkv hkc)
      have e := r2c_opposite a.m.nmesh R ho
      rw [opposite_opposite hkv] at e
      rw [e, h, hF]
      have h' := hH _ ho
      rw [opposite_opposite hkv] at h'
      rw [h']
  have hclose := meshValue_close hw hk hsup ht hm hN R hx hr F hRF
  obtain ⟨N, hNe⟩ : ∃ N : ℕ, N = a.m.nmesh.prod := ⟨_, rfl⟩
  rw [← hNe]
  have hFk : ∀ k, ValidIndex a.m.nmesh k → ‖(N : ℂ) * F k - G k * a.pointWave fun j => (rep k).getD j 0‖ ≤ ‖G k‖ * (a.totalMass * aliasError w.kern.native a.m.nmesh (rep k)) := by
    intro k hkv
    have h := h2 rho hrho (rep k) (hr.len k hkv) (hr.half k hkv)
    rw [hr.index k hkv, ← hNe] at h
    have e : (N : ℂ) * F k - (G k * a.pointWave fun j => (rep k).getD j 0) = G k * ((N : ℂ) * compensation w.kern.native (some kind.fwindow) w.support (circularFreq (rep k) a.m.nmesh) (r2c a.m.nmesh rho k) -
        a.pointWave fun j => (rep k).getD j 0) := by
      rw [hF]
      dsimp only
      rw [compensation_prod, compensation_prod]
      ring
    rw [e, norm_mul]
    exact mul_le_mul_of_nonneg_left h (norm_nonneg _)
  have hE0 : ∀ k, 0 ≤ aliasError w.kern.native a.m.nmesh (rep k) := by
    intro k
    unfold aliasError
    rw [sub_nonneg]
    refine Finset.prod_induction _ (fun y => 1 ≤ y) (fun _ _ => one_le_mul_of_one_le_of_one_le) le_rfl fun j _ => ?_
    have : 0 ≤ Real.pi ^ 2 / 4 * (2 * |(((rep k).getD j 0 : ℤ) : ℝ)| / (a.m.nmesh.getD j 0 : ℕ)) ^ w.kern.native := by positivity
    linarith
  have hwave : ∀ κ x, ‖planeWave a.m.box κ x‖ = 1 := by
    intro κ x
    unfold planeWave
    generalize (∑ j ∈ Finset.range a.m.box.length, κ j * x.getD j 0 / a.m.box.getD j 0 : ℝ) = y
    rw [show 2 * Real.pi * I * (y : ℂ) = ((2 * Real.pi * y : ℝ) : ℂ) * I by push_cast; ring, Complex.norm_exp_ofReal_mul_I]
  have hP : ∀ κ, ‖a.pointWave κ‖ ≤ a.totalMass := by
    intro κ
    unfold SolverRun.pointWave SolverRun.totalMass
    refine (norm_sum_le _ _).trans (Finset.sum_le_sum fun r _ => (norm_sum_le _ _).trans (Finset.sum_le_sum fun i _ => ?_))
    generalize (∑ j ∈ Finset.range a.m.nmesh.length, κ j * ((a.pos r).getD i []).getD j 0 / a.m.box.getD j 0 : ℝ) = y
    rw [norm_mul, show -(2 * Real.pi * I * (y : ℂ)) = ((-(2 * Real.pi * y) : ℝ) : ℂ) * I by push_cast; ring, Complex.norm_exp_ofReal_mul_I, Complex.norm_real, mul_one, Real.norm_eq_abs]
  have hNF : ∀ k, ValidIndex a.m.nmesh k → N * ‖F k‖ ≤ ‖G k‖ * (a.totalMass * (1 + aliasError w.kern.native a.m.nmesh (rep k))) := by
    intro k hkv
    have h := hFk k hkv
    have h3 := norm_sub_norm_le ((N : ℂ) * F k) (G k * a.pointWave fun j => (rep k).getD j 0)
    rw [norm_mul, norm_mul, Complex.norm_natCast] at h3
    have h4 := mul_le_mul_of_nonneg_left (hP fun j => (rep k).getD j 0) (norm_nonneg (G k))
    nlinarith
  have hstep : (N : ℂ) * meshValue a.m w R x - ((ndindex a.m.nmesh).map fun k => G k * planeWave a.m.box (fun j => (rep k).getD j 0) x * a.pointWave fun j => (rep k).getD j 0).sum =
      (N : ℂ) * (meshValue a.m w R x - ((ndindex a.m.nmesh).map fun k => F k * planeWave a.m.box (fun j => (rep k).getD j 0) x).sum) +
        ((ndindex a.m.nmesh).map fun k => ((N : ℂ) * F k - G k * a.pointWave fun j => (rep k).getD j 0) * planeWave a.m.box (fun j => (rep k).getD j 0) x).sum := by
    rw [mul_sub, ← List.sum_map_mul_left]
    have e : ((ndindex a.m.nmesh).map fun k => ((N : ℂ) * F k - G k * a.pointWave fun j => (rep k).getD j 0) * planeWave a.m.box (fun j => (rep k).getD j 0) x) =
        (ndindex a.m.nmesh).map fun k => (N : ℂ) * (F k * planeWave a.m.box (fun j => (rep k).getD j 0) x) - G k * planeWave a.m.box (fun j => (rep k).getD j 0) x * a.pointWave fun j => (rep k).getD j 0 :=
      List.map_congr_left fun k _ => by ring
    rw [e, sum_sub_list]
    ring
  rw [hstep, ← List.sum_map_mul_left]
  refine (norm_add_le _ _).trans ?_
  rw [norm_mul, Complex.norm_natCast]
  have hfirst := mul_le_mul_of_nonneg_left hclose (Nat.cast_nonneg N : (0 : ℝ) ≤ N)
  have hsecond := norm_sum_list (ndindex a.m.nmesh) (fun k => ((N : ℂ) * F k - G k * a.pointWave fun j => (rep k).getD j 0) * planeWave a.m.box (fun j => (rep k).getD j 0) x)
    (fun k => ‖G k‖ * (a.totalMass * aliasError w.kern.native a.m.nmesh (rep k))) (fun k hk' => by
      rw [norm_mul, hwave, mul_one]
      exact hFk k (mem_ndindex.1 hk'))
  refine (add_le_add hfirst hsecond).trans ?_
  rw [← List.sum_map_mul_left, ← List.sum_map_add]
  refine List.sum_le_sum fun k hk' => ?_
  have h5 := mul_le_mul_of_nonneg_right (hNF k (mem_ndindex.1 hk')) (hE0 k)
  nlinarith

/-- The sum over modes as a sum over particles. -/
theorem pair_sum (hOK : a.OK w) (G : List ℕ → ℂ) (rep : List ℕ → List ℤ) {x : List ℝ} (hx : x.length = a.m.nmesh.length) :
    ((ndindex a.m.nmesh).map fun k => G k * planeWave a.m.box (fun j => (rep k).getD j 0) x * a.pointWave fun j => (rep k).getD j 0).sum =
      ∑ r ∈ Finset.range a.m.nrank, ∑ i ∈ Finset.range (a.pos r).length, (((a.mass r).at i : ℝ) : ℂ) *
        ((ndindex a.m.nmesh).map fun k => G k * planeWave a.m.box (fun j => (rep k).getD j 0) (List.zipWith (fun s t => s - t) x ((a.pos r).getD i []))).sum := by
  have swap : ∀ (ls : List (List ℕ)) (s : Finset ℕ) (F : ℕ → List ℕ → ℂ), (ls.map fun g => ∑ p ∈ s, F p g).sum = ∑ p ∈ s, (ls.map (F p)).sum := by
    intro ls s F
    induction ls with
    | nil => simp
    | cons a l ih => simp only [List.map_cons, List.sum_cons, ih, Finset.sum_add_distrib]
  unfold SolverRun.pointWave
  simp only [Finset.mul_sum]
  rw [swap]
  refine Finset.sum_congr rfl fun r hr => ?_
  rw [swap]
  refine Finset.sum_congr rfl fun i hi => ?_
  rw [← List.sum_map_mul_left]
  apply sum_congr'
  intro k _
  have hl : ((a.pos r).getD i []).length = a.m.nmesh.length := by
    rw [List.getD_eq_getElem _ _ (Finset.mem_range.1 hi)]
    exact hOK.pos r (Finset.mem_range.1 hr) _ (List.getElem_mem _)
  generalize (a.pos r).getD i [] = z at hl
  have e : planeWave a.m.box (fun j => (rep k).getD j 0) (List.zipWith (fun s t => s - t) x z) = planeWave a.m.box (fun j => (rep k).getD j 0) x *
      exp (-(2 * Real.pi * I * ((∑ j ∈ Finset.range a.m.nmesh.length, (rep k).getD j 0 * z.getD j 0 / a.m.box.getD j 0 : ℝ) : ℂ))) := by
    unfold planeWave
    rw [← exp_add, hOK.mesh.box_len, ← sub_eq_add_neg, ← mul_sub, ← Complex.ofReal_sub, ← Finset.sum_sub_distrib]
    congr 3
    refine Finset.sum_congr rfl fun j hj => ?_
    have hj := Finset.mem_range.1 hj
    rw [List.getD_eq_getElem (List.zipWith _ _ _) _ (by simp [hx, hl, hj]), List.getD_eq_getElem x _ (by omega), List.getD_eq_getElem z _ (by omega), List.getElem_zipWith]
    ring
  rw [e]
  ring

include hw hk hsup ht in
/-- **C117** (partial as `C117_solver_partial`).  The same as a sum over the particles: the number of cells times the value at `x` is `Σ_p m_p g(x - x_p)`, where
`g(y) = Σ_k G_k exp(2πi κ·y/L)` depends on the separation only, up to the same error. -/
theorem C117_pairs_partial (hOK : a.OK w) (hN : ∀ n ∈ a.m.nmesh, n ≤ 314159) {rep : List ℕ → List ℤ} (hr : Representatives a.m.nmesh rep)
    {cshape : List ℕ} (hs : StoredShape a.m.nmesh cshape) {G : List ℕ → ℂ} (hG : HermitianTransfer a.m.nmesh G) :
    ∃ dens : ℕ → ℤ → ℝ, AllReturn a.m.nrank (a.paint w) (fun r => .ok (dens r)) ∧
      ∀ rho, a.m.HoldsField dens rho → ∃ value : List ℝ → ℝ,
        (∀ field, a.m.HoldsField field (c2r a.m.nmesh cshape fun k =>
            compensation w.kern.native (some kind.fwindow) w.support (circularFreq (rep k) a.m.nmesh)
              (compensation w.kern.native (some kind.fwindow) w.support (circularFreq (rep k) a.m.nmesh) (G k * r2c a.m.nmesh rho k))) →
          AllReturn a.m.nrank (a.readout w field) (fun r => .ok ((a.pos r).map value))) ∧
        ∀ x : List ℝ, x.length = a.m.nmesh.length →
          ‖(a.m.nmesh.prod : ℂ) * value x - ∑ r ∈ Finset.range a.m.nrank, ∑ i ∈ Finset.range (a.pos r).length, (((a.mass r).at i : ℝ) : ℂ) *
              ((ndindex a.m.nmesh).map fun k => G k * planeWave a.m.box (fun j => (rep k).getD j 0) (List.zipWith (fun s t => s - t) x ((a.pos r).getD i []))).sum‖ ≤
            a.totalMass * ((ndindex a.m.nmesh).map fun k => ‖G k‖ * ((1 + aliasError w.kern.native a.m.nmesh (rep k)) ^ 2 - 1)).sum := by
  obtain ⟨dens, h1, h2⟩ := C117_solver_partial hw hk hsup ht hOK hN hr hs hG
  refine ⟨dens, h1, fun rho hrho => ?_⟩
  obtain ⟨value, h3, h4⟩ := h2 rho hrho
  refine ⟨value, h3, fun x hx => ?_⟩
  rw [← pair_sum hOK G rep hx]
  exact h4 x hx

end

/-! ## Examples -/

/-- The waves of `fftfreq` represent the modes. -/
theorem fftfreq_represents (nmesh : List ℕ) : Representatives nmesh fun k => List.zipWith (fun (n i : ℕ) => if 2 * i < n then (i : ℤ) else i - n) nmesh k := by
  refine ⟨fun k hk => by simp [hk.len], fun k hk => ?_, fun k hk j hj => ?_⟩
  all_goals
    have hl := hk.len
    rw [validIndex_iff] at hk
  · apply List.ext_getElem
    · simp [waveIndex, hl]
    · intro j h1 h2
      have h3 := hk.2 j (by rw [← hl]; exact h2)
      rw [List.getD_eq_getElem _ _ h2, List.getD_eq_getElem _ _ (by rw [← hl]; exact h2)] at h3
      simp only [waveIndex, List.getElem_zipWith]
      split_ifs
      · rw [Int.emod_eq_of_lt (by omega) (by omega)]
        simp
      · rw [Int.sub_emod_right, Int.emod_eq_of_lt (by omega) (by omega)]
        simp
  · have h3 := hk.2 j hj
    rw [List.getD_eq_getElem _ _ (by omega), List.getD_eq_getElem _ _ hj] at h3
    rw [List.getD_eq_getElem _ _ (by simp [hl, hj]), List.getD_eq_getElem _ _ hj, List.getElem_zipWith]
    split_ifs
    · rw [abs_of_nonneg (by omega)]
      omega
    · rw [abs_of_nonpos (by omega)]
      omega

example (field : ℕ → ℤ → ℝ) := C116_readout_partial exWinR_valid (kind := .cic) rfl (by simp [exWinR, linearK]) (by decide) exTwo_ok field

/-- Any field has such amplitudes. -/
example (rho : List ℕ → ℝ) : ∃ F : List ℕ → ℂ, ∀ k, ValidIndex exTwo.m.nmesh k → r2c exTwo.m.nmesh rho k =
    compensation exWinR.kern.native (some Tuned.cic.fwindow) exWinR.support (circularFreq (List.zipWith (fun (n i : ℕ) => if 2 * i < n then (i : ℤ) else i - n) exTwo.m.nmesh k) exTwo.m.nmesh) (F k) := by
  have hr := fftfreq_represents exTwo.m.nmesh
  have hN : ∀ n ∈ exTwo.m.nmesh, 0 < n ∧ n ≤ 314159 := by simp [exTwo, exMeshR]
  refine ⟨fun k => r2c exTwo.m.nmesh rho k * ((∏ j : Fin exTwo.m.nmesh.length, sincPow .cic (exTwo.m.nmesh.getD j 0)
    ((List.zipWith (fun (n i : ℕ) => if 2 * i < n then (i : ℤ) else i - n) exTwo.m.nmesh k).getD j 0) : ℝ) : ℂ), fun k hk => ?_⟩
  rw [compensation_eq (kind := .cic) rfl (by simp [exWinR, linearK]) hN (hr.len k hk) (hr.half k hk), mul_div_cancel_right₀]
  exact_mod_cast (fwindow_prod .cic exTwo.m.nmesh _ (hr.len k hk) hN (hr.half k hk)).2

example := C117_pairs_partial exWinR_valid (kind := .cic) rfl (by simp [exWinR, linearK]) (by decide) exTwo_ok (by simp [exTwo, exMeshR]) (fftfreq_represents exTwo.m.nmesh)
  (Or.inr rfl) (G := fun _ => 1) (fun k _ => by simp)

end Pmesh
