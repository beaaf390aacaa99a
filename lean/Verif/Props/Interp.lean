import Verif.Lemmas.Interp
import Verif.Lemmas.Force
import Verif.Props.RankFree
import Mathlib.Analysis.SpecialFunctions.Trigonometric.Bounds
import Mathlib.Analysis.Calculus.Deriv.MeanValue

/-!
# C104: interpolation between mesh and particles is second-order accurate

`decompose` and `readout` on any number of ranks return the smooth function that the field samples, up to the square of the cell
size; painting reproduces the integrals of smooth functions to the same order.
-/

namespace Pmesh

section
variable {K : Type} [Field K] [LinearOrder K] [IsStrictOrderedRing K] [FloorRing K]

variable (m : PMesh K) (hm : m.OK) (hp : m.PlainRanks) (w : Resampler K) (hw : w.Valid) (kind : Tuned) (hk : w.kern = Tuned.kern kind)
  (hsup : w.support = w.kern.native) (sm : List K) (hsm : m.SmoothingOK sm) (hh : m.HaloFits sm) (hcov : ∀ s ∈ sm, w.Covers s 1)
  (pos : ℕ → List (List K)) (hpos : ∀ r < m.nrank, ∀ x ∈ pos r, x.length = m.nmesh.length) (φ : List K → K)
  (hper : BoxPeriodic m.box φ)

include hm hw hk hsup hper in
theorem weights_mean (st : List ℤ) {x : List K} (hx : x.length = m.nmesh.length) :
    ((ndindex m.nmesh).map fun g =>
        cwProd (List.zipWith (axisStencil ((m.serial st).painter w none 0) 1) ((m.serial st).painter w none 0).axes x) g *
          φ (cellPosition m g)).sum = expect (rawStencils m st kind x) (fun c => φ (posZ m c)) := by
  rw [← mean_eq hm st hw hk hsup hx (fun c => φ (posZ m c)) (fun c hc => posZ_periodic hm hper c hc)]
  simp only [cellPosition_posZ]

include hm hp hw hk hsup hsm hh hcov hpos hper

/-- **C104** (readout).  If the field samples the periodic function `φ` then every particle reads, with the cic, tsc or pcs window
and on any number of ranks, the value of `φ` at its position, up to `1/2 v Σ_j M_j h_j^2`, where `h_j` is the size of the cells, `M_j`
bounds the curvature of `φ` and `v` is 1/4 for cic and tsc and 1/3 for pcs.
Partial: the restrictions of `C24_readout_partial` on the decomposition. -/
theorem C104_readout_partial (hkind : kind ≠ .nnb) (field : ℕ → ℤ → K) (hf : m.Samples field φ) :
    ∃ res : ℕ → List K,
      AllReturn m.nrank (fun r => (pmDecompose m sm r (pos r)).andThen fun lay =>
        pmReadout m w none r (some lay) (pos r) .none (field r)) (fun r => .ok (res r)) ∧
      ∀ r < m.nrank, (res r).length = (pos r).length ∧ ∀ i < (pos r).length, ∀ M : List K, (∀ b ∈ M, 0 ≤ b) →
        BoundedCurvature φ M ((pos r).getD i []) →
        |(res r).getD i 0 - φ ((pos r).getD i [])| ≤
          1 / 2 * windowVariance kind * ∑ j ∈ Finset.range m.nmesh.length, M.getD j 0 * m.cell j ^ 2 := by
  have h := readout_all hm hp hw hsm hh hpos hcov field (fun g => φ (cellPosition m g)) hf (cStrides m.nmesh)
  refine ⟨_, h, fun r hr => ⟨by simp, fun i hi M hM hc => ?_⟩⟩
  rw [List.getD_eq_getElem _ _ (by simpa using hi), List.getElem_map]
  rw [List.getD_eq_getElem _ _ hi] at hc ⊢
  have hx := hpos r hr _ (List.getElem_mem hi)
  rw [weights_mean m hm w hw kind hk hsup φ hper (cStrides m.nmesh) hx]
  exact mean_second_order hm (cStrides m.nmesh) hkind hx hM hc

/-- **C104** (readout, nnb included).  With the nnb, cic, tsc or pcs window of `s` cells every particle reads the value of `φ` at its
position up to `s/2 Σ_j M_j h_j`, if `M_j` bounds the slope of `φ`: for nnb half a cell.
Partial: as above. -/
theorem C104_nearest_partial (field : ℕ → ℤ → K) (hf : m.Samples field φ) :
    ∃ res : ℕ → List K,
      AllReturn m.nrank (fun r => (pmDecompose m sm r (pos r)).andThen fun lay =>
        pmReadout m w none r (some lay) (pos r) .none (field r)) (fun r => .ok (res r)) ∧
      ∀ r < m.nrank, (res r).length = (pos r).length ∧ ∀ i < (pos r).length, ∀ M : List K, (∀ b ∈ M, 0 ≤ b) →
        BoundedSlope φ M ((pos r).getD i []) →
        |(res r).getD i 0 - φ ((pos r).getD i [])| ≤
          (w.kern.native : K) / 2 * ∑ j ∈ Finset.range m.nmesh.length, M.getD j 0 * m.cell j := by
  have h := readout_all hm hp hw hsm hh hpos hcov field (fun g => φ (cellPosition m g)) hf (cStrides m.nmesh)
  refine ⟨_, h, fun r hr => ⟨by simp, fun i hi M hM hc => ?_⟩⟩
  rw [List.getD_eq_getElem _ _ (by simpa using hi), List.getElem_map]
  rw [List.getD_eq_getElem _ _ hi] at hc ⊢
  have hx := hpos r hr _ (List.getElem_mem hi)
  rw [weights_mean m hm w hw kind hk hsup φ hper (cStrides m.nmesh) hx, hk]
  exact mean_first_order hm (cStrides m.nmesh) kind hx hM hc

/-- **C104** (paint).  The sum over the cells of the painted field times a smooth periodic function is the sum over the particles of
mass times the function, up to `1/2 v Σ_j M_j h_j^2` times the sum of the absolute masses.
Partial: as above. -/
theorem C104_paint_partial (hkind : kind ≠ .nnb) (mass : ℕ → Quant K) (hmass : QuantOK m.nrank (fun r => (pos r).length) mass)
    (M : List K) (hM : ∀ b ∈ M, 0 ≤ b) (hc : ∀ r < m.nrank, ∀ x ∈ pos r, BoundedCurvature φ M x) :
    ∃ dens : ℕ → ℤ → K,
      AllReturn m.nrank (fun r => (pmDecompose m sm r (pos r)).andThen fun lay =>
        pmPaint m w none false r (some lay) (pos r) (mass r) .none fun _ => 0) (fun r => .ok (dens r)) ∧
      ∀ field, m.Samples field φ →
        |m.fieldDot dens field - ((allParticles m.nrank pos mass fun _ => .none).map fun p => p.mass * φ p.pos).sum| ≤
          1 / 2 * windowVariance kind * (∑ j ∈ Finset.range m.nmesh.length, M.getD j 0 * m.cell j ^ 2) *
            ((allParticles m.nrank pos mass fun _ => .none).map fun p => |p.mass|).sum := by
  obtain ⟨dens, h1, h2⟩ := paint_all hm hp hw hsm hh hpos hmass (hsml := fun _ => .none) (Or.inl fun _ _ => rfl)
    (fun p hp e he => by rw [(mem_allParticles_hsml hp).1]; exact hcov e he) (fun _ _ => 0) (cStrides m.nmesh)
  refine ⟨dens, h1, fun field hf => ?_⟩
  have e := fieldDot_global hm (u := dens) (v := field) (A := fun g => ((allParticles m.nrank pos mass fun _ => .none).map fun (p : Particle K) => p.mass *
    cwProd (List.zipWith (axisStencil ((m.serial (cStrides m.nmesh)).painter w none 0) p.hsml)
      ((m.serial (cStrides m.nmesh)).painter w none 0).axes p.pos) g).sum) (B := fun g => φ (cellPosition m g)) h2 hf
  rw [e]
  obtain ⟨ps, hps⟩ : ∃ ps, ps = allParticles m.nrank pos mass fun _ => .none := ⟨_, rfl⟩
  have hin : ∀ p ∈ ps, p.hsml = 1 ∧ ∃ r < m.nrank, p.pos ∈ pos r := by
    intro p hp
    rw [hps] at hp
    refine ⟨(mem_allParticles_hsml hp).1, ?_⟩
    obtain ⟨r, hr, hp⟩ := List.mem_flatMap.1 hp
    obtain ⟨i, hi, rfl⟩ := List.mem_map.1 hp
    rw [List.mem_range] at hi
    refine ⟨r, List.mem_range.1 hr, ?_⟩
    simp only
    rw [List.getD_eq_getElem _ _ hi]
    exact List.getElem_mem _
  rw [← hps]
  have e2 : ((ndindex m.nmesh).map fun g => (ps.map fun p => p.mass *
        cwProd (List.zipWith (axisStencil ((m.serial (cStrides m.nmesh)).painter w none 0) p.hsml)
          ((m.serial (cStrides m.nmesh)).painter w none 0).axes p.pos) g).sum * φ (cellPosition m g)).sum =
      (ps.map fun p => p.mass * expect (rawStencils m (cStrides m.nmesh) kind p.pos) (fun c => φ (posZ m c))).sum := by
    have : ∀ g, (ps.map fun p => p.mass *
        cwProd (List.zipWith (axisStencil ((m.serial (cStrides m.nmesh)).painter w none 0) p.hsml)
          ((m.serial (cStrides m.nmesh)).painter w none 0).axes p.pos) g).sum * φ (cellPosition m g) =
        (ps.map fun p => p.mass * (cwProd (List.zipWith (axisStencil ((m.serial (cStrides m.nmesh)).painter w none 0) p.hsml)
          ((m.serial (cStrides m.nmesh)).painter w none 0).axes p.pos) g * φ (cellPosition m g))).sum := by
      intro g
      rw [mul_comm, ← sum_mul_left']
      congr 1
      apply List.map_congr_left
      intro p _
      ring
    simp only [this]
    rw [sum_comm']
    congr 1
    apply List.map_congr_left
    intro p hp
    obtain ⟨h1, r, hr, hx⟩ := hin p hp
    rw [sum_mul_left', h1, weights_mean m hm w hw kind hk hsup φ hper (cStrides m.nmesh) (hpos r hr _ hx)]
  rw [e2]
  clear e2 hps e
  induction ps with
  | nil => simp
  | cons p ps ih =>
    have ih := ih fun q hq => hin q (by simp [hq])
    obtain ⟨_, r, hr, hx⟩ := hin p (by simp)
    have hb := mean_second_order hm (cStrides m.nmesh) hkind (hpos r hr _ hx) hM (hc r hr _ hx)
    simp only [List.map_cons, List.sum_cons]
    have hb2 := mul_le_mul_of_nonneg_left hb (abs_nonneg p.mass)
    rw [← abs_mul] at hb2
    calc _ = |p.mass * (expect (rawStencils m (cStrides m.nmesh) kind p.pos) (fun c => φ (posZ m c)) - φ p.pos) +
          ((ps.map fun p => p.mass * expect (rawStencils m (cStrides m.nmesh) kind p.pos) (fun c => φ (posZ m c))).sum -
            (ps.map fun p => p.mass * φ p.pos).sum)| := by congr 1; ring
      _ ≤ _ := abs_add_le _ _
      _ ≤ _ := add_le_add hb2 ih
      _ = _ := by ring

end

/-! ### waves -/

/-- The wave `cos(θ + Σ_j k_j x_j)`. -/
noncomputable def cosWave (k : List ℝ) (θ : ℝ) (x : List ℝ) : ℝ :=
  Real.cos (θ + ∑ j ∈ Finset.range k.length, k.getD j 0 * x.getD j 0)

theorem cos_taylor_nonneg (a t : ℝ) (ht : 0 ≤ t) : |Real.cos (a + t) - Real.cos a + t * Real.sin a| ≤ t ^ 2 / 2 := by
  have key : ∀ s : ℝ, |s| = 1 → 0 ≤ t ^ 2 / 2 - s * (Real.cos (a + t) - Real.cos a + t * Real.sin a) := by
    intro s hs
    have hd : ∀ u : ℝ, HasDerivAt (fun u : ℝ => u ^ 2 / 2 - s * (Real.cos (a + u) - Real.cos a + u * Real.sin a))
        (u - s * (-Real.sin (a + u) + Real.sin a)) u := by
      intro u
      have h1 : HasDerivAt (fun u : ℝ => Real.cos (a + u)) (-Real.sin (a + u)) u := by
        simpa using ((hasDerivAt_id u).const_add a).cos
      have h2 : HasDerivAt (fun u : ℝ => u ^ 2 / 2) u u := by
        have := (hasDerivAt_pow 2 u).div_const 2
        simpa using this
      have h3 : HasDerivAt (fun u : ℝ => u * Real.sin a) (Real.sin a) u := by
        simpa using (hasDerivAt_id u).mul_const (Real.sin a)
      exact h2.sub ((((h1.sub_const (Real.cos a)).add h3)).const_mul s)
    have hm : MonotoneOn (fun u : ℝ => u ^ 2 / 2 - s * (Real.cos (a + u) - Real.cos a + u * Real.sin a)) (Set.Ici 0) := by
      apply monotoneOn_of_deriv_nonneg (convex_Ici 0)
      · exact fun u _ => (hd u).continuousAt.continuousWithinAt
      · exact fun u _ => (hd u).differentiableAt.differentiableWithinAt
      · intro u hu
        rw [interior_Ici] at hu
        rw [(hd u).deriv]
        have h := Real.abs_sin_sub_sin_le (a + u) a
        have h2 : |s * (-Real.sin (a + u) + Real.sin a)| ≤ u := by
          rw [abs_mul, hs, one_mul, neg_add_eq_sub, abs_sub_comm]
          simpa [abs_of_pos (show (0 : ℝ) < u from hu)] using h
        linarith [(abs_le.1 h2).2]
    have := hm (Set.mem_Ici.2 le_rfl) (Set.mem_Ici.2 ht) ht
    simpa using this
  have h1 := key 1 (by norm_num)
  have h2 := key (-1) (by norm_num)
  rw [abs_le]
  constructor <;> linarith

theorem cos_taylor (a t : ℝ) : |Real.cos (a + t) - Real.cos a + t * Real.sin a| ≤ t ^ 2 / 2 := by
  rcases le_total 0 t with ht | ht
  · exact cos_taylor_nonneg a t ht
  · have h := cos_taylor_nonneg (-a) (-t) (by linarith)
    rw [← neg_add, Real.cos_neg, Real.cos_neg, Real.sin_neg] at h
    simpa using h

/-- Bounds for the curvature of a wave: `|k_j| Σ_i |k_i|` along axis `j`. -/
noncomputable def waveCurvature (k : List ℝ) : List ℝ :=
  (List.range k.length).map fun j => |k.getD j 0| * ∑ i ∈ Finset.range k.length, |k.getD i 0|

theorem cosWave_curvature (k : List ℝ) (θ : ℝ) (x : List ℝ) (hx : x.length = k.length) :
    BoundedCurvature (cosWave k θ) (waveCurvature k) x := by
  obtain ⟨a, ha⟩ : ∃ a, a = θ + ∑ j ∈ Finset.range k.length, k.getD j 0 * x.getD j 0 := ⟨_, rfl⟩
  refine ⟨(List.range k.length).map fun j => -Real.sin a * k.getD j 0, fun y hy => ?_⟩
  obtain ⟨t, ht⟩ : ∃ t, t = ∑ j ∈ Finset.range k.length, k.getD j 0 * (y.getD j 0 - x.getD j 0) := ⟨_, rfl⟩
  rw [hx]
  have e1 : ∑ j ∈ Finset.range k.length, ((List.range k.length).map fun j => -Real.sin a * k.getD j 0).getD j 0 * (y.getD j 0 - x.getD j 0) =
      -(t * Real.sin a) := by
    rw [ht, Finset.sum_mul, ← Finset.sum_neg_distrib]
    apply Finset.sum_congr rfl
    intro j hj
    rw [Finset.mem_range] at hj
    rw [List.getD_eq_getElem _ _ (by simpa using hj), List.getElem_map, List.getElem_range]
    ring
  have e2 : ∑ j ∈ Finset.range k.length, (waveCurvature k).getD j 0 * (y.getD j 0 - x.getD j 0) ^ 2 =
      (∑ i ∈ Finset.range k.length, |k.getD i 0|) * ∑ j ∈ Finset.range k.length, |k.getD j 0| * (y.getD j 0 - x.getD j 0) ^ 2 := by
    rw [Finset.mul_sum]
    apply Finset.sum_congr rfl
    intro j hj
    rw [Finset.mem_range] at hj
    unfold waveCurvature
    rw [List.getD_eq_getElem _ _ (by simpa using hj), List.getElem_map, List.getElem_range]
    ring
  have e3 : t ^ 2 ≤ (∑ i ∈ Finset.range k.length, |k.getD i 0|) *
      ∑ j ∈ Finset.range k.length, |k.getD j 0| * (y.getD j 0 - x.getD j 0) ^ 2 := by
    rw [ht]
    apply Finset.sum_sq_le_sum_mul_sum_of_sq_eq_mul
    · intro i _; positivity
    · intro i _; positivity
    · intro i _
      rw [mul_pow, ← sq_abs (k.getD i 0)]
      ring
  have e4 : cosWave k θ y = Real.cos (a + t) := by
    unfold cosWave
    congr 1
    rw [ha, ht, add_assoc, ← Finset.sum_add_distrib]
    congr 1
    apply Finset.sum_congr rfl
    intro j _
    ring
  have e5 : cosWave k θ x = Real.cos a := by rw [ha]; rfl
  rw [e1, e2, e4, e5, sub_neg_eq_add]
  refine (cos_taylor a t).trans ?_
  linarith

/-- A wave with a whole number of periods in the box is periodic. -/
theorem cosWave_periodic (k L : List ℝ) (θ : ℝ) (hl : k.length = L.length) (n : List ℤ)
    (hn : ∀ j < k.length, k.getD j 0 * L.getD j 0 = 2 * Real.pi * (n.getD j 0 : ℤ)) : BoxPeriodic L (cosWave k θ) := by
  intro x y _ _ h
  rw [← hl] at h
  choose! c hc using h
  have e : θ + ∑ j ∈ Finset.range k.length, k.getD j 0 * y.getD j 0 =
      θ + ∑ j ∈ Finset.range k.length, k.getD j 0 * x.getD j 0 + ((∑ j ∈ Finset.range k.length, c j * n.getD j 0 : ℤ) : ℝ) * (2 * Real.pi) := by
    push_cast
    rw [add_assoc, Finset.sum_mul, ← Finset.sum_add_distrib]
    congr 1
    apply Finset.sum_congr rfl
    intro j hj
    rw [Finset.mem_range] at hj
    rw [hc j hj, mul_add, add_right_inj]
    have := hn j hj
    calc k.getD j 0 * ((c j : ℝ) * L.getD j 0) = c j * (k.getD j 0 * L.getD j 0) := by ring
      _ = _ := by rw [this]; ring
  unfold cosWave
  rw [e, Real.cos_add_int_mul_two_pi]

/-- **C104** (waves).  A field that samples the wave `cos(θ + k·x)` is read, with the cic, tsc or pcs window, with an error of at most
`1/2 v Σ_j |k_j| |k|_1 h_j^2`: in one dimension `(k h)^2/8` for cic and tsc and `(k h)^2/6` for pcs.
Partial: as above. -/
theorem C104_wave_partial (w : Resampler ℝ) (hw : w.Valid) (kind : Tuned) (hk : w.kern = Tuned.kern kind) (hkind : kind ≠ .nnb)
    (hsup : w.support = w.kern.native) (a : SolverRun) (ha : a.OK w) (k : List ℝ) (θ : ℝ) (hkl : k.length = a.m.box.length) (n : List ℤ)
    (hn : ∀ j < k.length, k.getD j 0 * a.m.box.getD j 0 = 2 * Real.pi * (n.getD j 0 : ℤ)) (field : ℕ → ℤ → ℝ)
    (hf : a.m.Samples field (cosWave k θ)) :
    ∃ res : ℕ → List ℝ, AllReturn a.m.nrank (a.readout w field) (fun r => .ok (res r)) ∧
      ∀ r < a.m.nrank, (res r).length = (a.pos r).length ∧ ∀ i < (a.pos r).length,
        |(res r).getD i 0 - cosWave k θ ((a.pos r).getD i [])| ≤
          1 / 2 * windowVariance kind * ∑ j ∈ Finset.range k.length, |k.getD j 0| * (∑ i ∈ Finset.range k.length, |k.getD i 0|) * a.m.cell j ^ 2 := by
  obtain ⟨res, h1, h2⟩ := C104_readout_partial a.m ha.mesh ha.plain w hw kind hk hsup a.sm ha.smoothing ha.halo ha.covers a.pos ha.pos
    (cosWave k θ) (cosWave_periodic k a.m.box θ hkl n hn) hkind field hf
  refine ⟨res, h1, fun r hr => ⟨(h2 r hr).1, fun i hi => ?_⟩⟩
  have hx : ((a.pos r).getD i []).length = k.length := by
    rw [List.getD_eq_getElem _ _ hi, ha.pos r hr _ (List.getElem_mem _), hkl, ha.mesh.box_len]
  have h := (h2 r hr).2 i hi (waveCurvature k) (fun b hb => by
    obtain ⟨j, _, rfl⟩ := List.mem_map.1 hb
    exact mul_nonneg (abs_nonneg _) (Finset.sum_nonneg fun _ _ => abs_nonneg _)) (cosWave_curvature k θ _ hx)
  refine h.trans (le_of_eq ?_)
  rw [← ha.mesh.box_len, ← hkl]
  congr 1
  apply Finset.sum_congr rfl
  intro j hj
  rw [Finset.mem_range] at hj
  unfold waveCurvature
  rw [List.getD_eq_getElem _ _ (by simpa using hj), List.getElem_map, List.getElem_range]

/-! ### the hypotheses can be met: one period of a wave on eight cells and two ranks -/

/-- The samples of a function on the two ranks of `exMeshR`. -/
noncomputable def exSamples (φ : List ℝ → ℝ) (r : ℕ) (a : ℤ) : ℝ := φ [((4 * r + a : ℤ) : ℝ)]

theorem exSamples_ok (φ : List ℝ → ℝ) : exMeshR.Samples (exSamples φ) φ := by
  intro r hr c hc
  have hr : r = 0 ∨ r = 1 := by simp only [exMeshR] at hr; omega
  obtain ⟨i, rfl⟩ := List.length_eq_one_iff.1 ((validIndex_iff.1 hc).1.trans (by simp [PMesh.localShape, exMeshR]))
  unfold exSamples
  congr 1
  rcases hr with rfl | rfl <;> simp [PMesh.addr, exMeshR, cellPosition, PMesh.global, PMesh.start]

example := C104_wave_partial exWinR exWinR_valid .cic rfl (by decide) rfl exTwo exTwo_ok [Real.pi / 4] (1 / 3) rfl [1]
  (by intro j hj; simp only [List.length_cons, List.length_nil] at hj; obtain rfl : j = 0 := by omega
      simp [exTwo, exMeshR]; ring) (exSamples _) (exSamples_ok _)

example := C104_nearest_partial exTwo.m exTwo_ok.mesh exTwo_ok.plain exWinR exWinR_valid .cic rfl rfl exTwo.sm exTwo_ok.smoothing
  exTwo_ok.halo exTwo_ok.covers exTwo.pos exTwo_ok.pos (cosWave [Real.pi / 4] 0) (cosWave_periodic _ _ _ rfl [1]
    (by intro j hj; simp only [List.length_cons, List.length_nil] at hj; obtain rfl : j = 0 := by omega
        simp [exTwo, exMeshR]; ring)) (exSamples _) (exSamples_ok _)

example := C104_paint_partial exTwo.m exTwo_ok.mesh exTwo_ok.plain exWinR exWinR_valid .cic rfl rfl exTwo.sm exTwo_ok.smoothing
  exTwo_ok.halo exTwo_ok.covers exTwo.pos exTwo_ok.pos (cosWave [Real.pi / 4] 0) (cosWave_periodic _ _ _ rfl [1]
    (by intro j hj; simp only [List.length_cons, List.length_nil] at hj; obtain rfl : j = 0 := by omega
        simp [exTwo, exMeshR]; ring)) (by decide) exTwo.mass exTwo_ok.mass (waveCurvature [Real.pi / 4])
  (fun b hb => by
    obtain ⟨j, _, rfl⟩ := List.mem_map.1 hb
    exact mul_nonneg (abs_nonneg _) (Finset.sum_nonneg fun _ _ => abs_nonneg _))
  (fun r hr x hx => cosWave_curvature _ _ _ (exTwo_ok.pos r hr x hx))

#print axioms C104_readout_partial
#print axioms C104_nearest_partial
#print axioms C104_paint_partial
#print axioms C104_wave_partial

end Pmesh
