import Verif.Lemmas.GradAccuracy
import Verif.Lemmas.Regrid
import Verif.Props.Interp

/-!
# C107: the accuracy of gradients read off the mesh

`decompose` and `readout(gradient=d)` with the tuned windows cic and tsc, on any number of ranks and in up to three dimensions, return
the derivative along axis `d` of the smooth function that the field samples: to first order in the size of the cells for both, to
second order for tsc.  With the tuned pcs window the result is too large or small by the size of the cells.
-/

namespace Pmesh

section
variable {K : Type} [Field K] [LinearOrder K] [IsStrictOrderedRing K] [FloorRing K]

/-- `decompose` and `readout(gradient=...)` in closed form. -/
theorem readout_grad_all {m : PMesh K} (hm : m.OK) (hp : m.PlainRanks) {w : Resampler K} (hw : w.Valid)
    {sm : List K} (hsm : m.SmoothingOK sm) (hh : m.HaloFits sm)
    {pos : ℕ → List (List K)} (hpos : ∀ r < m.nrank, ∀ x ∈ pos r, x.length = m.nmesh.length)
    (gradient : Option ℕ) (hcov : ∀ s ∈ sm, w.Covers s 1) (field : ℕ → ℤ → K) (G : List ℕ → K)
    (hf : ∀ r < m.nrank, ∀ c, ValidIndex (m.localShape r) c → field r (m.addr r c) = G (m.global r c)) (st : List ℤ) :
    AllReturn m.nrank (fun r => (pmDecompose m sm r (pos r)).andThen fun lay =>
        pmReadout m w gradient r (some lay) (pos r) .none (field r))
      (fun r => .ok ((pos r).map fun x => ((ndindex m.nmesh).map fun g =>
        cwProd (List.zipWith (axisStencil ((m.serial st).painter w gradient 0) 1) ((m.serial st).painter w gradient 0).axes x) g * G g).sum)) := by
  obtain ⟨glob, hglob⟩ := exists_glob (serial_distinct m) G
  obtain ⟨res, hret, hres⟩ := C24_readout_partial m hm hp w hw sm hsm hh gradient pos hpos (fun _ => .none) (Or.inl fun _ _ => rfl)
    (fun p hp s hs => by rw [allParticles_hsml hp]; exact hcov s hs) (cStrides m.nmesh) field glob
    (fun r hr c hc => by rw [hf r hr c hc, hglob _ (hm.global_valid hr hc)])
  refine AllReturn.congr (fun _ _ => rfl) (fun r hr => ?_) hret
  congr 1
  have h := hres r hr
  have hlen : ∀ p ∈ particlesOf (pos r) .none .none, p.pos.length = m.nmesh.length := by
    intro p hp
    obtain ⟨i, hi, rfl⟩ := List.mem_map.1 hp
    rw [List.mem_range] at hi
    simp only
    rw [List.getD_eq_getElem _ _ hi]
    exact hpos r hr _ (List.getElem_mem _)
  rw [readout_eq _ (painter_valid (m := m.serial (cStrides m.nmesh)) hw hm.dim gradient 0) _
    (fun p hp => by rw [painter_len]; exact hlen p hp) _, Option.some.injEq] at h
  rw [← h]
  apply List.ext_getElem
  · simp [particlesOf]
  · intro i h1 h2
    have hi : i < (pos r).length := by simpa using h1
    have hsl : ((m.serial (cStrides m.nmesh)).localShape 0).length = (m.serial (cStrides m.nmesh)).nmesh.length := by
      rw [serial_localShape]; rfl
    simp only [particlesOf, List.getElem_map, List.getElem_range]
    rw [shapeOf_painter w gradient 0 hsl, serial_localShape, List.getD_eq_getElem _ _ hi]
    congr 1
    apply List.map_congr_left
    intro g hg
    have hg := mem_ndindex.1 hg
    rw [elemAddr_painter w gradient 0 (m := m.serial (cStrides m.nmesh)) hg.len, hglob g hg]
    congr 1
    have hxl := hpos r hr _ (List.getElem_mem hi)
    show _ = cwProd (List.zipWith (axisStencil ((m.serial (cStrides m.nmesh)).painter w gradient 0) 1) _ _) g
    rw [cwProd_painter (m.serial (cStrides m.nmesh)) w gradient 0 _ _ hxl _ hg.len,
      cwProd_painter (m.serial st) w gradient 0 _ _ hxl _ hg.len]
    congr 1
    apply List.map_congr_left
    intro j hj
    congr 1
    refine axisStencil_congr ((m.serial (cStrides m.nmesh)).painter w gradient 0) ((m.serial st).painter w gradient 0) rfl rfl rfl ?_ _ ?_ ?_ ?_ ?_
    · exact (orders_serial m _ w gradient 0).trans (orders_serial m _ w gradient 0).symm
    all_goals rfl

variable (m : PMesh K) (hm : m.OK) (hp : m.PlainRanks) (w : Resampler K) (hw : w.Valid) (kind : Tuned) (hk : w.kern = Tuned.kern kind)
  (ht : w.tuned = some kind) (hdim : m.nmesh.length ≤ 3)
  (hsup : w.support = w.kern.native) (sm : List K) (hsm : m.SmoothingOK sm) (hh : m.HaloFits sm) (hcov : ∀ s ∈ sm, w.Covers s 1)
  (pos : ℕ → List (List K)) (hpos : ∀ r < m.nrank, ∀ x ∈ pos r, x.length = m.nmesh.length) (φ : List K → K)
  (hper : BoxPeriodic m.box φ) (d : ℕ) (hd : d < m.nmesh.length)

include hm hk ht hdim hsup hper in
theorem grad_weights (st : List ℤ) {x : List K} (hx : x.length = m.nmesh.length) :
    ((ndindex m.nmesh).map fun g =>
        cwProd (List.zipWith (axisStencil ((m.serial st).painter w (some d) 0) 1) ((m.serial st).painter w (some d) 0).axes x) g *
          φ (cellPosition m g)).sum = expect (gradStencils m st kind d x) (fun c => φ (posZ m c)) := by
  rw [← grad_eq hm st hk ht hdim hsup d hx (fun c => φ (posZ m c)) (fun c hc => posZ_periodic hm hper c hc)]
  simp only [cellPosition_posZ]

include hm hp hw hk ht hdim hsup hsm hh hcov hpos hper

theorem grad_values (field : ℕ → ℤ → K) (hf : m.Samples field φ) :
    AllReturn m.nrank (fun r => (pmDecompose m sm r (pos r)).andThen fun lay =>
        pmReadout m w (some d) r (some lay) (pos r) .none (field r))
      (fun r => .ok ((pos r).map fun x => expect (gradStencils m (cStrides m.nmesh) kind d x) (fun c => φ (posZ m c)))) := by
  have h := readout_grad_all hm hp hw hsm hh hpos (some d) hcov field (fun g => φ (cellPosition m g)) hf (cStrides m.nmesh)
  refine AllReturn.congr (fun _ _ => rfl) (fun r hr => ?_) h
  congr 1
  apply List.map_congr_left
  intro x hx
  exact (grad_weights m hm w kind hk ht hdim hsup φ hper d (cStrides m.nmesh) (hpos r hr x hx)).symm

include hd

/-- **C107** (first order).  If the field samples the periodic function `φ` then every particle reads, with the tuned cic or tsc window
and `gradient=d`, on any number of ranks, the derivative of `φ` along axis `d` at its position, up to
`1/2 M_d h_d + 1/4 Σ_{j≠d} M_j h_j^2 / h_d`, where `h_j` is the size of the cells and `M_j` bounds the curvature of `φ`.
Partial: the restrictions of `C24_readout_partial` on the decomposition. -/
theorem C107_first_order_partial (hkind : kind = .cic ∨ kind = .tsc) (field : ℕ → ℤ → K) (hf : m.Samples field φ) :
    ∃ res : ℕ → List K,
      AllReturn m.nrank (fun r => (pmDecompose m sm r (pos r)).andThen fun lay =>
        pmReadout m w (some d) r (some lay) (pos r) .none (field r)) (fun r => .ok (res r)) ∧
      ∀ r < m.nrank, (res r).length = (pos r).length ∧ ∀ i < (pos r).length, ∀ g M : List K, (∀ b ∈ M, 0 ≤ b) →
        Tangent φ g M ((pos r).getD i []) →
        |(res r).getD i 0 - g.getD d 0| ≤
          (1 / 2 * (M.getD d 0 * m.cell d ^ 2) + 1 / 4 * ∑ j ∈ (Finset.range m.nmesh.length).erase d, M.getD j 0 * m.cell j ^ 2) /
            m.cell d := by
  refine ⟨_, grad_values m hm hp w hw kind hk ht hdim hsup sm hsm hh hcov pos hpos φ hper d field hf,
    fun r hr => ⟨by simp, fun i hi g M hM hφ => ?_⟩⟩
  rw [List.getD_eq_getElem _ _ (by simpa using hi), List.getElem_map]
  rw [List.getD_eq_getElem _ _ hi] at hφ
  have hx := hpos r hr _ (List.getElem_mem hi)
  have hb := grad_first_order hm (cStrides m.nmesh) (kind := kind) (by rcases hkind with rfl | rfl <;> decide) hd hx hM hφ
  obtain ⟨h1, h2, _⟩ := hm.scale_cell hd
  have e1 : gradFactor kind (m.scale.getD d 0) = 1 / m.cell d := by
    rw [eq_div_iff h1.ne']
    rcases hkind with rfl | rfl <;> exact h2
  have e2 : (windowVariance kind : K) = 1 / 4 := by rcases hkind with rfl | rfl <;> rfl
  rw [e1, e2, div_mul_cancel₀ _ h1.ne', one_mul] at hb
  refine hb.trans (le_of_eq ?_)
  ring

/-- **C107** (second order).  With the tuned tsc window and `gradient=d` every particle reads the derivative of `φ` up to
`9/8 C (Σ_j h_j)^3 / h_d`, where `C` bounds the third derivatives: for cells of one shape the error falls as the square of their size.
Partial: as above. -/
theorem C107_second_order_partial (hkind : kind = .tsc) (field : ℕ → ℤ → K) (hf : m.Samples field φ) :
    ∃ res : ℕ → List K,
      AllReturn m.nrank (fun r => (pmDecompose m sm r (pos r)).andThen fun lay =>
        pmReadout m w (some d) r (some lay) (pos r) .none (field r)) (fun r => .ok (res r)) ∧
      ∀ r < m.nrank, (res r).length = (pos r).length ∧ ∀ i < (pos r).length, ∀ (g : List K) (H : ℕ → ℕ → K) (C : K), 0 ≤ C →
        Osculating φ g H C ((pos r).getD i []) →
        |(res r).getD i 0 - g.getD d 0| ≤ 9 / 8 * C * (∑ j ∈ Finset.range m.nmesh.length, m.cell j) ^ 3 / m.cell d := by
  subst hkind
  refine ⟨_, grad_values m hm hp w hw .tsc hk ht hdim hsup sm hsm hh hcov pos hpos φ hper d field hf,
    fun r hr => ⟨by simp, fun i hi g H C hC hφ => ?_⟩⟩
  rw [List.getD_eq_getElem _ _ (by simpa using hi), List.getElem_map]
  rw [List.getD_eq_getElem _ _ hi] at hφ
  have hx := hpos r hr _ (List.getElem_mem hi)
  have hb := grad_second_order hm (cStrides m.nmesh) (kind := .tsc) (by decide) (by decide) hd hx hC hφ
  obtain ⟨h1, h2, _⟩ := hm.scale_cell hd
  have e1 : gradFactor .tsc (m.scale.getD d 0) = 1 / m.cell d := by
    rw [eq_div_iff h1.ne']
    exact h2
  have e2 : (((Tuned.kern .tsc : Kern K).native : ℕ) : K) = 3 := by simp [Tuned.kern, quadraticK]
  rw [e1, e2, div_mul_cancel₀ _ h1.ne', one_mul] at hb
  refine hb.trans (le_of_eq ?_)
  ring

/-- **C107** (tuned pcs).  With the tuned pcs window and `gradient=d` every particle reads not the derivative of `φ` along axis `d`, but
the size of the cells times the derivative, up to `8/3 C (Σ_j h_j)^3`.
Partial: as above. -/
theorem C107_pcs_partial (hkind : kind = .pcs) (field : ℕ → ℤ → K) (hf : m.Samples field φ) :
    ∃ res : ℕ → List K,
      AllReturn m.nrank (fun r => (pmDecompose m sm r (pos r)).andThen fun lay =>
        pmReadout m w (some d) r (some lay) (pos r) .none (field r)) (fun r => .ok (res r)) ∧
      ∀ r < m.nrank, (res r).length = (pos r).length ∧ ∀ i < (pos r).length, ∀ (g : List K) (H : ℕ → ℕ → K) (C : K), 0 ≤ C →
        Osculating φ g H C ((pos r).getD i []) →
        |(res r).getD i 0 - m.cell d * g.getD d 0| ≤ 8 / 3 * C * (∑ j ∈ Finset.range m.nmesh.length, m.cell j) ^ 3 := by
  subst hkind
  refine ⟨_, grad_values m hm hp w hw .pcs hk ht hdim hsup sm hsm hh hcov pos hpos φ hper d field hf,
    fun r hr => ⟨by simp, fun i hi g H C hC hφ => ?_⟩⟩
  rw [List.getD_eq_getElem _ _ (by simpa using hi), List.getElem_map]
  rw [List.getD_eq_getElem _ _ hi] at hφ
  have hx := hpos r hr _ (List.getElem_mem hi)
  have hb := grad_second_order hm (cStrides m.nmesh) (kind := .pcs) (by decide) (by decide) hd hx hC hφ
  have e1 : gradFactor .pcs (m.scale.getD d 0) = 1 := rfl
  have e2 : (((Tuned.kern .pcs : Kern K).native : ℕ) : K) = 4 := by simp [Tuned.kern, cubicK]
  rw [e1, e2, one_mul] at hb
  refine hb.trans (le_of_eq ?_)
  ring

/-- **C107** is violated by the tuned pcs window: the error of the derivative does not fall with the size of the cells, it tends to
`|1 - h_d|` times the derivative. -/
theorem C107_violated_pcs (hkind : kind = .pcs) (field : ℕ → ℤ → K) (hf : m.Samples field φ) :
    ∃ res : ℕ → List K,
      AllReturn m.nrank (fun r => (pmDecompose m sm r (pos r)).andThen fun lay =>
        pmReadout m w (some d) r (some lay) (pos r) .none (field r)) (fun r => .ok (res r)) ∧
      ∀ r < m.nrank, (res r).length = (pos r).length ∧ ∀ i < (pos r).length, ∀ (g : List K) (H : ℕ → ℕ → K) (C : K), 0 ≤ C →
        Osculating φ g H C ((pos r).getD i []) →
        |1 - m.cell d| * |g.getD d 0| - 8 / 3 * C * (∑ j ∈ Finset.range m.nmesh.length, m.cell j) ^ 3 ≤ |(res r).getD i 0 - g.getD d 0| := by
  obtain ⟨res, h1, h2⟩ := C107_pcs_partial m hm hp w hw kind hk ht hdim hsup sm hsm hh hcov pos hpos φ hper d hd hkind field hf
  refine ⟨res, h1, fun r hr => ⟨(h2 r hr).1, fun i hi g H C hC hφ => ?_⟩⟩
  have h := (h2 r hr).2 i hi g H C hC hφ
  rw [← abs_mul, show (1 - m.cell d) * g.getD d 0 = ((res r).getD i 0 - m.cell d * g.getD d 0) - ((res r).getD i 0 - g.getD d 0) by ring]
  have := abs_sub ((res r).getD i 0 - m.cell d * g.getD d 0) ((res r).getD i 0 - g.getD d 0)
  linarith

end

/-! ### waves -/

theorem sin_taylor (a t : ℝ) : |Real.sin (a + t) - Real.sin a - t * Real.cos a| ≤ t ^ 2 / 2 := by
  have h := cos_taylor (a - Real.pi / 2) t
  rw [show a - Real.pi / 2 + t = a + t - Real.pi / 2 by ring, Real.cos_sub_pi_div_two, Real.cos_sub_pi_div_two, Real.sin_sub_pi_div_two] at h
  rwa [mul_neg, ← sub_eq_add_neg] at h

theorem cos_taylor_cubic_nonneg (a t : ℝ) (ht : 0 ≤ t) :
    |Real.cos (a + t) - Real.cos a + t * Real.sin a + t ^ 2 / 2 * Real.cos a| ≤ t ^ 3 / 6 := by
  have key : ∀ s : ℝ, |s| = 1 → 0 ≤ t ^ 3 / 6 - s * (Real.cos (a + t) - Real.cos a + t * Real.sin a + t ^ 2 / 2 * Real.cos a) := by
    intro s hs
    have hd : ∀ u : ℝ, HasDerivAt (fun u : ℝ => u ^ 3 / 6 - s * (Real.cos (a + u) - Real.cos a + u * Real.sin a + u ^ 2 / 2 * Real.cos a))
        (u ^ 2 / 2 - s * (-Real.sin (a + u) + Real.sin a + u * Real.cos a)) u := by
      intro u
      have h1 : HasDerivAt (fun u : ℝ => Real.cos (a + u)) (-Real.sin (a + u)) u := by
        simpa using ((hasDerivAt_id u).const_add a).cos
      have h2 : HasDerivAt (fun u : ℝ => u ^ 3 / 6) (u ^ 2 / 2) u := by
        have := (hasDerivAt_pow 3 u).div_const 6
        refine this.congr_deriv ?_
        norm_num
        ring
      have h4 : HasDerivAt (fun u : ℝ => u ^ 2 / 2) u u := by
        have := (hasDerivAt_pow 2 u).div_const 2
        simpa using this
      have h3 : HasDerivAt (fun u : ℝ => u * Real.sin a) (Real.sin a) u := by
        simpa using (hasDerivAt_id u).mul_const (Real.sin a)
      exact h2.sub ((((h1.sub_const (Real.cos a)).add h3).add (h4.mul_const (Real.cos a))).const_mul s)
    have hm : MonotoneOn (fun u : ℝ => u ^ 3 / 6 - s * (Real.cos (a + u) - Real.cos a + u * Real.sin a + u ^ 2 / 2 * Real.cos a)) (Set.Ici 0) := by
      apply monotoneOn_of_deriv_nonneg (convex_Ici 0)
      · exact fun u _ => (hd u).continuousAt.continuousWithinAt
      · exact fun u _ => (hd u).differentiableAt.differentiableWithinAt
      · intro u _
        rw [(hd u).deriv]
        have h := sin_taylor a u
        have h2 : |s * (-Real.sin (a + u) + Real.sin a + u * Real.cos a)| ≤ u ^ 2 / 2 := by
          rw [abs_mul, hs, one_mul, ← abs_neg]
          refine le_trans (le_of_eq ?_) h
          congr 1
          ring
        linarith [(abs_le.1 h2).2]
    have := hm (Set.mem_Ici.2 le_rfl) (Set.mem_Ici.2 ht) ht
    simpa using this
  have h1 := key 1 (by norm_num)
  have h2 := key (-1) (by norm_num)
  rw [abs_le]
  constructor <;> linarith

theorem cos_taylor_cubic (a t : ℝ) : |Real.cos (a + t) - Real.cos a + t * Real.sin a + t ^ 2 / 2 * Real.cos a| ≤ |t| ^ 3 / 6 := by
  rcases le_total 0 t with ht | ht
  · rw [abs_of_nonneg ht]; exact cos_taylor_cubic_nonneg a t ht
  · have h := cos_taylor_cubic_nonneg (-a) (-t) (by linarith)
    rw [← neg_add, Real.cos_neg, Real.cos_neg, Real.sin_neg] at h
    rw [abs_of_nonpos ht]
    simpa using h

/-- The gradient of the wave `cos(θ + k·x)`. -/
noncomputable def waveGradient (k : List ℝ) (θ : ℝ) (x : List ℝ) : List ℝ :=
  (List.range k.length).map fun j => -Real.sin (θ + ∑ i ∈ Finset.range k.length, k.getD i 0 * x.getD i 0) * k.getD j 0

/-- The third derivatives of a wave are at most `κ^3` if no component of its wave vector exceeds `κ`. -/
theorem cosWave_osculating (k : List ℝ) (θ : ℝ) (x : List ℝ) (hx : x.length = k.length) {κ : ℝ} (hκ : ∀ j < k.length, |k.getD j 0| ≤ κ) :
    Osculating (cosWave k θ) (waveGradient k θ x)
      (fun i j => -Real.cos (θ + ∑ i ∈ Finset.range k.length, k.getD i 0 * x.getD i 0) * (k.getD i 0 * k.getD j 0)) (κ ^ 3) x := by
  obtain ⟨a, ha⟩ : ∃ a, a = θ + ∑ j ∈ Finset.range k.length, k.getD j 0 * x.getD j 0 := ⟨_, rfl⟩
  intro y hy
  obtain ⟨t, ht⟩ : ∃ t, t = ∑ j ∈ Finset.range k.length, k.getD j 0 * (y.getD j 0 - x.getD j 0) := ⟨_, rfl⟩
  unfold waveGradient
  rw [hx, ← ha]
  have e1 : ∑ j ∈ Finset.range k.length, ((List.range k.length).map fun j => -Real.sin a * k.getD j 0).getD j 0 * (y.getD j 0 - x.getD j 0) =
      -(t * Real.sin a) := by
    rw [ht, Finset.sum_mul, ← Finset.sum_neg_distrib]
    apply Finset.sum_congr rfl
    intro j hj
    rw [Finset.mem_range] at hj
    rw [List.getD_eq_getElem _ _ (by simpa using hj), List.getElem_map, List.getElem_range]
    ring
  have e2 : ∑ i ∈ Finset.range k.length, ∑ j ∈ Finset.range k.length, -Real.cos a * (k.getD i 0 * k.getD j 0) *
      ((y.getD i 0 - x.getD i 0) * (y.getD j 0 - x.getD j 0)) = -(t ^ 2 * Real.cos a) := by
    rw [ht, sq, Finset.sum_mul_sum, Finset.sum_mul, ← Finset.sum_neg_distrib]
    apply Finset.sum_congr rfl
    intro i _
    rw [Finset.sum_mul, ← Finset.sum_neg_distrib]
    apply Finset.sum_congr rfl
    intro j _
    ring
  have e4 : cosWave k θ y = Real.cos (a + t) := by
    unfold cosWave
    congr 1
    rw [ha, ht, add_assoc, ← Finset.sum_add_distrib]
    congr 1
    apply Finset.sum_congr rfl
    intro j _
    ring
  have e5 : cosWave k θ x = Real.cos a := by rw [ha]; rfl
  have e3 : |t| ≤ κ * ∑ j ∈ Finset.range k.length, |y.getD j 0 - x.getD j 0| := by
    rw [ht, Finset.mul_sum]
    refine (Finset.abs_sum_le_sum_abs _ _).trans (Finset.sum_le_sum fun j hj => ?_)
    rw [abs_mul]
    exact mul_le_mul_of_nonneg_right (hκ j (Finset.mem_range.1 hj)) (abs_nonneg _)
  rw [e1, e2, e4, e5, show Real.cos (a + t) - Real.cos a - -(t * Real.sin a) - 1 / 2 * -(t ^ 2 * Real.cos a) =
    Real.cos (a + t) - Real.cos a + t * Real.sin a + t ^ 2 / 2 * Real.cos a by ring]
  refine (cos_taylor_cubic a t).trans ?_
  have := pow_le_pow_left₀ (abs_nonneg t) e3 3
  rw [mul_pow] at this
  linarith

/-- **C107** (waves).  A field that samples the wave `cos(θ + k·x)`, read with the tuned tsc window and `gradient=d`, gives
`-k_d sin(θ + k·x)` up to `9/8 κ^3 (Σ_j h_j)^3 / h_d`, where no component of `k` exceeds `κ`: in one dimension `9/8 κ (κ h)^2`.
Partial: as above. -/
theorem C107_wave_partial (w : Resampler ℝ) (hw : w.Valid) (hk : w.kern = Tuned.kern .tsc) (ht : w.tuned = some .tsc)
    (hsup : w.support = w.kern.native) (a : SolverRun) (ha : a.OK w) (hdim : a.m.nmesh.length ≤ 3) (d : ℕ) (hd : d < a.m.nmesh.length)
    (k : List ℝ) (θ : ℝ) (hkl : k.length = a.m.box.length) (n : List ℤ)
    (hn : ∀ j < k.length, k.getD j 0 * a.m.box.getD j 0 = 2 * Real.pi * (n.getD j 0 : ℤ)) (κ : ℝ) (hκ : ∀ j < k.length, |k.getD j 0| ≤ κ)
    (field : ℕ → ℤ → ℝ) (hf : a.m.Samples field (cosWave k θ)) :
    ∃ res : ℕ → List ℝ, AllReturn a.m.nrank (fun r => (pmDecompose a.m a.sm r (a.pos r)).andThen fun lay =>
        pmReadout a.m w (some d) r (some lay) (a.pos r) .none (field r)) (fun r => .ok (res r)) ∧
      ∀ r < a.m.nrank, (res r).length = (a.pos r).length ∧ ∀ i < (a.pos r).length,
        |(res r).getD i 0 + k.getD d 0 * Real.sin (θ + ∑ j ∈ Finset.range k.length, k.getD j 0 * ((a.pos r).getD i []).getD j 0)| ≤
          9 / 8 * κ ^ 3 * (∑ j ∈ Finset.range k.length, a.m.cell j) ^ 3 / a.m.cell d := by
  obtain ⟨res, h1, h2⟩ := C107_second_order_partial a.m ha.mesh ha.plain w hw .tsc hk ht hdim hsup a.sm ha.smoothing ha.halo ha.covers a.pos
    ha.pos (cosWave k θ) (cosWave_periodic k a.m.box θ hkl n hn) d hd rfl field hf
  refine ⟨res, h1, fun r hr => ⟨(h2 r hr).1, fun i hi => ?_⟩⟩
  have hl : k.length = a.m.nmesh.length := by rw [hkl, ha.mesh.box_len]
  have hx : ((a.pos r).getD i []).length = k.length := by
    rw [List.getD_eq_getElem _ _ hi, ha.pos r hr _ (List.getElem_mem _), hl]
  have hκ0 : 0 ≤ κ := (abs_nonneg _).trans (hκ d (by omega))
  have h := (h2 r hr).2 i hi _ _ _ (pow_nonneg hκ0 3) (cosWave_osculating k θ _ hx hκ)
  rw [← hl] at h
  refine le_trans (le_of_eq ?_) h
  congr 1
  unfold waveGradient
  rw [List.getD_eq_getElem (l := List.map _ _) _ (by simp; omega), List.getElem_map, List.getElem_range]
  ring

/-! ### the hypotheses can be met: one period of a wave on eight cells and two ranks -/

noncomputable def exTscR : Resampler ℝ := ⟨quadraticK, some .tsc, 3⟩

theorem exTscR_valid : exTscR.Valid := ⟨by simp [exTscR, quadraticK], by intro t ht; cases ht; rfl⟩

noncomputable def exPcsR : Resampler ℝ := ⟨cubicK, some .pcs, 4⟩

theorem exPcsR_valid : exPcsR.Valid := ⟨by simp [exPcsR, cubicK], by intro t ht; cases ht; rfl⟩

noncomputable def exWideRun : SolverRun := ⟨exMeshR, [2], fun r => if r = 0 then [[1 / 2], [7 / 3]] else [[9 / 2]], fun _ => .scalar 3⟩

theorem exWideRun_halo : exMeshR.HaloFits [2] := by
  intro j hj d hd
  have hj : j = 0 := by simp only [exMeshR, List.length_cons, List.length_nil] at hj; omega
  subst hj
  have hd : d = 0 ∨ d = 1 := by simp only [exMeshR, List.getD_cons_zero, List.length_cons, List.length_nil] at hd; omega
  left
  rcases hd with rfl | rfl <;> norm_num [exMeshR]

theorem exTscR_covers : ∀ s ∈ ([2] : List ℝ), exTscR.Covers s 1 := by
  intro e he
  rw [List.mem_singleton.1 he]
  refine Or.inr (Or.inr ?_)
  have : windowSize (⟨exTscR.kern, exTscR.tuned, exTscR.support, []⟩ : Painter ℝ) 1 = ((3 : ℤ) : ℝ) := by
    simp [windowSize, exTscR]
  rw [this, Int.ceil_intCast]
  norm_num

theorem exPcsR_covers : ∀ s ∈ ([2] : List ℝ), exPcsR.Covers s 1 := by
  intro e he
  rw [List.mem_singleton.1 he]
  refine Or.inr (Or.inr ?_)
  have : windowSize (⟨exPcsR.kern, exPcsR.tuned, exPcsR.support, []⟩ : Painter ℝ) 1 = ((4 : ℤ) : ℝ) := by
    simp [windowSize, exPcsR]
  rw [this, Int.ceil_intCast]
  norm_num

theorem exWideRun_ok : exWideRun.OK exTscR :=
  ⟨exMeshR_ok, exMeshR_plain, ⟨rfl, by simp [exWideRun]⟩, exWideRun_halo, exTscR_covers,
    by intro r _ x hx; simp only [exWideRun] at hx; split_ifs at hx <;> simp at hx <;> aesop, Or.inr (Or.inl ⟨3, fun _ _ => rfl⟩)⟩

theorem exWave_periodic : BoxPeriodic exMeshR.box (cosWave [Real.pi / 4] (1 / 3)) := cosWave_periodic _ _ _ rfl [1]
  (by intro j hj; simp only [List.length_cons, List.length_nil] at hj; obtain rfl : j = 0 := by omega
      simp [exMeshR]; ring)

example := C107_first_order_partial exTwo.m exTwo_ok.mesh exTwo_ok.plain exWinR exWinR_valid .cic rfl rfl (by simp [exTwo, exMeshR]) rfl
  exTwo.sm exTwo_ok.smoothing exTwo_ok.halo exTwo_ok.covers exTwo.pos exTwo_ok.pos _ exWave_periodic 0 (by simp [exTwo, exMeshR])
  (Or.inl rfl) (exSamples _) (exSamples_ok _)

example := C107_wave_partial exTscR exTscR_valid rfl rfl rfl exWideRun exWideRun_ok (by simp [exWideRun, exMeshR]) 0 (by simp [exWideRun, exMeshR])
  [Real.pi / 4] (1 / 3) rfl [1]
  (by intro j hj; simp only [List.length_cons, List.length_nil] at hj; obtain rfl : j = 0 := by omega
      simp [exWideRun, exMeshR]; ring) (Real.pi / 4)
  (by intro j hj; simp only [List.length_cons, List.length_nil] at hj; obtain rfl : j = 0 := by omega
      simp [abs_div, abs_of_pos Real.pi_pos]) (exSamples _) (exSamples_ok _)

example := C107_violated_pcs exMeshR exMeshR_ok exMeshR_plain exPcsR exPcsR_valid .pcs rfl rfl (by simp [exMeshR]) rfl
  exWideRun.sm exWideRun_ok.smoothing exWideRun_ok.halo exPcsR_covers exWideRun.pos exWideRun_ok.pos _ exWave_periodic 0 (by simp [exMeshR])
  rfl (exSamples _) (exSamples_ok _)

#print axioms C107_first_order_partial
#print axioms C107_second_order_partial
#print axioms C107_pcs_partial
#print axioms C107_violated_pcs
#print axioms C107_wave_partial

end Pmesh
