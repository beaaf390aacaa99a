import Verif.Props.MeshDiff
import Verif.Props.Products

/-!
# C79: the forces of the mesh are the exact gradient of its energy

The potential energy of particles on the mesh is half the sum of mass times potential, the potential being read off the mesh after
`paint`, `r2c`, multiplication with a real transfer function and `c2r`.  What is read with the *derivative* of the window
(`readout` with `gradient=d`) is the exact gradient of this energy, divided by the mass.
-/

set_option linter.unusedSectionVars false

namespace Pmesh

theorem c2r_axpy (nmesh cshape : List ℕ) (a : ℝ) (F G : List ℕ → ℂ) (x : List ℕ) :
    c2r nmesh cshape (fun k => (a : ℂ) * F k + G k) x = a * c2r nmesh cshape F x + c2r nmesh cshape G x := by
  unfold c2r dftBackward
  rw [← Complex.re_ofReal_mul, ← Complex.add_re, ← sum_cmul, ← List.sum_map_add]
  congr 2
  apply List.map_congr_left
  intro k _
  unfold decompress
  split_ifs
  · ring
  · rw [map_add, map_mul, Complex.conj_ofReal]; ring

theorem c2r_sum {α : Type} (nmesh cshape : List ℕ) (l : List α) (a : α → ℝ) (F : α → List ℕ → ℂ) (x : List ℕ) :
    c2r nmesh cshape (fun k => (l.map fun y => (a y : ℂ) * F y k).sum) x = (l.map fun y => a y * c2r nmesh cshape (F y) x).sum := by
  induction l with
  | nil => simp [c2r, dftBackward, decompress]
  | cons y l ih =>
    rw [List.map_cons, List.sum_cons, ← ih, ← c2r_axpy]
    rfl

theorem sum_single_index {nmesh x : List ℕ} (hx : ValidIndex nmesh x) (u : List ℕ → ℝ) :
    ((ndindex nmesh).map fun y => u y * (if x = y then 1 else 0)).sum = u x := by
  simp only [mul_ite, mul_one, mul_zero]
  exact sum_single nmesh hx u

/-- Every cell of the mesh is on some rank. -/
theorem exists_cell {K : Type} [Field K] [LinearOrder K] [IsStrictOrderedRing K] [FloorRing K] {m : PMesh K} (hm : m.OK) {x : List ℕ} (hx : ValidIndex m.nmesh x) :
    ∃ r < m.nrank, ∃ c, ValidIndex (m.localShape r) c ∧ m.global r c = x := by
  by_contra hno
  have h1 := sum_ranks hm fun y => if x = y then (1 : K) else 0
  rw [sum_single m.nmesh hx fun _ => (1 : K)] at h1
  refine zero_ne_one (α := K) (h1 ▸ (List.sum_eq_zero ?_).symm)
  intro a ha
  obtain ⟨r, hr, rfl⟩ := List.mem_map.1 ha
  apply List.sum_eq_zero
  intro b hb
  obtain ⟨c, hc, rfl⟩ := List.mem_map.1 hb
  rw [if_neg]
  exact fun h => hno ⟨r, List.mem_range.1 hr, c, mem_ndindex.1 hc, h.symm⟩

/-- The field after multiplication of the spectrum is a sum over all cells. -/
theorem transfer_kernel (nmesh cshape : List ℕ) (T : List ℕ → ℂ) (u : List ℕ → ℝ) (x : List ℕ) :
    c2r nmesh cshape (fun k => T k * r2c nmesh u k) x = ((ndindex nmesh).map fun y =>
      u y * c2r nmesh cshape (fun k => T k * r2c nmesh (fun z => if z = y then 1 else 0) k) x).sum := by
  rw [← c2r_sum]
  congr 1
  funext k
  rw [r2c_congr (f' := fun z => ((ndindex nmesh).map fun y => u y * (if z = y then 1 else 0)).sum)
    (fun g hg => (sum_single_index hg u).symm), r2c_sum, ← sum_cmul]
  apply sum_congr'
  intro y _
  rw [r2c_mulc]
  ring

/-- The derivative of the quadratic form `Σ_x (G u)(x) u(x)`. -/
theorem mesh_energy_hasDerivAt {nmesh cshape : List ℕ} (hs : StoredShape nmesh cshape) (hne : nmesh ≠ []) (hpos : ∀ n ∈ nmesh, 0 < n)
    (T : List ℕ → ℂ) (hT : ∀ k, ValidIndex cshape k → (T k).im = 0) (u : ℝ → List ℕ → ℝ) (u' : List ℕ → ℝ)
    (h : ∀ x, ValidIndex nmesh x → HasDerivAt (fun t => u t x) (u' x) 0) :
    HasDerivAt (fun t => 1 / 2 * ((ndindex nmesh).map fun x => c2r nmesh cshape (fun k => T k * r2c nmesh (u t) k) x * u t x).sum)
      ((ndindex nmesh).map fun x => c2r nmesh cshape (fun k => T k * r2c nmesh (u 0) k) x * u' x).sum 0 := by
  have hd : ∀ x, HasDerivAt (fun t => c2r nmesh cshape (fun k => T k * r2c nmesh (u t) k) x)
      (c2r nmesh cshape (fun k => T k * r2c nmesh u' k) x) 0 := by
    intro x
    simp only [transfer_kernel nmesh cshape T (u _) x, transfer_kernel nmesh cshape T u' x]
    apply sum_hasDerivAt
    intro y hy
    exact (h y (mem_ndindex.1 hy)).mul_const _
  have h2 := sum_hasDerivAt (ndindex nmesh) (fun x t => c2r nmesh cshape (fun k => T k * r2c nmesh (u t) k) x * u t x)
    (fun x => c2r nmesh cshape (fun k => T k * r2c nmesh u' k) x * u 0 x + c2r nmesh cshape (fun k => T k * r2c nmesh (u 0) k) x * u' x)
    0 (fun x hx => (hd x).mul (h x (mem_ndindex.1 hx)))
  refine (h2.const_mul (1 / 2)).congr_deriv ?_
  rw [List.sum_map_add, transfer_swap hs hne hpos 1 T (fun k hk => by
    rw [Complex.ofReal_one, one_mul]; exact Complex.conj_eq_iff_im.2 (hT k hk)) u' (u 0)]
  ring

section
variable (m : PMesh ℝ) (hm : m.OK) (w : Resampler ℝ) (hw : w.Valid) (hk : Confined w.kern) (pos : ℕ → List (List ℝ))
  (hpos : ∀ r < m.nrank, ∀ x ∈ pos r, x.length = m.nmesh.length) (lay : ℕ → Option Lay) (S : ℕ → ℕ → List ℕ)
  (hlay : LayoutArg m.nrank (fun q => (pos q).length) lay S)
  (v : ℕ → List (List ℝ)) (hv : ∀ r < m.nrank, (v r).length = (pos r).length ∧ ∀ u ∈ v r, u.length = m.nmesh.length)
  (hsm : ∀ r < m.nrank, ∀ x ∈ pos r, m.SmoothPoint w x)
  (mass : ℕ → List ℝ) (hmass : ∀ r < m.nrank, (mass r).length = (pos r).length)
  (cshape : List ℕ) (hs : StoredShape m.nmesh cshape) (T : List ℕ → ℂ)
include hm hw hk hpos hlay hv hsm hmass hs

/-- **C79**: the particles of all ranks move with velocities `v`; `phi t` is the potential of the particles at their places at the
time `t`, read at the same places.  The rate of change of half the sum of mass times potential is the sum over the particles of
mass times velocity times what `readout` with `gradient=d` gives for the potential. -/
theorem C79_energy_gradient (hT : ∀ k, ValidIndex cshape k → (T k).im = 0) :
    ∃ (dens : ℝ → ℕ → ℤ → ℝ) (rho : ℝ → List ℕ → ℝ),
      (∀ t, AllReturn m.nrank (fun r => pmPaint m w none false r (lay r) (alongRows t (pos r) (some (v r))) (.array (mass r)) .none
        fun _ => 0) (fun r => .ok (dens t r)) ∧ m.HoldsField (dens t) (rho t)) ∧
      ∀ field : ℝ → ℕ → ℤ → ℝ,
        (∀ t, m.HoldsField (field t) (c2r m.nmesh cshape fun k => T k * r2c m.nmesh (rho t) k)) →
        ∃ (phi : ℝ → ℕ → List ℝ) (grad : ℕ → ℕ → List ℝ),
          (∀ t, AllReturn m.nrank (fun r => pmReadout m w none r (lay r) (alongRows t (pos r) (some (v r))) .none (field t r))
            (fun r => .ok (phi t r))) ∧
          (∀ d, AllReturn m.nrank (fun r => pmReadout m w (some d) r (lay r) (pos r) .none (field 0 r))
            (fun r => .ok (grad d r))) ∧
          HasDerivAt (fun t => 1 / 2 * ranksDot m.nrank (phi t) mass)
            (((List.range m.nrank).map fun r => ((List.range (pos r).length).map fun i => (mass r).getD i 0 *
              ((List.range m.nmesh.length).map fun d => ((v r).getD i []).getD d 0 * (grad d r).getD i 0).sum).sum).sum) 0 := by
  have hq : QuantOK m.nrank (fun r => (pos r).length) (fun r => .array (mass r)) := Or.inr (Or.inr fun r hr => ⟨_, rfl, hmass r hr⟩)
  have hvp : ∀ vp ∈ some v, ∀ r < m.nrank, (vp r).length = (pos r).length ∧ ∀ u ∈ vp r, u.length = m.nmesh.length := by
    intro vp h; cases h; exact hv
  obtain ⟨dens, jvp, hd, hj, hder⟩ := C72_paint m hm w hw hk pos hpos lay S hlay (some v) hvp (fun _ => hsm) _ hq none (by simp)
  choose rho hrho using fun t => exists_global hm (dens t)
  refine ⟨dens, rho, fun t => ⟨hd t, hrho t⟩, fun field hf => ?_⟩
  have hmq : ∀ t, ∀ r < m.nrank, (mass r).length = (movedPos m pos (some v) t r).length := by
    intro t r hr; rw [movedPos_length (some v) hvp]; exact hmass r hr
  have hl' : ∀ t, LayoutArg m.nrank (fun q => (movedPos m pos (some v) t q).length) lay S := by
    intro t; simp only [movedPos_length (some v) hvp]; exact hlay
  choose phi self hphi hself hdot using fun t => C25_readout_gradient m hm w hw none (movedPos m pos (some v) t)
    (movedPos_rows hpos (some v) hvp t) lay S (hl' t) (field t) mass (hmq t)
  have hnone : QuantOK m.nrank (fun r => (pos r).length) (fun _ => (.none : Quant ℝ)) := Or.inl fun _ _ => rfl
  choose grad hgrad hgl _ using fun d => pmReadout_return hm.dim hw (some d) hm.nrank_pos hlay hpos hnone (field 0)
  obtain ⟨cols, hcols, hceq⟩ := pmGradColumns_return hm hw hlay hpos hq (field 0) grad hgrad hgl
  obtain ⟨jvp', op, om, hj', hv', he⟩ := C25_paint m hm w hw pos hpos lay S hlay _ hq (some v)
    (fun vp h r hr => (hvp vp h r hr).1) none (by simp) (field 0)
  have hjj := AllReturn.unique_ok hj hj'
  have hself' : ∀ t, ∀ r < m.nrank, self t r = dens t r := by
    intro t
    refine AllReturn.unique_ok (hself t) (AllReturn.congr (fun r hr => ?_) (fun _ _ => rfl) (hd t))
    unfold movedPos
    rw [if_pos hr]
    rfl
  have hE : ∀ t, ranksDot m.nrank (phi t) mass = ((ndindex m.nmesh).map fun x =>
      c2r m.nmesh cshape (fun k => T k * r2c m.nmesh (rho t) k) x * rho t x).sum := by
    intro t
    rw [hdot t, fieldDot_global hm (hf t) fun r hr c hc => by rw [hself' t r hr]; exact hrho t r hr c hc]
  obtain ⟨rho', hrho'⟩ := exists_global hm jvp
  have hcell : ∀ x, ValidIndex m.nmesh x → HasDerivAt (fun t => rho t x) (rho' x) 0 := by
    intro x hx
    obtain ⟨r, hr, c, hc, rfl⟩ := exists_cell hm hx
    have := hder r hr c hc
    rw [hrho' r hr c hc] at this
    simpa only [fun t => hrho t r hr c hc] using this
  refine ⟨phi, grad, fun t => AllReturn.congr (fun r hr => ?_) (fun _ _ => rfl) (hphi t), hgrad, ?_⟩
  · unfold movedPos
    rw [if_pos hr]
    rfl
  · simp only [hE]
    refine (mesh_energy_hasDerivAt hs hm.dim (nmesh_pos' hm) T hT rho rho' hcell).congr_deriv ?_
    rw [← fieldDot_global hm (hf 0) hrho']
    have hsym : m.fieldDot (field 0) jvp = m.fieldDot jvp' (field 0) := by
      unfold PMesh.fieldDot
      apply sum_congr'
      intro r hr
      apply sum_congr'
      intro c _
      rw [hjj r (List.mem_range.1 hr), mul_comm]
    rw [hsym, he]
    simp only [Option.elim_some, Option.elim_none, add_zero]
    have hoc : ∀ r < m.nrank, op r = cols r := by
      obtain ⟨om', hom, _⟩ := pmReadout_return hm.dim hw none hm.nrank_pos hlay hpos hnone (field 0)
      have h2 : AllReturn m.nrank (fun r => pmPaintVjp m w r (lay r) (pos r) (.array (mass r)) (field 0 r))
          (fun r => .ok (cols r, om' r)) :=
        AllReturn.andThen hcols (AllReturn.andThen hom (AllReturn.ret m.nrank _))
      intro r hr
      exact congrArg Prod.fst (AllReturn.unique_ok (f := fun r => (op r, om r)) (g := fun r => (cols r, om' r)) hv' h2 r hr)
    unfold columnsDot
    apply sum_congr'
    intro r hr
    rw [List.mem_range] at hr
    simp only [← sum_cmul]
    rw [sum_comm' (List.range (pos r).length)]
    apply sum_congr'
    intro d hd
    rw [List.mem_range] at hd
    rw [hoc r hr, hceq r hr, getD_map_range _ _ _ _ hd, dot_range (n := (pos r).length) (by rw [column_length]; exact (hv r hr).1)
      (by simp)]
    apply sum_congr'
    intro i hi
    rw [List.mem_range] at hi
    rw [getD_map_range _ _ _ _ hi]
    have hi' : i < (v r).length := by rw [(hv r hr).1]; exact hi
    have hc : (column (v r) d).getD i 0 = ((v r).getD i []).getD d 0 := by
      unfold column
      rw [List.getD_eq_getElem _ _ (by simpa using hi'), List.getElem_map, List.getD_eq_getElem _ _ hi']
    rw [hc]
    show _ * (_ * (mass r).getD i 0) = _
    ring

end

/-- Non-vacuity: three particles on two ranks, cic window, the attraction `-1/k²`. -/
example := C79_energy_gradient exMeshR exMeshR_ok exWinR exWinR_valid C14_confined_linear _ exMeshR_rows _ _ .none
  (fun r => if r = 0 then [[1], [-2]] else [[5]]) (exMeshR_tangents _ rfl) exMeshR_smooth
  (fun r => if r = 0 then [1, 2] else [3]) (by intro r _; split_ifs <;> rfl) [5] (Or.inr rfl)
  (fun k => if k.getD 0 0 = 0 then 0 else ((-1 / (k.getD 0 0 : ℝ) ^ 2 : ℝ) : ℂ)) (fun k _ => by
    split_ifs
    · rfl
    · exact Complex.ofReal_im _)

#print axioms C79_energy_gradient

end Pmesh
