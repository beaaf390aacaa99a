import Verif.Lemmas.Force
import Verif.Spec.Abopt

/-!
# C71: forces from the mesh obey the third law

The particle-mesh force: `paint`, `r2c`, multiplication with a transfer function, `c2r`, `readout`, with the same window and the
same layouts for `paint` and `readout`.
-/

set_option linter.unusedSectionVars false

namespace Pmesh

section
variable (m : PMesh ℝ) (hm : m.OK) (w : Resampler ℝ) (hw : w.Valid) (cshape : List ℕ) (hs : StoredShape m.nmesh cshape)
  (T : List ℕ → ℂ)
  (posA : ℕ → List (List ℝ)) (hposA : ∀ r < m.nrank, ∀ x ∈ posA r, x.length = m.nmesh.length)
  (layA : ℕ → Option Lay) (SA : ℕ → ℕ → List ℕ) (hlayA : LayoutArg m.nrank (fun q => (posA q).length) layA SA)
  (massA : ℕ → List ℝ) (hmassA : ∀ r < m.nrank, (massA r).length = (posA r).length)
  (posB : ℕ → List (List ℝ)) (hposB : ∀ r < m.nrank, ∀ x ∈ posB r, x.length = m.nmesh.length)
  (layB : ℕ → Option Lay) (SB : ℕ → ℕ → List ℕ) (hlayB : LayoutArg m.nrank (fun q => (posB q).length) layB SB)
  (massB : ℕ → List ℝ) (hmassB : ∀ r < m.nrank, (massB r).length = (posB r).length)
include hm hw hs hposA hlayA hmassA hposB hlayB hmassB

/-- Both signs of the third law. -/
theorem mutual_forces (s : ℝ) (hT : ∀ k, ValidIndex cshape k → (starRingEnd ℂ) (T k) = s * T k) :
    ∃ (densA densB : ℕ → ℤ → ℝ) (rhoA rhoB : List ℕ → ℝ),
      AllReturn m.nrank (fun r => pmPaint m w none false r (layA r) (posA r) (.array (massA r)) .none fun _ => 0)
        (fun r => .ok (densA r)) ∧ m.HoldsField densA rhoA ∧
      AllReturn m.nrank (fun r => pmPaint m w none false r (layB r) (posB r) (.array (massB r)) .none fun _ => 0)
        (fun r => .ok (densB r)) ∧ m.HoldsField densB rhoB ∧
      ∀ fieldA fieldB : ℕ → ℤ → ℝ, m.HoldsField fieldA (c2r m.nmesh cshape fun k => T k * r2c m.nmesh rhoA k) →
        m.HoldsField fieldB (c2r m.nmesh cshape fun k => T k * r2c m.nmesh rhoB k) →
        ∃ onA onB : ℕ → List ℝ,
          AllReturn m.nrank (fun r => pmReadout m w none r (layA r) (posA r) .none (fieldB r)) (fun r => .ok (onA r)) ∧
          AllReturn m.nrank (fun r => pmReadout m w none r (layB r) (posB r) .none (fieldA r)) (fun r => .ok (onB r)) ∧
          ranksDot m.nrank onB massB = s * ranksDot m.nrank onA massA := by
  obtain ⟨_, densA, _, hA, _⟩ := C25_readout_gradient m hm w hw none posA hposA layA SA hlayA (fun _ _ => 0) massA hmassA
  obtain ⟨_, densB, _, hB, _⟩ := C25_readout_gradient m hm w hw none posB hposB layB SB hlayB (fun _ _ => 0) massB hmassB
  obtain ⟨rhoA, hrA⟩ := exists_global hm densA
  obtain ⟨rhoB, hrB⟩ := exists_global hm densB
  refine ⟨densA, densB, rhoA, rhoB, hA, hrA, hB, hrB, fun fieldA fieldB hfA hfB => ?_⟩
  obtain ⟨onA, dA, hA1, hA2, hA3⟩ := C25_readout_gradient m hm w hw none posA hposA layA SA hlayA fieldB massA hmassA
  obtain ⟨onB, dB, hB1, hB2, hB3⟩ := C25_readout_gradient m hm w hw none posB hposB layB SB hlayB fieldA massB hmassB
  have eA : ∀ r < m.nrank, dA r = densA r := AllReturn.unique_ok hA2 hA
  have eB : ∀ r < m.nrank, dB r = densB r := AllReturn.unique_ok hB2 hB
  refine ⟨onA, onB, hA1, hB1, ?_⟩
  have hpos : ∀ n ∈ m.nmesh, 0 < n := nmesh_pos' hm
  rw [hA3, hB3, fieldDot_global hm hfB (fun r hr c hc => by rw [eA r hr]; exact hrA r hr c hc),
    fieldDot_global hm hfA (fun r hr c hc => by rw [eB r hr]; exact hrB r hr c hc)]
  exact transfer_swap hs hm.dim hpos s T hT rhoA rhoB

/-- **C71**, the third law: for any two sets of particles, on any number of ranks, distributed over the ranks in any way, painted
and read with any window and any layouts, and for any transfer function with imaginary values (such as `-i k_d / k²`), the sum of
mass times force over the particles of `B` due to those of `A` is the opposite of the sum over those of `A` due to those of `B`.
No condition on the transfer function at the Nyquist frequency is needed. -/
theorem C71_third_law (hT : ∀ k, ValidIndex cshape k → (T k).re = 0) :
    ∃ (densA densB : ℕ → ℤ → ℝ) (rhoA rhoB : List ℕ → ℝ),
      AllReturn m.nrank (fun r => pmPaint m w none false r (layA r) (posA r) (.array (massA r)) .none fun _ => 0)
        (fun r => .ok (densA r)) ∧ m.HoldsField densA rhoA ∧
      AllReturn m.nrank (fun r => pmPaint m w none false r (layB r) (posB r) (.array (massB r)) .none fun _ => 0)
        (fun r => .ok (densB r)) ∧ m.HoldsField densB rhoB ∧
      ∀ fieldA fieldB : ℕ → ℤ → ℝ, m.HoldsField fieldA (c2r m.nmesh cshape fun k => T k * r2c m.nmesh rhoA k) →
        m.HoldsField fieldB (c2r m.nmesh cshape fun k => T k * r2c m.nmesh rhoB k) →
        ∃ onA onB : ℕ → List ℝ,
          AllReturn m.nrank (fun r => pmReadout m w none r (layA r) (posA r) .none (fieldB r)) (fun r => .ok (onA r)) ∧
          AllReturn m.nrank (fun r => pmReadout m w none r (layB r) (posB r) .none (fieldA r)) (fun r => .ok (onB r)) ∧
          ranksDot m.nrank onB massB = -ranksDot m.nrank onA massA := by
  have := mutual_forces m hm w hw cshape hs T posA hposA layA SA hlayA massA hmassA posB hposB layB SB hlayB massB hmassB (-1)
    (fun k hk => by apply Complex.ext <;> simp [hT k hk])
  simpa only [neg_one_mul] using this

/-- **C71**, reciprocity: for a transfer function with real values (such as `-1/k²`) the energy of the particles of `B` in the
potential of `A` is that of the particles of `A` in the potential of `B`. -/
theorem C71_reciprocity (hT : ∀ k, ValidIndex cshape k → (T k).im = 0) :
    ∃ (densA densB : ℕ → ℤ → ℝ) (rhoA rhoB : List ℕ → ℝ),
      AllReturn m.nrank (fun r => pmPaint m w none false r (layA r) (posA r) (.array (massA r)) .none fun _ => 0)
        (fun r => .ok (densA r)) ∧ m.HoldsField densA rhoA ∧
      AllReturn m.nrank (fun r => pmPaint m w none false r (layB r) (posB r) (.array (massB r)) .none fun _ => 0)
        (fun r => .ok (densB r)) ∧ m.HoldsField densB rhoB ∧
      ∀ fieldA fieldB : ℕ → ℤ → ℝ, m.HoldsField fieldA (c2r m.nmesh cshape fun k => T k * r2c m.nmesh rhoA k) →
        m.HoldsField fieldB (c2r m.nmesh cshape fun k => T k * r2c m.nmesh rhoB k) →
        ∃ atA atB : ℕ → List ℝ,
          AllReturn m.nrank (fun r => pmReadout m w none r (layA r) (posA r) .none (fieldB r)) (fun r => .ok (atA r)) ∧
          AllReturn m.nrank (fun r => pmReadout m w none r (layB r) (posB r) .none (fieldA r)) (fun r => .ok (atB r)) ∧
          ranksDot m.nrank atB massB = ranksDot m.nrank atA massA := by
  have := mutual_forces m hm w hw cshape hs T posA hposA layA SA hlayA massA hmassA posB hposB layB SB hlayB massB hmassB 1
    (fun k hk => by apply Complex.ext <;> simp [hT k hk])
  simpa only [one_mul] using this

end

section
variable (m : PMesh ℝ) (hm : m.OK) (w : Resampler ℝ) (hw : w.Valid) (cshape : List ℕ) (hs : StoredShape m.nmesh cshape)
  (T : List ℕ → ℂ)
  (pos : ℕ → List (List ℝ)) (hpos : ∀ r < m.nrank, ∀ x ∈ pos r, x.length = m.nmesh.length)
  (lay : ℕ → Option Lay) (S : ℕ → ℕ → List ℕ) (hlay : LayoutArg m.nrank (fun q => (pos q).length) lay S)
  (mass : ℕ → List ℝ) (hmass : ∀ r < m.nrank, (mass r).length = (pos r).length)
include hm hw hs hpos hlay hmass

/-- **C71**, momentum: the forces of particles on themselves add up to nothing: the sum over all particles on all ranks of mass
times force is zero. -/
theorem C71_momentum (hT : ∀ k, ValidIndex cshape k → (T k).re = 0) :
    ∃ (dens : ℕ → ℤ → ℝ) (rho : List ℕ → ℝ),
      AllReturn m.nrank (fun r => pmPaint m w none false r (lay r) (pos r) (.array (mass r)) .none fun _ => 0)
        (fun r => .ok (dens r)) ∧ m.HoldsField dens rho ∧
      ∀ field : ℕ → ℤ → ℝ, m.HoldsField field (c2r m.nmesh cshape fun k => T k * r2c m.nmesh rho k) →
        ∃ force : ℕ → List ℝ,
          AllReturn m.nrank (fun r => pmReadout m w none r (lay r) (pos r) .none (field r)) (fun r => .ok (force r)) ∧
          ranksDot m.nrank force mass = 0 := by
  obtain ⟨_, dens, _, hA, _⟩ := C25_readout_gradient m hm w hw none pos hpos lay S hlay (fun _ _ => 0) mass hmass
  obtain ⟨rho, hr⟩ := exists_global hm dens
  refine ⟨dens, rho, hA, hr, fun field hf => ?_⟩
  obtain ⟨force, d, h1, h2, h3⟩ := C25_readout_gradient m hm w hw none pos hpos lay S hlay field mass hmass
  refine ⟨force, h1, ?_⟩
  rw [h3, fieldDot_global hm hf (fun r hr' c hc => by rw [AllReturn.unique_ok h2 hA r hr']; exact hr r hr' c hc)]
  have := transfer_swap hs hm.dim (nmesh_pos' hm) (-1) T (fun k hk => by apply Complex.ext <;> simp [hT k hk]) rho rho
  linarith

/-- **C71**, no force of a particle on itself: a single particle does not feel the field that it makes. -/
theorem C71_no_self_force (hT : ∀ k, ValidIndex cshape k → (T k).re = 0) (q : ℕ) (hq : q < m.nrank) (x : List ℝ) (mu : ℝ)
    (hmu : mu ≠ 0) (hx : ∀ r < m.nrank, pos r = if r = q then [x] else []) (hm1 : ∀ r < m.nrank, mass r = if r = q then [mu] else []) :
    ∃ (dens : ℕ → ℤ → ℝ) (rho : List ℕ → ℝ),
      AllReturn m.nrank (fun r => pmPaint m w none false r (lay r) (pos r) (.array (mass r)) .none fun _ => 0)
        (fun r => .ok (dens r)) ∧ m.HoldsField dens rho ∧
      ∀ field : ℕ → ℤ → ℝ, m.HoldsField field (c2r m.nmesh cshape fun k => T k * r2c m.nmesh rho k) →
        AllReturn m.nrank (fun r => pmReadout m w none r (lay r) (pos r) .none (field r))
          (fun r => .ok (if r = q then [0] else [])) := by
  obtain ⟨dens, rho, h1, h2, h3⟩ := C71_momentum m hm w hw cshape hs T pos hpos lay S hlay mass hmass hT
  refine ⟨dens, rho, h1, h2, fun field hf => ?_⟩
  obtain ⟨force, h4, h5⟩ := h3 field hf
  have hn := hm.nrank_pos
  have hnone : QuantOK m.nrank (fun r => (pos r).length) (fun _ => (.none : Quant ℝ)) := Or.inl fun _ _ => rfl
  obtain ⟨om, hom, homl, _⟩ := pmReadout_return hm.dim hw none hn hlay hpos hnone field
  have hfl : ∀ r < m.nrank, (force r).length = (pos r).length := fun r hr => by
    rw [AllReturn.unique_ok h4 hom r hr]; exact homl r hr
  refine AllReturn.congr (fun _ _ => rfl) (fun r hr => ?_) h4
  have hl := hfl r hr
  rw [hx r hr] at hl
  congr 1
  by_cases e : r = q
  · rw [if_pos e] at hl ⊢
    subst e
    obtain ⟨a, ha⟩ := List.length_eq_one_iff.1 hl
    rw [ha]
    have h6 : ranksDot m.nrank force mass = a * mu := by
      unfold ranksDot
      rw [show ((List.range m.nrank).map fun q => dot (force q) (mass q)) =
        (List.range m.nrank).map fun q => if q = r then a * mu else 0 from List.map_congr_left fun q hq => ?_]
      · rw [List.sum_map_ite_eq]
        simp [List.count_eq_one_of_mem List.nodup_range (List.mem_range.2 hr)]
      · rw [List.mem_range] at hq
        by_cases e : q = r
        · subst e
          rw [if_pos rfl, ha, hm1 q hq, if_pos rfl]
          simp [dot]
        · rw [if_neg e, hm1 q hq, if_neg e]
          simp [dot]
    rw [h6] at h5
    rw [(mul_eq_zero.1 h5).resolve_right hmu]
  · rw [if_neg e] at hl ⊢
    exact (List.length_eq_zero_iff.1 hl).symm

/-- **C71**, sign of the energy: for a transfer function with values that are real and not negative, the energy of the particles in
their own potential is not negative. -/
theorem C71_energy (hT : ∀ k, ValidIndex cshape k → (T k).im = 0 ∧ 0 ≤ (T k).re) :
    ∃ (dens : ℕ → ℤ → ℝ) (rho : List ℕ → ℝ),
      AllReturn m.nrank (fun r => pmPaint m w none false r (lay r) (pos r) (.array (mass r)) .none fun _ => 0)
        (fun r => .ok (dens r)) ∧ m.HoldsField dens rho ∧
      ∀ field : ℕ → ℤ → ℝ, m.HoldsField field (c2r m.nmesh cshape fun k => T k * r2c m.nmesh rho k) →
        ∃ phi : ℕ → List ℝ,
          AllReturn m.nrank (fun r => pmReadout m w none r (lay r) (pos r) .none (field r)) (fun r => .ok (phi r)) ∧
          0 ≤ ranksDot m.nrank phi mass := by
  obtain ⟨_, dens, _, hA, _⟩ := C25_readout_gradient m hm w hw none pos hpos lay S hlay (fun _ _ => 0) mass hmass
  obtain ⟨rho, hr⟩ := exists_global hm dens
  refine ⟨dens, rho, hA, hr, fun field hf => ?_⟩
  obtain ⟨phi, d, h1, h2, h3⟩ := C25_readout_gradient m hm w hw none pos hpos lay S hlay field mass hmass
  refine ⟨phi, h1, ?_⟩
  rw [h3, fieldDot_global hm hf (fun r hr' c hc => by rw [AllReturn.unique_ok h2 hA r hr']; exact hr r hr' c hc)]
  exact transfer_nonneg hs hm.dim (nmesh_pos' hm) T hT rho

end

/-! ## Examples -/

/-- Two ranks. -/
noncomputable def exMeshR : PMesh ℝ := ⟨[8], [8], [[0, 4, 8]], 2, fun r => [r], fun _ => [1], fun _ => 77⟩

theorem exMeshR_ok : exMeshR.OK where
  dim := by simp [exMeshR]
  box_len := rfl
  box_pos := by simp [exMeshR]
  edges := exMesh_ok.edges
  ranks := exMesh_ok.ranks
  coord_valid := exMesh_ok.coord_valid
  coord_inj := exMesh_ok.coord_inj
  distinct := exMesh_ok.distinct

noncomputable def exWinR : Resampler ℝ := ⟨linearK, some .cic, 2⟩

theorem exWinR_valid : exWinR.Valid := ⟨by simp [exWinR, linearK], by intro t ht; cases ht; rfl⟩

/-- The transfer function of a gravitational force along the first axis, `-i k_0 / k²`. -/
noncomputable def exGravity (k : List ℕ) : ℂ :=
  -Complex.I * (((waveVector Real.pi [8] [8] k).getD 0 0 / ((waveVector Real.pi [8] [8] k).map (· ^ 2)).sum : ℝ) : ℂ)

/-- Non-vacuity: two ranks, compressed storage, no layout, two particles on one rank and one on the other. -/
example := C71_third_law exMeshR exMeshR_ok exWinR exWinR_valid [5] (Or.inr rfl) exGravity
  (fun r => if r = 0 then [[1 / 2], [7 / 3]] else [[9 / 2]]) (by intro r _ x hx; split_ifs at hx <;> simp at hx <;> aesop) _ _ .none
  (fun r => if r = 0 then [1, 2] else [3]) (by intro r _; split_ifs <;> rfl)
  (fun r => if r = 0 then [[1 / 3]] else []) (by intro r _ x hx; split_ifs at hx <;> simp at hx <;> aesop) _ _ .none
  (fun r => if r = 0 then [5] else []) (by intro r _; split_ifs <;> rfl) (fun k _ => by simp [exGravity])

example := C71_momentum exMeshR exMeshR_ok exWinR exWinR_valid [5] (Or.inr rfl) exGravity
  (fun r => if r = 0 then [[1 / 2], [7 / 3]] else [[9 / 2]]) (by intro r _ x hx; split_ifs at hx <;> simp at hx <;> aesop) _ _ .none
  (fun r => if r = 0 then [1, 2] else [3]) (by intro r _; split_ifs <;> rfl) (fun k _ => by simp [exGravity])

example := C71_no_self_force exMeshR exMeshR_ok exWinR exWinR_valid [5] (Or.inr rfl) exGravity
  (fun r => if r = 1 then [[9 / 2]] else []) (by intro r _ x hx; split_ifs at hx <;> simp at hx <;> aesop) _ _ .none
  (fun r => if r = 1 then [3] else []) (by intro r _; split_ifs <;> rfl) (fun k _ => by simp [exGravity]) 1 (by decide) [9 / 2] 3
  (by norm_num) (fun _ _ => rfl) (fun _ _ => rfl)

example := C71_reciprocity exMeshR exMeshR_ok exWinR exWinR_valid [8] (Or.inl rfl) (fun k => ((k.getD 0 0 : ℕ) : ℂ))
  (fun r => if r = 0 then [[1 / 2], [7 / 3]] else [[9 / 2]]) (by intro r _ x hx; split_ifs at hx <;> simp at hx <;> aesop) _ _ .none
  (fun r => if r = 0 then [1, 2] else [3]) (by intro r _; split_ifs <;> rfl)
  (fun r => if r = 0 then [[1 / 3]] else []) (by intro r _ x hx; split_ifs at hx <;> simp at hx <;> aesop) _ _ .none
  (fun r => if r = 0 then [5] else []) (by intro r _; split_ifs <;> rfl) (fun k _ => by simp)

example := C71_energy exMeshR exMeshR_ok exWinR exWinR_valid [8] (Or.inl rfl) (fun k => ((k.getD 0 0 : ℕ) : ℂ))
  (fun r => if r = 0 then [[1 / 2], [7 / 3]] else [[9 / 2]]) (by intro r _ x hx; split_ifs at hx <;> simp at hx <;> aesop) _ _ .none
  (fun r => if r = 0 then [1, 2] else [3]) (by intro r _; split_ifs <;> rfl) (fun k _ => by simp)

#print axioms C71_third_law
#print axioms C71_reciprocity
#print axioms C71_momentum
#print axioms C71_no_self_force
#print axioms C71_energy

end Pmesh
