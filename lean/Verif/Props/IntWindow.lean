import Verif.Lemmas.IntWindow
import Verif.Props.Mesh
import Mathlib.Data.Rat.Floor
import Verif.Model.Mesh
import Mathlib.Tactic.NormNum

/-! # C109: painting with the `int` of C -/

namespace Pmesh

section
variable {K : Type} [Field K] [LinearOrder K] [IsStrictOrderedRing K] [FloorRing K]

theorem writesC_eq {P : Painter K} {p : Particle K} (h : IntsFit P p) (m : K) :
    paintWritesC P p.pos m p.hsml = paintWrites P p.pos m p.hsml ∧ readoutReadsC P p.pos p.hsml = readoutReads P p.pos p.hsml := by
  have hS : (windowInfo P.kern.native (P.support * p.hsml)).support ≤ 2147483647 := by
    have hpos := windowInfo_pos h.native (support := (P.support : K) * p.hsml)
    refine le_trans ?_ h.points
    exact Nat.le_self_pow (List.length_pos_iff.2 h.axes).ne' _
  unfold paintWritesC paintWrites readoutReadsC readoutReads
  rw [windowInfoC_eq hS h.points]
  simp only [Option.bind_eq_bind, Option.bind_some]
  cases hf : fastMethod P (windowInfo P.kern.native (P.support * p.hsml)) with
  | none =>
    simp only
    rw [genericAccessC_eq h.native h.axes h.dims h.cells]
    exact ⟨rfl, rfl⟩
  | some t =>
    have hk : P.tuned = some t ∧ (windowInfo P.kern.native (P.support * p.hsml)).support = (Tuned.kern t : Kern K).native := by
      unfold fastMethod at hf
      cases ht : P.tuned with
      | none => rw [ht] at hf; simp at hf
      | some u =>
        rw [ht] at hf
        simp only at hf
        split_ifs at hf with h1 h2 h3 h4
        · cases hf
          push Not at h3
          exact ⟨rfl, h3⟩
    have hc := tunedCellsC_eq (t := t) (axes := P.axes) (pos := p.pos) fun a ha => by
      have := h.cells a ha
      rw [hk.2] at this
      exact this
    simp only
    unfold tunedWritesC tunedReadsC
    rw [hc]
    exact ⟨rfl, rfl⟩

/-- **C109** (partial: positions and windows within the range of `int`).  Whatever the window, the mesh, the masses and the content of the array: as long as the windows
of all particles stay away from the limits of `int`, no integer of the code overflows, and `paint` and `readout` do what they do with unbounded integers. -/
theorem C109_int_partial (P : Painter K) (mem : ℤ → K) (ps : List (Particle K)) (h : ∀ p ∈ ps, IntsFit P p) :
    paintC P mem ps = paint P mem ps ∧ readoutC P mem ps = readout P mem ps := by
  constructor
  · unfold paintC paint
    induction ps generalizing mem with
    | nil => rfl
    | cons p ps ih =>
      rw [List.foldlM_cons, List.foldlM_cons]
      have e : (paintWritesC P p.pos p.mass p.hsml).map (fun ws => ws.foldl (fun mem a => memAdd mem a.1 a.2) mem) = paintOne P mem p.pos p.mass p.hsml := by
        unfold paintOne
        rw [(writesC_eq (h p (by simp)) p.mass).1]
      rw [e]
      exact bind_congr fun mem' => ih mem' fun q hq => h q (by simp [hq])
  · unfold readoutC readout
    induction ps with
    | nil => rfl
    | cons p ps ih =>
      rw [List.mapM_cons, List.mapM_cons, ih fun q hq => h q (by simp [hq])]
      have e : (readoutReadsC P p.pos p.hsml).map (fun rs => rs.foldl (fun value a => value + a.2 * mem a.1) 0) = readoutOne P mem p.pos p.hsml := by
        unfold readoutOne
        rw [(writesC_eq (h p (by simp)) p.mass).2]
      rw [e]

/-- **C109** on a mesh (partial: as above).  Particles may be as far as `B` boxes away from the origin, in any direction, if `B + 1` times the number of cells along each
axis is below `2^31` by the size of the window; then nothing overflows on any rank. -/
theorem C109_mesh_partial (m : PMesh K) (w : Resampler K) (gradient : Option ℕ) (r : ℕ) (hne : m.nmesh ≠ []) (hk : 0 < w.kern.native) {B : ℕ}
    (mem : ℤ → K) (ps : List (Particle K)) (hbox : ∀ d < m.nmesh.length, 0 < m.box.getD d 0) (hlen : m.box.length = m.nmesh.length)
    (hstart : ∀ d < m.nmesh.length, (m.start r).getD d 0 ≤ m.nmesh.getD d 0)
    (hdim : ∀ p ∈ ps, p.pos.length = m.nmesh.length) (hpos : ∀ p ∈ ps, ∀ d < m.nmesh.length, |p.pos.getD d 0| ≤ B * m.box.getD d 0)
    (hcells : ∀ p ∈ ps, ∀ d < m.nmesh.length,
      (B + 1) * m.nmesh.getD d 0 + (windowInfo w.kern.native (w.support * p.hsml)).support + 2 ≤ 2147483647)
    (hpoints : ∀ p ∈ ps, (windowInfo w.kern.native (w.support * p.hsml)).support ^ m.nmesh.length ≤ 2147483647) :
    paintC (m.painter w gradient r) mem ps = paint (m.painter w gradient r) mem ps ∧
    readoutC (m.painter w gradient r) mem ps = readout (m.painter w gradient r) mem ps := by
  apply C109_int_partial
  intro p hp
  have hl : (m.painter w gradient r).axes.length = m.nmesh.length := by simp [PMesh.painter]
  refine ⟨?_, hk, ?_, ?_, ?_⟩
  · intro e
    rw [e] at hl
    exact hne (List.length_eq_zero_iff.1 hl.symm)
  · rw [hl]; exact hdim p hp
  · rw [hl]; exact hpoints p hp
  · intro a ha
    obtain ⟨d, hd, rfl⟩ := List.getElem_of_mem ha
    simp only [List.length_zip, hl, hdim p hp, min_self] at hd
    have hc := hcells p hp d hd
    have hx := hpos p hp d hd
    have hb := hbox d hd
    have hs := hstart d hd
    have hdp : d < p.pos.length := by rw [hdim p hp]; exact hd
    rw [List.getD_eq_getElem _ _ hdp] at hx
    simp only [List.getElem_zip]
    have hax : (m.painter w gradient r).axes[d]'(by omega) = ⟨if gradient = some d then 1 else 0, m.scale.getD d 0, -(((m.start r).getD d 0 : ℕ) : K),
        m.nmesh.getD d 0, (m.localShape r).getD d 0, (m.strides r).getD d 0⟩ := by
      simp [PMesh.painter]
    rw [hax]
    refine ⟨?_, ?_⟩
    · simp only
      have : m.nmesh.getD d 0 ≤ (B + 1) * m.nmesh.getD d 0 := Nat.le_mul_of_pos_left _ (by omega)
      omega
    · unfold PAxis.grid
      simp only
      have hsc : m.scale.getD d 0 = (m.nmesh.getD d 0 : K) / m.box.getD d 0 := by
        have hd2 : d < m.box.length := by omega
        unfold PMesh.scale
        rw [List.getD_eq_getElem _ _ (by simp; omega), List.getElem_zipWith, List.getD_eq_getElem _ _ hd, List.getD_eq_getElem _ _ hd2]
      rw [hsc]
      have h1 : |p.pos[d] * ((m.nmesh.getD d 0 : K) / m.box.getD d 0)| ≤ B * (m.nmesh.getD d 0 : K) := by
        rw [abs_mul, abs_of_nonneg (div_nonneg (Nat.cast_nonneg _) hb.le)]
        calc |p.pos[d]| * ((m.nmesh.getD d 0 : K) / m.box.getD d 0) ≤ (B * m.box.getD d 0) * ((m.nmesh.getD d 0 : K) / m.box.getD d 0) :=
              mul_le_mul_of_nonneg_right hx (div_nonneg (Nat.cast_nonneg _) hb.le)
          _ = _ := by field_simp
      have h2 : |p.pos[d] * ((m.nmesh.getD d 0 : K) / m.box.getD d 0) + -(((m.start r).getD d 0 : ℕ) : K)| ≤
          B * (m.nmesh.getD d 0 : K) + m.nmesh.getD d 0 := by
        refine (abs_add_le _ _).trans (add_le_add h1 ?_)
        rw [abs_neg, Nat.abs_cast]
        exact_mod_cast hs
      have h3 : (((B + 1) * m.nmesh.getD d 0 + (windowInfo w.kern.native (w.support * p.hsml)).support + 2 : ℕ) : K) ≤ ((2147483647 : ℕ) : K) := by
        exact_mod_cast hc
      push_cast at h3
      have h4 : ((m.painter w gradient r).support : K) = (w.support : K) := rfl
      have h5 : (m.painter w gradient r).kern = w.kern := rfl
      rw [h4, h5]
      linarith

/-- **C109 violated** far away: a particle that is `2^31` cells and the size of its window away from the mesh along some axis makes an integer overflow, whatever the
window; the C standard allows anything then. -/
theorem C109_violated_far (P : Painter K) (p : Particle K) (m : K) {a : PAxis K × K} (ha : a ∈ P.axes.zip p.pos)
    (h : 2147483648 + (windowInfo P.kern.native (P.support * p.hsml)).support + 3 ≤ |a.1.grid a.2|) :
    paintWritesC P p.pos m p.hsml = none ∧ readoutReadsC P p.pos p.hsml = none := by
  have hw : ∀ {w' : Win K}, windowInfoC P.axes.length P.kern.native (P.support * p.hsml) = some w' → w' = windowInfo P.kern.native (P.support * p.hsml) := by
    intro w' e
    by_cases hp : 2147483647 < (windowInfo P.kern.native (P.support * p.hsml)).support ^ P.axes.length
    · rw [windowInfoC_none hp] at e; cases e
    · have hpos : P.axes.length ≠ 0 := by
        intro h0
        rw [List.length_eq_zero_iff.1 h0] at ha
        simp at ha
      rw [windowInfoC_eq ((Nat.le_self_pow hpos _).trans (by omega)) (by omega)] at e
      cases e
      rfl
  unfold paintWritesC readoutReadsC
  cases hC : windowInfoC P.axes.length P.kern.native (P.support * p.hsml) with
  | none => exact ⟨rfl, rfl⟩
  | some w' =>
    have e := hw hC
    subst e
    simp only [Option.bind_eq_bind, Option.bind_some]
    cases hf : fastMethod P (windowInfo P.kern.native (P.support * p.hsml)) with
    | none =>
      have hg : genericAccessC P.kern (windowInfo P.kern.native (P.support * p.hsml)) P.axes p.pos = none := by
        unfold genericAccessC
        rw [mapM_none (f := fun a : PAxis K × K => fillAxisC P.kern (windowInfo P.kern.native (P.support * p.hsml)) a.1 a.2) ha
          (fillAxisC_none (ax := a.1) (x := a.2) h)]
        rfl
      simp only [hg, Option.bind_none, and_self, Option.map_none]
    | some t =>
      have hc : tunedCellsC t P.axes p.pos = none := by
        unfold tunedCellsC
        have h' : 2147483648 + 2 ≤ |a.1.grid a.2| := by
          have : (0 : K) ≤ ((windowInfo P.kern.native (P.support * p.hsml)).support : K) := Nat.cast_nonneg _
          linarith
        exact mapM_none ha (by rw [tunedIntsC_none h']; rfl)
      simp only
      unfold tunedWritesC tunedReadsC
      rw [hc]
      exact ⟨rfl, rfl⟩

/-- **C109 violated** by large windows: if the window covers `2^31` cells or more, the number of points, which is not used for anything, overflows. -/
theorem C109_violated_points (P : Painter K) (p : Particle K) (m : K)
    (h : 2147483647 < (windowInfo P.kern.native (P.support * p.hsml)).support ^ P.axes.length) :
    paintWritesC P p.pos m p.hsml = none ∧ readoutReadsC P p.pos p.hsml = none := by
  unfold paintWritesC readoutReadsC
  rw [windowInfoC_none h]
  exact ⟨rfl, rfl⟩

/-- Not vacuous: a mesh of 4 cells on a box of length 8, particles up to ten boxes away. -/
example : ∃ p : Painter ℚ, ∃ q : Particle ℚ, IntsFit p q ∧ q.pos = [77] ∧ p.tuned = some .cic := by
  refine ⟨⟨Tuned.kern .cic, some .cic, 0, [⟨0, 1 / 2, -2, 4, 2, 1⟩]⟩, ⟨[77], 1, 1⟩, ⟨by simp, by simp [Tuned.kern, linearK], rfl, ?_, ?_⟩, rfl, rfl⟩
  · simp [Tuned.kern, linearK, windowInfo]
  · intro a ha
    simp only [List.zip_cons_cons, List.zip_nil_right, List.mem_singleton] at ha
    subst ha
    refine ⟨by norm_num, ?_⟩
    simp only [PAxis.grid, Tuned.kern, linearK, windowInfo]
    norm_num [abs_of_pos]

example := C109_mesh_partial exMesh exWin none 0 (by decide) (by decide) (B := 1000) (fun _ => 0) [⟨[-3999], 1, 1⟩]
  (by decide +kernel) (by decide) (by decide) (by decide) (by decide +kernel) (by decide +kernel) (by decide +kernel)

/-- The hypotheses of the violations are met: a particle `2^31 + 7` cells away, and a window of 1291 cells in three dimensions. -/
example : paintWritesC (exMesh.painter exWin none 0) [2147483655] 1 1 = none ∧ readoutReadsC (exMesh.painter exWin none 0) [2147483655] 1 = none :=
  C109_violated_far (exMesh.painter exWin none 0) ⟨[2147483655], 1, 1⟩ 1 (a := ((exMesh.painter exWin none 0).axes.getD 0 ⟨0, 0, 0, 0, 0, 0⟩, 2147483655))
    (by simp [PMesh.painter, exMesh]) (by decide +kernel)

example : paintWritesC (⟨Tuned.kern .cic, some .cic, 2, List.replicate 3 ⟨0, 1, 0, 2048, 2048, 1⟩⟩ : Painter ℚ) [5, 6, 7] 1 (1291 / 2) = none :=
  (C109_violated_points _ ⟨[5, 6, 7], 1, 1291 / 2⟩ 1 (by decide +kernel)).1

#print axioms C109_int_partial
#print axioms C109_mesh_partial
#print axioms C109_violated_far
#print axioms C109_violated_points

end
end Pmesh
