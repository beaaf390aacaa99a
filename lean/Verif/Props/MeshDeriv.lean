import Verif.Lemmas.MeshAdjoint
import Verif.Props.Mesh

/-!
# C25: `paint_jvp`/`paint_vjp` and `readout_jvp`/`readout_vjp` are adjoint

For any consistent layout (not only the one made by `decompose`) or no layout, on any number of ranks.
-/

namespace Pmesh

section
variable {K : Type} [Field K] [LinearOrder K] [IsStrictOrderedRing K] [FloorRing K]

/-- **C25**, paint: `⟨paint_jvp(v_pos, v_mass), v⟩ = ⟨v_pos, out_pos⟩ + ⟨v_mass, out_mass⟩`, where `out_pos` and `out_mass`
are returned by `paint_vjp(v)`.  Either tangent may be left out. -/
theorem C25_paint (m : PMesh K) (hm : m.OK) (w : Resampler K) (hw : w.Valid) (pos : ℕ → List (List K))
    (hpos : ∀ r < m.nrank, ∀ x ∈ pos r, x.length = m.nmesh.length) (lay : ℕ → Option Lay) (S : ℕ → ℕ → List ℕ)
    (hlay : LayoutArg m.nrank (fun q => (pos q).length) lay S) (mass : ℕ → Quant K)
    (hmass : QuantOK m.nrank (fun r => (pos r).length) mass)
    (vpos : Option (ℕ → List (List K))) (hvpos : ∀ vp ∈ vpos, ∀ r < m.nrank, (vp r).length = (pos r).length)
    (vmass : Option (ℕ → List K)) (hvmass : ∀ vm ∈ vmass, ∀ r < m.nrank, (vm r).length = (pos r).length)
    (v : ℕ → ℤ → K) :
    ∃ (jvp : ℕ → ℤ → K) (outpos : ℕ → List (List K)) (outmass : ℕ → List K),
      AllReturn m.nrank (fun r => pmPaintJvp m w r (lay r) (pos r) (mass r) (vpos.map (· r)) (vmass.map (· r)))
        (fun r => .ok (jvp r)) ∧
      AllReturn m.nrank (fun r => pmPaintVjp m w r (lay r) (pos r) (mass r) (v r))
        (fun r => .ok (outpos r, outmass r)) ∧
      m.fieldDot jvp v = vpos.elim 0 (fun vp => columnsDot m.nrank m.nmesh.length vp outpos) +
        vmass.elim 0 (fun vm => ranksDot m.nrank vm outmass) := by
  have hn := hm.nrank_pos
  have hnone : QuantOK m.nrank (fun r => (pos r).length) (fun _ => (.none : Quant K)) := Or.inl fun _ _ => rfl
  have hread := fun g => pmReadout_return hm.dim hw g hn hlay hpos hnone v
  choose res hres hrl hent using fun d => hread (some d)
  obtain ⟨om, hom, homl, homent⟩ := hread none
  obtain ⟨cols, hcols, hceq⟩ := pmGradColumns_return hm hw hlay hpos hmass v res hres hrl
  -- first part of the jvp
  have hfirst : ∃ s : ℕ → ℤ → K, AllReturn m.nrank (fun r => match vpos.map (· r) with
      | none => .ret (.ok fun _ => 0)
      | some vpos => forProg (fun d out =>
          match mulQuant (column vpos d) (mass r) with
          | none => .ret (.error .value)
          | some a => pmPaint m w (some d) true r (lay r) (pos r) (.array a) .none out)
          (List.range m.nmesh.length) fun _ => 0) (fun r => (.ok (s r) : Except MeshErr (ℤ → K))) ∧
      m.fieldDot s v = vpos.elim 0 (fun vp => columnsDot m.nrank m.nmesh.length vp cols) := by
    cases vpos with
    | none => exact ⟨fun _ _ => 0, AllReturn.ret m.nrank _, by rw [fieldDot_zero]; rfl⟩
    | some vp =>
      have hvp := hvpos vp rfl
      obtain ⟨s, h1, h2⟩ := AllReturn.forProg (n := m.nrank) (body := fun r d out =>
          match mulQuant (column (vp r) d) (mass r) with
          | none => .ret (.error .value)
          | some a => pmPaint m w (some d) true r (lay r) (pos r) (.array a) .none out)
        (fun done s => m.fieldDot s v = (done.map fun d => ((List.range m.nrank).map fun q =>
          ((List.range (pos q).length).map fun i =>
            (column (vp q) d).getD i 0 * (mass q).at i * (res d q).getD i 0).sum).sum).sum)
        (by
          intro done d s hs
          set A : ℕ → List K := fun q => (List.range (pos q).length).map fun i =>
            (column (vp q) d).getD i 0 * (mass q).at i with hA
          have hAq : QuantOK m.nrank (fun r => (pos r).length) (fun q => Quant.array (A q)) :=
            Or.inr (Or.inr fun r _ => ⟨_, rfl, by simp [hA]⟩)
          refine ⟨_, AllReturn.congr (fun r hr => ?_) (fun _ _ => rfl)
            (pmPaint_return hm.dim hw (some d) true hn hlay hpos hAq hnone s), ?_⟩
          · rw [mulQuant_eq hmass hr (by rw [column_length]; exact hvp r hr)]
          · simp only [if_true]
            rw [fieldDot_add, hs, adjoint_core hm w (some d) hlay _ _ v (res d) (hent d), List.map_append, List.sum_append]
            congr 1
            simp only [List.map_cons, List.map_nil, List.sum_cons, List.sum_nil, add_zero]
            apply sum_congr_mem
            intro q _
            apply sum_congr_mem
            intro i hi
            rw [List.mem_range] at hi
            simp only [Quant.at, hA]
            rw [getD_map_range _ _ _ _ hi])
        (List.range m.nmesh.length) [] (fun _ _ => 0) (by rw [fieldDot_zero]; rfl)
      refine ⟨s, h1, ?_⟩
      rw [h2, List.nil_append, Option.elim_some]
      unfold columnsDot
      rw [sum_comm']
      apply sum_congr_mem
      intro q hq
      rw [List.mem_range] at hq
      apply sum_congr_mem
      intro d hd
      rw [List.mem_range] at hd
      rw [hceq q hq, getD_map_range _ _ _ _ hd, dot_range (n := (pos q).length) (by rw [column_length]; exact hvp q hq)
        (by simp)]
      apply sum_congr_mem
      intro i hi
      rw [List.mem_range] at hi
      rw [getD_map_range _ _ _ _ hi]
      ring
  obtain ⟨s, hs1, hs2⟩ := hfirst
  have hsecond : ∃ jvp : ℕ → ℤ → K, AllReturn m.nrank (fun r => match vmass.map (· r) with
      | none => .ret (.ok (s r))
      | some vm => pmPaint m w none true r (lay r) (pos r) (.array vm) .none (s r))
        (fun r => (.ok (jvp r) : Except MeshErr (ℤ → K))) ∧
      m.fieldDot jvp v = m.fieldDot s v + vmass.elim 0 (fun vm => ranksDot m.nrank vm om) := by
    cases vmass with
    | none => exact ⟨s, AllReturn.ret m.nrank _, by simp⟩
    | some vm =>
      have hvm := hvmass vm rfl
      have hAq : QuantOK m.nrank (fun r => (pos r).length) (fun q => Quant.array (vm q)) :=
        Or.inr (Or.inr fun r hr => ⟨_, rfl, hvm r hr⟩)
      refine ⟨_, pmPaint_return hm.dim hw none true hn hlay hpos hAq hnone s, ?_⟩
      simp only [if_true]
      rw [fieldDot_add, adjoint_core hm w none hlay _ _ v om homent]
      congr 1
      rw [Option.elim_some]
      unfold ranksDot
      apply sum_congr_mem
      intro q hq
      rw [List.mem_range] at hq
      rw [dot_range (hvm q hq) (homl q hq)]
      rfl
  obtain ⟨jvp, hj1, hj2⟩ := hsecond
  refine ⟨jvp, cols, om, ?_, ?_, by rw [hj2, hs2]⟩
  · unfold pmPaintJvp
    exact AllReturn.andThen hs1 hj1
  · unfold pmPaintVjp
    exact AllReturn.andThen hcols (AllReturn.andThen hom (AllReturn.ret m.nrank _))

/-- **C25**, readout: `⟨readout_jvp(v_self, v_pos), v⟩ = ⟨v_self, out_self⟩ + ⟨v_pos, out_pos⟩`, where `out_self` and
`out_pos` are returned by `readout_vjp(v)`. -/
theorem C25_readout (m : PMesh K) (hm : m.OK) (w : Resampler K) (hw : w.Valid) (pos : ℕ → List (List K))
    (hpos : ∀ r < m.nrank, ∀ x ∈ pos r, x.length = m.nmesh.length) (lay : ℕ → Option Lay) (S : ℕ → ℕ → List ℕ)
    (hlay : LayoutArg m.nrank (fun q => (pos q).length) lay S) (field : ℕ → ℤ → K)
    (vself : Option (ℕ → ℤ → K)) (vpos : Option (ℕ → List (List K)))
    (hvpos : ∀ vp ∈ vpos, ∀ r < m.nrank, (vp r).length = (pos r).length)
    (v : ℕ → List K) (hv : ∀ r < m.nrank, (v r).length = (pos r).length) :
    ∃ (jvp : ℕ → List K) (outself : ℕ → ℤ → K) (outpos : ℕ → List (List K)),
      AllReturn m.nrank (fun r => pmReadoutJvp m w none r (lay r) (pos r) (field r) (vself.map (· r)) (vpos.map (· r)))
        (fun r => .ok (jvp r)) ∧
      AllReturn m.nrank (fun r => pmReadoutVjp m w r (lay r) (pos r) (v r) (field r))
        (fun r => .ok (outself r, outpos r)) ∧
      (∀ r < m.nrank, (jvp r).length = (pos r).length) ∧
      ranksDot m.nrank jvp v = vself.elim 0 (fun vs => m.fieldDot vs outself) +
        vpos.elim 0 (fun vp => columnsDot m.nrank m.nmesh.length vp outpos) := by
  have hn := hm.nrank_pos
  have hnone : QuantOK m.nrank (fun r => (pos r).length) (fun _ => (.none : Quant K)) := Or.inl fun _ _ => rfl
  have hvq : QuantOK m.nrank (fun r => (pos r).length) (fun q => Quant.array (v q)) :=
    Or.inr (Or.inr fun r hr => ⟨_, rfl, hv r hr⟩)
  choose res hres hrl hent using fun d => pmReadout_return hm.dim hw (some d) hn hlay hpos hnone field
  obtain ⟨cols, hcols, hceq⟩ := pmGradColumns_return hm hw hlay hpos hvq field res hres hrl
  have hfirst : ∃ s : ℕ → List K, AllReturn m.nrank (fun r => match vpos.map (· r) with
      | none => .ret (.ok (List.replicate (pos r).length 0))
      | some vpos => forProg (fun d jvp => (pmReadout m w (some d) r (lay r) (pos r) .none (field r)).andThen fun g =>
          .ret (.ok (List.zipWith (· + ·) jvp (List.zipWith (· * ·) g (column vpos d)))))
          (List.range m.nmesh.length) (List.replicate (pos r).length 0))
        (fun r => (.ok (s r) : Except MeshErr (List K))) ∧ (∀ r < m.nrank, (s r).length = (pos r).length) ∧
      ranksDot m.nrank s v = vpos.elim 0 (fun vp => columnsDot m.nrank m.nmesh.length vp cols) := by
    have hzero : ranksDot m.nrank (fun r => List.replicate (pos r).length 0) v = 0 := by
      unfold ranksDot
      apply List.sum_eq_zero
      intro x hx
      obtain ⟨r, hr, rfl⟩ := List.mem_map.1 hx
      rw [List.mem_range] at hr
      rw [dot_range (n := (pos r).length) (by simp) (hv r hr)]
      apply List.sum_eq_zero
      intro x hx
      obtain ⟨i, hi, rfl⟩ := List.mem_map.1 hx
      rw [List.mem_range] at hi
      simp [hi]
    cases vpos with
    | none => exact ⟨_, AllReturn.ret m.nrank _, fun r _ => by simp, hzero⟩
    | some vp =>
      have hvp := hvpos vp rfl
      obtain ⟨s, h1, h2, h3⟩ := AllReturn.forProg (n := m.nrank) (body := fun r d jvp =>
          (pmReadout m w (some d) r (lay r) (pos r) .none (field r)).andThen fun g =>
          .ret (.ok (List.zipWith (· + ·) jvp (List.zipWith (· * ·) g (column (vp r) d)))))
        (fun done s => (∀ r < m.nrank, (s r).length = (pos r).length) ∧
          ranksDot m.nrank s v = (done.map fun d => ((List.range m.nrank).map fun q =>
          ((List.range (pos q).length).map fun i =>
            (column (vp q) d).getD i 0 * ((res d q).getD i 0 * (v q).getD i 0)).sum).sum).sum)
        (by
          intro done d s hs
          refine ⟨fun r => List.zipWith (· + ·) (s r) (List.zipWith (· * ·) (res d r) (column (vp r) d)), ?_, ?_, ?_⟩
          · exact AllReturn.andThen (hres d) (AllReturn.ret m.nrank _)
          · intro r hr
            simp [hs.1 r hr, hrl d r hr, column_length, hvp r hr]
          · rw [List.map_append, List.sum_append, ← hs.2]
            simp only [List.map_cons, List.map_nil, List.sum_cons, List.sum_nil, add_zero]
            unfold ranksDot
            rw [← sum_add_map]
            apply sum_congr_mem
            intro q hq
            rw [List.mem_range] at hq
            rw [dot_range (n := (pos q).length) (by simp [hs.1 q hq, hrl d q hq, column_length, hvp q hq]) (hv q hq),
              dot_range (hs.1 q hq) (hv q hq), ← sum_add_map]
            apply sum_congr_mem
            intro i hi
            rw [List.mem_range] at hi
            have hcl := column_length (vp q) d
            have := hvp q hq
            have := hrl d q hq
            have := hs.1 q hq
            show (List.zipWith (· + ·) (s q) (List.zipWith (· * ·) (res d q) (column (vp q) d))).getD i 0 * _ = _
            rw [getD_zipWith _ _ _ 0 0 _ _ (by omega) (by rw [List.length_zipWith]; omega),
              getD_zipWith _ _ _ 0 0 _ _ (by omega) (by omega)]
            ring)
        (List.range m.nmesh.length) [] (fun r => List.replicate (pos r).length 0) ⟨fun r _ => by simp, hzero⟩
      refine ⟨s, h1, h2, ?_⟩
      rw [h3, List.nil_append, Option.elim_some]
      unfold columnsDot
      rw [sum_comm']
      apply sum_congr_mem
      intro q hq
      rw [List.mem_range] at hq
      apply sum_congr_mem
      intro d hd
      rw [List.mem_range] at hd
      rw [hceq q hq, getD_map_range _ _ _ _ hd, dot_range (n := (pos q).length) (by rw [column_length]; exact hvp q hq)
        (by simp)]
      apply sum_congr_mem
      intro i hi
      rw [List.mem_range] at hi
      rw [getD_map_range _ _ _ _ hi]
      rfl
  obtain ⟨s, hs1, hsl, hs2⟩ := hfirst
  set os : ℕ → ℤ → K := fun r a => (((List.range m.nrank).flatMap fun q =>
        (S q r).map (partAt pos (fun q => Quant.array (v q)) (fun _ => .none) q)).map fun p =>
        p.mass * unitDeposit (m.painter w none r) p a).sum with hos
  have hpaint : AllReturn m.nrank (fun r => pmPaint m w none false r (lay r) (pos r) (.array (v r)) .none fun _ => 0)
      (fun r => .ok (os r)) := by
    refine AllReturn.congr (fun _ _ => rfl) (fun r _ => ?_)
      (pmPaint_return hm.dim hw none false hn hlay hpos hvq hnone fun _ _ => 0)
    simp [hos]
  have hsecond : ∃ jvp : ℕ → List K, AllReturn m.nrank (fun r => match vself.map (· r) with
      | none => .ret (.ok (s r))
      | some vs => (pmReadout m w none r (lay r) (pos r) .none vs).andThen fun g =>
          .ret (.ok (List.zipWith (· + ·) (s r) g)))
        (fun r => (.ok (jvp r) : Except MeshErr (List K))) ∧ (∀ r < m.nrank, (jvp r).length = (pos r).length) ∧
      ranksDot m.nrank jvp v = vself.elim 0 (fun vs => m.fieldDot vs os) + ranksDot m.nrank s v := by
    cases vself with
    | none => exact ⟨s, AllReturn.ret m.nrank _, hsl, by simp⟩
    | some vs =>
      obtain ⟨om, hom, homl, homent⟩ := pmReadout_return hm.dim hw none hn hlay hpos hnone vs
      refine ⟨fun r => List.zipWith (· + ·) (s r) (om r), AllReturn.andThen hom (AllReturn.ret m.nrank _), ?_, ?_⟩
      · intro r hr
        simp [hsl r hr, homl r hr]
      · rw [Option.elim_some]
        have hsym : m.fieldDot vs os = m.fieldDot os vs := by
          unfold PMesh.fieldDot
          simp only [mul_comm]
        rw [hsym, hos, adjoint_core hm w none hlay _ _ vs om homent]
        unfold ranksDot
        rw [← sum_add_map]
        apply sum_congr_mem
        intro q hq
        rw [List.mem_range] at hq
        rw [dot_range (n := (pos q).length) (by simp [hsl q hq, homl q hq]) (hv q hq), dot_range (hsl q hq) (hv q hq),
          ← sum_add_map]
        apply sum_congr_mem
        intro i hi
        rw [List.mem_range] at hi
        have := hsl q hq
        have := homl q hq
        show (List.zipWith (· + ·) (s q) (om q)).getD i 0 * _ = _
        rw [getD_zipWith _ _ _ 0 0 _ _ (by omega) (by omega)]
        simp only [Quant.at]
        ring
  obtain ⟨jvp, hj1, hjl, hj2⟩ := hsecond
  refine ⟨jvp, os, cols, ?_, ?_, hjl, by rw [hj2, hs2]⟩
  · unfold pmReadoutJvp
    exact AllReturn.andThen hs1 hj1
  · unfold pmReadoutVjp
    exact AllReturn.andThen hcols (AllReturn.andThen hpaint (AllReturn.ret m.nrank _))

/-- **C25**, the part of `readout_vjp` that allows a gradient direction (`out_pos=False`): it is adjoint to `readout`
with the same gradient direction, which is linear in the field. -/
theorem C25_readout_gradient (m : PMesh K) (hm : m.OK) (w : Resampler K) (hw : w.Valid) (gradient : Option ℕ)
    (pos : ℕ → List (List K)) (hpos : ∀ r < m.nrank, ∀ x ∈ pos r, x.length = m.nmesh.length) (lay : ℕ → Option Lay)
    (S : ℕ → ℕ → List ℕ) (hlay : LayoutArg m.nrank (fun q => (pos q).length) lay S) (field : ℕ → ℤ → K)
    (v : ℕ → List K) (hv : ∀ r < m.nrank, (v r).length = (pos r).length) :
    ∃ (values : ℕ → List K) (outself : ℕ → ℤ → K),
      AllReturn m.nrank (fun r => pmReadout m w gradient r (lay r) (pos r) .none (field r)) (fun r => .ok (values r)) ∧
      AllReturn m.nrank (fun r => pmReadoutVjpSelf m w gradient r (lay r) (pos r) (v r)) (fun r => .ok (outself r)) ∧
      ranksDot m.nrank values v = m.fieldDot field outself := by
  have hn := hm.nrank_pos
  have hnone : QuantOK m.nrank (fun r => (pos r).length) (fun _ => (.none : Quant K)) := Or.inl fun _ _ => rfl
  have hvq : QuantOK m.nrank (fun r => (pos r).length) (fun q => Quant.array (v q)) :=
    Or.inr (Or.inr fun r hr => ⟨_, rfl, hv r hr⟩)
  obtain ⟨om, hom, homl, homent⟩ := pmReadout_return hm.dim hw gradient hn hlay hpos hnone field
  refine ⟨om, _, hom, pmPaint_return hm.dim hw gradient false hn hlay hpos hvq hnone fun _ _ => 0, ?_⟩
  have hsym : ∀ a b : ℕ → ℤ → K, m.fieldDot a b = m.fieldDot b a := by
    intro a b
    unfold PMesh.fieldDot
    simp only [mul_comm]
  rw [hsym]
  simp only [Bool.false_eq_true, if_false, zero_add]
  refine Eq.trans ?_ (adjoint_core hm w gradient hlay _ _ field om homent).symm
  unfold ranksDot
  apply sum_congr_mem
  intro q hq
  rw [List.mem_range] at hq
  rw [dot_range (homl q hq) (hv q hq)]
  apply sum_congr_mem
  intro i _
  simp only [Quant.at]
  ring

end

/-! ## Examples -/

/-- Non-vacuity: two ranks without a layout, two and one particles. -/
example := C25_paint exMesh exMesh_ok exWin exWin_valid (fun r => if r = 0 then [[1 / 2], [7 / 3]] else [[9 / 2]])
  (by decide) _ _ .none (fun _ => .scalar 3) (Or.inr (Or.inl ⟨3, fun _ _ => rfl⟩))
  (some fun r => if r = 0 then [[1], [-2]] else [[5]]) (by intro vp hvp; cases hvp; decide)
  (some fun r => if r = 0 then [1, 2] else [-1]) (by intro vm hvm; cases hvm; decide) (fun r a => (r : ℚ) - a)

example := C25_readout exMesh exMesh_ok exWin exWin_valid (fun r => if r = 0 then [[1 / 2], [7 / 3]] else [[9 / 2]])
  (by decide) _ _ .none (fun r a => (r : ℚ) - a) (some fun r a => (r : ℚ) * a)
  (some fun r => if r = 0 then [[1], [-2]] else [[5]]) (by intro vp hvp; cases hvp; decide)
  (fun r => if r = 0 then [1, 2] else [-1]) (by decide)

example := C25_readout_gradient exMesh exMesh_ok exWin exWin_valid (some 0)
  (fun r => if r = 0 then [[1 / 2], [7 / 3]] else [[9 / 2]]) (by decide) _ _ .none (fun r a => (r : ℚ) - a)
  (fun r => if r = 0 then [1, 2] else [-1]) (by decide)

/-- The layout made by `decompose` is one of the allowed layouts (and `decompose` returns it on all ranks). -/
theorem layoutArg_of_decompose {K : Type} [Field K] [LinearOrder K] [IsStrictOrderedRing K] [FloorRing K]
    (m : PMesh K) (hm : m.OK) (hp : m.PlainRanks) (sm : List K) (hsm : m.SmoothingOK sm) (hh : m.HaloFits sm)
    (pos : ℕ → List (List K)) (hpos : ∀ r < m.nrank, ∀ x ∈ pos r, x.length = m.nmesh.length) :
    ∃ (L : ℕ → Lay) (S : ℕ → ℕ → List ℕ), AllReturn m.nrank (fun r => pmDecompose m sm r (pos r)) (fun r => .ok (L r)) ∧
      LayoutArg m.nrank (fun q => (pos q).length) (fun r => some (L r)) S := by
  obtain ⟨_, L, _, hL, hs, hret⟩ := pmDecompose_return hm hm.nrank_pos hp hsm hh hpos
  exact ⟨L, _, hret, .layout hL fun q hq => (hs q hq).1⟩

example := layoutArg_of_decompose exMesh exMesh_ok exMesh_plain [1] exMesh_smooth exMesh_halo
  (fun r => if r = 0 then [[1 / 2], [7 / 3]] else [[9 / 2]]) (by decide)

/-! ## Where the code violates the property -/

/-- **C25 violated** when a gradient direction is given: `readout_jvp` ignores its `gradient` argument while `readout_vjp`
uses it.  For one particle at 1/2 and `v = [1]`, against the field `v_self` that is 1 everywhere, `readout_jvp` returns 1
on rank 0 (the value, not the gradient 0), while `readout_vjp` returns the field with -1 in cell 0 and 1 in cell 1, and 0
elsewhere, whose inner product with `v_self` is 0. -/
theorem C25_violated_gradient :
    AllReturn 2 (fun r => pmReadoutJvp exMesh exWin (some 0) r none (if r = 0 then [[1 / 2]] else []) (fun _ => 0)
      (some fun _ => 1) none) (fun r => .ok (if r = 0 then [1] else [])) ∧
    AllReturn 2 (fun r => (pmReadoutVjpSelf exMesh exWin (some 0) r none (if r = 0 then [[1 / 2]] else [])
      (if r = 0 then [1] else [])).andThen fun f => .ret (.ok ((List.range 4).map fun a => f a)))
      (fun r => (.ok (if r = 0 then [-1, 1, 0, 0] else [0, 0, 0, 0]) : Except MeshErr (List ℚ))) :=
  ⟨AllReturn.of_runAll 20 (by decide +kernel), AllReturn.of_runAll 20 (by decide +kernel)⟩

#print axioms C25_paint
#print axioms C25_readout
#print axioms C25_readout_gradient
#print axioms C25_violated_gradient

end Pmesh
