import Verif.Spec.MeshDiff
import Verif.Lemmas.Deriv
import Verif.Lemmas.MeshAdjoint

/-! # Lemmas for the derivatives of `paint` and `readout` -/

set_option linter.unusedSectionVars false

namespace Pmesh

/-- The weight of a cell along a line. -/
theorem cellWeight_line {k : Kern ℝ} (hk : Confined k) {s : ℝ} (hs : 0 < s) : ∀ (axes : List (PAxis ℝ)) (pos u : List ℝ) (c : List ℕ),
    pos.length = axes.length → u.length = axes.length → c.length = axes.length → (∀ ax ∈ axes, ax.order = 0) →
    (∀ d (hd : d < axes.length) (hd' : d < pos.length), SmoothAt k s (pos[d] * axes[d].scale + axes[d].translate)) →
    HasDerivAt (fun t => cellWeight k s axes (along t pos u) c)
      ((List.range axes.length).map fun d => u.getD d 0 *
        cellWeight k s (if h : d < axes.length then axes.set d axes[d].grad else axes) pos c).sum 0
  | [], pos, u, c, hp, hu, hc, ho, hsm => by
    simp only [List.length_nil, List.length_eq_zero_iff] at hp hu hc
    subst hp hu hc
    simpa [along, cellWeight] using hasDerivAt_const (0 : ℝ) (1 : ℝ)
  | ax :: axs, x :: pos, v :: u, i :: c, hp, hu, hc, ho, hsm => by
    simp only [List.length_cons, Nat.add_right_cancel_iff] at hp hu hc
    have ih := cellWeight_line hk hs axs pos u c hp hu hc (fun a ha => ho a (by simp [ha]))
      (fun d hd hd' => hsm (d + 1) (by simpa using hd) (by simpa using hd'))
    have h0 : HasDerivAt (fun y => axisWeight k s ax y i) (axisWeight k s ax.grad x i) x :=
      axisWeight_hasDerivAt hk hs ax (ho ax (by simp)) x i (hsm 0 (by simp) (by simp))
    have h1 : HasDerivAt (fun t : ℝ => x + t * v) v 0 := by
      simpa using ((hasDerivAt_id (0 : ℝ)).mul_const v).const_add x
    have h2 : HasDerivAt (fun t : ℝ => axisWeight k s ax (x + t * v) i) (axisWeight k s ax.grad x i * v) 0 := by
      have h0' : HasDerivAt (fun y => axisWeight k s ax y i) (axisWeight k s ax.grad x i) (x + 0 * v) := by simpa using h0
      exact h0'.comp (0 : ℝ) h1
    have h3 := h2.mul ih
    refine (h3.congr_of_eventuallyEq ?_).congr_deriv ?_
    · filter_upwards with t
      simp [along, cellWeight]
    · have e0 : along 0 pos u = pos := by
        unfold along
        apply List.ext_getElem
        · simp; omega
        · intro j h1 h2; simp
      rw [show List.range (ax :: axs).length = List.range (axs.length + 1) from rfl, List.range_succ_eq_map, List.map_cons, List.sum_cons, List.map_map]
      simp only [e0, zero_mul, add_zero]
      congr 1
      · simp [cellWeight]
        ring
      · rw [← List.sum_map_mul_left]
        apply congrArg List.sum
        apply List.map_congr_left
        intro d hd
        rw [List.mem_range] at hd
        simp only [Function.comp, Nat.succ_eq_add_one, List.getD_cons_succ, List.length_cons]
        rw [dif_pos hd, dif_pos (by omega)]
        simp only [List.getElem_cons_succ, List.set_cons_succ, cellWeight]
        ring
  | _ :: _, [], _, _, hp, _, _, _, _ => by simp at hp
  | _ :: _, _ :: _, [], _, _, hu, _, _, _ => by simp at hu
  | _ :: _, _ :: _, _ :: _, [], _, _, hc, _, _ => by simp at hc

section
variable {m : PMesh ℝ} (hm : m.OK) {w : Resampler ℝ} (hw : w.Valid) (hk : Confined w.kern)

theorem painter_grad (r d : ℕ) (hd : d < m.nmesh.length) :
    (m.painter w (some d) r).axes = (m.painter w none r).axes.set d (((m.painter w none r).axes[d]'(by rw [painter_len]; exact hd)).grad) := by
  apply List.ext_getElem
  · simp [painter_len]
  · intro j h1 h2
    rw [List.getElem_set]
    by_cases e : d = j
    · subst e
      rw [if_pos rfl]
      simp [PMesh.painter, PAxis.grad]
    · rw [if_neg e]
      simp [PMesh.painter, e]

theorem size_eq (g : Option ℕ) (r : ℕ) : windowSize (m.painter w g r) 1 = w.size := by
  unfold windowSize Resampler.size
  simp only [PMesh.painter, mul_one]
  by_cases h : w.support = 0
  · rw [if_pos h, if_pos (by rw [h]; simp)]
  · rw [if_neg h, if_neg (by push Not; exact_mod_cast Nat.pos_of_ne_zero h)]

theorem size_pos (hw : w.Valid) : 0 < w.size := by
  unfold Resampler.size
  split_ifs with h
  · exact_mod_cast hw.native_pos
  · exact_mod_cast Nat.pos_of_ne_zero h

theorem faithful_smooth {x : List ℝ} (hx : m.SmoothPoint w x) (hl : x.length = m.nmesh.length) (g : Option ℕ) (r : ℕ) (mu : ℝ) :
    Faithful (m.painter w g r) ⟨x, mu, 1⟩ := by
  intro t ht
  rw [show (⟨x, mu, 1⟩ : Particle ℝ).hsml = 1 from rfl, size_eq]
  have ht' : w.tuned = some t := ht
  show _ ∨ w.size ≤ w.kern.native - 1 ∨ (w.kern.native : ℝ) < w.size ∨ (w.size = w.kern.native ∧ _)
  rcases lt_trichotomy w.size w.kern.native with h | h | h
  · right; left
    unfold Resampler.size at h ⊢
    split_ifs at h ⊢ with h0
    · exact absurd h (lt_irrefl _)
    · have : w.support < w.kern.native := by exact_mod_cast h
      have : w.support + 1 ≤ w.kern.native := this
      have : ((w.support : ℝ) + 1) ≤ w.kern.native := by exact_mod_cast this
      linarith
  · right; right; right
    refine ⟨h, ?_⟩
    rintro ⟨ax, y⟩ hq
    obtain ⟨j, hj, he⟩ := List.getElem_of_mem hq
    rw [List.getElem_zip] at he
    rw [List.length_zip, painter_len] at hj
    have hj1 : j < m.nmesh.length := by omega
    have hj2 : j < x.length := by omega
    obtain ⟨e1, e2⟩ := Prod.mk.inj he
    have e1' : ax = ⟨if g = some j then 1 else 0, m.scale.getD j 0, -(((m.start r).getD j 0 : ℕ) : ℝ), m.nmesh.getD j 0,
      (m.localShape r).getD j 0, (m.strides r).getD j 0⟩ := by rw [← e1]; simp [PMesh.painter]
    have e2' : y = x.getD j 0 := by rw [← e2, List.getD_eq_getElem _ _ hj2]
    subst e1' e2'
    show TunedExact t _ _
    unfold TunedExact
    cases t with
    | nnb => right; left; rfl
    | tsc => right; right; left; rfl
    | cic =>
      right; right; right; left
      refine ⟨rfl, fun e => ?_⟩
      simp only [PAxis.grid] at e
      refine hx.cic ht' j hj1 (⌊x.getD j 0 * m.scale.getD j 0 + -(((m.start r).getD j 0 : ℕ) : ℝ)⌋ + ((m.start r).getD j 0 : ℕ)) ?_
      push_cast
      linarith
    | pcs =>
      right; right; right; right
      exact ⟨rfl, hx.pcs ht' j hj1⟩
  · right; right; left
    exact h

theorem faithful_none (r : ℕ) (p : Particle ℝ) (hp : p.hsml = 1) : Faithful (m.painter w none r) p := by
  intro t ht
  rw [hp, size_eq]
  show _ ∨ w.size ≤ w.kern.native - 1 ∨ (w.kern.native : ℝ) < w.size ∨ (w.size = w.kern.native ∧ _)
  rcases lt_trichotomy w.size w.kern.native with h | h | h
  · right; left
    unfold Resampler.size at h ⊢
    split_ifs at h ⊢ with h0
    · exact absurd h (lt_irrefl _)
    · have : w.support < w.kern.native := by exact_mod_cast h
      have : w.support + 1 ≤ w.kern.native := this
      have : ((w.support : ℝ) + 1) ≤ w.kern.native := by exact_mod_cast this
      linarith
  · right; right; right
    refine ⟨h, ?_⟩
    rintro ⟨ax, y⟩ hq
    left
    have := List.of_mem_zip hq
    obtain ⟨j, hj, he⟩ := List.getElem_of_mem this.1
    show ax.order = 0
    rw [← he]
    simp [PMesh.painter]
  · right; right; left
    exact h

include hm hw hk in
/-- The share of a cell along a line. -/
theorem weight_line {x u : List ℝ} (hx : m.SmoothPoint w x) (hl : x.length = m.nmesh.length) (hu : u.length = m.nmesh.length)
    (r : ℕ) (c : List ℕ) (hc : c.length = m.nmesh.length) (f : ℝ → ℝ) (mu : ℝ) :
    HasDerivAt (fun t => weightOn m w none r ⟨along t x u, f t, 1⟩ c)
      ((List.range m.nmesh.length).map fun d => u.getD d 0 * weightOn m w (some d) r ⟨x, mu, 1⟩ c).sum 0 := by
  have hval : ∀ g, (m.painter w g r).Valid := fun g => painter_valid hw hm.dim g r
  have hal := painter_len m w none r
  have h := cellWeight_line hk (size_pos hw) (m.painter w none r).axes x u c (by rw [hal]; exact hl) (by rw [hal]; exact hu)
    (by rw [hal]; exact hc) (by
      intro ax hax
      obtain ⟨j, hj, he⟩ := List.getElem_of_mem hax
      rw [← he]
      simp [PMesh.painter]) (by
      intro d hd hd' n
      have h := hx.smooth d (by rw [← hal]; exact hd) (n + ((m.start r).getD d 0 : ℕ))
      have e1 : (m.painter w none r).axes[d].scale = m.scale.getD d 0 := by simp [PMesh.painter]
      have e2 : (m.painter w none r).axes[d].translate = -(((m.start r).getD d 0 : ℕ) : ℝ) := by simp [PMesh.painter]
      rw [e1, e2]
      rw [List.getD_eq_getElem _ _ hd'] at h
      have e3 : x[d] * m.scale.getD d 0 - ((n + ((m.start r).getD d 0 : ℕ) : ℤ) : ℝ) =
        x[d] * m.scale.getD d 0 + -(((m.start r).getD d 0 : ℕ) : ℝ) - n := by push_cast; ring
      rw [e3] at h
      exact h)
  refine (h.congr_of_eventuallyEq ?_).congr_deriv ?_
  · filter_upwards with t
    unfold weightOn
    rw [cwProd_cellWeight (hval none) hk (faithful_none r _ rfl), size_eq]
    rfl
  · rw [show List.range (m.painter w none r).axes.length = List.range m.nmesh.length by rw [hal]]
    apply sum_congr_mem
    intro d hd
    rw [List.mem_range] at hd
    unfold weightOn
    rw [cwProd_cellWeight (hval (some d)) hk (faithful_smooth hx hl (some d) r mu), size_eq, painter_grad r d hd,
      dif_pos (by rw [hal]; exact hd)]
    rfl

end

/-- The pairs of rank and index of the particles received by rank `r`. -/
def recvd (n : ℕ) (S : ℕ → ℕ → List ℕ) (r : ℕ) : List (ℕ × ℕ) := (List.range n).flatMap fun q => (S q r).map fun i => (q, i)

theorem recvd_map {α : Type*} (n : ℕ) (S : ℕ → ℕ → List ℕ) (r : ℕ) (f : ℕ → ℕ → α) :
    ((List.range n).flatMap fun q => (S q r).map (f q)) = (recvd n S r).map fun qi => f qi.1 qi.2 := by
  unfold recvd
  rw [List.map_flatMap]
  simp [List.map_map, Function.comp_def]

theorem mem_recvd {n : ℕ} {S : ℕ → ℕ → List ℕ} {r : ℕ} {qi : ℕ × ℕ} : qi ∈ recvd n S r ↔ qi.1 < n ∧ qi.2 ∈ S qi.1 r := by
  unfold recvd
  constructor
  · intro h
    obtain ⟨q, hq, h⟩ := List.mem_flatMap.1 h
    obtain ⟨i, hi, rfl⟩ := List.mem_map.1 h
    exact ⟨List.mem_range.1 hq, hi⟩
  · rintro ⟨h1, h2⟩
    exact List.mem_flatMap.2 ⟨qi.1, List.mem_range.2 h1, List.mem_map.2 ⟨qi.2, h2, rfl⟩⟩

section
variable {K : Type} [Field K] [LinearOrder K] [IsStrictOrderedRing K] [FloorRing K] {m : PMesh K} (hm : m.OK) {w : Resampler K} (hw : w.Valid) {lay : ℕ → Option Lay} {S : ℕ → ℕ → List ℕ}
  {pos : ℕ → List (List K)} (hlay : LayoutArg m.nrank (fun q => (pos q).length) lay S)
  (hpos : ∀ r < m.nrank, ∀ x ∈ pos r, x.length = m.nmesh.length)

include hm hw hlay hpos in
/-- The result of `paint`, cell by cell. -/
theorem pmPaint_cells (g : Option ℕ) (hold : Bool) {mass : ℕ → Quant K} (hmass : QuantOK m.nrank (fun r => (pos r).length) mass)
    (out : ℕ → ℤ → K) :
    ∃ res : ℕ → ℤ → K, AllReturn m.nrank (fun r => pmPaint m w g hold r (lay r) (pos r) (mass r) .none (out r))
        (fun r => .ok (res r)) ∧
      ∀ r < m.nrank, ∀ c, ValidIndex (m.localShape r) c → res r (m.addr r c) =
        (if hold then out r (m.addr r c) else 0) + ((recvd m.nrank S r).map fun qi => (mass qi.1).at qi.2 *
          weightOn m w g r ⟨(pos qi.1).getD qi.2 [], 1, 1⟩ c).sum := by
  have hnone : QuantOK m.nrank (fun r => (pos r).length) (fun _ => (.none : Quant K)) := Or.inl fun _ _ => rfl
  refine ⟨_, pmPaint_return hm.dim hw g hold hm.nrank_pos hlay hpos hmass hnone out, ?_⟩
  intro r hr c hc
  have hshl := hm.localShape_len hr
  have hcl := (validIndex_iff.1 hc).1
  rw [recvd_map, List.map_map]
  congr 1
  · cases hold <;> rfl
  · apply sum_congr_mem
    intro qi _
    simp only [Function.comp]
    rw [← elemAddr_painter w g r (by omega), unitDeposit_elem _ (distinct_painter w g r hshl (hm.distinct r hr)) _ c
            (by rw [shapeOf_painter w g r hshl]; exact hc)]
    rfl

include hm hw hlay hpos in
/-- The result of `paint_jvp`, cell by cell. -/
theorem pmPaintJvp_cells {mass : ℕ → Quant K} (hmass : QuantOK m.nrank (fun r => (pos r).length) mass)
    (vpos : Option (ℕ → List (List K))) (hvpos : ∀ vp ∈ vpos, ∀ r < m.nrank, (vp r).length = (pos r).length)
    (vmass : Option (ℕ → List K)) (hvmass : ∀ vm ∈ vmass, ∀ r < m.nrank, (vm r).length = (pos r).length) :
    ∃ jvp : ℕ → ℤ → K,
      AllReturn m.nrank (fun r => pmPaintJvp m w r (lay r) (pos r) (mass r) (vpos.map (· r)) (vmass.map (· r)))
        (fun r => .ok (jvp r)) ∧
      ∀ r < m.nrank, ∀ c, ValidIndex (m.localShape r) c → jvp r (m.addr r c) =
        (vpos.elim 0 fun vp => ((List.range m.nmesh.length).map fun d => ((recvd m.nrank S r).map fun qi =>
          ((vp qi.1).getD qi.2 []).getD d 0 * (mass qi.1).at qi.2 *
            weightOn m w (some d) r ⟨(pos qi.1).getD qi.2 [], 1, 1⟩ c).sum).sum) +
        vmass.elim 0 fun vm => ((recvd m.nrank S r).map fun qi => (vm qi.1).getD qi.2 0 *
            weightOn m w none r ⟨(pos qi.1).getD qi.2 [], 1, 1⟩ c).sum := by
  have hfirst : ∃ s : ℕ → ℤ → K, AllReturn m.nrank (fun r => match vpos.map (· r) with
      | none => .ret (.ok fun _ => 0)
      | some vpos => forProg (fun d out =>
          match mulQuant (column vpos d) (mass r) with
          | none => .ret (.error .value)
          | some a => pmPaint m w (some d) true r (lay r) (pos r) (.array a) .none out)
          (List.range m.nmesh.length) fun _ => 0) (fun r => (.ok (s r) : Except MeshErr (ℤ → K))) ∧
      ∀ r < m.nrank, ∀ c, ValidIndex (m.localShape r) c → s r (m.addr r c) =
        vpos.elim 0 fun vp => ((List.range m.nmesh.length).map fun d => ((recvd m.nrank S r).map fun qi =>
          ((vp qi.1).getD qi.2 []).getD d 0 * (mass qi.1).at qi.2 *
            weightOn m w (some d) r ⟨(pos qi.1).getD qi.2 [], 1, 1⟩ c).sum).sum := by
    cases vpos with
    | none => exact ⟨fun _ _ => 0, AllReturn.ret m.nrank _, fun _ _ _ _ => rfl⟩
    | some vp =>
      have hvp := hvpos vp rfl
      obtain ⟨s, h1, h2⟩ := AllReturn.forProg (n := m.nrank) (body := fun r d out =>
          match mulQuant (column (vp r) d) (mass r) with
          | none => .ret (.error .value)
          | some a => pmPaint m w (some d) true r (lay r) (pos r) (.array a) .none out)
        (fun done s => ∀ r < m.nrank, ∀ c, ValidIndex (m.localShape r) c → s r (m.addr r c) =
          (done.map fun d => ((recvd m.nrank S r).map fun qi =>
          ((vp qi.1).getD qi.2 []).getD d 0 * (mass qi.1).at qi.2 *
            weightOn m w (some d) r ⟨(pos qi.1).getD qi.2 [], 1, 1⟩ c).sum).sum)
        (by
          intro done d s hs
          set A : ℕ → List K := fun q => (List.range (pos q).length).map fun i =>
            (column (vp q) d).getD i 0 * (mass q).at i with hA
          obtain ⟨res, hr1, hr2⟩ := pmPaint_cells hm hw hlay hpos (some d) true (mass := fun q => .array (A q)) (Or.inr (Or.inr fun r _ => ⟨_, rfl, by simp [hA]⟩)) s
          refine ⟨res, AllReturn.congr (fun r hr => ?_) (fun _ _ => rfl) hr1, ?_⟩
          · rw [mulQuant_eq hmass hr (by rw [column_length]; exact hvp r hr)]
          · intro r hr c hc
            rw [hr2 r hr c hc, if_pos rfl, hs r hr c hc, List.map_append, List.sum_append]
            congr 1
            simp only [List.map_cons, List.map_nil, List.sum_cons, List.sum_nil, add_zero]
            apply sum_congr_mem
            intro qi hqi
            obtain ⟨hq, hi⟩ := mem_recvd.1 hqi
            have hi' := sent_lt hlay hq hi
            simp only [hA, Quant.at]
            rw [getD_map_range _ _ _ _ hi']
            congr 2
            have : qi.2 < (vp qi.1).length := by rw [hvp _ hq]; exact hi'
            simp [column, this])
        (List.range m.nmesh.length) [] (fun _ _ => 0) (fun _ _ _ _ => rfl)
      exact ⟨s, h1, fun r hr c hc => by rw [h2 r hr c hc]; rfl⟩
  obtain ⟨s, hs1, hs2⟩ := hfirst
  have hsecond : ∃ jvp : ℕ → ℤ → K, AllReturn m.nrank (fun r => match vmass.map (· r) with
      | none => .ret (.ok (s r))
      | some vm => pmPaint m w none true r (lay r) (pos r) (.array vm) .none (s r))
        (fun r => (.ok (jvp r) : Except MeshErr (ℤ → K))) ∧
      ∀ r < m.nrank, ∀ c, ValidIndex (m.localShape r) c → jvp r (m.addr r c) = s r (m.addr r c) +
        vmass.elim 0 fun vm => ((recvd m.nrank S r).map fun qi => (vm qi.1).getD qi.2 0 *
            weightOn m w none r ⟨(pos qi.1).getD qi.2 [], 1, 1⟩ c).sum := by
    cases vmass with
    | none => exact ⟨s, AllReturn.ret m.nrank _, by simp⟩
    | some vm =>
      obtain ⟨res, hr1, hr2⟩ := pmPaint_cells hm hw hlay hpos none true (mass := fun q => .array (vm q)) (Or.inr (Or.inr fun r hr => ⟨_, rfl, hvmass vm rfl r hr⟩)) s
      exact ⟨res, hr1, fun r hr c hc => by rw [hr2 r hr c hc, if_pos rfl]; rfl⟩
  obtain ⟨jvp, hj1, hj2⟩ := hsecond
  refine ⟨jvp, ?_, fun r hr c hc => by rw [hj2 r hr c hc, hs2 r hr c hc]⟩
  unfold pmPaintJvp
  exact AllReturn.andThen hs1 hj1

include hm hw hlay hpos in
/-- The result of `readout_jvp`, particle by particle. -/
theorem pmReadoutJvp_values (field : ℕ → ℤ → K) (vself : Option (ℕ → ℤ → K)) (vpos : Option (ℕ → List (List K)))
    (hvpos : ∀ vp ∈ vpos, ∀ r < m.nrank, (vp r).length = (pos r).length) :
    ∃ jvp : ℕ → List K,
      AllReturn m.nrank (fun r => pmReadoutJvp m w none r (lay r) (pos r) (field r) (vself.map (· r)) (vpos.map (· r)))
        (fun r => .ok (jvp r)) ∧ (∀ q < m.nrank, (jvp q).length = (pos q).length) ∧
      ∀ q < m.nrank, ∀ i < (pos q).length, (jvp q).getD i 0 =
        (vpos.elim 0 fun vp => ((List.range m.nmesh.length).map fun d => ((vp q).getD i []).getD d 0 *
          ((List.range m.nrank).map fun r => ((S q r).map fun j => if j = i then
            readOn m w (some d) (field r) r (partAt pos (fun _ => .none) (fun _ => .none) q j) else 0).sum).sum).sum) +
        vself.elim 0 fun vs => ((List.range m.nrank).map fun r => ((S q r).map fun j => if j = i then
            readOn m w none (vs r) r (partAt pos (fun _ => .none) (fun _ => .none) q j) else 0).sum).sum := by
  have hn := hm.nrank_pos
  have hnone : QuantOK m.nrank (fun r => (pos r).length) (fun _ => (.none : Quant K)) := Or.inl fun _ _ => rfl
  choose res hres hrl hent using fun d => pmReadout_return hm.dim hw (some d) hn hlay hpos hnone field
  have hfirst : ∃ s : ℕ → List K, AllReturn m.nrank (fun r => match vpos.map (· r) with
      | none => .ret (.ok (List.replicate (pos r).length 0))
      | some vpos => forProg (fun d jvp => (pmReadout m w (some d) r (lay r) (pos r) .none (field r)).andThen fun g =>
          .ret (.ok (List.zipWith (· + ·) jvp (List.zipWith (· * ·) g (column vpos d)))))
          (List.range m.nmesh.length) (List.replicate (pos r).length 0))
        (fun r => (.ok (s r) : Except MeshErr (List K))) ∧ (∀ r < m.nrank, (s r).length = (pos r).length) ∧
      ∀ q < m.nrank, ∀ i < (pos q).length, (s q).getD i 0 =
        vpos.elim 0 fun vp => ((List.range m.nmesh.length).map fun d => ((vp q).getD i []).getD d 0 * (res d q).getD i 0).sum := by
    cases vpos with
    | none => exact ⟨_, AllReturn.ret m.nrank _, fun r _ => by simp, fun q _ i hi => by simp [hi]⟩
    | some vp =>
      have hvp := hvpos vp rfl
      obtain ⟨s, h1, h2, h3⟩ := AllReturn.forProg (n := m.nrank) (body := fun r d jvp =>
          (pmReadout m w (some d) r (lay r) (pos r) .none (field r)).andThen fun g =>
          .ret (.ok (List.zipWith (· + ·) jvp (List.zipWith (· * ·) g (column (vp r) d)))))
        (fun done s => (∀ r < m.nrank, (s r).length = (pos r).length) ∧
          ∀ q < m.nrank, ∀ i < (pos q).length, (s q).getD i 0 =
            (done.map fun d => ((vp q).getD i []).getD d 0 * (res d q).getD i 0).sum)
        (by
          intro done d s hs
          refine ⟨fun r => List.zipWith (· + ·) (s r) (List.zipWith (· * ·) (res d r) (column (vp r) d)), ?_, ?_, ?_⟩
          · exact AllReturn.andThen (hres d) (AllReturn.ret m.nrank _)
          · intro r hr
            simp [hs.1 r hr, hrl d r hr, column_length, hvp r hr]
          · intro q hq i hi
            rw [List.map_append, List.sum_append, ← hs.2 q hq i hi]
            simp only [List.map_cons, List.map_nil, List.sum_cons, List.sum_nil, add_zero]
            have hcl := column_length (vp q) d
            have h1 := hvp q hq
            have h2 := hrl d q hq
            have h3 := hs.1 q hq
            rw [getD_zipWith _ _ _ 0 0 _ _ (by omega) (by rw [List.length_zipWith]; omega),
              getD_zipWith _ _ _ 0 0 _ _ (by omega) (by omega)]
            have : i < (vp q).length := by omega
            congr 1
            rw [mul_comm]
            congr 1
            simp [column, this])
        (List.range m.nmesh.length) [] (fun r => List.replicate (pos r).length 0) ⟨fun r _ => by simp, fun q _ i hi => by simp [hi]⟩
      exact ⟨s, h1, h2, fun q hq i hi => by rw [h3 q hq i hi]; rfl⟩
  obtain ⟨s, hs1, hsl, hs2⟩ := hfirst
  have hsecond : ∃ jvp : ℕ → List K, AllReturn m.nrank (fun r => match vself.map (· r) with
      | none => .ret (.ok (s r))
      | some vs => (pmReadout m w none r (lay r) (pos r) .none vs).andThen fun g =>
          .ret (.ok (List.zipWith (· + ·) (s r) g)))
        (fun r => (.ok (jvp r) : Except MeshErr (List K))) ∧ (∀ r < m.nrank, (jvp r).length = (pos r).length) ∧
      ∀ q < m.nrank, ∀ i < (pos q).length, (jvp q).getD i 0 = (s q).getD i 0 +
        vself.elim 0 fun vs => ((List.range m.nrank).map fun r => ((S q r).map fun j => if j = i then
            readOn m w none (vs r) r (partAt pos (fun _ => .none) (fun _ => .none) q j) else 0).sum).sum := by
    cases vself with
    | none => exact ⟨s, AllReturn.ret m.nrank _, hsl, by simp⟩
    | some vs =>
      obtain ⟨om, hom, homl, homent⟩ := pmReadout_return hm.dim hw none hn hlay hpos hnone vs
      refine ⟨fun r => List.zipWith (· + ·) (s r) (om r), AllReturn.andThen hom (AllReturn.ret m.nrank _), ?_, ?_⟩
      · intro r hr
        simp [hsl r hr, homl r hr]
      · intro q hq i hi
        have h1 := hsl q hq
        have h2 := homl q hq
        show (List.zipWith (· + ·) (s q) (om q)).getD i 0 = _
        rw [getD_zipWith _ _ _ 0 0 _ _ (by omega) (by omega), homent q hq i hi]
        rfl
  obtain ⟨jvp, hj1, hjl, hj2⟩ := hsecond
  refine ⟨jvp, ?_, hjl, ?_⟩
  · unfold pmReadoutJvp
    exact AllReturn.andThen hs1 hj1
  · intro q hq i hi
    rw [hj2 q hq i hi, hs2 q hq i hi]
    congr 1
    cases vpos with
    | none => rfl
    | some vp =>
      simp only [Option.elim_some]
      apply sum_congr_mem
      intro d _
      rw [hent d q hq i hi]

end

section
variable {m : PMesh ℝ} (hm : m.OK) {w : Resampler ℝ} (hw : w.Valid) (hk : Confined w.kern)
  {pos : ℕ → List (List ℝ)} (hpos : ∀ r < m.nrank, ∀ x ∈ pos r, x.length = m.nmesh.length)
  (vpos : Option (ℕ → List (List ℝ))) (hvpos : ∀ vp ∈ vpos, ∀ r < m.nrank, (vp r).length = (pos r).length ∧
    ∀ u ∈ vp r, u.length = m.nmesh.length)

theorem line_hasDerivAt (a v : ℝ) : HasDerivAt (fun t : ℝ => a + t * v) v 0 := by
  simpa using ((hasDerivAt_id (0 : ℝ)).mul_const v).const_add a

/-- Inner products with a field that depends on a parameter. -/
theorem fieldDot_hasDerivAt (m : PMesh ℝ) (F : ℝ → ℕ → ℤ → ℝ) (F' v : ℕ → ℤ → ℝ)
    (h : ∀ r < m.nrank, ∀ c, ValidIndex (m.localShape r) c → HasDerivAt (fun t => F t r (m.addr r c)) (F' r (m.addr r c)) 0) :
    HasDerivAt (fun t => m.fieldDot (F t) v) (m.fieldDot F' v) 0 := by
  unfold PMesh.fieldDot
  apply sum_hasDerivAt
  intro r hr
  apply sum_hasDerivAt
  intro c hc
  exact (h r (List.mem_range.1 hr) c (mem_ndindex.1 hc)).mul_const _

theorem ranksDot_hasDerivAt {n : ℕ} {len : ℕ → ℕ} (V : ℝ → ℕ → List ℝ) (V' v : ℕ → List ℝ)
    (h1 : ∀ r < n, ∀ t, (V t r).length = len r) (h2 : ∀ r < n, (V' r).length = len r) (h3 : ∀ r < n, (v r).length = len r)
    (h : ∀ r < n, ∀ i < len r, HasDerivAt (fun t => (V t r).getD i 0) ((V' r).getD i 0) 0) :
    HasDerivAt (fun t => ranksDot n (V t) v) (ranksDot n V' v) 0 := by
  unfold ranksDot
  apply sum_hasDerivAt
  intro r hr
  rw [List.mem_range] at hr
  have e : ∀ t, dot (V t r) (v r) = ((List.range (len r)).map fun i => (V t r).getD i 0 * (v r).getD i 0).sum :=
    fun t => dot_range (h1 r hr t) (h3 r hr)
  simp only [e]
  rw [dot_range (h2 r hr) (h3 r hr)]
  apply sum_hasDerivAt
  intro i hi
  exact (h r hr i (List.mem_range.1 hi)).mul_const _

theorem along_zero {x u : List ℝ} (h : u.length = x.length) : along 0 x u = x := by
  unfold along
  apply List.ext_getElem
  · simp; omega
  · intro j h1 h2; simp

theorem alongRows_zero (x : List (List ℝ)) (v : Option (List (List ℝ)))
    (h : ∀ v' ∈ v, v'.length = x.length ∧ ∀ u ∈ v', ∀ y ∈ x, u.length = y.length) : alongRows 0 x v = x := by
  cases v with
  | none => rfl
  | some v =>
    obtain ⟨h1, h2⟩ := h v rfl
    apply List.ext_getElem
    · simp [alongRows, h1]
    · intro j h3 h4
      simp only [alongRows, Option.elim_some, List.getElem_zipWith]
      exact along_zero (h2 _ (List.getElem_mem _) _ (List.getElem_mem _))

/-- The positions moved; nothing happens on ranks that do not exist. -/
noncomputable def movedPos (m : PMesh ℝ) (pos : ℕ → List (List ℝ)) (vpos : Option (ℕ → List (List ℝ))) (t : ℝ) (r : ℕ) :
    List (List ℝ) := if r < m.nrank then alongRows t (pos r) (vpos.map (· r)) else pos r

include hvpos in
theorem movedPos_length (t : ℝ) (r : ℕ) : (movedPos m pos vpos t r).length = (pos r).length := by
  unfold movedPos
  split_ifs with h
  · cases vpos with
    | none => rfl
    | some vp =>
      have := (hvpos vp rfl r h).1
      simp [alongRows, this]
  · rfl

include hpos hvpos in
theorem movedPos_rows (t : ℝ) : ∀ r < m.nrank, ∀ x ∈ movedPos m pos vpos t r, x.length = m.nmesh.length := by
  intro r hr x hx
  unfold movedPos at hx
  rw [if_pos hr] at hx
  cases vpos with
  | none => exact hpos r hr x hx
  | some vp =>
    obtain ⟨h1, h2⟩ := hvpos vp rfl r hr
    simp only [alongRows, Option.map_some, Option.elim_some] at hx
    obtain ⟨j, hj, he⟩ := List.getElem_of_mem hx
    rw [List.getElem_zipWith] at he
    rw [← he]
    rw [List.length_zipWith] at hj
    have e1 := hpos r hr _ (List.getElem_mem (l := pos r) (show j < _ by omega))
    have e2 := h2 _ (List.getElem_mem (l := vp r) (show j < _ by omega))
    simp [along, e1, e2]

include hm hw hk hpos hvpos in
theorem part_line (hs : vpos ≠ none → ∀ r < m.nrank, ∀ x ∈ pos r, m.SmoothPoint w x) (r q i : ℕ) (hq : q < m.nrank)
    (hi : i < (pos q).length) (c : List ℕ) (hc : c.length = m.nmesh.length) :
    HasDerivAt (fun t => weightOn m w none r ⟨(movedPos m pos vpos t q).getD i [], 1, 1⟩ c)
      (vpos.elim 0 fun vp => ((List.range m.nmesh.length).map fun d => ((vp q).getD i []).getD d 0 *
        weightOn m w (some d) r ⟨(pos q).getD i [], 1, 1⟩ c).sum) 0 := by
  cases vpos with
  | none =>
    have : ∀ t, movedPos m pos none t q = pos q := by intro t; unfold movedPos; rw [if_pos hq]; rfl
    simp only [this]
    exact hasDerivAt_const _ _
  | some vp =>
    obtain ⟨h1, h2⟩ := hvpos vp rfl q hq
    have hi' : i < (vp q).length := by omega
    have e : ∀ t, (movedPos m pos (some vp) t q).getD i [] = along t ((pos q).getD i []) ((vp q).getD i []) := by
      intro t
      unfold movedPos
      rw [if_pos hq, List.getD_eq_getElem _ _ hi, List.getD_eq_getElem _ _ hi', List.getD_eq_getElem _ _ (by simp [alongRows, h1, hi])]
      simp [alongRows]
    simp only [e]
    have m1 : (pos q).getD i [] ∈ pos q := by rw [List.getD_eq_getElem _ _ hi]; exact List.getElem_mem _
    have m2 : (vp q).getD i [] ∈ vp q := by rw [List.getD_eq_getElem _ _ hi']; exact List.getElem_mem _
    exact weight_line hm hw hk (hs (by simp) q hq _ m1) (hpos q hq _ m1) (h2 _ m2) r c hc (fun _ => 1) 1

end

end Pmesh
