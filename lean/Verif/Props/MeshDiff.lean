import Verif.Lemmas.MeshDiff
import Verif.Props.Abopt
import Verif.Props.MeshDeriv
import Verif.Props.WindowDeriv
import Verif.Props.Force

/-!
# C72: `paint_jvp` and `readout_jvp` are the derivatives of `paint` and `readout`

On any number of ranks with any layout, which stays the same while the particles move.
-/

namespace Pmesh

section
variable (m : PMesh ℝ) (hm : m.OK) (w : Resampler ℝ) (hw : w.Valid) (hk : Confined w.kern) (pos : ℕ → List (List ℝ))
  (hpos : ∀ r < m.nrank, ∀ x ∈ pos r, x.length = m.nmesh.length) (lay : ℕ → Option Lay) (S : ℕ → ℕ → List ℕ)
  (hlay : LayoutArg m.nrank (fun q => (pos q).length) lay S)
  (vpos : Option (ℕ → List (List ℝ))) (hvpos : ∀ vp ∈ vpos, ∀ r < m.nrank, (vp r).length = (pos r).length ∧
    ∀ u ∈ vp r, u.length = m.nmesh.length)
  (hs : vpos ≠ none → ∀ r < m.nrank, ∀ x ∈ pos r, m.SmoothPoint w x)

include hm hw hk hpos hlay hvpos hs

/-- **C72**, paint: in every cell of every rank, `paint_jvp(pos, mass, v_pos, v_mass)` is the derivative at `t = 0` of
`paint(pos + t v_pos, mass + t v_mass)`.  Either tangent may be left out. -/
theorem C72_paint (mass : ℕ → Quant ℝ) (hmass : QuantOK m.nrank (fun r => (pos r).length) mass)
    (vmass : Option (ℕ → List ℝ)) (hvmass : ∀ vm ∈ vmass, ∀ r < m.nrank, (vm r).length = (pos r).length) :
    ∃ (F : ℝ → ℕ → ℤ → ℝ) (jvp : ℕ → ℤ → ℝ),
      (∀ t, AllReturn m.nrank (fun r => pmPaint m w none false r (lay r) (alongRows t (pos r) (vpos.map (· r)))
        ((mass r).along t (pos r).length (vmass.map (· r))) .none fun _ => 0) (fun r => .ok (F t r))) ∧
      AllReturn m.nrank (fun r => pmPaintJvp m w r (lay r) (pos r) (mass r) (vpos.map (· r)) (vmass.map (· r)))
        (fun r => .ok (jvp r)) ∧
      ∀ r < m.nrank, ∀ c, ValidIndex (m.localShape r) c →
        HasDerivAt (fun t => F t r (m.addr r c)) (jvp r (m.addr r c)) 0 := by
  have hm' : ∀ t, QuantOK m.nrank (fun r => (movedPos m pos vpos t r).length)
      (fun r => (mass r).along t (pos r).length (vmass.map (· r))) := by
    intro t
    simp only [movedPos_length vpos hvpos]
    cases vmass with
    | none => exact hmass
    | some vm => exact Or.inr (Or.inr fun r _ => ⟨_, rfl, by simp⟩)
  have hl' : ∀ t, LayoutArg m.nrank (fun q => (movedPos m pos vpos t q).length) lay S := by
    intro t; simp only [movedPos_length vpos hvpos]; exact hlay
  choose F hF hFc using fun t => pmPaint_cells hm hw (hl' t) (movedPos_rows hpos vpos hvpos t) none false (hm' t) fun _ _ => 0
  obtain ⟨jvp, hj, hjc⟩ := pmPaintJvp_cells hm hw hlay hpos hmass vpos (fun vp h r hr => (hvpos vp h r hr).1) vmass hvmass
  refine ⟨F, jvp, fun t => AllReturn.congr (fun r hr => ?_) (fun _ _ => rfl) (hF t), hj, ?_⟩
  · unfold movedPos; rw [if_pos hr]
  · intro r hr c hc
    have hcl : c.length = m.nmesh.length := by rw [(validIndex_iff.1 hc).1, hm.localShape_len hr]
    have hd := sum_hasDerivAt (recvd m.nrank S r) (fun qi t => ((mass qi.1).along t (pos qi.1).length (vmass.map (· qi.1))).at qi.2 *
        weightOn m w none r ⟨(movedPos m pos vpos t qi.1).getD qi.2 [], 1, 1⟩ c)
      (fun qi => (vmass.elim 0 fun vm => (vm qi.1).getD qi.2 0) * weightOn m w none r ⟨(pos qi.1).getD qi.2 [], 1, 1⟩ c +
        (mass qi.1).at qi.2 * vpos.elim 0 fun vp => ((List.range m.nmesh.length).map fun d => ((vp qi.1).getD qi.2 []).getD d 0 *
          weightOn m w (some d) r ⟨(pos qi.1).getD qi.2 [], 1, 1⟩ c).sum) 0 (by
        intro qi hqi
        obtain ⟨hq, hi⟩ := mem_recvd.1 hqi
        have hi' := sent_lt hlay hq hi
        have h1 : HasDerivAt (fun t => ((mass qi.1).along t (pos qi.1).length (vmass.map (· qi.1))).at qi.2)
            (vmass.elim 0 fun vm => (vm qi.1).getD qi.2 0) 0 := by
          cases vmass with
          | none => exact hasDerivAt_const (0 : ℝ) ((mass qi.1).at qi.2)
          | some vm =>
            have e : ∀ t, ((mass qi.1).along t (pos qi.1).length (some (vm qi.1))).at qi.2 =
                (mass qi.1).at qi.2 + t * (vm qi.1).getD qi.2 0 := by
              intro t
              show ((List.range _).map _).getD qi.2 0 = _
              rw [getD_map_range _ _ _ _ hi']
            simp only [Option.map_some, e, Option.elim_some]
            exact line_hasDerivAt _ _
        have h2 := h1.mul (part_line hm hw hk hpos vpos hvpos hs r qi.1 qi.2 hq hi' c hcl)
        refine h2.congr_deriv ?_
        have e1 : movedPos m pos vpos 0 qi.1 = pos qi.1 := by
          unfold movedPos
          rw [if_pos hq]
          exact alongRows_zero _ _ (fun v hv => by
            obtain ⟨vp, h, rfl⟩ := Option.map_eq_some_iff.1 hv
            have := hvpos vp h qi.1 hq
            exact ⟨this.1, fun u hu x hx => by rw [this.2 u hu, hpos qi.1 hq x hx]⟩)
        have e2 : ((mass qi.1).along 0 (pos qi.1).length (vmass.map (· qi.1))).at qi.2 = (mass qi.1).at qi.2 := by
          cases vmass with
          | none => rfl
          | some vm =>
            show ((List.range _).map _).getD qi.2 0 = _
            rw [getD_map_range _ _ _ _ hi']
            simp
        rw [e1, e2])
    refine (hd.congr_of_eventuallyEq ?_).congr_deriv ?_
    · filter_upwards with t
      rw [hFc t r hr c hc]
      simp
    · rw [hjc r hr c hc, sum_add_map, add_comm]
      congr 1
      · cases vpos with
        | none => simp
        | some vp =>
          simp only [Option.elim_some]
          rw [sum_comm' (List.range m.nmesh.length)]
          apply sum_congr_mem
          intro qi _
          rw [← sum_mul_left_map]
          apply sum_congr_mem
          intro d _
          ring
      · cases vmass with
        | none => simp
        | some vm => rfl

/-- **C72**, readout: for every particle, `readout_jvp(pos, v_self, v_pos)` is the derivative at `t = 0` of
`(self + t v_self).readout(pos + t v_pos)`. -/
theorem C72_readout (field : ℕ → ℤ → ℝ) (vself : Option (ℕ → ℤ → ℝ)) :
    ∃ (V : ℝ → ℕ → List ℝ) (jvp : ℕ → List ℝ),
      (∀ t, AllReturn m.nrank (fun r => pmReadout m w none r (lay r) (alongRows t (pos r) (vpos.map (· r))) .none
        (alongField t (field r) (vself.map (· r)))) (fun r => .ok (V t r))) ∧
      AllReturn m.nrank (fun r => pmReadoutJvp m w none r (lay r) (pos r) (field r) (vself.map (· r)) (vpos.map (· r)))
        (fun r => .ok (jvp r)) ∧
      ∀ q < m.nrank, (∀ t, (V t q).length = (pos q).length) ∧ (jvp q).length = (pos q).length ∧
        ∀ i < (pos q).length, HasDerivAt (fun t => (V t q).getD i 0) ((jvp q).getD i 0) 0 := by
  have hnone : ∀ t, QuantOK m.nrank (fun r => (movedPos m pos vpos t r).length) (fun _ => (.none : Quant ℝ)) :=
    fun t => Or.inl fun _ _ => rfl
  have hl' : ∀ t, LayoutArg m.nrank (fun q => (movedPos m pos vpos t q).length) lay S := by
    intro t; simp only [movedPos_length vpos hvpos]; exact hlay
  choose V hV hVl hVe using fun t => pmReadout_return hm.dim hw none hm.nrank_pos (hl' t) (movedPos_rows hpos vpos hvpos t) (hnone t)
    (fun r => alongField t (field r) (vself.map (· r)))
  obtain ⟨jvp, hj, hjl, hje⟩ := pmReadoutJvp_values hm hw hlay hpos field vself vpos (fun vp h r hr => (hvpos vp h r hr).1)
  refine ⟨V, jvp, fun t => AllReturn.congr (fun r hr => ?_) (fun _ _ => rfl) (hV t), hj, fun q hq =>
    ⟨fun t => by rw [hVl t q hq, movedPos_length vpos hvpos], hjl q hq, ?_⟩⟩
  · unfold movedPos; rw [if_pos hr]
  · intro i hi
    have e0 : movedPos m pos vpos 0 q = pos q := by
      unfold movedPos
      rw [if_pos hq]
      exact alongRows_zero _ _ (fun v hv => by
        obtain ⟨vp, h, rfl⟩ := Option.map_eq_some_iff.1 hv
        have := hvpos vp h q hq
        exact ⟨this.1, fun u hu x hx => by rw [this.2 u hu, hpos q hq x hx]⟩)
    -- one rank
    have hrank : ∀ r < m.nrank, HasDerivAt (fun t => readOn m w none (alongField t (field r) (vself.map (· r))) r
          (partAt (movedPos m pos vpos t) (fun _ => .none) (fun _ => .none) q i))
        ((vpos.elim 0 fun vp => ((List.range m.nmesh.length).map fun d => ((vp q).getD i []).getD d 0 *
          readOn m w (some d) (field r) r (partAt pos (fun _ => .none) (fun _ => .none) q i)).sum) +
          vself.elim 0 fun vs => readOn m w none (vs r) r (partAt pos (fun _ => .none) (fun _ => .none) q i)) 0 := by
      intro r hr
      have hshl := hm.localShape_len hr
      have hd := sum_hasDerivAt (ndindex (m.localShape r)) (fun c t =>
          weightOn m w none r ⟨(movedPos m pos vpos t q).getD i [], 1, 1⟩ c *
            alongField t (field r) (vself.map (· r)) (m.addr r c))
        (fun c => (vpos.elim 0 fun vp => ((List.range m.nmesh.length).map fun d => ((vp q).getD i []).getD d 0 *
            weightOn m w (some d) r ⟨(pos q).getD i [], 1, 1⟩ c).sum) * field r (m.addr r c) +
          weightOn m w none r ⟨(pos q).getD i [], 1, 1⟩ c * vself.elim 0 fun vs => vs r (m.addr r c)) 0 (by
          intro c hc
          rw [mem_ndindex] at hc
          have hcl : c.length = m.nmesh.length := by rw [(validIndex_iff.1 hc).1, hshl]
          have h1 : HasDerivAt (fun t => alongField t (field r) (vself.map (· r)) (m.addr r c))
              (vself.elim 0 fun vs => vs r (m.addr r c)) 0 := by
            cases vself with
            | none => exact hasDerivAt_const _ _
            | some vs =>
              exact line_hasDerivAt _ _
          refine ((part_line hm hw hk hpos vpos hvpos hs r q i hq hi c hcl).mul h1).congr_deriv ?_
          have e1 : alongField 0 (field r) (vself.map (· r)) = field r := by
            cases vself with
            | none => rfl
            | some vs => funext a; simp [alongField]
          rw [e0, e1])
      refine (hd.congr_of_eventuallyEq ?_).congr_deriv ?_
      · filter_upwards with t
        unfold readOn
        rw [shapeOf_painter w none r hshl]
        apply sum_congr_mem
        intro c hc
        rw [mem_ndindex] at hc
        have hcl := (validIndex_iff.1 hc).1
        rw [elemAddr_painter w none r (by omega)]
        rfl
      · have hread : ∀ (g : Option ℕ) (f : ℤ → ℝ), readOn m w g f r (partAt pos (fun _ => .none) (fun _ => .none) q i) =
            ((ndindex (m.localShape r)).map fun c => weightOn m w g r ⟨(pos q).getD i [], 1, 1⟩ c * f (m.addr r c)).sum := by
          intro g f
          unfold readOn
          rw [shapeOf_painter w g r hshl]
          apply sum_congr_mem
          intro c hc
          rw [mem_ndindex] at hc
          have hcl := (validIndex_iff.1 hc).1
          rw [elemAddr_painter w g r (by omega)]
          rfl
        simp only [hread]
        rw [sum_add_map]
        congr 1
        · cases vpos with
          | none => simp
          | some vp =>
            simp only [Option.elim_some, ← sum_mul_left_map, ← sum_mul_right_map]
            rw [sum_comm']
            apply sum_congr_mem
            intro d _
            apply sum_congr_mem
            intro c _
            ring
        · cases vself with
          | none => simp
          | some vs => rfl
    have hd := sum_hasDerivAt (List.range m.nrank) (fun r t => ((S q r).map fun j => if j = i then
        readOn m w none (alongField t (field r) (vself.map (· r))) r
          (partAt (movedPos m pos vpos t) (fun _ => .none) (fun _ => .none) q j) else 0).sum)
      (fun r => ((S q r).map fun j => if j = i then
        (vpos.elim 0 fun vp => ((List.range m.nmesh.length).map fun d => ((vp q).getD i []).getD d 0 *
          readOn m w (some d) (field r) r (partAt pos (fun _ => .none) (fun _ => .none) q j)).sum) +
          vself.elim 0 fun vs => readOn m w none (vs r) r (partAt pos (fun _ => .none) (fun _ => .none) q j) else 0).sum) 0 (by
        intro r hr
        rw [List.mem_range] at hr
        apply sum_hasDerivAt
        intro j _
        split_ifs with h
        · subst h; exact hrank r hr
        · exact hasDerivAt_const _ _)
    refine (hd.congr_of_eventuallyEq ?_).congr_deriv ?_
    · filter_upwards with t
      rw [hVe t q hq i (by rw [movedPos_length vpos hvpos]; exact hi)]
    · rw [hje q hq i hi]
      have e2 : ∀ r j, (if j = i then (vpos.elim 0 fun vp => ((List.range m.nmesh.length).map fun d => ((vp q).getD i []).getD d 0 *
          readOn m w (some d) (field r) r (partAt pos (fun _ => .none) (fun _ => .none) q j)).sum) +
          vself.elim 0 fun vs => readOn m w none (vs r) r (partAt pos (fun _ => .none) (fun _ => .none) q j) else 0) =
          (vpos.elim 0 fun vp => ((List.range m.nmesh.length).map fun d => ((vp q).getD i []).getD d 0 *
            if j = i then readOn m w (some d) (field r) r (partAt pos (fun _ => .none) (fun _ => .none) q j) else 0).sum) +
          vself.elim 0 fun vs => if j = i then readOn m w none (vs r) r (partAt pos (fun _ => .none) (fun _ => .none) q j) else 0 := by
        intro r j
        split_ifs with h
        · rfl
        · cases vpos <;> cases vself <;> simp
      simp only [e2, sum_add_map]
      congr 1
      · cases vpos with
        | none => simp
        | some vp =>
          simp only [Option.elim_some, ← sum_mul_left_map]
          rw [sum_comm' (List.range m.nmesh.length)]
          apply sum_congr_mem
          intro r _
          rw [sum_comm' (List.range m.nmesh.length)]
      · cases vself with
        | none => simp
        | some vs => rfl

/-- **C72**, `paint_vjp` is the gradient of a function of the painted field: for an objective with the (co)tangent `v` of the
field, here `⟨paint(pos + t v_pos, mass + t v_mass), v⟩`, the rate of change is `⟨v_pos, out_pos⟩ + ⟨v_mass, out_mass⟩`. -/
theorem C72_paint_gradient (mass : ℕ → Quant ℝ) (hmass : QuantOK m.nrank (fun r => (pos r).length) mass)
    (vmass : Option (ℕ → List ℝ)) (hvmass : ∀ vm ∈ vmass, ∀ r < m.nrank, (vm r).length = (pos r).length) (v : ℕ → ℤ → ℝ) :
    ∃ (F : ℝ → ℕ → ℤ → ℝ) (outpos : ℕ → List (List ℝ)) (outmass : ℕ → List ℝ),
      (∀ t, AllReturn m.nrank (fun r => pmPaint m w none false r (lay r) (alongRows t (pos r) (vpos.map (· r)))
        ((mass r).along t (pos r).length (vmass.map (· r))) .none fun _ => 0) (fun r => .ok (F t r))) ∧
      AllReturn m.nrank (fun r => pmPaintVjp m w r (lay r) (pos r) (mass r) (v r)) (fun r => .ok (outpos r, outmass r)) ∧
      HasDerivAt (fun t => m.fieldDot (F t) v) (vpos.elim 0 (fun vp => columnsDot m.nrank m.nmesh.length vp outpos) +
        vmass.elim 0 (fun vm => ranksDot m.nrank vm outmass)) 0 := by
  obtain ⟨F, jvp, hF, hj, hd⟩ := C72_paint m hm w hw hk pos hpos lay S hlay vpos hvpos hs mass hmass vmass hvmass
  obtain ⟨jvp', op, om, hj', hv', he⟩ := C25_paint m hm w hw pos hpos lay S hlay mass hmass vpos
    (fun vp h r hr => (hvpos vp h r hr).1) vmass hvmass v
  have hjj := AllReturn.unique_ok hj hj'
  refine ⟨F, op, om, hF, hv', ?_⟩
  rw [← he]
  apply fieldDot_hasDerivAt
  intro r hr c hc
  rw [← hjj r hr]
  exact hd r hr c hc

/-- **C72**, `readout_vjp` is the gradient of a function of the values read. -/
theorem C72_readout_gradient (field : ℕ → ℤ → ℝ) (vself : Option (ℕ → ℤ → ℝ))
    (v : ℕ → List ℝ) (hv : ∀ r < m.nrank, (v r).length = (pos r).length) :
    ∃ (V : ℝ → ℕ → List ℝ) (outself : ℕ → ℤ → ℝ) (outpos : ℕ → List (List ℝ)),
      (∀ t, AllReturn m.nrank (fun r => pmReadout m w none r (lay r) (alongRows t (pos r) (vpos.map (· r))) .none
        (alongField t (field r) (vself.map (· r)))) (fun r => .ok (V t r))) ∧
      AllReturn m.nrank (fun r => pmReadoutVjp m w r (lay r) (pos r) (v r) (field r)) (fun r => .ok (outself r, outpos r)) ∧
      HasDerivAt (fun t => ranksDot m.nrank (V t) v) (vself.elim 0 (fun vs => m.fieldDot vs outself) +
        vpos.elim 0 (fun vp => columnsDot m.nrank m.nmesh.length vp outpos)) 0 := by
  obtain ⟨V, jvp, hV, hj, hd⟩ := C72_readout m hm w hw hk pos hpos lay S hlay vpos hvpos hs field vself
  obtain ⟨jvp', os, op, hj', hv', -, he⟩ := C25_readout m hm w hw pos hpos lay S hlay field vself vpos
    (fun vp h r hr => (hvpos vp h r hr).1) v hv
  have hjj := AllReturn.unique_ok hj hj'
  refine ⟨V, os, op, hV, hv', ?_⟩
  rw [← he]
  refine ranksDot_hasDerivAt (len := fun r => (pos r).length) V jvp' v (fun r hr => (hd r hr).1)
    (fun r hr => by rw [← hjj r hr]; exact (hd r hr).2.1) hv fun r hr i hi => ?_
  rw [← hjj r hr]
  exact (hd r hr).2.2 i hi

/-- **C72**, the `paint` operator of pmesh/abopt.py: its derivative is the result of the `jvp` times `Nmesh.prod() / N`, `N` the
number of particles; and its `vjp` is the gradient. -/
theorem C72_abopt_paint (v : ℕ → ℤ → ℝ) :
    ∃ (F : ℝ → ℕ → ℤ → ℝ) (jvp : ℕ → ℤ → ℝ) (vjp : ℕ → List (List ℝ)),
      (∀ t, AllReturn m.nrank (fun r => abPaint m w r (lay r) (alongRows t (pos r) (vpos.map (· r)))) (fun r => .ok (F t r))) ∧
      AllReturn m.nrank (fun r => abPaintJvp m w r (lay r) (pos r) (vpos.map (· r))) (fun r => .ok (jvp r)) ∧
      AllReturn m.nrank (fun r => abPaintVjp m w r (lay r) (pos r) (v r)) (fun r => .ok (vjp r)) ∧
      (∀ r < m.nrank, ∀ c, ValidIndex (m.localShape r) c → HasDerivAt (fun t => F t r (m.addr r c))
        (jvp r (m.addr r c) * ((m.nmesh.prod : ℝ) / (((List.range m.nrank).map fun r => (pos r).length).sum : ℕ))) 0) ∧
      HasDerivAt (fun t => m.fieldDot (F t) v) (vpos.elim 0 fun vp => columnsDot m.nrank m.nmesh.length vp vjp) 0 := by
  have hmass : QuantOK m.nrank (fun r => (pos r).length) (fun _ => (.scalar 1 : Quant ℝ)) := Or.inr (Or.inl ⟨1, fun _ _ => rfl⟩)
  obtain ⟨F, jvp, hF, hj, hd⟩ := C72_paint m hm w hw hk pos hpos lay S hlay vpos hvpos hs (fun _ => .scalar 1) hmass none (by simp)
  obtain ⟨jvp', vjp, hj', hv', he⟩ := C53_paint_factor m hm w hw pos hpos lay S hlay vpos (fun vp h r hr => (hvpos vp h r hr).1) v
  have hjj := AllReturn.unique_ok (show AllReturn m.nrank (fun r => abPaintJvp m w r (lay r) (pos r) (vpos.map (· r)))
    (fun r => .ok (jvp r)) from hj) hj'
  set N : ℕ := ((List.range m.nrank).map fun r => (pos r).length).sum with hN
  have hlen : ∀ t, ((List.range m.nrank).map fun r => (alongRows t (pos r) (vpos.map (· r))).length).sum = N := by
    intro t
    rw [hN]
    apply congrArg List.sum
    apply List.map_congr_left
    intro r hr
    have := movedPos_length vpos hvpos t r
    unfold movedPos at this
    rwa [if_pos (List.mem_range.1 hr)] at this
  have hcell : ∀ r < m.nrank, ∀ c, ValidIndex (m.localShape r) c →
      HasDerivAt (fun t => F t r (m.addr r c) * ((m.nmesh.prod : ℝ) / (N : ℕ))) (jvp r (m.addr r c) * ((m.nmesh.prod : ℝ) / (N : ℕ))) 0 :=
    fun r hr c hc => (hd r hr c hc).mul_const _
  refine ⟨fun t r a => F t r a * ((m.nmesh.prod : ℝ) / (N : ℕ)), jvp, vjp, ?_, hj, hv', hcell, ?_⟩
  · intro t
    unfold abPaint
    refine abTotal_return hm.nrank_pos ?_
    rw [hlen t]
    exact AllReturn.andThen (hF t) (AllReturn.ret m.nrank _)
  · rw [← he]
    have h1 := fieldDot_hasDerivAt m (fun t r a => F t r a * ((m.nmesh.prod : ℝ) / (N : ℕ)))
      (fun r a => jvp r a * ((m.nmesh.prod : ℝ) / (N : ℕ))) v hcell
    refine h1.congr_deriv ?_
    unfold PMesh.fieldDot
    rw [← sum_mul_right_map]
    apply sum_congr_mem
    intro r hr
    rw [← sum_mul_right_map, ← hjj r (List.mem_range.1 hr)]
    apply sum_congr_mem
    intro c _
    ring

/-- **C72**, the `jvp` of the `paint` operator of pmesh/abopt.py (partial: as many particles as cells): it is the derivative. -/
theorem C72_abopt_paint_partial (hN : ((List.range m.nrank).map fun r => (pos r).length).sum = m.nmesh.prod) :
    ∃ (F : ℝ → ℕ → ℤ → ℝ) (jvp : ℕ → ℤ → ℝ),
      (∀ t, AllReturn m.nrank (fun r => abPaint m w r (lay r) (alongRows t (pos r) (vpos.map (· r)))) (fun r => .ok (F t r))) ∧
      AllReturn m.nrank (fun r => abPaintJvp m w r (lay r) (pos r) (vpos.map (· r))) (fun r => .ok (jvp r)) ∧
      ∀ r < m.nrank, ∀ c, ValidIndex (m.localShape r) c → HasDerivAt (fun t => F t r (m.addr r c)) (jvp r (m.addr r c)) 0 := by
  obtain ⟨F, jvp, _, h1, h2, -, h3, -⟩ := C72_abopt_paint m hm w hw hk pos hpos lay S hlay vpos hvpos hs fun _ _ => 0
  refine ⟨F, jvp, h1, h2, fun r hr c hc => ?_⟩
  have := h3 r hr c hc
  rwa [hN, div_self (by exact_mod_cast (List.prod_pos fun n hn => nmesh_pos' hm n hn).ne'), mul_one] at this

/-- **C72 violated** by the `jvp` of the `paint` operator of pmesh/abopt.py with another number of particles: it is not the
derivative in any cell where it is not 0 (`C53_violated_paint` shows such cells). -/
theorem C72_violated_abopt_paint (hN : ((List.range m.nrank).map fun r => (pos r).length).sum ≠ m.nmesh.prod)
    (F : ℝ → ℕ → ℤ → ℝ) (jvp : ℕ → ℤ → ℝ)
    (hF : ∀ t, AllReturn m.nrank (fun r => abPaint m w r (lay r) (alongRows t (pos r) (vpos.map (· r)))) (fun r => .ok (F t r)))
    (hj : AllReturn m.nrank (fun r => abPaintJvp m w r (lay r) (pos r) (vpos.map (· r))) (fun r => .ok (jvp r)))
    (r : ℕ) (hr : r < m.nrank) (c : List ℕ) (hc : ValidIndex (m.localShape r) c) (hne : jvp r (m.addr r c) ≠ 0) :
    ¬ HasDerivAt (fun t => F t r (m.addr r c)) (jvp r (m.addr r c)) 0 := by
  intro hd
  obtain ⟨F', jvp', _, h1, h2, -, h3, -⟩ := C72_abopt_paint m hm w hw hk pos hpos lay S hlay vpos hvpos hs fun _ _ => 0
  have e1 := AllReturn.unique_ok hj h2 r hr
  have e2 : ∀ t, F t r = F' t r := fun t => AllReturn.unique_ok (hF t) (h1 t) r hr
  have h4 := h3 r hr c hc
  simp only [← e2, ← e1] at h4
  have h5 := h4.unique hd
  have h6 : ((m.nmesh.prod : ℕ) : ℝ) / (((List.range m.nrank).map fun r => (pos r).length).sum : ℕ) = 1 :=
    mul_left_cancel₀ hne (by rw [h5, mul_one])
  by_cases h0 : ((((List.range m.nrank).map fun r => (pos r).length).sum : ℕ) : ℝ) = 0
  · rw [h0, div_zero] at h6; exact zero_ne_one h6
  · rw [div_eq_one_iff_eq h0] at h6
    exact hN (by exact_mod_cast h6.symm)

/-- **C72**, the `readout` operator of pmesh/abopt.py: its `jvp` is its derivative. -/
theorem C72_abopt_readout (field : ℕ → ℤ → ℝ) (vself : Option (ℕ → ℤ → ℝ)) :
    ∃ (V : ℝ → ℕ → List ℝ) (jvp : ℕ → List ℝ),
      (∀ t, AllReturn m.nrank (fun r => abReadout m w r (lay r) (alongRows t (pos r) (vpos.map (· r)))
        (alongField t (field r) (vself.map (· r)))) (fun r => .ok (V t r))) ∧
      AllReturn m.nrank (fun r => abReadoutJvp m w r (lay r) (pos r) (field r) (vself.map (· r)) (vpos.map (· r)))
        (fun r => .ok (jvp r)) ∧
      ∀ q < m.nrank, ∀ i < (pos q).length, HasDerivAt (fun t => (V t q).getD i 0) ((jvp q).getD i 0) 0 := by
  obtain ⟨V, jvp, hV, hj, hd⟩ := C72_readout m hm w hw hk pos hpos lay S hlay vpos hvpos hs field vself
  exact ⟨V, jvp, fun t => abTotal_return hm.nrank_pos (hV t), hj, fun q hq => (hd q hq).2.2⟩

end

/-! ## Which points are smooth -/

/-- All points for the tsc window. -/
theorem C72_smooth_tsc (m : PMesh ℝ) (tuned : Option Tuned) (ht : ∀ t ∈ tuned, t = .tsc) (support : ℕ) (x : List ℝ) :
    m.SmoothPoint ⟨quadraticK, tuned, support⟩ x where
  smooth := fun _ _ => C21_smooth_tsc _ _
  cic := fun h => by cases ht _ h
  pcs := fun h => by cases ht _ h

/-- All points for the pcs window of generic code. -/
theorem C72_smooth_pcs (m : PMesh ℝ) (support : ℕ) (x : List ℝ) : m.SmoothPoint ⟨cubicK, none, support⟩ x where
  smooth := fun _ _ => C21_smooth_pcs _ _
  cic := fun h => by cases h
  pcs := fun h => by cases h

/-- All points for the pcs window of tuned code, if the cells have unit size. -/
theorem C72_smooth_pcs_unit (m : PMesh ℝ) (hu : ∀ j < m.nmesh.length, m.scale.getD j 0 = 1) (support : ℕ) (x : List ℝ) :
    m.SmoothPoint ⟨cubicK, some .pcs, support⟩ x where
  smooth := fun _ _ => C21_smooth_pcs _ _
  cic := fun h => by cases h
  pcs := fun _ => hu

/-- Points off the planes of grid points for the cic window. -/
theorem C72_smooth_cic (m : PMesh ℝ) (tuned : Option Tuned) (ht : ∀ t ∈ tuned, t = .cic) (x : List ℝ)
    (hx : ∀ j < m.nmesh.length, ∀ n : ℤ, x.getD j 0 * m.scale.getD j 0 ≠ n) : m.SmoothPoint ⟨linearK, tuned, 2⟩ x where
  smooth := fun j hj => by
    have := C21_smooth_cic _ (hx j hj)
    simpa [Resampler.size] using this
  cic := fun _ => hx
  pcs := fun h => by cases ht _ h

/-! ## Examples -/

theorem exMeshR_scale : exMeshR.scale.getD 0 0 = 1 := by simp [exMeshR, PMesh.scale]

theorem exMeshR_smooth : ∀ r < exMeshR.nrank, ∀ x ∈ (if r = 0 then [[1 / 2], [7 / 3]] else [[9 / 2]] : List (List ℝ)),
    exMeshR.SmoothPoint exWinR x := by
  intro r _ x hx
  apply C72_smooth_cic
  · intro t ht; cases ht; rfl
  · intro j hj n h
    have hj0 : j = 0 := by simp [exMeshR] at hj; exact hj
    subst hj0
    rw [exMeshR_scale, mul_one] at h
    split_ifs at hx
    · simp only [List.mem_cons, List.not_mem_nil, or_false] at hx
      rcases hx with rfl | rfl
      · simp only [List.getD_cons_zero] at h
        have : (1 : ℝ) = ((2 * n : ℤ) : ℝ) := by push_cast; linarith
        have : (1 : ℤ) = 2 * n := by exact_mod_cast this
        omega
      · simp only [List.getD_cons_zero] at h
        have : (7 : ℝ) = ((3 * n : ℤ) : ℝ) := by push_cast; linarith
        have : (7 : ℤ) = 3 * n := by exact_mod_cast this
        omega
    · simp only [List.mem_cons, List.not_mem_nil, or_false] at hx
      subst hx
      simp only [List.getD_cons_zero] at h
      have : (9 : ℝ) = ((2 * n : ℤ) : ℝ) := by push_cast; linarith
      have : (9 : ℤ) = 2 * n := by exact_mod_cast this
      omega

theorem exMeshR_rows : ∀ r < exMeshR.nrank, ∀ x ∈ (if r = 0 then [[1 / 2], [7 / 3]] else [[9 / 2]] : List (List ℝ)),
    x.length = exMeshR.nmesh.length := by
  intro r _ x hx; split_ifs at hx <;> simp at hx <;> aesop

theorem exMeshR_tangents : ∀ vp ∈ some (fun r : ℕ => (if r = 0 then [[1], [-2]] else [[5]] : List (List ℝ))), ∀ r < exMeshR.nrank,
    (vp r).length = (if r = 0 then [[1 / 2], [7 / 3]] else [[9 / 2]] : List (List ℝ)).length ∧
      ∀ u ∈ vp r, u.length = exMeshR.nmesh.length := by
  intro vp hvp r _
  cases hvp
  refine ⟨by beta_reduce; split_ifs <;> rfl, fun u hu => ?_⟩
  beta_reduce at hu
  split_ifs at hu <;> simp at hu <;> aesop

/-- Non-vacuity: two ranks without a layout, two and one particles, cic window. -/
example := C72_paint exMeshR exMeshR_ok exWinR exWinR_valid C14_confined_linear _ exMeshR_rows _ _ .none _ exMeshR_tangents
  (fun _ => exMeshR_smooth) (fun _ => .scalar 3) (Or.inr (Or.inl ⟨3, fun _ _ => rfl⟩))
  (some fun r => if r = 0 then [1, 2] else [-1]) (by intro vm hvm r _; cases hvm; beta_reduce; split_ifs <;> rfl)

example := C72_readout exMeshR exMeshR_ok exWinR exWinR_valid C14_confined_linear _ exMeshR_rows _ _ .none _ exMeshR_tangents
  (fun _ => exMeshR_smooth) (fun r a => (r : ℝ) - a) (some fun r a => (r : ℝ) * a)

example := C72_paint_gradient exMeshR exMeshR_ok exWinR exWinR_valid C14_confined_linear _ exMeshR_rows _ _ .none _ exMeshR_tangents
  (fun _ => exMeshR_smooth) (fun _ => .scalar 3) (Or.inr (Or.inl ⟨3, fun _ _ => rfl⟩))
  (some fun r => if r = 0 then [1, 2] else [-1]) (by intro vm hvm r _; cases hvm; beta_reduce; split_ifs <;> rfl) (fun r a => (r : ℝ) - a)

example := C72_readout_gradient exMeshR exMeshR_ok exWinR exWinR_valid C14_confined_linear _ exMeshR_rows _ _ .none _ exMeshR_tangents
  (fun _ => exMeshR_smooth) (fun r a => (r : ℝ) - a) (some fun r a => (r : ℝ) * a)
  (fun r => if r = 0 then [1, 2] else [-1]) (by intro r _; split_ifs <;> rfl)

example := C72_abopt_paint exMeshR exMeshR_ok exWinR exWinR_valid C14_confined_linear _ exMeshR_rows _ _ .none _ exMeshR_tangents
  (fun _ => exMeshR_smooth) (fun r a => (r : ℝ) - a)

example := C72_abopt_readout exMeshR exMeshR_ok exWinR exWinR_valid C14_confined_linear _ exMeshR_rows _ _ .none _ exMeshR_tangents
  (fun _ => exMeshR_smooth) (fun r a => (r : ℝ) - a) (some fun r a => (r : ℝ) * a)

/-- Three particles and eight cells: the `jvp` of abopt is not the derivative. -/
example := C72_violated_abopt_paint exMeshR exMeshR_ok exWinR exWinR_valid C14_confined_linear _ exMeshR_rows _ _ .none _ exMeshR_tangents
  (fun _ => exMeshR_smooth) (by simp [exMeshR, List.range_succ])

#print axioms C72_paint
#print axioms C72_readout
#print axioms C72_paint_gradient
#print axioms C72_readout_gradient
#print axioms C72_abopt_paint
#print axioms C72_abopt_paint_partial
#print axioms C72_violated_abopt_paint
#print axioms C72_abopt_readout
#print axioms C72_smooth_tsc
#print axioms C72_smooth_pcs
#print axioms C72_smooth_pcs_unit
#print axioms C72_smooth_cic

end Pmesh
