import Verif.Spec.Homogeneous
import Verif.Props.NBody

/-! # Lemmas for states of the N-body program that repeat themselves in the box -/

namespace Pmesh

open Complex

theorem list_ext_getD {x y : List ℝ} (hl : x.length = y.length) (h : ∀ d < x.length, x.getD d 0 = y.getD d 0) : x = y := by
  apply List.ext_getElem hl
  intro i h1 h2
  have := h i h1
  rwa [List.getD_eq_getElem _ _ h1, List.getD_eq_getElem _ _ h2] at this

theorem NBody.x_getD {n : ℕ} {b : NBody} (hb : b.Sane n) {d : ℕ} (hd : d < n) : b.x.getD d 0 = b.s.getD d 0 + b.q.getD d 0 := by
  have h1 : d < b.s.length := by rw [hb.s]; exact hd
  have h2 : d < b.q.length := by rw [hb.q]; exact hd
  have h3 : d < b.x.length := by rw [hb.x]; exact hd
  rw [List.getD_eq_getElem _ _ h1, List.getD_eq_getElem _ _ h2, List.getD_eq_getElem _ _ h3]
  simp [NBody.x]

/-- A body moved by `c` cells is moved by some `t` cells without the box, that moves cells as `c` does. -/
theorem MovedBody.pos {m : PMesh ℝ} (hm : m.OK) {c : List ℤ} (hc : c.length = m.nmesh.length) {b b' : NBody} (hb : b.Sane m.nmesh.length)
    (hb' : b'.Sane m.nmesh.length) (h : MovedBody m c b b') :
    ∃ t : List ℤ, t.length = m.nmesh.length ∧ b'.x = shiftedPos m.nmesh m.box t b.x ∧
      ∀ g, ValidIndex m.nmesh g → movedCell m.nmesh t g = movedCell m.nmesh c g := by
  obtain ⟨-, -, hn⟩ := h.q
  have hn' : ∀ d, ∃ n : ℤ, d < m.nmesh.length → b'.q.getD d 0 = (shiftedPos m.nmesh m.box c b.q).getD d 0 + n * m.box.getD d 0 := by
    intro d
    by_cases hd : d < m.nmesh.length
    · obtain ⟨n, e⟩ := hn d (by rw [hm.box_len]; exact hd)
      exact ⟨n, fun _ => e⟩
    · exact ⟨0, fun h => absurd h hd⟩
  choose n hn' using hn'
  have ht : ((List.range m.nmesh.length).map fun d => c.getD d 0 + n d * (m.nmesh.getD d 0 : ℕ)).length = m.nmesh.length := by simp
  refine ⟨(List.range m.nmesh.length).map fun d => c.getD d 0 + n d * (m.nmesh.getD d 0 : ℕ), ht, ?_, fun g hg => ?_⟩
  · refine list_ext_getD (by rw [hb'.x, shiftedPos_length hm.box_len ht hb.x]) fun d hd => ?_
    rw [hb'.x] at hd
    rw [shiftedPos_getD hm.box_len ht hb.x hd, NBody.x_getD hb hd, NBody.x_getD hb' hd, hn' d hd, h.s, shiftedPos_getD hm.box_len hc hb.q hd]
    have hp : 0 < m.nmesh.getD d 0 := nmesh_pos' hm _ (by rw [List.getD_eq_getElem _ _ hd]; exact List.getElem_mem hd)
    have hp' : ((m.nmesh.getD d 0 : ℕ) : ℝ) ≠ 0 := by exact_mod_cast hp.ne'
    rw [show ((List.range m.nmesh.length).map fun d => c.getD d 0 + n d * (m.nmesh.getD d 0 : ℕ)).getD d 0 = c.getD d 0 + n d * (m.nmesh.getD d 0 : ℕ) by simp [hd]]
    push_cast
    field_simp
    ring
  · have h1 := (movedCell_valid ht hg).len
    have h2 := (movedCell_valid hc hg).len
    apply List.ext_getElem (by rw [h1, h2])
    intro d h3 h4
    have hd : d < m.nmesh.length := by rw [← h1]; exact h3
    have e1 := movedCell_getD ht hg.len hd
    have e2 := movedCell_getD hc hg.len hd
    rw [List.getD_eq_getElem _ _ h3] at e1
    rw [List.getD_eq_getElem _ _ h4] at e2
    rw [e1, e2]
    congr 1
    rw [show ((List.range m.nmesh.length).map fun d => c.getD d 0 + n d * (m.nmesh.getD d 0 : ℕ)).getD d 0 = c.getD d 0 + n d * (m.nmesh.getD d 0 : ℕ) by simp [hd]]
    rw [← add_assoc, Int.add_mul_emod_self_right]

theorem weightAt_movedBody {m : PMesh ℝ} (hm : m.OK) (w : Resampler ℝ) {c : List ℤ} (hc : c.length = m.nmesh.length) {b b' : NBody} (hb : b.Sane m.nmesh.length)
    (hb' : b'.Sane m.nmesh.length) (h : MovedBody m c b b') {g : List ℕ} (hg : ValidIndex m.nmesh g) :
    m.weightAt w b'.x (movedCell m.nmesh c g) = m.weightAt w b.x g := by
  obtain ⟨t, ht, e1, e2⟩ := h.pos hm hc hb hb'
  rw [e1, ← e2 g hg, weightAt_moved hm w ht hb.x hg]

theorem forall₂_sum {R : NBody → NBody → Prop} {f f' : NBody → ℝ} : ∀ {L L' : List NBody}, List.Forall₂ R L L' →
    (∀ b ∈ L, ∀ b' ∈ L', R b b' → f' b' = f b) → (L'.map f').sum = (L.map f).sum
  | [], [], .nil, _ => rfl
  | b :: L, b' :: L', .cons h t, hf => by
    rw [List.map_cons, List.sum_cons, List.map_cons, List.sum_cons, hf b (by simp) b' (by simp) h,
      forall₂_sum t fun x hx y hy => hf x (by simp [hx]) y (by simp [hy])]

section
variable {m : PMesh ℝ} (hm : m.OK) (w : Resampler ℝ) {c : List ℤ} (hc : c.length = m.nmesh.length) {L : List NBody}
  (hL : ∀ b ∈ L, b.Sane m.nmesh.length) (hr : Repeats m c L)
include hm hc hL hr

/-- The density repeats itself. -/
theorem dens_repeats (fac : ℝ) {g : List ℕ} (hg : ValidIndex m.nmesh g) :
    densAt m w (nbSys fac) L (movedCell m.nmesh c g) = densAt m w (nbSys fac) L g := by
  obtain ⟨L', hp, h2⟩ := hr
  unfold densAt
  rw [(hp.map _).sum_eq]
  refine forall₂_sum h2 fun b hb b' hb' h => ?_
  show fac * m.weightAt w b'.x _ = fac * m.weightAt w b.x g
  rw [weightAt_movedBody hm w hc (hL b hb) (hL b' (hp.mem_iff.2 hb')) h hg]

theorem modes_repeat (fac : ℝ) (k : List ℕ) :
    r2c m.nmesh (densAt m w (nbSys fac) L) k = exp (-(2 * Real.pi * I * shiftArg m.nmesh k c)) * r2c m.nmesh (densAt m w (nbSys fac) L) k :=
  r2c_moved hc (fun _ hg => dens_repeats hm w hc hL hr fac hg) k

/-- The force is the same at all images. -/
theorem force_repeats {cshape : List ℕ} (hs : StoredShape m.nmesh cshape) (om : ℝ) {b b' : NBody} (hb : b.Sane m.nmesh.length) (hb' : b'.Sane m.nmesh.length)
    (h : MovedBody m c b b') (d : ℕ) : nbForceAt m cshape w om L b'.x d = nbForceAt m cshape w om L b.x d := by
  unfold nbForceAt bodyRead
  congr 1
  rw [← sum_movedCell m.nmesh c hc]
  apply sum_congr'
  intro g hg
  have hg := mem_ndindex.1 hg
  rw [weightAt_movedBody hm w hc hb hb' h hg, c2r_moved hs hm.dim hc (F := fun k => forceTransfer m.nmesh m.box d k *
    r2c m.nmesh (densAt m w (nbSys (nbFac m L)) L) k) (fun k _ => ?_) hg]
  conv_lhs => rw [modes_repeat hm w hc hL hr]
  ring

end

/-- The bodies repeat themselves with their forces. -/
def RepeatsF (m : PMesh ℝ) (c : List ℤ) (L : List NBody) : Prop := ∃ L', L.Perm L' ∧ List.Forall₂ (fun b b' => MovedBody m c b b' ∧ b'.f = b.f) L L'

theorem RepeatsF.repeats {m : PMesh ℝ} {c : List ℤ} {L : List NBody} (h : RepeatsF m c L) : Repeats m c L := by
  obtain ⟨L', h1, h2⟩ := h
  exact ⟨L', h1, h2.imp fun _ _ h => h.1⟩

theorem forall₂_map_mem {R S : NBody → NBody → Prop} {f : NBody → NBody} : ∀ {L L' : List NBody}, List.Forall₂ R L L' →
    (∀ b ∈ L, ∀ b' ∈ L', R b b' → S (f b) (f b')) → List.Forall₂ S (L.map f) (L'.map f)
  | [], [], .nil, _ => .nil
  | b :: L, b' :: L', .cons h t, hf =>
    .cons (hf b (by simp) b' (by simp) h) (forall₂_map_mem t fun x hx y hy => hf x (by simp [hx]) y (by simp [hy]))

section
variable {m : PMesh ℝ} (hm : m.OK) (w : Resampler ℝ) {c : List ℤ} (hc : c.length = m.nmesh.length) {cshape : List ℕ} (hs : StoredShape m.nmesh cshape)
  (om : ℝ) (fac : Factors)
include hm hc hs

theorem movedBody_op (op : NbOp) {L : List NBody} (hL : ∀ b ∈ L, b.Sane m.nmesh.length) (hr : Repeats m c L) {b b' : NBody} (hb : b.Sane m.nmesh.length)
    (hb' : b'.Sane m.nmesh.length) (h : MovedBody m c b b') (hf : op ≠ .force → b'.f = b.f) :
    MovedBody m c (nbOp m cshape w om fac L op b) (nbOp m cshape w om fac L op b') ∧
      (nbOp m cshape w om fac L op b').f = (nbOp m cshape w om fac L op b).f := by
  cases op with
  | force =>
    refine ⟨⟨h.q, h.s, h.v⟩, ?_⟩
    simp only [nbOp, force_repeats hm w hc hL hr hs om hb hb' h]
  | kick ai af ar =>
    refine ⟨⟨h.q, h.s, ?_⟩, hf (by simp)⟩
    simp only [nbOp, NBody.kick, h.v, hf (by simp)]
  | drift ai af ar =>
    refine ⟨⟨h.q, ?_, h.v⟩, hf (by simp)⟩
    simp only [nbOp, NBody.drift, h.v, h.s]

theorem repeats_op (op : NbOp) {L : List NBody} (hL : ∀ b ∈ L, b.Sane m.nmesh.length) (hr : Repeats m c L) (hf : op ≠ .force → RepeatsF m c L) :
    RepeatsF m c (L.map (nbOp m cshape w om fac L op)) := by
  by_cases ho : op = .force
  · obtain ⟨L', h1, h2⟩ := hr
    exact ⟨_, h1.map _, forall₂_map_mem h2 fun b hb b' hb' h =>
      movedBody_op hm w hc hs om fac op hL ⟨L', h1, h2⟩ (hL b hb) (hL b' (h1.mem_iff.2 hb')) h fun h => absurd ho h⟩
  · obtain ⟨L', h1, h2⟩ := hf ho
    exact ⟨_, h1.map _, forall₂_map_mem h2 fun b hb b' hb' h =>
      movedBody_op hm w hc hs om fac op hL hr (hL b hb) (hL b' (h1.mem_iff.2 hb')) h.1 fun _ => h.2⟩

/-- Along a run the images stay images. -/
theorem movedBody_traj (l : List NbOp) : ∀ {L : List NBody}, (∀ b ∈ L, b.Sane m.nmesh.length) → (∀ b ∈ L, b.f.length = m.nmesh.length) → RepeatsF m c L →
    RepeatsF m c (L.map (nbTraj m cshape w om fac l L)) ∧
    ∀ b b', b.Sane m.nmesh.length → b.f.length = m.nmesh.length → b'.Sane m.nmesh.length → b'.f.length = m.nmesh.length → MovedBody m c b b' → b'.f = b.f →
      MovedBody m c (nbTraj m cshape w om fac l L b) (nbTraj m cshape w om fac l L b') := by
  induction l with
  | nil =>
    intro L _ _ hr
    refine ⟨?_, fun b b' _ _ _ _ h _ => h⟩
    rw [show L.map (nbTraj m cshape w om fac [] L) = L from List.map_id' _]
    exact hr
  | cons op l ih =>
    intro L hL hf hr
    have hready := fun b hb hf => nbOp_ready (w := w) om m cshape fac L op b hb hf
    have := ih (L := L.map (nbOp m cshape w om fac L op)) (fun b hb => by
      obtain ⟨b0, h0, rfl⟩ := List.mem_map.1 hb
      exact (hready b0 (hL b0 h0) (hf b0 h0)).1) (fun b hb => by
      obtain ⟨b0, h0, rfl⟩ := List.mem_map.1 hb
      exact (hready b0 (hL b0 h0) (hf b0 h0)).2) (repeats_op hm w hc hs om fac op hL hr.repeats fun _ => hr)
    refine ⟨?_, fun b b' h1 h2 h3 h4 h5 h6 => ?_⟩
    · have e := this.1
      rw [List.map_map] at e
      exact e
    · obtain ⟨i1, i2⟩ := movedBody_op hm w hc hs om fac op hL hr.repeats h1 h3 h5 fun _ => h6
      exact this.2 _ _ (hready b h1 h2).1 (hready b h1 h2).2 (hready b' h3 h4).1 (hready b' h3 h4).2 i1 i2

/-- The same for a program that begins with `force`. -/
theorem movedBody_run (l : List NbOp) {L : List NBody} (hL : ∀ b ∈ L, b.Sane m.nmesh.length) (hr : Repeats m c L) :
    Repeats m c (L.map (nbTraj m cshape w om fac (.force :: l) L)) ∧
    ∀ b b', b.Sane m.nmesh.length → b'.Sane m.nmesh.length → MovedBody m c b b' →
      MovedBody m c (nbTraj m cshape w om fac (.force :: l) L b) (nbTraj m cshape w om fac (.force :: l) L b') := by
  have hready := fun b hb => nbOp_force_ready (w := w) om m cshape fac L b hb
  have := movedBody_traj hm w hc hs om fac l (L := L.map (nbOp m cshape w om fac L .force)) (fun b hb => by
      obtain ⟨b0, h0, rfl⟩ := List.mem_map.1 hb
      exact (hready b0 (hL b0 h0)).1) (fun b hb => by
      obtain ⟨b0, h0, rfl⟩ := List.mem_map.1 hb
      exact (hready b0 (hL b0 h0)).2) (repeats_op hm w hc hs om fac .force hL hr fun h => absurd rfl h)
  refine ⟨?_, fun b b' h1 h3 h5 => ?_⟩
  · have e := this.1.repeats
    rw [List.map_map] at e
    exact e
  · obtain ⟨i1, i2⟩ := movedBody_op hm w hc hs om fac .force hL hr h1 h3 h5 fun h => absurd rfl h
    exact this.2 _ _ (hready b h1).1 (hready b h1).2 (hready b' h3).1 (hready b' h3).2 i1 i2

end

/-! ### no force -/

theorem shiftArg_getD : ∀ (nmesh k : List ℕ) (c : List ℤ), k.length = nmesh.length → c.length = nmesh.length →
    shiftArg nmesh k c = ((List.range nmesh.length).map fun j => (k.getD j 0 : ℝ) * (c.getD j 0 : ℤ) / (nmesh.getD j 0 : ℕ)).sum
  | [], [], [], _, _ => by simp [shiftArg]
  | n :: ns, k :: ks, c :: cs, h1, h2 => by
    rw [shiftArg, shiftArg_getD ns ks cs (by simpa using h1) (by simpa using h2), List.length_cons, List.range_succ_eq_map, List.map_cons, List.sum_cons, List.map_map]
    simp only [List.getD_cons_zero, Function.comp_def, List.getD_cons_succ]

theorem shiftArg_along {nmesh k : List ℕ} (hk : k.length = nmesh.length) {d : ℕ} (hd : d < nmesh.length) (z : ℤ) :
    shiftArg nmesh k (alongAxis nmesh.length d z) = (k.getD d 0 : ℝ) * z / (nmesh.getD d 0 : ℕ) := by
  rw [shiftArg_getD nmesh k _ hk (by simp [alongAxis])]
  rw [show ((List.range nmesh.length).map fun j => (k.getD j 0 : ℝ) * ((alongAxis nmesh.length d z).getD j 0 : ℤ) / (nmesh.getD j 0 : ℕ)) =
    (List.range nmesh.length).map fun j => if j = d then (k.getD d 0 : ℝ) * z / (nmesh.getD d 0 : ℕ) else 0 from ?_]
  · rw [List.sum_map_ite_eq, List.count_eq_one_of_mem List.nodup_range (List.mem_range.2 hd)]
    simp
  · apply List.map_congr_left
    intro j hj
    have hj := List.mem_range.1 hj
    have : (alongAxis nmesh.length d z).getD j 0 = if j = d then z else 0 := by simp [alongAxis, hj]
    rw [this]
    by_cases h : j = d
    · subst h; simp
    · simp [h]

/-- The transfer function vanishes for the mean and the Nyquist frequency. -/
theorem forceTransfer_axis {m : PMesh ℝ} (hm : m.OK) {k : List ℕ} (hk : ValidIndex m.nmesh k) {d : ℕ} (hd : d < m.nmesh.length)
    (h0 : m.nmesh.getD d 0 ∣ 2 * k.getD d 0) : forceTransfer m.nmesh m.box d k = 0 := by
  obtain ⟨z, hz⟩ : ∃ z : ℤ, (waveVector Real.pi m.nmesh m.box k).getD d 0 * (m.box.getD d 0 / (m.nmesh.getD d 0 : ℝ)) = z * Real.pi := by
    have h1 : d < (waveVector Real.pi m.nmesh m.box k).length := by simp [waveVector, hm.box_len, hk.len, hd]
    have h2 : d < k.length := by rw [hk.len]; exact hd
    have h3 : d < m.box.length := by rw [hm.box_len]; exact hd
    have hb : m.box[d] ≠ 0 := (hm.box_pos _ (List.getElem_mem h3)).ne'
    have hp : 0 < m.nmesh[d] := nmesh_pos' hm _ (List.getElem_mem hd)
    have hp' : (m.nmesh[d] : ℝ) ≠ 0 := by exact_mod_cast hp.ne'
    rw [List.getD_eq_getElem _ _ h2, List.getD_eq_getElem _ _ hd] at h0
    have h4 : (m.nmesh[d] : ℤ) ∣ 2 * Int.bmod (k[d] : ℤ) m.nmesh[d] := by
      have e := (Int.bmod_add_bdiv (k[d] : ℤ) m.nmesh[d])
      have : 2 * Int.bmod (k[d] : ℤ) m.nmesh[d] = 2 * (k[d] : ℤ) - m.nmesh[d] * (2 * Int.bdiv (k[d] : ℤ) m.nmesh[d]) := by linarith
      rw [this]
      exact dvd_sub (by exact_mod_cast h0) (dvd_mul_right _ _)
    obtain ⟨z, hz⟩ := h4
    refine ⟨z, ?_⟩
    rw [List.getD_eq_getElem _ _ h1, List.getD_eq_getElem _ _ hd, List.getD_eq_getElem _ _ h3]
    simp only [waveVector, List.getElem_zipWith, List.getElem_zip]
    have hz' : 2 * (Int.bmod (k[d] : ℤ) m.nmesh[d] : ℝ) = m.nmesh[d] * z := by exact_mod_cast hz
    field_simp
    linear_combination hz'
  unfold forceTransfer
  simp only [hz]
  have e2 : Real.sin (2 * (z * Real.pi)) = 0 := by
    have := Real.sin_int_mul_pi (2 * z)
    push_cast at this
    rwa [mul_assoc] at this
  rw [Real.sin_int_mul_pi, e2]
  simp

/-- Bodies that repeat themselves after one or two cells in direction `d` feel no force in direction `d`. -/
theorem force_axis {m : PMesh ℝ} (hm : m.OK) (w : Resampler ℝ) {cshape : List ℕ} (hs : StoredShape m.nmesh cshape) (om : ℝ) {d : ℕ} (hd : d < m.nmesh.length)
    {z : ℤ} (hz12 : z = 1 ∨ z = 2) {L : List NBody} (hL : ∀ b ∈ L, b.Sane m.nmesh.length) (hr : Repeats m (alongAxis m.nmesh.length d z) L) (y : List ℝ) :
    nbForceAt m cshape w om L y d = 0 := by
  have hc : (alongAxis m.nmesh.length d z).length = m.nmesh.length := by simp [alongAxis]
  have hz : ∀ g, c2r m.nmesh cshape (fun k => forceTransfer m.nmesh m.box d k * r2c m.nmesh (densAt m w (nbSys (nbFac m L)) L) k) g = 0 := by
    refine c2r_zero hs hm.dim fun k hk => ?_
    have hk := stored_valid hs hm.dim (nmesh_pos' hm) hk
    have h1 := modes_repeat hm w hc hL hr (nbFac m L) k
    by_cases hone : exp (-(2 * Real.pi * I * shiftArg m.nmesh k (alongAxis m.nmesh.length d z))) = 1
    · rw [forceTransfer_axis hm hk hd, zero_mul]
      rw [shiftArg_along hk.len hd] at hone
      obtain ⟨n, hn⟩ := exp_eq_one_iff.1 hone
      have hpi : (2 * Real.pi * I : ℂ) ≠ 0 := by simp [Real.pi_ne_zero]
      have h2 : (((k.getD d 0 : ℝ) * z / (m.nmesh.getD d 0 : ℕ) : ℝ) : ℂ) = ((-n : ℤ) : ℝ) := by
        apply mul_left_cancel₀ hpi
        push_cast at hn ⊢
        linear_combination -hn
      have h3 : (k.getD d 0 : ℝ) * z / (m.nmesh.getD d 0 : ℕ) = ((-n : ℤ) : ℝ) := by exact_mod_cast h2
      have hp : 0 < m.nmesh.getD d 0 := nmesh_pos' hm _ (by rw [List.getD_eq_getElem _ _ hd]; exact List.getElem_mem hd)
      have hnp : ((m.nmesh.getD d 0 : ℕ) : ℝ) ≠ 0 := by exact_mod_cast hp.ne'
      rw [div_eq_iff hnp] at h3
      have h4 : (k.getD d 0 : ℤ) * z = -n * (m.nmesh.getD d 0 : ℕ) := by exact_mod_cast h3
      have h5 : ((m.nmesh.getD d 0 : ℕ) : ℤ) ∣ 2 * (k.getD d 0 : ℕ) := by
        rcases hz12 with rfl | rfl
        · exact ⟨2 * -n, by linear_combination 2 * h4⟩
        · exact ⟨-n, by linear_combination h4⟩
      exact_mod_cast h5
    have h2 : (1 - exp (-(2 * Real.pi * I * shiftArg m.nmesh k (alongAxis m.nmesh.length d z)))) * r2c m.nmesh (densAt m w (nbSys (nbFac m L)) L) k = 0 := by
      linear_combination h1
    rw [(mul_eq_zero.1 h2).resolve_left (sub_ne_zero.2 (Ne.symm hone)), mul_zero]
  unfold nbForceAt bodyRead
  simp only [hz, mul_zero]
  simp

theorem list_sum_const {α : Type} {L : List α} {f : α → ℝ} {a : ℝ} (h : ∀ x ∈ L, f x = a) : (L.map f).sum = L.length * a := by
  rw [List.map_congr_left h]
  simp

/-- Bodies that all have the same surroundings feel no force. -/
theorem force_homogeneous {m : PMesh ℝ} (hm : m.OK) (w : Resampler ℝ) {cshape : List ℕ} (hs : StoredShape m.nmesh cshape) (om : ℝ) (d : ℕ) {L : List NBody}
    (hL : ∀ b ∈ L, b.Sane m.nmesh.length) (hh : Homogeneous m L) {b : NBody} (hb : b ∈ L) : nbForceAt m cshape w om L b.x d = 0 := by
  have h1 := nbForceAt_sum hm hs w om L d
  rw [list_sum_const (a := nbForceAt m cshape w om L b.x d) fun b' hb' => ?_] at h1
  · refine (mul_eq_zero.1 h1).resolve_left ?_
    have : 0 < L.length := List.length_pos_of_mem hb
    exact_mod_cast this.ne'
  · obtain ⟨c, hc, hr, hbb⟩ := hh b hb b' hb'
    exact force_repeats hm w hc hL hr hs om (hL b hb) (hL b' hb') hbb d

section
variable {m : PMesh ℝ} (w : Resampler ℝ) {cshape : List ℕ} (om : ℝ) (fac : Factors) {d : ℕ} (hd : d < m.nmesh.length) (P : List NBody → Prop)
  (hforce : ∀ L : List NBody, (∀ b ∈ L, b.Sane m.nmesh.length) → P L → ∀ b ∈ L, nbForceAt m cshape w om L b.x d = 0)
include hd hforce

/-- Without force in direction `d`, bodies drift freely in this direction. -/
theorem free_traj (hstep : ∀ (op : NbOp) (L : List NBody), (∀ b ∈ L, b.Sane m.nmesh.length) → P L → P (L.map (nbOp m cshape w om fac L op))) (l : List NbOp) :
    ∀ L : List NBody, (∀ b ∈ L, b.Sane m.nmesh.length) → (∀ b ∈ L, b.f.length = m.nmesh.length) → P L → (∀ b ∈ L, b.f.getD d 0 = 0) →
      ∀ b ∈ L, (nbTraj m cshape w om fac l L b).v.getD d 0 = b.v.getD d 0 ∧
        (nbTraj m cshape w om fac l L b).s.getD d 0 = b.s.getD d 0 + (l.map fac.driftOf).sum * b.v.getD d 0 := by
  induction l with
  | nil => intro L _ _ _ _ b _; simp [nbTraj]
  | cons op l ih =>
    intro L h1 h2 h3 h4 b hb
    have hready := fun b hb => nbOp_ready (w := w) om m cshape fac L op b (h1 b hb) (h2 b hb)
    obtain ⟨i1, i2⟩ := ih (L.map (nbOp m cshape w om fac L op)) (fun b hb => by
      obtain ⟨b0, h0, rfl⟩ := List.mem_map.1 hb
      exact (hready b0 h0).1) (fun b hb => by
      obtain ⟨b0, h0, rfl⟩ := List.mem_map.1 hb
      exact (hready b0 h0).2) (hstep op L h1 h3) (fun b hb => by
      obtain ⟨b0, h0, rfl⟩ := List.mem_map.1 hb
      cases op with
      | force =>
        have := hforce L h1 h3 b0 h0
        simp [nbOp, hd, this]
      | kick => exact h4 b0 h0
      | drift => exact h4 b0 h0) _ (List.mem_map_of_mem hb)
    have hdv : d < b.v.length := by rw [(h1 b hb).v]; exact hd
    have hds : d < b.s.length := by rw [(h1 b hb).s]; exact hd
    have hdf : d < b.f.length := by rw [h2 b hb]; exact hd
    have hf0 := h4 b hb
    rw [List.getD_eq_getElem _ _ hdf] at hf0
    rw [nbTraj, i1, i2, List.map_cons, List.sum_cons]
    cases op with
    | force => simp [nbOp, Factors.driftOf]
    | kick => simp [nbOp, NBody.kick, Factors.driftOf, hdv, hdf, hf0]
    | drift =>
      refine ⟨rfl, ?_⟩
      simp [nbOp, NBody.drift, Factors.driftOf, hdv, hds]
      ring

/-- The same for a program that begins with `force`. -/
theorem free_run (hstep : ∀ (op : NbOp) (L : List NBody), (∀ b ∈ L, b.Sane m.nmesh.length) → P L → P (L.map (nbOp m cshape w om fac L op))) (l : List NbOp)
    (L : List NBody) (h1 : ∀ b ∈ L, b.Sane m.nmesh.length) (h3 : P (L.map (nbOp m cshape w om fac L .force)))
    (h0 : ∀ b ∈ L, nbForceAt m cshape w om L b.x d = 0) : ∀ b ∈ L, (nbTraj m cshape w om fac (.force :: l) L b).v.getD d 0 = b.v.getD d 0 ∧
        (nbTraj m cshape w om fac (.force :: l) L b).s.getD d 0 = b.s.getD d 0 + ((NbOp.force :: l).map fac.driftOf).sum * b.v.getD d 0 := by
  intro b hb
  have hready := fun b hb => nbOp_force_ready (w := w) om m cshape fac L b (h1 b hb)
  have := free_traj w om fac hd P hforce hstep l (L.map (nbOp m cshape w om fac L .force)) (fun b hb => by
      obtain ⟨b0, h0, rfl⟩ := List.mem_map.1 hb
      exact (hready b0 h0).1) (fun b hb => by
      obtain ⟨b0, h0, rfl⟩ := List.mem_map.1 hb
      exact (hready b0 h0).2) h3 (fun b hb => by
      obtain ⟨b0, h, rfl⟩ := List.mem_map.1 hb
      simp [nbOp, hd, h0 b0 h]) _ (List.mem_map_of_mem hb)
  rw [show ((NbOp.force :: l).map fac.driftOf).sum = (l.map fac.driftOf).sum by simp [Factors.driftOf]]
  exact this

end

theorem nbTraj_q (m : PMesh ℝ) (cshape : List ℕ) (w : Resampler ℝ) (om : ℝ) (fac : Factors) (l : List NbOp) : ∀ (L : List NBody) (b : NBody),
    (nbTraj m cshape w om fac l L b).q = b.q := by
  induction l with
  | nil => intro L b; rfl
  | cons op l ih =>
    intro L b
    rw [nbTraj, ih]
    cases op <;> rfl

theorem nbTraj_sane {w : Resampler ℝ} (m : PMesh ℝ) (cshape : List ℕ) (om : ℝ) (fac : Factors) (l : List NbOp) (L : List NBody) (b : NBody)
    (hb : b.Sane m.nmesh.length) : (nbTraj m cshape w om fac (.force :: l) L b).Sane m.nmesh.length := by
  have key : ∀ (l : List NbOp) (L : List NBody) (b : NBody), b.Sane m.nmesh.length → b.f.length = m.nmesh.length → (nbTraj m cshape w om fac l L b).Sane m.nmesh.length := by
    intro l
    induction l with
    | nil => intro L b hb _; exact hb
    | cons op l ih =>
      intro L b hb hf
      obtain ⟨h1, h2⟩ := nbOp_ready (w := w) om m cshape fac L op b hb hf
      exact ih _ _ h1 h2
  obtain ⟨h1, h2⟩ := nbOp_force_ready (w := w) om m cshape fac L b hb
  exact key l _ _ h1 h2

theorem valid_getD {nmesh g : List ℕ} (hg : ValidIndex nmesh g) {j : ℕ} (hj : j < nmesh.length) : g.getD j 0 < nmesh.getD j 0 := by
  induction hg generalizing j with
  | nil => simp at hj
  | cons ha _ ih =>
    cases j with
    | zero => simpa using ha
    | succ j => simpa using ih (by simpa using hj)

/-! ### particles of a grid -/

theorem Repeats.perm {m : PMesh ℝ} {c : List ℤ} {L M : List NBody} (h : L.Perm M) (hr : Repeats m c M) : Repeats m c L := by
  obtain ⟨M', h1, h2⟩ := hr
  obtain ⟨L', h3, h4⟩ := List.perm_comp_forall₂ h h2
  exact ⟨L', (h.trans h1).trans h4.symm, h3⟩

theorem movedCell_perm (nmesh : List ℕ) (s : List ℤ) (hs : s.length = nmesh.length) : ((ndindex nmesh).map (movedCell nmesh s)).Perm (ndindex nmesh) := by
  have h := sum_movedCell nmesh s hs fun g => ({g} : Multiset (List ℕ))
  have e : ∀ l : List (List ℕ), (l.map fun g => ({g} : Multiset (List ℕ))).sum = (l : Multiset (List ℕ)) := by
    intro l
    induction l with
    | nil => rfl
    | cons a l ih => rw [List.map_cons, List.sum_cons, ih]; rfl
  have e' := e ((ndindex nmesh).map (movedCell nmesh s))
  rw [List.map_map] at e'
  rw [e] at h
  exact Multiset.coe_eq_coe.1 (e'.symm.trans h)

/-- The particle of cell `g`. -/
noncomputable def gridBody (m : PMesh ℝ) (shift : List ℝ) (S V : List ℕ → List ℝ) (g : List ℕ) : NBody := ⟨gridPlace m shift g, S g, V g, []⟩

section
variable {m m0 : PMesh ℝ} (hm : m.OK) (hm0 : m0.OK) {B : ℕ} (hB : 0 < B) (hn : m.nmesh = m0.nmesh.map (B * ·)) (hbox : m.box = m0.box)
include hm hm0 hB hn hbox

theorem gridPlace_moved (shift : List ℝ) {z : List ℤ} (hz : z.length = m0.nmesh.length) {g : List ℕ} (hg : ValidIndex m0.nmesh g) :
    SameInBox m.box (shiftedPos m.nmesh m.box (z.map ((B : ℤ) * ·)) (gridPlace m0 shift g)) (gridPlace m0 shift (movedCell m0.nmesh z g)) := by
  have hl : m.nmesh.length = m0.nmesh.length := by rw [hn, List.length_map]
  have h1 : (gridPlace m0 shift g).length = m.nmesh.length := by simp [gridPlace, hl]
  have h2 : (z.map ((B : ℤ) * ·)).length = m.nmesh.length := by simp [hz, hl]
  refine ⟨by rw [shiftedPos_length hm.box_len h2 h1, hm.box_len], by simp [gridPlace, hm.box_len, hl], fun d hd => ?_⟩
  rw [hm.box_len] at hd
  have hd0 : d < m0.nmesh.length := by rw [← hl]; exact hd
  have hdz : d < z.length := by rw [hz]; exact hd0
  rw [shiftedPos_getD hm.box_len h2 h1 hd]
  have hgl : ∀ g, (gridPlace m0 shift g).getD d 0 = ((g.getD d 0 : ℕ) + shift.getD d 0) * (m0.box.getD d 0 / (m0.nmesh.getD d 0 : ℕ)) := by
    intro g
    simp [gridPlace, hd0]
  rw [hgl, hgl, movedCell_getD hz hg.len hd0, hbox]
  have hp : 0 < m0.nmesh.getD d 0 := nmesh_pos' hm0 _ (by rw [List.getD_eq_getElem _ _ hd0]; exact List.getElem_mem hd0)
  have hnB : m.nmesh.getD d 0 = B * m0.nmesh.getD d 0 := by simp [hn, hd0]
  have hzB : (z.map ((B : ℤ) * ·)).getD d 0 = B * z.getD d 0 := by simp [hdz]
  rw [hnB, hzB]
  obtain ⟨n, hne⟩ : ∃ n, n = m0.nmesh.getD d 0 := ⟨_, rfl⟩
  obtain ⟨y, hye⟩ : ∃ y, y = z.getD d 0 := ⟨_, rfl⟩
  obtain ⟨i, hie⟩ : ∃ i, i = g.getD d 0 := ⟨_, rfl⟩
  rw [← hne, ← hye, ← hie]
  rw [← hne] at hp
  have hmod : (((((i : ℤ) + y) % (n : ℤ)).toNat : ℕ) : ℝ) = i + y - n * (((i : ℤ) + y) / (n : ℤ) : ℤ) := by
    have e1 := Int.toNat_of_nonneg (Int.emod_nonneg ((i : ℤ) + y) (show (n : ℤ) ≠ 0 by omega))
    have e2 := Int.emod_add_mul_ediv ((i : ℤ) + y) n
    have e3 : ((((i : ℤ) + y) % (n : ℤ)).toNat : ℤ) = i + y - n * (((i : ℤ) + y) / (n : ℤ)) := by linarith
    exact_mod_cast e3
  refine ⟨-(((i : ℤ) + y) / (n : ℤ)), ?_⟩
  rw [hmod]
  have hp' : (n : ℝ) ≠ 0 := by exact_mod_cast hp.ne'
  have hB' : (B : ℝ) ≠ 0 := by exact_mod_cast hB.ne'
  push_cast
  field_simp
  ring

theorem gridBody_moved (shift : List ℝ) {S V : List ℕ → List ℝ} {z : List ℤ} (hz : z.length = m0.nmesh.length) {g : List ℕ} (hg : ValidIndex m0.nmesh g)
    (hS : S (movedCell m0.nmesh z g) = S g) (hV : V (movedCell m0.nmesh z g) = V g) :
    MovedBody m (z.map ((B : ℤ) * ·)) (gridBody m0 shift S V g) (gridBody m0 shift S V (movedCell m0.nmesh z g)) :=
  ⟨gridPlace_moved hm hm0 hB hn hbox shift hz hg, hS, hV⟩

theorem grid_repeats (shift : List ℝ) {S V : List ℕ → List ℝ} {z : List ℤ} (hz : z.length = m0.nmesh.length)
    (hS : ∀ g, ValidIndex m0.nmesh g → S (movedCell m0.nmesh z g) = S g) (hV : ∀ g, ValidIndex m0.nmesh g → V (movedCell m0.nmesh z g) = V g) {L : List NBody}
    (hL : L.Perm ((ndindex m0.nmesh).map (gridBody m0 shift S V))) : Repeats m (z.map ((B : ℤ) * ·)) L := by
  refine Repeats.perm hL ⟨(ndindex m0.nmesh).map (gridBody m0 shift S V ∘ movedCell m0.nmesh z), ?_, ?_⟩
  · rw [← List.map_map]
    exact ((movedCell_perm m0.nmesh z hz).map _).symm
  · rw [List.forall₂_map_left_iff, List.forall₂_map_right_iff, List.forall₂_same]
    intro g hg
    have hg := mem_ndindex.1 hg
    exact gridBody_moved hm hm0 hB hn hbox shift hz hg (hS g hg) (hV g hg)

end
end Pmesh
