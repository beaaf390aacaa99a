import Verif.Spec.Translate
import Verif.Lemmas.Force

/-! # Lemmas for displacements by whole cells -/

set_option linter.unusedSectionVars false

namespace Pmesh

open Complex

theorem sum_flatMapM {M α : Type} [AddCommMonoid M] (l : List α) (f : α → List M) : (l.flatMap f).sum = (l.map fun a => (f a).sum).sum := by
  induction l with
  | nil => rfl
  | cons a l ih => rw [List.flatMap_cons, List.sum_append, ih, List.map_cons, List.sum_cons]

/-! ### cells -/

theorem movedCell_valid {nmesh : List ℕ} {s : List ℤ} (hs : s.length = nmesh.length) {g : List ℕ} (hg : ValidIndex nmesh g) :
    ValidIndex nmesh (movedCell nmesh s g) := by
  induction hg generalizing s with
  | nil => simp [movedCell, ValidIndex]
  | @cons n a ns as ha _ ih =>
    match s, hs with
    | z :: zs, hs =>
      rw [movedCell]
      have h1 := Int.emod_nonneg ((a : ℤ) + z) (show (n : ℤ) ≠ 0 by omega)
      have h2 := Int.emod_lt_of_pos ((a : ℤ) + z) (show (0 : ℤ) < n by omega)
      exact .cons (by omega) (ih (by simpa using hs))

theorem shift_perm (n : ℕ) (z : ℤ) :
    ((List.range n).map fun a : ℕ => (((a : ℤ) + z) % (n : ℤ)).toNat).Perm (List.range n) := by
  refine (List.Subperm.perm_of_length_le (List.subperm_of_subset ?_ ?_) (by simp))
  · refine List.Nodup.map_on (fun a ha b hb h => ?_) List.nodup_range
    rw [List.mem_range] at ha hb
    have h1 := Int.emod_nonneg ((a : ℤ) + z) (show (n : ℤ) ≠ 0 by omega)
    have h2 := Int.emod_nonneg ((b : ℤ) + z) (show (n : ℤ) ≠ 0 by omega)
    have h3 : ((a : ℤ) + z) % n = ((b : ℤ) + z) % n := by omega
    have h4 : (a : ℤ) % n = (b : ℤ) % n := Int.ModEq.add_right_cancel' z h3
    rw [Int.emod_eq_of_lt (by omega) (by omega), Int.emod_eq_of_lt (by omega) (by omega)] at h4
    omega
  · intro b hb
    obtain ⟨a, ha, rfl⟩ := List.mem_map.1 hb
    rw [List.mem_range] at ha ⊢
    have h1 := Int.emod_nonneg ((a : ℤ) + z) (show (n : ℤ) ≠ 0 by omega)
    have h2 := Int.emod_lt_of_pos ((a : ℤ) + z) (show (0 : ℤ) < n by omega)
    omega

/-- Sums over all cells do not change. -/
theorem sum_movedCell {M : Type} [AddCommMonoid M] : ∀ (nmesh : List ℕ) (s : List ℤ), s.length = nmesh.length →
    ∀ F : List ℕ → M, ((ndindex nmesh).map fun g => F (movedCell nmesh s g)).sum = ((ndindex nmesh).map F).sum
  | [], [], _, F => by simp [ndindex, movedCell]
  | n :: ns, z :: zs, h, F => by
    rw [sum_ndindex_cons', sum_ndindex_cons']
    simp only [movedCell]
    have e : ∀ a : ℕ, ((ndindex ns).map fun t => F ((((a : ℤ) + z) % (n : ℤ)).toNat :: movedCell ns zs t)).sum =
        ((ndindex ns).map fun t => F ((((a : ℤ) + z) % (n : ℤ)).toNat :: t)).sum := fun a =>
      sum_movedCell ns zs (by simpa using h) fun t => F ((((a : ℤ) + z) % (n : ℤ)).toNat :: t)
    simp only [e]
    have := ((shift_perm n z).map fun a => ((ndindex ns).map fun t => F (a :: t)).sum).sum_eq
    rw [List.map_map] at this
    exact this
  | [], _ :: _, h, _ => by simp at h
  | _ :: _, [], h, _ => by simp at h

/-- Every cell comes from one. -/
theorem movedCell_surj {nmesh : List ℕ} {s : List ℤ} (hs : s.length = nmesh.length) {g : List ℕ} (hg : ValidIndex nmesh g) :
    ∃ g', ValidIndex nmesh g' ∧ movedCell nmesh s g' = g := by
  induction hg generalizing s with
  | nil =>
    match s, hs with
    | [], _ => exact ⟨[], .nil, by simp [movedCell]⟩
  | @cons n a ns as ha _ ih =>
    match s, hs with
    | z :: zs, hs =>
      obtain ⟨g', h1, h2⟩ := ih (s := zs) (by simpa using hs)
      have := (shift_perm n z).symm.subset (List.mem_range.2 ha)
      obtain ⟨b, hb, e⟩ := List.mem_map.1 this
      exact ⟨b :: g', .cons (List.mem_range.1 hb) h1, by rw [movedCell, h2]; exact congrArg (· :: as) e⟩

/-! ### phases -/

theorem phase_moved {nmesh : List ℕ} {s : List ℤ} (hs : s.length = nmesh.length) {g : List ℕ} (hg : ValidIndex nmesh g) (k : List ℕ) :
    phase nmesh k (movedCell nmesh s g) = exp (2 * Real.pi * I * shiftArg nmesh k s) * phase nmesh k g := by
  induction hg generalizing s k with
  | nil => simp [phase, phaseArg, shiftArg]
  | @cons n a ns as ha _ ih =>
    match s, hs, k with
    | z :: zs, hs, [] => simp [phase, phaseArg, shiftArg]
    | z :: zs, hs, k :: ks =>
      rw [movedCell, phase_cons, phase_cons, ih (s := zs) (by simpa using hs) ks, shiftArg]
      have h1 := Int.emod_nonneg ((a : ℤ) + z) (show (n : ℤ) ≠ 0 by omega)
      have hn : (n : ℂ) ≠ 0 := by exact_mod_cast (by omega : n ≠ 0)
      obtain ⟨q, hq⟩ : ∃ q : ℤ, ((((a : ℤ) + z) % (n : ℤ)).toNat : ℤ) = a + z - n * q :=
        ⟨((a : ℤ) + z) / n, by rw [Int.toNat_of_nonneg h1, Int.emod_def]⟩
      have hq' : (((((a : ℤ) + z) % (n : ℤ)).toNat : ℕ) : ℂ) = a + z - n * q := by exact_mod_cast hq
      rw [hq']
      have e : (2 * Real.pi * I * (k * ((a : ℂ) + z - n * q) / n) : ℂ) =
          2 * Real.pi * I * (k * a / n) + 2 * Real.pi * I * (k * z / n) + ((-(k * q) : ℤ) : ℂ) * (2 * Real.pi * I) := by
        push_cast
        field_simp
        ring
      rw [e, exp_add, exp_int_mul_two_pi_mul_I, mul_one, exp_add]
      have e2 : (2 * Real.pi * I * (((k : ℝ) * z / n + shiftArg ns ks zs : ℝ) : ℂ) : ℂ) =
          2 * Real.pi * I * (k * z / n) + 2 * Real.pi * I * shiftArg ns ks zs := by
        push_cast
        ring
      rw [e2, exp_add]
      ring

theorem shiftPhase_opposite {nmesh k : List ℕ} (hk : ValidIndex nmesh k) (s : List ℤ) :
    exp (2 * Real.pi * I * shiftArg nmesh (opposite nmesh k) s) = (starRingEnd ℂ) (exp (2 * Real.pi * I * shiftArg nmesh k s)) := by
  unfold opposite
  induction hk generalizing s with
  | nil => simp [shiftArg]
  | @cons n a ns as ha _ ih =>
    match s with
    | [] => simp [shiftArg]
    | z :: zs =>
      rw [List.zipWith_cons_cons, shiftArg, shiftArg]
      have hn : (n : ℂ) ≠ 0 := by exact_mod_cast (by omega : n ≠ 0)
      have hsplit : ∀ t u : ℝ, exp (2 * Real.pi * I * ((t + u : ℝ) : ℂ)) = exp (2 * Real.pi * I * t) * exp (2 * Real.pi * I * u) := by
        intro t u
        rw [← exp_add]
        congr 1
        push_cast
        ring
      rw [hsplit, hsplit, ih, map_mul]
      congr 1
      rw [← exp_conj]
      by_cases h0 : a = 0
      · subst h0; simp
      · rw [Nat.mod_eq_of_lt (by omega), Nat.cast_sub (by omega)]
        have : 2 * (Real.pi : ℂ) * I * ((((n : ℝ) - a) * z / n : ℝ) : ℂ) =
            (starRingEnd ℂ) (2 * Real.pi * I * (((a : ℝ) * z / n : ℝ) : ℂ)) + z * (2 * Real.pi * I) := by
          simp [conj_two]
          field_simp
          ring
        rw [this, exp_add, exp_int_mul_two_pi_mul_I, mul_one]

theorem conj_shiftPhase (t : ℝ) : (starRingEnd ℂ) (exp (2 * Real.pi * I * t)) = exp (-(2 * Real.pi * I * t)) := by
  rw [← exp_conj]
  congr 1
  simp [conj_two]

/-! ### fields -/

/-- The spectrum of a displaced field. -/
theorem r2c_moved {nmesh : List ℕ} {s : List ℤ} (hs : s.length = nmesh.length) {f f' : List ℕ → ℝ}
    (h : ∀ g, ValidIndex nmesh g → f' (movedCell nmesh s g) = f g) (k : List ℕ) :
    r2c nmesh f' k = exp (-(2 * Real.pi * I * shiftArg nmesh k s)) * r2c nmesh f k := by
  unfold r2c dftForward
  rw [← sum_movedCell nmesh s hs]
  simp only [exp_neg_phase]
  rw [← mul_assoc, ← sum_cmul]
  congr 1
  apply sum_congr'
  intro g hg
  rw [mem_ndindex] at hg
  rw [h g hg, phase_moved hs hg, map_mul, conj_shiftPhase]
  ring

/-- A filter with any transfer function commutes with displacements. -/
theorem c2r_moved {nmesh cshape : List ℕ} (hst : StoredShape nmesh cshape) (hne : nmesh ≠ []) {s : List ℤ}
    (hs : s.length = nmesh.length) {F F' : List ℕ → ℂ}
    (h : ∀ k, ValidIndex cshape k → F' k = exp (-(2 * Real.pi * I * shiftArg nmesh k s)) * F k) {g : List ℕ} (hg : ValidIndex nmesh g) :
    c2r nmesh cshape F' (movedCell nmesh s g) = c2r nmesh cshape F g := by
  unfold c2r dftBackward
  congr 1
  apply sum_congr'
  intro k hk
  rw [mem_ndindex] at hk
  have e : decompress nmesh cshape F' k = exp (-(2 * Real.pi * I * shiftArg nmesh k s)) * decompress nmesh cshape F k := by
    rw [decompress_stored hst hne hk, decompress_stored hst hne hk]
    by_cases hc : ValidIndex cshape k
    · rw [if_pos hc, if_pos hc, h k hc]
    · rw [if_neg hc, if_neg hc, h _ (opposite_stored hst hne hk hc), map_mul, ← conj_shiftPhase, shiftPhase_opposite hk, conj_conj,
        conj_shiftPhase]
  have e2 := phase_moved hs hg k
  unfold phase at e2
  rw [e, e2, show ∀ a b c d : ℂ, a * b * (c * d) = (a * c) * (b * d) from fun a b c d => by ring, ← exp_add, neg_add_cancel, exp_zero,
    one_mul]

/-! ### positions -/

theorem shiftedPos_length {K : Type} [Field K] {nmesh : List ℕ} {box : List K} {s : List ℤ} {x : List K} (hb : box.length = nmesh.length)
    (hs : s.length = nmesh.length) (hx : x.length = nmesh.length) : (shiftedPos nmesh box s x).length = nmesh.length := by
  induction nmesh generalizing box s x with
  | nil => simp [shiftedPos]
  | cons n ns ih =>
    match box, s, x, hb, hs, hx with
    | b :: bs, z :: zs, y :: ys, hb, hs, hx =>
      simp [shiftedPos, ih (box := bs) (s := zs) (x := ys) (by simpa using hb) (by simpa using hs) (by simpa using hx)]

theorem shiftedPos_getD {K : Type} [Field K] {nmesh : List ℕ} {box : List K} {s : List ℤ} {x : List K} (hb : box.length = nmesh.length)
    (hs : s.length = nmesh.length) (hx : x.length = nmesh.length) {j : ℕ} (hj : j < nmesh.length) :
    (shiftedPos nmesh box s x).getD j 0 = x.getD j 0 + (s.getD j 0 : ℤ) * (box.getD j 0 / (nmesh.getD j 0 : ℕ)) := by
  induction nmesh generalizing box s x j with
  | nil => simp at hj
  | cons n ns ih =>
    match box, s, x, hb, hs, hx with
    | b :: bs, z :: zs, y :: ys, hb, hs, hx =>
      cases j with
      | zero => simp [shiftedPos]
      | succ j =>
        rw [shiftedPos]
        simpa using ih (box := bs) (s := zs) (x := ys) (by simpa using hb) (by simpa using hs) (by simpa using hx) (by simpa using hj)

theorem movedCell_getD {nmesh : List ℕ} {s : List ℤ} {g : List ℕ} (hs : s.length = nmesh.length) (hg : g.length = nmesh.length) {j : ℕ}
    (hj : j < nmesh.length) :
    (movedCell nmesh s g).getD j 0 = (((g.getD j 0 : ℕ) + s.getD j 0 : ℤ) % (nmesh.getD j 0 : ℕ)).toNat := by
  induction nmesh generalizing s g j with
  | nil => simp at hj
  | cons n ns ih =>
    match s, g, hs, hg with
    | z :: zs, y :: ys, hs, hg =>
      cases j with
      | zero => simp [movedCell]
      | succ j =>
        rw [movedCell]
        simpa using ih (s := zs) (g := ys) (by simpa using hs) (by simpa using hg) (by simpa using hj)

section
variable {K : Type} [Field K] [LinearOrder K] [IsStrictOrderedRing K] [FloorRing K]

theorem movedBy_of_index : ∀ (axes : List (PAxis K)) (ns : List ℤ) (xs xs' : List K), ns.length = axes.length → xs.length = axes.length →
    xs'.length = axes.length →
    (∀ j (h : j < axes.length), xs'.getD j 0 * axes[j].scale + axes[j].translate =
      xs.getD j 0 * axes[j].scale + axes[j].translate + (ns.getD j 0 : ℤ)) → MovedBy axes ns xs xs'
  | [], [], [], [], _, _, _, _ => trivial
  | ax :: axs, n :: ns, x :: xs, x' :: xs', h1, h2, h3, h => by
    refine ⟨h 0 (Nat.succ_pos _), movedBy_of_index axs ns xs xs' (by simpa using h1) (by simpa using h2) (by simpa using h3) ?_⟩
    intro j hj
    exact h (j + 1) (Nat.succ_lt_succ hj)

theorem cellMoved_of_index : ∀ (axes : List (PAxis K)) (ns : List ℤ) (c c' : List ℕ), ns.length = axes.length → c.length = axes.length →
    c'.length = axes.length →
    (∀ j (h : j < axes.length), 0 < axes[j].size ∧ axes[j].period = axes[j].size ∧
      ((c'.getD j 0 : ℕ) : ℤ) = ((c.getD j 0 : ℕ) + ns.getD j 0) % axes[j].size) → CellMoved axes ns c c'
  | [], [], [], [], _, _, _, _ => trivial
  | ax :: axs, n :: ns, x :: xs, x' :: xs', h1, h2, h3, h => by
    refine ⟨Or.inr (h 0 (Nat.succ_pos _)), cellMoved_of_index axs ns xs xs' (by simpa using h1) (by simpa using h2) (by simpa using h3) ?_⟩
    intro j hj
    exact h (j + 1) (Nat.succ_lt_succ hj)

/-- Weight of a particle at `x` on cell `g`. -/
def PMesh.weightAt (m : PMesh K) (w : Resampler K) (x : List K) (g : List ℕ) : K :=
  cwProd (List.zipWith (axisStencil ((m.serial (cStrides m.nmesh)).painter w none 0) 1)
    ((m.serial (cStrides m.nmesh)).painter w none 0).axes x) g

/-- Weights move with the particle. -/
theorem weightAt_moved {m : PMesh K} (hm : m.OK) (w : Resampler K) {s : List ℤ} (hs : s.length = m.nmesh.length) {x : List K}
    (hx : x.length = m.nmesh.length) {g : List ℕ} (hg : ValidIndex m.nmesh g) :
    m.weightAt w (shiftedPos m.nmesh m.box s x) (movedCell m.nmesh s g) = m.weightAt w x g := by
  unfold PMesh.weightAt
  set S := m.serial (cStrides m.nmesh) with hS
  have hlen : (S.painter w none 0).axes.length = m.nmesh.length := by rw [painter_len]; rfl
  have hsh : S.localShape 0 = m.nmesh := serial_localShape m _ 0
  refine cwProd_shift _ _ _ s _ _ _ _ (movedBy_of_index _ _ _ _ (by omega) (by omega) ?_ ?_) ?_ (cellMoved_of_index _ _ _ _ (by omega)
    (by rw [hlen]; exact hg.len) (by rw [hlen]; exact (movedCell_valid hs hg).len) ?_)
  · rw [shiftedPos_length hm.box_len hs hx, hlen]
  · intro j hj
    have hj' : j < m.nmesh.length := by omega
    rw [shiftedPos_getD hm.box_len hs hx hj']
    have e : (S.painter w none 0).axes[j].scale = m.scale.getD j 0 := by simp [PMesh.painter, hS, PMesh.serial, PMesh.scale]
    rw [e, scale_getD hm hj']
    have hb : m.box.getD j 0 ≠ 0 := by
      rw [List.getD_eq_getElem _ _ (by rw [hm.box_len]; exact hj')]
      exact (hm.box_pos _ (List.getElem_mem _)).ne'
    have hn : ((m.nmesh.getD j 0 : ℕ) : K) ≠ 0 := Nat.cast_ne_zero.2 (hm.nmesh_pos hj').ne'
    field_simp
    ring
  · rw [shapeOf_painter w none 0 (by rw [hsh]; rfl), hsh]
    exact hg
  · intro j hj
    have hj' : j < m.nmesh.length := by omega
    have e1 : (S.painter w none 0).axes[j].size = m.nmesh.getD j 0 := by
      simp only [PMesh.painter, List.getElem_map, List.getElem_range, hsh]
    have e2 : (S.painter w none 0).axes[j].period = (m.nmesh.getD j 0 : ℕ) := by
      simp [PMesh.painter, hS, PMesh.serial]
    have hn := hm.nmesh_pos hj'
    rw [e1, e2, movedCell_getD hs hg.len hj']
    exact ⟨hn, rfl, Int.toNat_of_nonneg (Int.emod_nonneg _ (by omega))⟩

/-- All particles, displaced. -/
theorem allParticles_moved (n : ℕ) (pos : ℕ → List (List K)) (mass : ℕ → Quant K) (f : List K → List K) :
    allParticles n (fun r => (pos r).map f) mass (fun _ => .none) =
      (allParticles n pos mass fun _ => .none).map fun p => ⟨f p.pos, p.mass, p.hsml⟩ := by
  unfold allParticles
  rw [List.map_flatMap]
  congr 1
  funext r
  unfold particlesOf
  rw [List.map_map, List.length_map]
  apply List.map_congr_left
  intro i hi
  rw [List.mem_range] at hi
  simp [hi]

theorem mem_allParticles_hsml {n : ℕ} {pos : ℕ → List (List K)} {mass : ℕ → Quant K} {p : Particle K}
    (hp : p ∈ allParticles n pos mass fun _ => .none) : p.hsml = 1 ∧ ∃ r < n, p.pos ∈ pos r := by
  obtain ⟨r, hr, hp⟩ := List.mem_flatMap.1 hp
  obtain ⟨i, hi, rfl⟩ := List.mem_map.1 hp
  rw [List.mem_range] at hr hi
  refine ⟨rfl, r, hr, ?_⟩
  simp only
  rw [List.getD_eq_getElem _ _ hi]
  exact List.getElem_mem _

/-- The weights of a window add up to one. -/
theorem weightAt_sum {m : PMesh K} (hm : m.OK) {w : Resampler K} (hw : w.Valid) {kind : Tuned} (hk : w.kern = Tuned.kern kind)
    (hsup : w.support = w.kern.native) {x : List K} (hx : x.length = m.nmesh.length) :
    ((ndindex m.nmesh).map fun g => m.weightAt w x g).sum = 1 := by
  set S := m.serial (cStrides m.nmesh) with hS
  have hSd : S.Distinct 0 := serial_distinct m
  have hSl : S.localShape 0 = m.nmesh := serial_localShape m _ 0
  have hl : (S.localShape 0).length = S.nmesh.length := by rw [hSl]; rfl
  have hP : (S.painter w none 0).Valid := painter_valid (m := S) hw hm.dim none 0
  have hD := distinct_painter (m := S) w none 0 hl hSd
  obtain ⟨mem', h1, h2⟩ := C15_mass_conserved (S.painter w none 0) hP kind hk (by
      intro ax hax
      obtain ⟨j, hj, rfl⟩ := List.mem_map.1 hax
      have hj : j < m.nmesh.length := List.mem_range.1 hj
      have := hm.nmesh_pos hj
      refine ⟨by simp, ?_, ?_⟩
      · show 0 < (S.localShape 0).getD j 0
        rw [hSl]; exact this
      · show m.nmesh.getD j 0 = (S.localShape 0).getD j 0
        rw [hSl]) hD
    [⟨x, 1, 1⟩] (by
      intro p hp
      rw [List.mem_singleton] at hp
      subst hp
      refine ⟨by rw [painter_len]; exact hx, ?_⟩
      unfold windowSize
      show (if (w.support : K) * 1 ≤ 0 then (w.kern.native : K) else w.support * 1) = w.kern.native
      rw [hsup]
      split <;> simp) (fun _ => 0)
  have h3 := paint_eq (S.painter w none 0) hP [⟨x, 1, 1⟩] (by
    intro p hp
    rw [List.mem_singleton] at hp
    subst hp
    rw [painter_len]; exact hx) (fun _ => 0)
  rw [h1, Option.some.injEq] at h3
  subst h3
  unfold total at h2
  simp only [List.map_cons, List.map_nil, List.sum_cons, List.sum_nil, one_mul, add_zero, zero_add, List.map_const',
    List.sum_replicate, smul_zero] at h2
  rw [← h2, shapeOf_painter (m := S) w none 0 hl, hSl]
  congr 1
  apply List.map_congr_left
  intro C hC
  have hC := mem_ndindex.1 hC
  rw [unitDeposit_elem _ hD _ _ (by rw [shapeOf_painter (m := S) w none 0 hl, hSl]; exact hC)]
  rfl

/-! ### the uniform grid -/

/-- A cell as a displacement. -/
def asShift (g : List ℕ) : List ℤ := g.map fun i : ℕ => (i : ℤ)

theorem reflect_perm {n : ℕ} (c : ℕ) :
    ((List.range n).map fun a : ℕ => (((c : ℤ) - a) % (n : ℤ)).toNat).Perm (List.range n) := by
  refine (List.Subperm.perm_of_length_le (List.subperm_of_subset ?_ ?_) (by simp))
  · refine List.Nodup.map_on (fun a ha b hb h => ?_) List.nodup_range
    rw [List.mem_range] at ha hb
    have h1 := Int.emod_nonneg ((c : ℤ) - a) (show (n : ℤ) ≠ 0 by omega)
    have h2 := Int.emod_nonneg ((c : ℤ) - b) (show (n : ℤ) ≠ 0 by omega)
    have h3 : ((c : ℤ) - a) % n = ((c : ℤ) - b) % n := by omega
    have h4 : (a : ℤ) % n = (b : ℤ) % n := by
      have := Int.ModEq.sub (Int.ModEq.refl (n := (n : ℤ)) (c : ℤ)) h3
      simpa [Int.ModEq] using this
    rw [Int.emod_eq_of_lt (by omega) (by omega), Int.emod_eq_of_lt (by omega) (by omega)] at h4
    omega
  · intro b hb
    obtain ⟨a, ha, rfl⟩ := List.mem_map.1 hb
    rw [List.mem_range] at ha ⊢
    have h1 := Int.emod_nonneg ((c : ℤ) - a) (show (n : ℤ) ≠ 0 by omega)
    have h2 := Int.emod_lt_of_pos ((c : ℤ) - a) (show (0 : ℤ) < n by omega)
    omega

theorem sum_reflect {M : Type} [AddCommMonoid M] : ∀ (nmesh c : List ℕ), c.length = nmesh.length →
    ∀ F : List ℕ → M, ((ndindex nmesh).map fun g => F (movedCell nmesh ((asShift g).map fun z => -z) c)).sum = ((ndindex nmesh).map F).sum
  | [], [], _, F => by simp [ndindex, movedCell]
  | n :: ns, z :: zs, h, F => by
    rw [sum_ndindex_cons', sum_ndindex_cons']
    simp only [asShift, List.map_cons, movedCell]
    have e : ∀ a : ℕ, ((ndindex ns).map fun t => F ((((z : ℤ) + -(a : ℤ)) % (n : ℤ)).toNat ::
        movedCell ns ((asShift t).map fun z => -z) zs)).sum =
        ((ndindex ns).map fun t => F ((((z : ℤ) - a) % (n : ℤ)).toNat :: t)).sum := fun a =>
      sum_reflect ns zs (by simpa using h) fun t => F ((((z : ℤ) + -(a : ℤ)) % (n : ℤ)).toNat :: t)
    unfold asShift at e
    simp only [e]
    have := ((reflect_perm (n := n) z).map fun a => ((ndindex ns).map fun t => F (a :: t)).sum).sum_eq
    rw [List.map_map] at this
    exact this
  | [], _ :: _, h, _ => by simp at h
  | _ :: _, [], h, _ => by simp at h

theorem movedCell_back {nmesh c : List ℕ} (hc : ValidIndex nmesh c) {s : List ℤ} (hs : s.length = nmesh.length) :
    movedCell nmesh s (movedCell nmesh (s.map fun z => -z) c) = c := by
  induction hc generalizing s with
  | nil => simp [movedCell]
  | @cons n a ns as ha _ ih =>
    match s, hs with
    | z :: zs, hs =>
      rw [List.map_cons, movedCell, movedCell, ih (by simpa using hs)]
      have h1 := Int.emod_nonneg ((a : ℤ) + -z) (show (n : ℤ) ≠ 0 by omega)
      rw [Int.toNat_of_nonneg h1, Int.emod_add_emod, neg_add_cancel_right, Int.emod_eq_of_lt (by omega) (by omega), Int.toNat_natCast]

/-- A uniform grid gives the same density in every cell. -/
theorem weightAt_lattice {m : PMesh K} (hm : m.OK) (w : Resampler K) {x : List K} (hx : x.length = m.nmesh.length) {c : List ℕ}
    (hc : ValidIndex m.nmesh c) :
    ((ndindex m.nmesh).map fun g => m.weightAt w (shiftedPos m.nmesh m.box (asShift g) x) c).sum =
      ((ndindex m.nmesh).map fun g => m.weightAt w x g).sum := by
  rw [← sum_reflect m.nmesh c hc.len fun g => m.weightAt w x g]
  apply sum_congr'
  intro g hg
  have hgl : (asShift g).length = m.nmesh.length := by rw [asShift, List.length_map]; exact (mem_ndindex.1 hg).len
  conv_lhs => rw [← movedCell_back hc hgl]
  exact weightAt_moved hm w hgl hx (movedCell_valid (s := (asShift g).map fun z => -z) (by simpa using hgl) hc)

/-- A particle of `generate_uniform_particle_grid`. -/
theorem uniform_moved : ∀ (nmesh : List ℕ) (box shift : List K) (g : List ℕ), box.length = nmesh.length → shift.length = nmesh.length →
    g.length = nmesh.length →
    List.zipWith (· * ·) (List.zipWith (fun (a : ℕ) s => (a : K) + s) g shift) (List.zipWith (fun b (n : ℕ) => b / (n : K)) box nmesh) =
      shiftedPos nmesh box (asShift g) (List.zipWith (· * ·) shift (List.zipWith (fun b (n : ℕ) => b / (n : K)) box nmesh))
  | [], _, _, _, _, _, _ => by simp [shiftedPos]
  | n :: ns, b :: bs, s :: ss, a :: as, h1, h2, h3 => by
    have ih := uniform_moved ns bs ss as (by simpa using h1) (by simpa using h2) (by simpa using h3)
    simp only [List.zipWith_cons_cons, asShift, List.map_cons, shiftedPos] at ih ⊢
    rw [ih]
    congr 1
    push_cast
    ring

theorem sum_uniform {M : Type} [AddCommMonoid M] {m : PMesh K} (hm : m.OK) (shift : List K) (F : List K → M) :
    ((List.range m.nrank).map fun r => ((m.uniformGrid shift r).map F).sum).sum =
      ((ndindex m.nmesh).map fun g => F (List.zipWith (· * ·) (List.zipWith (fun (a : ℕ) s => (a : K) + s) g shift)
        (List.zipWith (fun b (n : ℕ) => b / (n : K)) m.box m.nmesh))).sum := by
  have h := (ranks_perm hm).map fun g => F (List.zipWith (· * ·) (List.zipWith (fun (a : ℕ) s => (a : K) + s) g shift)
        (List.zipWith (fun b (n : ℕ) => b / (n : K)) m.box m.nmesh))
  rw [← h.sum_eq, List.map_flatMap, sum_flatMapM]
  congr 1
  apply List.map_congr_left
  intro r _
  unfold PMesh.uniformGrid
  rw [meshCoordinates_eq, List.map_map, List.map_map, List.map_map]
  rfl

/-- Sums over all particles with the same mass. -/
theorem sum_allParticles {M : Type} [AddCommMonoid M] (n : ℕ) (pos : ℕ → List (List K)) (mu : K) (F : K → List K → M) :
    ((allParticles n pos (fun _ => .scalar mu) fun _ => .none).map fun p => F p.mass p.pos).sum =
      ((List.range n).map fun r => ((pos r).map (F mu)).sum).sum := by
  unfold allParticles
  rw [List.map_flatMap, sum_flatMapM]
  congr 1
  apply List.map_congr_left
  intro r _
  unfold particlesOf
  rw [List.map_map]
  congr 1
  apply List.ext_getElem
  · simp
  · intro i h1 h2
    have : i < (pos r).length := by simpa using h2
    simp [Quant.at, this]

end

/-- A constant field has only the zero mode. -/
theorem r2c_const {nmesh : List ℕ} {f : List ℕ → ℝ} {a : ℝ} (h : ∀ g, ValidIndex nmesh g → f g = a) {k : List ℕ}
    (hk : ValidIndex nmesh k) (h0 : k ≠ nmesh.map fun _ => 0) : r2c nmesh f k = 0 := by
  have hz : ∀ (ns x : List ℕ), phase ns (ns.map fun _ => 0) x = 1 := by
    intro ns
    induction ns with
    | nil => intro x; simp [phase, phaseArg]
    | cons n ns ih =>
      intro x
      cases x with
      | nil => simp [phase, phaseArg]
      | cons y ys => rw [List.map_cons, phase_cons, ih]; simp
  have hv : ValidIndex nmesh (nmesh.map fun _ => 0) := by
    clear h h0 f
    induction hk with
    | nil => exact .nil
    | cons ha _ ih => exact .cons (Nat.zero_lt_of_lt ha) ih
  have ho := orth hv hk
  rw [if_neg (Ne.symm h0)] at ho
  unfold r2c dftForward
  rw [show ((ndindex nmesh).map fun x => (f x : ℂ) * exp (-(2 * Real.pi * I * phaseArg nmesh k x))).sum =
    (a : ℂ) * ((ndindex nmesh).map fun x => phase nmesh x (nmesh.map fun _ => 0) * (starRingEnd ℂ) (phase nmesh x k)).sum from ?_, ho]
  · simp
  · rw [← sum_cmul]
    apply sum_congr'
    intro x hx
    rw [h x (mem_ndindex.1 hx), exp_neg_phase, phase_comm nmesh x (nmesh.map _), hz, one_mul, phase_comm]

/-- The zero mode is the mean. -/
theorem r2c_zero (nmesh : List ℕ) (f : List ℕ → ℝ) :
    r2c nmesh f (nmesh.map fun _ => 0) = ((((ndindex nmesh).map f).sum / (nmesh.prod : ℕ) : ℝ) : ℂ) := by
  have hz : ∀ (ns x : List ℕ), phaseArg ns (ns.map fun _ => 0) x = 0 := by
    intro ns
    induction ns with
    | nil => intro x; simp [phaseArg]
    | cons n ns ih =>
      intro x
      cases x with
      | nil => simp [phaseArg]
      | cons y ys => rw [List.map_cons, phaseArg, ih]; simp
  unfold r2c dftForward
  rw [prod_inv]
  simp only [hz]
  push_cast
  rw [div_eq_mul_inv]
  congr 1
  induction ndindex nmesh with
  | nil => simp
  | cons a l ih => simp only [List.map_cons, List.sum_cons, ih]; push_cast; simp

/-- No modes, no field. -/
theorem c2r_zero {nmesh cshape : List ℕ} (hst : StoredShape nmesh cshape) (hne : nmesh ≠ []) {F : List ℕ → ℂ}
    (h : ∀ k, ValidIndex cshape k → F k = 0) (g : List ℕ) : c2r nmesh cshape F g = 0 := by
  unfold c2r dftBackward
  rw [show ((ndindex nmesh).map fun k => decompress nmesh cshape F k * exp (2 * Real.pi * I * phaseArg nmesh k g)).sum =
    ((ndindex nmesh).map fun _ => (0 : ℂ)).sum from sum_congr' fun k hk => ?_]
  · simp
  · rw [mem_ndindex] at hk
    rw [decompress_stored hst hne hk]
    by_cases hc : ValidIndex cshape k
    · rw [if_pos hc, h k hc, zero_mul]
    · rw [if_neg hc, h _ (opposite_stored hst hne hk hc), map_zero, zero_mul]

end Pmesh
