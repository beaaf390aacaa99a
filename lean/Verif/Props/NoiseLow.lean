import Verif.Model.NoiseLow
import Verif.Props.Fourier
import Verif.Props.NoiseField
import Mathlib.Analysis.SpecialFunctions.Pow.Real
import Mathlib.Tactic.IntervalCases

/-!
# C67: white noise on two axes
-/

set_option linter.unusedSectionVars false

namespace Pmesh

open Complex

theorem zero_valid {nmesh : List ℕ} (hpos : ∀ n ∈ nmesh, 0 < n) : ValidIndex nmesh (nmesh.map fun _ => 0) := by
  unfold ValidIndex
  induction nmesh with
  | nil => exact .nil
  | cons n ns ih => exact .cons (hpos n (by simp)) (ih fun n hn => hpos n (by simp [hn]))

theorem phase_zero (nmesh x : List ℕ) : phase nmesh x (nmesh.map fun _ => 0) = 1 := by
  have hz : ∀ (ns : List ℕ) (x : List ℕ), phaseArg ns x (ns.map fun _ => 0) = 0 := by
    intro ns
    induction ns with
    | nil => intro x; simp [phaseArg]
    | cons n ns ih =>
      intro x
      cases x with
      | nil => simp [phaseArg]
      | cons a x =>
        have := ih x
        rw [List.map_cons]
        simp only [phaseArg]
        rw [this]
        simp
  unfold phase
  rw [hz]
  simp

/-- `r2c` of `a f + b` away from the zero mode. -/
theorem r2c_affine (nmesh : List ℕ) (hpos : ∀ n ∈ nmesh, 0 < n) (f : List ℕ → ℝ) (a b : ℝ) {k : List ℕ} (hk : ValidIndex nmesh k)
    (h0 : k ≠ nmesh.map fun _ => 0) : r2c nmesh (fun x => a * f x + b) k = a * r2c nmesh f k := by
  unfold r2c
  rw [dftForward_eq, dftForward_eq, ← mul_assoc]
  congr 1
  have ho := orth (zero_valid hpos) hk
  rw [if_neg (Ne.symm h0)] at ho
  rw [← sum_cmul]
  have : ∀ l : List (List ℕ), (l.map fun x => ((a * f x + b : ℝ) : ℂ) * (starRingEnd ℂ) (phase nmesh k x)).sum =
      (l.map fun x => (a : ℂ) * ((f x : ℂ) * (starRingEnd ℂ) (phase nmesh k x))).sum +
      (b : ℂ) * (l.map fun x => phase nmesh x (nmesh.map fun _ => 0) * (starRingEnd ℂ) (phase nmesh x k)).sum := by
    intro l
    induction l with
    | nil => simp
    | cons y l ih =>
      simp only [List.map_cons, List.sum_cons, ih]
      rw [phase_zero, phase_comm nmesh y k]
      push_cast
      ring
  rw [this, ho, mul_zero, add_zero]

theorem fullNoise_eq (nmesh : List ℕ) (hpos : ∀ n ∈ nmesh, 0 < n) (normal : List ℕ → ℝ) (k : List ℕ) :
    fullNoise nmesh normal k = (Real.sqrt (nmesh.prod : ℕ) : ℂ) * r2c nmesh normal k := by
  unfold fullNoise r2c
  rw [prod_inv]
  have hp : (0 : ℝ) < ((nmesh.prod : ℕ) : ℝ) := by
    have := prod_ne hpos
    exact_mod_cast Nat.pos_of_ne_zero this
  have : (((nmesh.prod : ℕ) : ℝ) ^ (-(1 / 2) : ℝ)) = Real.sqrt (nmesh.prod : ℕ) * ((nmesh.prod : ℕ) : ℝ)⁻¹ := by
    rw [Real.rpow_neg hp.le, ← Real.sqrt_eq_rpow]
    have h1 : Real.sqrt (nmesh.prod : ℕ) ≠ 0 := (Real.sqrt_pos.2 hp).ne'
    have h2 := Real.mul_self_sqrt hp.le
    field_simp
    nlinarith [h2]
  rw [this]
  push_cast
  ring

theorem exp_arg_conj (z : ℂ) : exp (I * (arg ((starRingEnd ℂ) z) : ℂ)) = (starRingEnd ℂ) (exp (I * (arg z : ℂ))) := by
  rw [← exp_conj, map_mul, conj_I, conj_ofReal, arg_conj]
  split_ifs with h
  · rw [h]
    have h1 : I * (Real.pi : ℂ) = Real.pi * I := mul_comm _ _
    have h2 : -I * (Real.pi : ℂ) = -(Real.pi * I) := by ring
    rw [h1, h2, exp_neg, exp_pi_mul_I]
    norm_num
  · push_cast
    ring_nf

theorem opposite_zero_iff {nmesh k : List ℕ} (hk : ValidIndex nmesh k) :
    (opposite nmesh k = nmesh.map fun _ => 0) ↔ k = nmesh.map fun _ => 0 := by
  unfold opposite
  induction hk with
  | nil => simp
  | @cons n j ns js h _ ih =>
    simp only [List.zipWith_cons_cons, List.map_cons, List.cons.injEq]
    rw [ih]
    refine and_congr_left fun _ => ?_
    by_cases h0 : j = 0
    · subst h0; simp
    · rw [Nat.mod_eq_of_lt (by omega)]
      omega

/-- **C67**.  On two axes (or one), there is one field of modes, determined by the random numbers and not by the ranks, of which
`generate_whitenoise` gives each rank its piece, in full or compressed storage, on any number of ranks. It is Hermitian; its zero mode is the
mean. If `unitary`, all other modes have modulus one. If not, the field in real space is the array of independent random numbers,
less its average, times the square root of the number of points, plus the mean.
Partial: no axis of a single point. -/
theorem C67_noise_partial (nmesh : List ℕ) (hne : nmesh ≠ []) (h2 : nmesh.length ≤ 2) (hN : ∀ n ∈ nmesh, 2 ≤ n) (normal : List ℕ → ℝ)
    (unitary : Bool) (mean : ℝ) :
    ∃ G : List ℕ → ℂ,
      (∀ t : Tiling, t.OK → t.nmesh = nmesh → t.Storage → (∀ r < t.nrank, List.Forall₂ (fun (ab : ℕ × ℕ) N => ab.1 + ab.2 ≤ N)
          ((t.start r).zip (t.lshape r)) nmesh) → ∀ box : List ℝ, box.length = nmesh.length → (∀ b ∈ box, 0 < b) →
        ∃ f : ℕ → List ℕ → ℂ, (∀ r < t.nrank, lowWhitenoise nmesh (t.start r) (t.lshape r) box unitary mean normal = some (f r)) ∧
          t.Holds f G) ∧
      (∀ k, ValidIndex nmesh k → G (opposite nmesh k) = (starRingEnd ℂ) (G k)) ∧
      G (nmesh.map fun _ => 0) = mean ∧
      (unitary = true → ∀ k, ValidIndex nmesh k → k ≠ (nmesh.map fun _ => 0) → ‖G k‖ = 1) ∧
      (unitary = false → ∀ cshape, StoredShape nmesh cshape → ∀ x, ValidIndex nmesh x →
        c2r nmesh cshape G x = Real.sqrt (nmesh.prod : ℕ) * (normal x - ((ndindex nmesh).map normal).sum / (nmesh.prod : ℕ)) + mean) := by
  have hpos : ∀ n ∈ nmesh, 0 < n := fun n hn => by have := hN n hn; omega
  refine ⟨fun k => if k = (nmesh.map fun _ => 0) then (mean : ℂ) else
    if unitary then exp (I * (arg (fullNoise nmesh normal k) : ℂ)) else fullNoise nmesh normal k, ?_, ?_, ?_, ?_, ?_⟩
  · intro t ht htn hst hin box hbl hbox
    have hlow : ∀ r < t.nrank, ∃ f, lowWhitenoise nmesh (t.start r) (t.lshape r) box unitary mean normal = some f ∧
        ∀ c, ValidIndex (t.lshape r) c → f c = if t.global r c = (nmesh.map fun _ => 0) then (mean : ℂ) else
          if unitary then exp (I * (arg (fullNoise nmesh normal (t.global r c)) : ℂ)) else fullNoise nmesh normal (t.global r c) := by
      intro r hr
      have hl1 := ht.start_len r hr
      have hl2 := ht.shape_len r hr
      rw [htn] at hl1 hl2
      have hin' := hin r hr
      have hslice : List.zipWith (fun N (ab : ℕ × ℕ) => sliceLen N ab.1 ab.2) nmesh ((t.start r).zip (t.lshape r)) = t.lshape r := by
        generalize t.start r = s at hl1 hin'
        generalize t.lshape r = l at hl2 hin'
        clear hpos hbl hst htn hin hN h2 hne
        induction nmesh generalizing s l with
        | nil => simp at hl2; simp [hl2]
        | cons n ns ih =>
          match s, l, hl1, hl2 with
          | a :: s, b :: l, hl1, hl2 =>
            simp only [List.zip_cons_cons, List.forall₂_cons] at hin'
            simp only [List.zip_cons_cons, List.zipWith_cons_cons]
            rw [ih s (by simpa using hl1) l (by simpa using hl2) hin'.2]
            congr 1
            unfold sliceLen
            have := hin'.1
            omega
      have hval : lowWhitenoise nmesh (t.start r) (t.lshape r) box unitary mean normal = some fun c =>
          if (List.range nmesh.length).all (fun d => decide ((wavAxis Real.pi ((t.start r).getD d 0) ((t.lshape r).getD d 0)
            (nmesh.getD d 0) (box.getD d 0)).getD (c.getD d 0) 0 = 0)) then (mean : ℂ)
          else if unitary then exp (I * (arg (fullNoise nmesh normal (List.zipWith (· + ·) (t.start r) c)) : ℂ))
            else fullNoise nmesh normal (List.zipWith (· + ·) (t.start r) c) := by
        unfold lowWhitenoise lowNoise
        rw [if_pos ⟨h2, hslice⟩]
        rfl
      refine ⟨_, hval, ?_⟩
      · intro c hc
        refine if_congr ?_ rfl rfl
        have hcl : c.length = nmesh.length := by rw [(validIndex_iff.1 hc).1, hl2]
        rw [List.all_eq_true]
        unfold Tiling.global
        rw [List.ext_getElem_iff]
        simp only [List.mem_range, decide_eq_true_iff, List.length_zipWith, List.length_map, hl1, hcl, min_self, true_and,
          List.getElem_zipWith, List.getElem_map]
        have key : ∀ d (hd : d < nmesh.length), (wavAxis Real.pi ((t.start r).getD d 0) ((t.lshape r).getD d 0) (nmesh.getD d 0)
            (box.getD d 0)).getD (c.getD d 0) 0 = 0 ↔ (t.start r)[d] + c[d] = 0 := by
          intro d hd
          have e1 : (t.start r).getD d 0 = (t.start r)[d] := List.getD_eq_getElem _ _ (by omega)
          have e2 : c.getD d 0 = c[d] := List.getD_eq_getElem _ _ (by omega)
          have e3 : nmesh.getD d 0 = nmesh[d] := List.getD_eq_getElem _ _ hd
          have e4 : (t.lshape r).getD d 0 = (t.lshape r)[d] := List.getD_eq_getElem _ _ (by omega)
          have e5 : box.getD d 0 = box[d] := List.getD_eq_getElem _ _ (by omega)
          rw [e1, e2, e3, e4, e5]
          refine wav_zero Real.pi_ne_zero (hbox _ (List.getElem_mem _)).ne' ?_ ?_ (hN _ (List.getElem_mem _))
          · have := (validIndex_iff.1 hc).2 d (by omega)
            rw [e2, e4] at this
            exact this
          · have := (List.forall₂_iff_get.1 hin').2 d (by simp; omega) hd
            simpa using this
        exact ⟨fun h d hd _ => (key d (by omega)).1 (h d (by omega)), fun h d hd => (key d hd).2 (h d (by omega) (by omega))⟩
    have : ∀ r, ∃ f : List ℕ → ℂ, r < t.nrank → lowWhitenoise nmesh (t.start r) (t.lshape r) box unitary mean normal = some f ∧
        ∀ c, ValidIndex (t.lshape r) c → f c = if t.global r c = (nmesh.map fun _ => 0) then (mean : ℂ) else
          if unitary then exp (I * (arg (fullNoise nmesh normal (t.global r c)) : ℂ)) else fullNoise nmesh normal (t.global r c) := by
      intro r
      by_cases hr : r < t.nrank
      · obtain ⟨f, hf⟩ := hlow r hr
        exact ⟨f, fun _ => hf⟩
      · exact ⟨fun _ => 0, fun h => absurd h hr⟩
    choose f hf using this
    exact ⟨f, fun r hr => (hf r hr).1, fun r hr c hc => (hf r hr).2 c hc⟩
  · intro k hk
    dsimp only
    by_cases h0 : k = nmesh.map fun _ => 0
    · rw [if_pos h0, if_pos ((opposite_zero_iff hk).2 h0), conj_ofReal]
    · rw [if_neg h0, if_neg (fun h => h0 ((opposite_zero_iff hk).1 h))]
      have hc : fullNoise nmesh normal (opposite nmesh k) = (starRingEnd ℂ) (fullNoise nmesh normal k) := by
        rw [fullNoise_eq nmesh hpos, fullNoise_eq nmesh hpos, r2c_opposite nmesh normal hk, map_mul, conj_ofReal]
      rw [hc]
      cases unitary
      · simp
      · simp only [if_true]
        exact exp_arg_conj _
  · simp
  · intro hu k hk h0
    dsimp only
    rw [if_neg h0, if_pos hu, mul_comm]
    exact norm_exp_ofReal_mul_I _
  · intro hu cshape hs x hx
    have hp : ((nmesh.prod : ℕ) : ℝ) ≠ 0 := Nat.cast_ne_zero.2 (prod_ne hpos)
    have := C29_c2r_r2c nmesh cshape hne hpos hs
      (fun x => Real.sqrt (nmesh.prod : ℕ) * normal x +
        (mean - Real.sqrt (nmesh.prod : ℕ) * (((ndindex nmesh).map normal).sum / (nmesh.prod : ℕ))))
      (fun k => if k = (nmesh.map fun _ => 0) then (mean : ℂ) else
        if unitary then exp (I * (arg (fullNoise nmesh normal k) : ℂ)) else fullNoise nmesh normal k) ?_ x hx
    · rw [this]
      ring
    · intro k hk
      have hkv := stored_valid hs hne hpos hk
      by_cases h0 : k = nmesh.map fun _ => 0
      · rw [if_pos h0, h0, C29_mean]
        congr 1
        have hsum : ∀ (l : List (List ℕ)) (a b : ℝ), (l.map fun x => a * normal x + b).sum = a * (l.map normal).sum + l.length * b := by
          intro l a b
          induction l with
          | nil => simp
          | cons y l ih => simp only [List.map_cons, List.sum_cons, ih, List.length_cons]; push_cast; ring
        rw [hsum, ndindex_length]
        field_simp
        ring
      · rw [if_neg h0, hu, if_neg (by simp), r2c_affine nmesh hpos normal _ _ hkv h0, fullNoise_eq nmesh hpos]

/-- Four by four points, compressed, on two ranks. -/
def exLowTiling : Tiling := ⟨[4, 4], [4, 3], 2, fun r => [2 * r, 0], fun _ => [2, 3]⟩

/-- Non-vacuity of C67: two ranks, compressed; any random numbers. -/
example (normal : List ℕ → ℝ) : ∃ f : ℕ → List ℕ → ℂ, ∀ r < 2,
    lowWhitenoise [4, 4] [2 * r, 0] [2, 3] [1, 2] true 3 normal = some (f r) := by
  obtain ⟨G, h, _⟩ := C67_noise_partial [4, 4] (by simp) (by simp) (by simp) normal true 3
  obtain ⟨f, hf, _⟩ := h exLowTiling (tiling_ok_of_decide (by decide)) rfl (Or.inr rfl) (by
    intro r hr
    have hr : r < 2 := hr
    interval_cases r <;> exact .cons (by decide) (.cons (by decide) .nil)) [1, 2] rfl (by simp)
  exact ⟨f, hf⟩

/-- **C67 violated** on a mesh with an axis of a single point: its only wavenumber is taken for `-2π/L`, and the mean is not set. -/
theorem C67_violated_single :
    ∃ f, lowWhitenoise [1, 4] [0, 0] [1, 3] [1, 1] false 1 (fun _ => 0) = some f ∧ f [0, 0] = 0 := by
  unfold lowWhitenoise lowNoise
  rw [if_pos (by decide)]
  refine ⟨_, rfl, ?_⟩
  have h : ¬ ((List.range 2).all fun d => decide ((wavAxis Real.pi (([0, 0] : List ℕ).getD d 0) (([1, 3] : List ℕ).getD d 0)
      (([1, 4] : List ℕ).getD d 0) (([1, 1] : List ℝ).getD d 0)).getD (([0, 0] : List ℕ).getD d 0) 0 = 0)) = true := by
    rw [List.all_eq_true]
    intro h
    have := h 0 (by simp)
    simp [wavAxis, indexAxis, wrapIndex, Real.pi_ne_zero] at this
  refine (if_neg h).trans ?_
  simp [fullNoise, dftForward]

#print axioms C67_noise_partial
#print axioms C67_violated_single

end Pmesh
