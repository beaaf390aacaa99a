import Verif.Model.NoiseField
import Verif.Props.WhiteNoise
import Verif.Props.Apply

/-! # C42: unitary white noise and its mean; the samples of the generator -/

namespace Pmesh

section
variable {σ D K : Type} [Field D] [LinearOrder D] [FloorRing D] [Field K] [DecidableEq K] (r : Rng σ D) (polar : Bool → D → D → K × K)
  (rnd : D → D)

theorem noiseGen_addr (N0 N1 N2 s0 s1 s2 n0 n1 n2 : ℕ) (t0 t1 t2 : ℤ) (u : Bool) (a b c : ℕ) :
    noiseAddr (noiseGen [N0, N1, N2] [s0, s1, s2] [n0, n1, n2] [t0, t1, t2] u) (s0 + a) (s1 + b) (s2 + c) =
      elementAddr [t0, t1, t2] [a, b, c] := by
  simp [noiseAddr, noiseGen, elementAddr]
  ring

theorem noiseGen_stores (N0 N1 N2 s0 s1 s2 n0 n1 n2 : ℕ) (t0 t1 t2 : ℤ) (u : Bool) (i j k : ℤ) :
    (noiseGen [N0, N1, N2] [s0, s1, s2] [n0, n1, n2] [t0, t1, t2] u).Stores i j k ↔
      ∃ a b c : ℕ, ValidIndex [n0, n1, n2] [a, b, c] ∧ i = s0 + a ∧ j = s1 + b ∧ k = s2 + c := by
  simp only [NoiseGen.Stores, noiseGen, ValidIndex, List.forall₂_cons, List.forall₂_nil_left_iff]
  simp
  constructor
  · rintro ⟨h1, h2, h3⟩
    exact ⟨(i - s0).toNat, (j - s1).toNat, (k - s2).toNat, by omega, by omega, by omega, by omega⟩
  · rintro ⟨a, b, c, h, rfl, rfl, rfl⟩
    omega

theorem noiseGen_plain {N0 N1 N2 s0 s1 s2 n0 n1 n2 : ℕ} {t0 t1 t2 : ℤ} (u : Bool) (hN : 0 < N0 ∧ 0 < N1 ∧ 0 < N2)
    (hin : s0 + n0 ≤ N0 ∧ s1 + n1 ≤ N1 ∧ s2 + n2 ≤ N2) (hp : Proper [n0, n1, n2] [t0, t1, t2]) :
    (noiseGen [N0, N1, N2] [s0, s1, s2] [n0, n1, n2] [t0, t1, t2] u).Plain := by
  refine ⟨?_, ?_, ?_, ?_⟩
  · intro d
    match d with
    | 0 => simp [noiseGen]; omega
    | 1 => simp [noiseGen]; omega
    | 2 => simp [noiseGen]; omega
  · intro d
    match d with
    | 0 => simp [noiseGen]
    | 1 => simp [noiseGen]
    | 2 => simp [noiseGen]
  · intro d
    match d with
    | 0 => simp [noiseGen]; omega
    | 1 => simp [noiseGen]; omega
    | 2 => simp [noiseGen]; omega
  · intro i j k i' j' k' h h' e
    obtain ⟨a, b, c, hv, rfl, rfl, rfl⟩ := (noiseGen_stores ..).1 h
    obtain ⟨a', b', c', hv', rfl, rfl, rfl⟩ := (noiseGen_stores ..).1 h'
    rw [noiseGen_addr, noiseGen_addr] at e
    have := hp.inj _ _ hv hv' e
    simp only [List.cons.injEq, and_true] at this
    omega

theorem wav_zero [CharZero K] {pi box : K} (hpi : pi ≠ 0) (hbox : box ≠ 0) {start len N j : ℕ} (hj : j < len) (hle : start + len ≤ N)
    (hN : 2 ≤ N) : (wavAxis pi start len N box).getD j 0 = 0 ↔ start + j = 0 := by
  have hN0 : (N : K) ≠ 0 := by exact_mod_cast (show N ≠ 0 by omega)
  have e : (wavAxis pi start len N box).getD j 0 = (wrapIndex N ((j : ℤ) + start) : K) * (2 * pi / (N : K)) * (N : K) / box := by
    unfold wavAxis indexAxis
    rw [List.getD_eq_getElem?_getD, List.getElem?_map, List.getElem?_map, List.getElem?_range hj]
    rfl
  rw [e]
  have h2 : (2 : K) ≠ 0 := by exact_mod_cast (show (2 : ℕ) ≠ 0 by omega)
  rw [div_eq_zero_iff, or_iff_left hbox, mul_eq_zero, or_iff_left hN0, mul_eq_zero,
    or_iff_left (div_ne_zero (mul_ne_zero h2 hpi) hN0)]
  rw [Int.cast_eq_zero]
  unfold wrapIndex
  split_ifs <;> omega

/-- **C42**, the mean (partial: no axis of a single cell).  After `generate_whitenoise(seed, unitary, mean)` the zero mode is the
mean, and the other modes are as the generator made them. -/
theorem C42_mean_partial [CharZero K] {pi : K} (hpi : pi ≠ 0) {N0 N1 N2 s0 s1 s2 n0 n1 n2 : ℕ} {t0 t1 t2 : ℤ}
    (hN : 2 ≤ N0 ∧ 2 ≤ N1 ∧ 2 ≤ N2) (hin : s0 + n0 ≤ N0 ∧ s1 + n1 ≤ N1 ∧ s2 + n2 ≤ N2) (hp : Proper [n0, n1, n2] [t0, t1, t2])
    (order : List ℕ) (horder : order.Perm [0, 1, 2]) {b0 b1 b2 : K} (hb : b0 ≠ 0 ∧ b1 ≠ 0 ∧ b2 ≠ 0) (seed : ℕ) (unitary : Bool)
    (mean : K) (mem : ℤ → K × K) (a b c : ℕ) (hv : ValidIndex [n0, n1, n2] [a, b, c]) :
    generateWhitenoise r polar rnd pi [N0, N1, N2] [s0, s1, s2] [n0, n1, n2] [t0, t1, t2] order [b0, b1, b2] seed unitary mean mem
        (elementAddr [t0, t1, t2] [a, b, c]) =
      if s0 + a = 0 ∧ s1 + b = 0 ∧ s2 + c = 0 then (mean, 0)
      else genericFill r polar rnd (noiseGen [N0, N1, N2] [s0, s1, s2] [n0, n1, n2] [t0, t1, t2] unitary) seed mem
        (elementAddr [t0, t1, t2] [a, b, c]) := by
  unfold generateWhitenoise
  have := (C32_apply [n0, n1, n2] (by simp) [t0, t1, t2] hp order horder .wavenumber [b0, b1, b2]
    ([N0, N1, N2].map fun n => (n : K))
    (fun d j => (wavAxis pi ([s0, s1, s2].getD d 0) ([n0, n1, n2].getD d 0) ([N0, N1, N2].getD d 0) ([b0, b1, b2].getD d 0)).getD j 0)
    (fun d j => (([s0, s1, s2].getD d 0 + j : ℕ) : K))
    (fun k v => if k.all (fun ki => decide (ki = 0)) then ((mean, 0) : K × K) else v)
    (genericFill r polar rnd (noiseGen [N0, N1, N2] [s0, s1, s2] [n0, n1, n2] [t0, t1, t2] unitary) seed mem)).1.1 [a, b, c] hv
  refine this.trans ?_
  refine if_congr ?_ rfl rfl
  simp only [ValidIndex, List.forall₂_cons, List.forall₂_nil_left_iff] at hv
  rw [show ownCoords (kindCoord .wavenumber [b0, b1, b2] ([N0, N1, N2].map fun n => (n : K))
    (fun d j => (wavAxis pi ([s0, s1, s2].getD d 0) ([n0, n1, n2].getD d 0) ([N0, N1, N2].getD d 0) ([b0, b1, b2].getD d 0)).getD j 0)
    (fun d j => (([s0, s1, s2].getD d 0 + j : ℕ) : K))) [a, b, c] =
      [(wavAxis pi s0 n0 N0 b0).getD a 0, (wavAxis pi s1 n1 N1 b1).getD b 0, (wavAxis pi s2 n2 N2 b2).getD c 0] from rfl]
  simp only [List.all_cons, List.all_nil, Bool.and_true, Bool.and_eq_true, decide_eq_true_iff]
  rw [wav_zero hpi hb.1 (by omega) hin.1 hN.1, wav_zero hpi hb.2.1 (by omega) hin.2.1 hN.2.1,
    wav_zero hpi hb.2.2 (by omega) hin.2.2 hN.2.2]

end

theorem polarReal_unit (a p : ℚ) : (polarReal true a p).1 ^ 2 + (polarReal true a p).2 ^ 2 = 1 := by
  simp [polarReal, polarIdeal, Real.cos_sq_add_sin_sq]

/-- **C42** (partial: no axis of a single cell, full fields not split along the last axis, exact arithmetic).  With `unitary=True`
the zero mode is the requested mean, every other mode has amplitude one, and the other modes that are their own opposites are
one. -/
theorem C42_unitary_partial {σ : Type} (r : Rng σ) (rnd : ℚ → ℚ) {N0 N1 N2 s0 s1 s2 n0 n1 n2 : ℕ} {t0 t1 t2 : ℤ}
    (hN : 2 ≤ N0 ∧ 2 ≤ N1 ∧ 2 ≤ N2) (hin : s0 + n0 ≤ N0 ∧ s1 + n1 ≤ N1 ∧ s2 + n2 ≤ N2) (hp : Proper [n0, n1, n2] [t0, t1, t2])
    (hmir : ∀ c < n2, N2 < 2 * (s2 + c) → s2 + (s2 + c) ≤ N2)
    (order : List ℕ) (horder : order.Perm [0, 1, 2]) {b0 b1 b2 : ℝ} (hb : b0 ≠ 0 ∧ b1 ≠ 0 ∧ b2 ≠ 0) (seed : ℕ)
    (mean : ℝ) (mem : ℤ → ℝ × ℝ) (a b c : ℕ) (hv : ValidIndex [n0, n1, n2] [a, b, c]) :
    ∃ v, v = generateWhitenoise r polarReal rnd Real.pi [N0, N1, N2] [s0, s1, s2] [n0, n1, n2] [t0, t1, t2] order [b0, b1, b2] seed
        true mean mem (elementAddr [t0, t1, t2] [a, b, c]) ∧
      (s0 + a = 0 ∧ s1 + b = 0 ∧ s2 + c = 0 → v = (mean, 0)) ∧
      (¬(s0 + a = 0 ∧ s1 + b = 0 ∧ s2 + c = 0) → v.1 ^ 2 + v.2 ^ 2 = 1 ∧
        (2 * (s0 + a) % N0 = 0 → 2 * (s1 + b) % N1 = 0 → 2 * (s2 + c) % N2 = 0 → v = (1, 0))) := by
  refine ⟨_, rfl, ?_, ?_⟩
  · intro h
    rw [C42_mean_partial r polarReal rnd Real.pi_ne_zero hN hin hp order horder hb seed true mean mem a b c hv, if_pos h]
  · intro h
    rw [C42_mean_partial r polarReal rnd Real.pi_ne_zero hN hin hp order horder hb seed true mean mem a b c hv, if_neg h]
    have hv' := hv
    simp only [ValidIndex, List.forall₂_cons, List.forall₂_nil_left_iff] at hv'
    have hpl := noiseGen_plain true (by omega) hin hp (s0 := s0) (s1 := s1) (s2 := s2) (N0 := N0) (N1 := N1) (N2 := N2)
    have hst := (noiseGen_stores N0 N1 N2 s0 s1 s2 n0 n1 n2 t0 t1 t2 true (s0 + a) (s1 + b) (s2 + c)).2 ⟨a, b, c, hv, rfl, rfl, rfl⟩
    have e := (genericFill_eq r polarReal hpl rnd seed mem).1 _ _ _ hst (by
      intro hlt
      rw [hasMode_iff]
      simp only [noiseGen, List.getD_cons_succ, List.getD_cons_zero, Fin.isValue, Fin.val_two] at hlt ⊢
      have := hmir c (by omega) (by omega)
      omega)
    rw [noiseGen_addr] at e
    rw [e]
    -- all modes are made by `modeValue`
    have key : ∀ x sg cj, ∃ v, v = modeValue polarReal (noiseGen [N0, N1, N2] [s0, s1, s2] [n0, n1, n2] [t0, t1, t2] true) x sg cj
        (s0 + a) (s1 + b) (s2 + c) ∧ v.1 ^ 2 + v.2 ^ 2 = 1 ∧
        (2 * (s0 + a) % N0 = 0 → 2 * (s1 + b) % N1 = 0 → 2 * (s2 + c) % N2 = 0 → v = (1, 0)) := by
      intro x sg cj
      refine ⟨_, rfl, ?_⟩
      have self : ∀ n i : ℕ, i < n → (2 * i % n = 0 ↔ ((n : ℤ) - i).tmod n = i) := by
        intro n i hi
        rw [conjIndex_self (by omega) (by omega)]
        constructor
        · intro h
          obtain ⟨q, hq⟩ := Nat.dvd_of_mod_eq_zero h
          have : q < 2 := by
            by_contra hc
            have : n * 2 ≤ n * q := Nat.mul_le_mul_left n (by omega)
            omega
          obtain rfl | rfl : q = 0 ∨ q = 1 := by omega
          · omega
          · omega
        · rintro (h | h)
          · have : i = 0 := by omega
            rw [this]
            simp
          · have : 2 * i = n := by omega
            rw [this]
            exact Nat.mod_self n
      have z : ¬((s0 + a : ℤ) = 0 ∧ (s1 + b : ℤ) = 0 ∧ (s2 + c : ℤ) = 0) := by omega
      have hu := polarReal_unit x.1 x.2
      unfold modeValue
      simp only [noiseGen, List.getD_cons_succ, List.getD_cons_zero, Fin.isValue, Fin.val_two, Fin.val_one, Fin.val_zero, if_true]
      rw [if_neg z]
      have q0 := self N0 (s0 + a) (by omega)
      have q1 := self N1 (s1 + b) (by omega)
      have q2 := self N2 (s2 + c) (by omega)
      push_cast at q0 q1 q2
      simp only [← q0, ← q1, ← q2]
      split_ifs with hself
      all_goals first
        | exact ⟨by norm_num, fun _ _ _ => rfl⟩
        | exact ⟨by simpa using hu, fun h1 h2 h3 => absurd ⟨h1, h2, h3⟩ hself⟩
    unfold modeAt
    split_ifs
    all_goals
      obtain ⟨v, hv, h1⟩ := key (sampleAt r _ _) _ _
      rw [← hv]
      exact h1

/-- **C42 violated** if an axis has a single cell: the zero mode stays zero whatever the mean. -/
theorem C42_violated_single {σ : Type} (r : Rng σ) (polar : Bool → ℚ → ℚ → ℚ × ℚ) (rnd : ℚ → ℚ) (seed : ℕ) (mem : ℤ → ℚ × ℚ) :
    generateWhitenoise r polar rnd 3 [4, 4, 1] [0, 0, 0] [4, 4, 1] [4, 1, 1] [0, 1, 2] [1, 1, 1] seed true 7 mem 0 = (0, 0) := by
  unfold generateWhitenoise
  have hp : Proper [4, 4, 1] [4, 1, 1] := proper_of_decide rfl (by decide)
  have hv : ValidIndex [4, 4, 1] [0, 0, 0] := by decide
  have := (C32_apply [4, 4, 1] (by simp) [4, 1, 1] hp [0, 1, 2] (by decide) .wavenumber [1, 1, 1]
    ([4, 4, 1].map fun n : ℕ => (n : ℚ))
    (fun d j => (wavAxis 3 ([0, 0, 0].getD d 0) ([4, 4, 1].getD d 0) ([4, 4, 1].getD d 0) ([1, 1, 1].getD d 0)).getD j 0)
    (fun d j => (([0, 0, 0].getD d 0 + j : ℕ) : ℚ))
    (fun k v => if k.all (fun ki => decide (ki = 0)) then ((7, 0) : ℚ × ℚ) else v)
    (genericFill r polar rnd (noiseGen [4, 4, 1] [0, 0, 0] [4, 4, 1] [4, 1, 1] true) seed mem)).1.1 [0, 0, 0] hv
  refine this.trans ((if_neg (by decide +kernel)).trans ?_)
  have hpl := noiseGen_plain true (by omega) (by omega) hp (s0 := 0) (s1 := 0) (s2 := 0) (N0 := 4) (N1 := 4) (N2 := 1)
  have hst := (noiseGen_stores 4 4 1 0 0 0 4 4 1 4 1 1 true 0 0 0).2 ⟨0, 0, 0, hv, rfl, rfl, rfl⟩
  have e := (genericFill_eq r polar hpl rnd seed mem).1 _ _ _ hst (by
    intro hlt
    simp [noiseGen] at hlt)
  refine Eq.trans ?_ (e.trans ?_)
  · rfl
  · unfold modeAt modeValue
    simp [noiseGen]

/-! ## Samples -/

/-- The numbers that `SAMPLE` returns are in range: the loop that waits for a number that is not zero ends within 23 draws. -/
theorem C43_sample (rnd : ℚ → ℚ) (hr : ExactRounding rnd) (seed k : ℕ) :
    (0 < (sampleAt (ranlxdRng rnd) seed k).1 ∧ (sampleAt (ranlxdRng rnd) seed k).1 < 1) ∧
    0 ≤ (sampleAt (ranlxdRng rnd) seed k).2 ∧ (sampleAt (ranlxdRng rnd) seed k).2 < 1 := by
  set r := ranlxdRng rnd with hrdef
  set st : ℕ → RlState := fun n => (fun s => (r.next s).2)^[n] (r.set seed) with hst
  have hnext : ∀ n, r.next (st n) = (ranlxd1 rnd seed n, st (n + 1)) := by
    intro n
    refine Prod.ext rfl ?_
    rw [hst]
    simp only
    rw [Function.iterate_succ_apply']
  have wait : ∀ fuel n, (∃ m, n ≤ m ∧ m < n + fuel ∧ ranlxd1 rnd seed m ≠ 0) →
      ∃ m, waitNonzero r fuel (st n) = (ranlxd1 rnd seed m, st (m + 1)) ∧ ranlxd1 rnd seed m ≠ 0 := by
    intro fuel
    induction fuel with
    | zero => rintro n ⟨m, h1, h2, _⟩; omega
    | succ fuel ih =>
      rintro n ⟨m, h1, h2, h3⟩
      unfold waitNonzero
      rw [hnext]
      simp only
      by_cases h0 : ranlxd1 rnd seed n = 0
      · rw [if_pos h0]
        exact ih (n + 1) ⟨m, by
          rcases eq_or_lt_of_le h1 with rfl | h
          · exact absurd h0 h3
          · omega, by omega, h3⟩
      · rw [if_neg h0]
        exact ⟨n, rfl, h0⟩
  have sample : ∀ n, ∃ m, noiseSample r (st n) = ((ranlxd1 rnd seed m, ranlxd1 rnd seed n), st (m + 1)) ∧ ranlxd1 rnd seed m ≠ 0 := by
    intro n
    obtain ⟨m, hm, hne⟩ := wait 23 (n + 1) (C43_nonzero rnd hr seed (n + 1))
    refine ⟨m, ?_, hne⟩
    unfold noiseSample
    rw [hnext]
    simp only
    rw [hm]
  have state : ∀ k, ∃ n, (fun s => (noiseSample r s).2)^[k] (r.set seed) = st n := by
    intro k
    induction k with
    | zero => exact ⟨0, rfl⟩
    | succ k ih =>
      obtain ⟨n, hn⟩ := ih
      rw [Function.iterate_succ_apply', hn]
      obtain ⟨m, hm, _⟩ := sample n
      exact ⟨m + 1, by rw [hm]⟩
  obtain ⟨n, hn⟩ := state k
  obtain ⟨m, hm, hne⟩ := sample n
  unfold sampleAt
  rw [hn, hm]
  have h1 := C43_range rnd hr seed m
  have h2 := C43_range rnd hr seed n
  exact ⟨⟨lt_of_le_of_ne h1.1 (Ne.symm hne), h1.2.1⟩, h2.1, h2.2.1⟩

/-! ## Non-vacuity -/

/-- A rank of a compressed 4×4×4 field, split along the last axis. -/
example (mem : ℤ → ℝ × ℝ) := C42_unitary_partial (ranlxdRng id) id (N0 := 4) (N1 := 4) (N2 := 4) (s0 := 0) (s1 := 0) (s2 := 1)
  (n0 := 4) (n1 := 4) (n2 := 2) (t0 := 2) (t1 := 8) (t2 := 1) (by omega) (by omega) (proper_of_decide rfl (by decide)) (by omega)
  [1, 0, 2] (by decide) (b0 := 1) (b1 := 1) (b2 := 1) (by norm_num) 42 5 mem 1 2 1 (by decide)

/-- The rank that has the zero mode. -/
example (mem : ℤ → ℝ × ℝ) := C42_unitary_partial (ranlxdRng id) id (N0 := 4) (N1 := 4) (N2 := 4) (s0 := 0) (s1 := 0) (s2 := 0)
  (n0 := 2) (n1 := 4) (n2 := 4) (t0 := 16) (t1 := 4) (t2 := 1) (by omega) (by omega) (proper_of_decide rfl (by decide)) (by omega)
  [0, 1, 2] (by decide) (b0 := 1) (b1 := 1) (b2 := 1) (by norm_num) 42 5 mem 0 0 0 (by decide)

#print axioms C42_mean_partial
#print axioms C42_unitary_partial
#print axioms C42_violated_single
#print axioms C43_sample

end Pmesh
