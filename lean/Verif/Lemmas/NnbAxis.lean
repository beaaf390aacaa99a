import Verif.Lemmas.FloatCell
import Verif.Lemmas.AxisWeight

/-!
# Which slab the nearest cell of a particle is in, in floating point
-/

set_option linter.unusedSectionVars false

namespace Pmesh

section
variable {K : Type*} [Field K] [LinearOrder K] [IsStrictOrderedRing K] [FloorRing K]

theorem tunedWrap_emod {N : ℕ} (h : 0 < N) (t : ℤ) : tunedWrap N t = t % N := by
  have hp : (0 : ℤ) < N := by omega
  rw [tunedWrap_eq]
  unfold genWrap
  rw [if_pos h, wrapLoop_eq hp]

/-- The cell of a particle at `u`, from the origin of the mesh. -/
def cellR (p : ℕ) (u : K) : ℤ := ⌊flRound p (u + 1 / 2)⌋

theorem cellR_range {p : ℕ} (hp : 1 ≤ p) {N : ℕ} (hNp : (N : K) + 1 < 2 ^ ((p : ℤ) - 3)) {u : K} (h0 : 0 ≤ u) (h1 : u ≤ N + 1 / 4) :
    0 ≤ cellR p u ∧ cellR p u ≤ N := by
  have hN0 : (0 : K) ≤ N := by positivity
  have h2 : (2 : K) ^ ((p : ℤ) - 3) ≤ 2 ^ ((p : ℤ) - 2) := zpow_le_zpow_right₀ (by norm_num) (by omega)
  have a := flRound_mono hp (show (0 : K) ≤ u + 1 / 2 by linarith)
  rw [flRound_zero] at a
  have b := flRound_mono hp (show u + 1 / 2 ≤ ((N : K) + 3 / 4) by linarith)
  rw [flRound_quarter (x := (N : K) + 3 / 4) (n := 4 * N + 3) (by push_cast; ring) (by rw [abs_of_nonneg (by linarith)]; linarith)] at b
  unfold cellR
  refine ⟨Int.floor_nonneg.2 a, ?_⟩
  have : flRound p (u + 1 / 2) < ((N + 1 : ℤ) : K) := by push_cast; linarith
  have := Int.floor_lt.2 this
  omega

/-- The local index of the cell on a rank whose slab begins at `s`: the distance of the cells if the cell is in the slab; outside of the
slab if it is not. -/
theorem nnb_axis {p : ℕ} (hp : 4 ≤ p) {N s w : ℕ} (hN : 0 < N) (hNp : (N : K) + 1 < 2 ^ ((p : ℤ) - 3)) (hsw : s + w ≤ N) {u : K}
    (hu : flRound p u = u) (h0 : 0 ≤ u) (h1 : u ≤ N + 1 / 4) :
    (0 ≤ tunedWrap N ⌊flRound p (flRound p (u + -(s : K)) + 1 / 2)⌋ ∧ tunedWrap N ⌊flRound p (flRound p (u + -(s : K)) + 1 / 2)⌋ < w ↔
      (s : ℤ) ≤ cellR p u % N ∧ cellR p u % N < s + w) ∧
    (tunedWrap N ⌊flRound p (flRound p (u + -(s : K)) + 1 / 2)⌋ < w →
      tunedWrap N ⌊flRound p (flRound p (u + -(s : K)) + 1 / 2)⌋ = cellR p u % N - s) := by
  have hp1 : 1 ≤ p := by omega
  obtain ⟨q0, q1⟩ := cellR_range hp1 hNp h0 h1
  have hNz : (0 : ℤ) < N := by omega
  set q := cellR p u with hq
  have hsN : (s : K) ≤ N := by exact_mod_cast (by omega : s ≤ N)
  have hN0 : (1 : K) ≤ N := by exact_mod_cast hN
  have hs0 : (0 : K) ≤ s := by positivity
  have p32 : (2 : K) ^ ((p : ℤ) - 3) ≤ 2 ^ ((p : ℤ) - 2) := zpow_le_zpow_right₀ (by norm_num) (by omega)
  have p31 : (2 : K) ^ ((p : ℤ) - 3) ≤ 2 ^ ((p : ℤ) - 1) := zpow_le_zpow_right₀ (by norm_num) (by omega)
  have rq : ∀ (x : K) (n : ℤ), x = n / 4 → |x| ≤ N + 1 → flRound p x = x := fun x n hx hb =>
    flRound_quarter hx (lt_of_le_of_lt hb (by linarith))
  rw [tunedWrap_emod hN]
  set T := ⌊flRound p (flRound p (u + -(s : K)) + 1 / 2)⌋ with hT
  have e0 : ∀ x : ℤ, 0 ≤ x % N := fun x => Int.emod_nonneg _ hNz.ne'
  have e1 : ∀ x : ℤ, x % N < N := fun x => Int.emod_lt_of_pos _ hNz
  have hw0 : w = 0 → ((0 ≤ T % N ∧ T % N < w ↔ (s : ℤ) ≤ q % N ∧ q % N < s + w) ∧ (T % N < w → T % N = q % N - s)) := by
    intro hw
    subst hw
    have := e0 T
    refine ⟨⟨fun h => ?_, fun h => ?_⟩, fun h => ?_⟩ <;> exfalso <;> push_cast at h <;> omega
  -- the two indices differ by the start of the slab, or both are out of the slab
  have key : T = q - s ∨ (-(s : ℤ) ≤ T ∧ T ≤ -1 ∧ q < s) := by
    rcases le_or_gt (s : K) u with hsu | hsu
    · -- the slab begins at or before the particle
      left
      by_cases hsz : s = 0
      · rw [hT, hq]
        unfold cellR
        rw [hsz]
        simp [hu]
      · have hs1 : (1 : K) ≤ s := by exact_mod_cast (by omega : 1 ≤ s)
        have hupos : 0 < u := by linarith
        have hup3 : u < 2 ^ ((p : ℤ) - 3) := by linarith
        have v1 : flRound p (u + -(s : K)) = u + -(s : K) :=
          flRound_sub_half hu hupos (by linarith) (n := -(2 * s : ℤ)) (by push_cast; ring) (by rw [abs_of_nonneg] <;> linarith)
        have v2 : flRound p (u + -(s : K) + 1 / 2) = u + -(s : K) + 1 / 2 :=
          flRound_sub_half hu hupos (by linarith) (n := -(2 * s : ℤ) + 1) (by push_cast; ring) (by rw [abs_of_nonneg] <;> linarith)
        rw [hT, hq, v1, v2]
        unfold cellR
        rw [floor_add_half hp1 hu (by linarith) hup3, ← Int.floor_sub_natCast]
        congr 1
        ring
    · rcases le_or_gt ((s : K) - 1 / 2) u with hh | hh
      · -- the particle is in the half cell before the slab
        left
        have a1 := flRound_mono hp1 (show (s : K) ≤ u + 1 / 2 by linarith)
        rw [rq (s : K) (4 * s) (by push_cast; ring) (by rw [abs_of_nonneg hs0]; linarith)] at a1
        have a2 := flRound_mono hp1 (show u + 1 / 2 ≤ (s : K) + 1 / 2 by linarith)
        rw [rq ((s : K) + 1 / 2) (4 * s + 2) (by push_cast; ring) (by rw [abs_of_nonneg (by linarith)]; linarith)] at a2
        have hqs : q = s := by
          rw [hq]; unfold cellR
          rw [Int.floor_eq_iff]
          push_cast
          exact ⟨a1, by linarith⟩
        have b1 := flRound_mono hp1 (show -(1 / 2 : K) ≤ u + -(s : K) by linarith)
        rw [rq (-(1 / 2 : K)) (-2) (by norm_num) (by rw [abs_neg, abs_of_nonneg] <;> linarith)] at b1
        have b2 := flRound_mono hp1 (show u + -(s : K) ≤ 0 by linarith)
        rw [flRound_zero] at b2
        have c1 := flRound_mono hp1 (show (0 : K) ≤ flRound p (u + -(s : K)) + 1 / 2 by linarith)
        rw [flRound_zero] at c1
        have c2 := flRound_mono hp1 (show flRound p (u + -(s : K)) + 1 / 2 ≤ (1 / 2 : K) by linarith)
        rw [rq (1 / 2 : K) 2 (by norm_num) (by rw [abs_of_nonneg] <;> linarith)] at c2
        have hT0 : T = 0 := by
          rw [hT, Int.floor_eq_iff]
          push_cast
          exact ⟨c1, by linarith⟩
        omega
      · -- the particle is farther before the slab
        have hs1 : (1 : K) ≤ s := by
          by_contra hc
          have : s = 0 := by
            by_contra h
            exact hc (by exact_mod_cast (by omega : 1 ≤ s))
          rw [this] at hsu
          push_cast at hsu
          linarith
        have hqle : q ≤ s := by
          have a2 := flRound_mono hp1 (show u + 1 / 2 ≤ (s : K) by linarith)
          rw [rq (s : K) (4 * s) (by push_cast; ring) (by rw [abs_of_nonneg hs0]; linarith)] at a2
          have : flRound p (u + 1 / 2) < ((s + 1 : ℤ) : K) := by push_cast; linarith
          have := Int.floor_lt.2 this
          rw [hq]; unfold cellR
          omega
        have b2 := flRound_mono hp1 (show u + -(s : K) ≤ -(1 / 2) by linarith)
        rw [rq (-(1 / 2 : K)) (-2) (by norm_num) (by rw [abs_neg, abs_of_nonneg] <;> linarith)] at b2
        have b1 := flRound_mono hp1 (show -(s : K) ≤ u + -(s : K) by linarith)
        rw [rq (-(s : K)) (-(4 * s)) (by push_cast; ring) (by rw [abs_neg, abs_of_nonneg hs0]; linarith)] at b1
        have c1 := flRound_mono hp1 (show -(s : K) + 1 / 2 ≤ flRound p (u + -(s : K)) + 1 / 2 by linarith)
        rw [rq (-(s : K) + 1 / 2) (-(4 * s) + 2) (by push_cast; ring) (by rw [abs_of_nonpos (by linarith)]; linarith)] at c1
        have c2 := flRound_mono hp1 (show flRound p (u + -(s : K)) + 1 / 2 ≤ 0 by linarith)
        rw [flRound_zero] at c2
        have hTlo : -(s : ℤ) ≤ T := by
          rw [hT, Int.le_floor]
          push_cast
          linarith
        have hThi : T ≤ 0 := by
          have : flRound p (flRound p (u + -(s : K)) + 1 / 2) < ((1 : ℤ) : K) := by push_cast; linarith
          have := Int.floor_lt.2 this
          omega
        -- the last cell before the slab is only missed if the first slab is one cell wide
        have hiff : T = 0 ↔ q = s := by
          have t0 : T = 0 ↔ flRound p (u + -(s : K)) = -(1 / 2) := by
            constructor
            · intro h
              have h3 : (0 : K) ≤ flRound p (flRound p (u + -(s : K)) + 1 / 2) := by
                have : (0 : ℤ) ≤ T := by omega
                rw [hT] at this
                exact Int.floor_nonneg.1 this
              by_contra hne
              have hlt : flRound p (u + -(s : K)) + 1 / 2 < 0 := by
                have := lt_of_le_of_ne b2 hne
                linarith
              have := flRound_pos hp1 (show 0 < -(flRound p (u + -(s : K)) + 1 / 2) by linarith)
              rw [flRound_neg] at this
              linarith
            · intro h
              rw [hT, h]
              norm_num [flRound_zero]
          rw [t0]
          by_cases hs2 : s = 1
          · subst hs2
            have hu2 : u < 1 / 2 := by push_cast at hh; linarith
            have := round_half_iff (K := K) (p := p) (by omega) h0 hu2
            have e : flRound p (u + -((1 : ℕ) : K)) = -flRound p (1 - u) := by
              rw [← flRound_neg]
              congr 1
              push_cast
              ring
            rw [e]
            have a2 := flRound_mono hp1 (show u + 1 / 2 ≤ (1 : K) by linarith)
            rw [rq (1 : K) 4 (by norm_num) (by rw [abs_of_nonneg] <;> linarith)] at a2
            constructor
            · intro h
              have h2 := this.1 (neg_injective h)
              rw [hq]; unfold cellR
              rw [h2]
              simp
            · intro h
              have h2 : ((1 : ℤ) : K) ≤ flRound p (u + 1 / 2) := by
                apply Int.le_floor.1
                change 1 ≤ cellR p u
                rw [← hq, h]
                simp
              have h3 : flRound p (u + 1 / 2) = 1 := le_antisymm a2 (by push_cast at h2; exact h2)
              rw [this.2 h3]
          · have hs3 : (2 : K) ≤ s := by
              have : 1 ≤ s := by exact_mod_cast hs1
              exact_mod_cast (by omega : 2 ≤ s)
            constructor
            · intro h
              exfalso
              by_cases hu1 : 1 ≤ u ∧ (s : K) ≤ 2 * u
              · have v1 : flRound p (u + -(s : K)) = u + -(s : K) :=
                  flRound_sub_half hu (by linarith) (by linarith) (n := -(2 * s : ℤ)) (by push_cast; ring)
                    (by rw [abs_of_nonpos] <;> linarith)
                rw [v1] at h
                linarith
              · have hb : u + -(s : K) ≤ -1 := by
                  by_contra hc
                  exact hu1 ⟨by linarith, by linarith⟩
                have := flRound_mono hp1 hb
                rw [rq (-1 : K) (-4) (by norm_num) (by rw [abs_neg, abs_one]; linarith), h] at this
                linarith
            · intro h
              exfalso
              rcases le_or_gt (1 / 2 : K) u with hu2 | hu2
              · have : q = ⌊u + 1 / 2⌋ := floor_add_half hp1 hu hu2 (by linarith)
                have h3 : ⌊u + 1 / 2⌋ < (s : ℤ) := Int.floor_lt.2 (by push_cast; linarith)
                omega
              · have a2 := flRound_mono hp1 (show u + 1 / 2 ≤ (1 : K) by linarith)
                rw [rq (1 : K) 4 (by norm_num) (by rw [abs_of_nonneg] <;> linarith)] at a2
                have h3 : q ≤ 1 := by
                  have : flRound p (u + 1 / 2) < ((2 : ℤ) : K) := by push_cast; linarith
                  have := Int.floor_lt.2 this
                  rw [hq]; unfold cellR
                  omega
                have : (2 : ℤ) ≤ s := by exact_mod_cast hs3
                omega
        by_cases hT0 : T = 0
        · left
          have := hiff.1 hT0
          omega
        · right
          have : q ≠ s := fun h => hT0 (hiff.2 h)
          omega
  rcases Nat.eq_zero_or_pos w with hw | hw
  · exact hw0 hw
  have hsN' : s < N := by omega
  rcases key with hk | ⟨k1, k2, k3⟩
  · rcases lt_or_ge (q - s) 0 with hneg | hnn
    · -- can only be if the cell is before the slab
      have e2 : T % N = q - s + N := by
        rw [hk, ← Int.add_emod_right]
        exact Int.emod_eq_of_lt (by omega) (by omega)
      have e3 : q % N = q := Int.emod_eq_of_lt q0 (by omega)
      rw [e2, e3]
      constructor
      · constructor <;> intro h <;> omega
      · intro h; omega
    · rcases lt_or_ge q N with hqN | hqN
      · have e2 : T % N = q - s := by rw [hk]; exact Int.emod_eq_of_lt hnn (by omega)
        have e3 : q % N = q := Int.emod_eq_of_lt q0 hqN
        rw [e2, e3]
        constructor
        · constructor <;> intro h <;> omega
        · intro h; omega
      · have hqe : q = N := by omega
        have e3 : q % N = 0 := by rw [hqe, Int.emod_self]
        by_cases hsz : s = 0
        · have e2 : T % N = 0 := by rw [hk, hsz]; simpa using e3
          rw [e2, e3]
          constructor
          · constructor <;> intro h <;> omega
          · intro h; omega
        · have e2 : T % N = N - s := by rw [hk, hqe]; exact Int.emod_eq_of_lt (by omega) (by omega)
          rw [e2, e3]
          constructor
          · constructor <;> intro h <;> omega
          · intro h; omega
  · have e2 : T % N = T + N := by
      rw [← Int.add_emod_right]
      exact Int.emod_eq_of_lt (by omega) (by omega)
    have e3 : q % N = q := Int.emod_eq_of_lt q0 (by omega)
    rw [e2, e3]
    constructor
    · constructor <;> intro h <;> omega
    · intro h; omega

end
end Pmesh
