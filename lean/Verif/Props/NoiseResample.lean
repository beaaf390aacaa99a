import Verif.Props.NoiseGlobal

/-! # C84: noise made on one mesh and resampled to another is the noise made on the other -/

namespace Pmesh

section
variable {σ : Type} (rng : Rng σ) (rnd : ℚ → ℚ)

/-- The modes below the Nyquist frequency of two even cubic meshes are the same. -/
theorem noiseModes_resolution {h h' : ℕ} (hh : 1 ≤ h ∧ 1 ≤ h') (seed : ℕ) (unitary : Bool) (mean : ℝ) {k : List ℕ}
    (hk : ValidIndex [2 * h', 2 * h', 2 * h'] k) (hc : CommonMode [2 * h, 2 * h, 2 * h] [2 * h', 2 * h', 2 * h'] k) :
    noiseModes rng rnd (2 * h) (2 * h) (2 * h) seed unitary mean (sameFreq [2 * h, 2 * h, 2 * h] [2 * h', 2 * h', 2 * h'] k) =
      noiseModes rng rnd (2 * h') (2 * h') (2 * h') seed unitary mean k := by
  have hkl := hk.len
  match k, hkl with
  | [x, y, z], _ =>
    have hv := hk
    simp only [ValidIndex, List.forall₂_cons, List.forall₂_nil_left_iff, and_true] at hv
    simp only [CommonMode, and_true] at hc
    -- along one axis
    have ax : ∀ {j : ℕ}, j < 2 * h' → (2 * (freqOf (2 * h') j).natAbs < 2 * h ∧ 2 * (freqOf (2 * h') j).natAbs < 2 * h') →
        |freqOf (2 * h') j| < h ∧ |freqOf (2 * h') j| < h' ∧ modeIndex (2 * h' : ℕ) (freqOf (2 * h') j) = j ∧
          ((freqOf (2 * h') j % (2 * h : ℕ)).toNat : ℤ) = modeIndex (2 * h : ℕ) (freqOf (2 * h') j) ∧
          (freqOf (2 * h') j % (2 * h : ℕ)).toNat < 2 * h ∧ ((freqOf (2 * h') j % (2 * h : ℕ)).toNat = 0 ↔ j = 0) := by
      intro j hj hf
      have e1 : modeIndex (2 * h' : ℕ) (freqOf (2 * h') j) = j := by
        unfold modeIndex freqOf
        split_ifs <;> omega
      generalize hq : freqOf (2 * h') j = q at *
      have hq0 : q = 0 ↔ j = 0 := by
        rw [← hq]; unfold freqOf; split_ifs <;> omega
      have e2 : q % (2 * h : ℕ) = modeIndex (2 * h : ℕ) q := by
        unfold modeIndex
        split_ifs with h0
        · rw [← Int.add_emod_right, Int.emod_eq_of_lt (by omega) (by omega)]
        · exact Int.emod_eq_of_lt (by omega) (by omega)
      rw [e2]
      have hb : 0 ≤ modeIndex (2 * h : ℕ) q ∧ modeIndex (2 * h : ℕ) q < (2 * h : ℕ) ∧ (modeIndex (2 * h : ℕ) q = 0 ↔ q = 0) := by
        unfold modeIndex
        split_ifs <;> omega
      rw [abs_lt, abs_lt]
      omega
    obtain ⟨a1, a2, a3, a4, a5, a6⟩ := ax hv.1 hc.1
    obtain ⟨b1, b2, b3, b4, b5, b6⟩ := ax hv.2.1 hc.2.1
    obtain ⟨c1, c2, c3, c4, c5, c6⟩ := ax hv.2.2 hc.2.2
    apply toCx_inj
    simp only [sameFreq]
    generalize hX : (freqOf (2 * h') x % (2 * h : ℕ)).toNat = X at *
    generalize hY : (freqOf (2 * h') y % (2 * h : ℕ)).toNat = Y at *
    generalize hZ : (freqOf (2 * h') z % (2 * h : ℕ)).toNat = Z at *
    generalize freqOf (2 * h') x = fx at *
    generalize freqOf (2 * h') y = fy at *
    generalize freqOf (2 * h') z = fz at *
    have hvX : ValidIndex [2 * h, 2 * h, 2 * h] [X, Y, Z] := by
      simp only [ValidIndex, List.forall₂_cons, List.forall₂_nil_left_iff, and_true]
      omega
    rw [noiseModes_eq rng rnd (by omega) seed unitary mean hvX, noiseModes_eq rng rnd (by omega) seed unitary mean hk]
    simp only [a6, b6, c6]
    split_ifs with h0
    · rfl
    · have hg : ∀ n : ℕ, 1 ≤ n → _ := fun n hn => noiseGen_plain unitary (by omega)
        (show 0 + 2 * n ≤ 2 * n ∧ 0 + 2 * n ≤ 2 * n ∧ 0 + 2 * n ≤ 2 * n by omega) (proper_c (2 * n) (2 * n) (2 * n))
      have hm : ∀ n : ℕ, 1 ≤ n →
          (noiseGen [2 * n, 2 * n, 2 * n] [0, 0, 0] [2 * n, 2 * n, 2 * n] [(2 * n : ℕ) * (2 * n : ℕ), (2 * n : ℕ), 1] unitary).Mirrored := by
        intro n hn k h1 h2 h3
        simp only [noiseGen, List.getD_cons_succ, List.getD_cons_zero, Fin.isValue, Fin.val_two] at h1 h2 h3 ⊢
        omega
      have hn : ∀ n : ℕ, ∀ d : Fin 3,
          (noiseGen [2 * n, 2 * n, 2 * n] [0, 0, 0] [2 * n, 2 * n, 2 * n] [(2 * n : ℕ) * (2 * n : ℕ), (2 * n : ℕ), 1] unitary).nmesh d = 2 * n := by
        intro n d
        fin_cases d <;> simp [noiseGen]
      have h40 := C40_resolution rng polarReal rnd seed h h' (g := noiseGen [2 * h, 2 * h, 2 * h] [0, 0, 0] [2 * h, 2 * h, 2 * h]
        [(2 * h : ℕ) * (2 * h : ℕ), (2 * h : ℕ), 1] unitary) (g' := noiseGen [2 * h', 2 * h', 2 * h'] [0, 0, 0] [2 * h', 2 * h', 2 * h']
        [(2 * h' : ℕ) * (2 * h' : ℕ), (2 * h' : ℕ), 1] unitary) rfl (hn h) (hn h') (hg h hh.1) (hg h' hh.2) (hm h hh.1) (hm h' hh.2)
        (fun _ => (0, 0)) (fun _ => (0, 0)) (a := fx) (b := fy) (c := fz) ⟨a1, a2⟩ ⟨b1, b2⟩ ⟨c1, c2⟩
      push_cast at a3 b3 c3 a4 b4 c4 h40
      rw [a3, b3, c3, ← a4, ← b4, ← c4] at h40
      push_cast
      apply h40
      · exact_mod_cast (noiseGen_stores (2 * h) (2 * h) (2 * h) 0 0 0 (2 * h) (2 * h) (2 * h) _ _ _ unitary X Y Z).2
          ⟨X, Y, Z, hvX, by simp, by simp, by simp⟩
      · exact_mod_cast (noiseGen_stores (2 * h') (2 * h') (2 * h') 0 0 0 (2 * h') (2 * h') (2 * h') _ _ _ unitary x y z).2
          ⟨x, y, z, hk, by simp, by simp, by simp⟩

/-- **C84**.  White noise generated on an even cubic mesh and resampled to another one (finer, equal, or coarser by at least a factor 2) is the
white noise generated on the other mesh with the same seed, in each mode strictly below the Nyquist frequency of both meshes, and zero in the
others; for any partitions, storages, boxes and content of memory, and for any number of ranks, on all of which `resample` returns.
Partial: as C31 for other meshes. -/
theorem C84_noise_resample_partial {h h' : ℕ} (hh : 1 ≤ h ∧ 1 ≤ h') (hr : h ≤ h' ∨ 2 * h' ≤ h) (seed : ℕ) (unitary : Bool) (mean : ℝ)
    (ts td : Tiling) (hrank : ts.nrank = td.nrank) (hns : ts.nmesh = [2 * h, 2 * h, 2 * h]) (hnd : td.nmesh = [2 * h', 2 * h', 2 * h'])
    (hst : SameStorage ts td) (a a' : ℕ → NoiseRank) (ha : NoiseReady ts a) (ha' : NoiseReady td a')
    (box box' : List ℝ) (hb : box.length = 3 ∧ ∀ b ∈ box, 0 < b) (hb' : box'.length = 3 ∧ ∀ b ∈ box', 0 < b) :
    AllReturn td.nrank (fun r => resampleComplex ts td r (noiseOn rng rnd ts box seed unitary mean a r)) fun r =>
      .ok ((ndindex (td.lshape r)).map fun c =>
        some (if CommonMode ts.nmesh td.nmesh (td.global r c) then noiseOn rng rnd td box' seed unitary mean a' r c else 0)) := by
  have hs := noiseOn_eq rng rnd (show 2 ≤ 2 * h ∧ 2 ≤ 2 * h ∧ 2 ≤ 2 * h by omega) seed unitary mean ts hns a ha box hb.1 hb.2
  have hd := noiseOn_eq rng rnd (show 2 ≤ 2 * h' ∧ 2 ≤ 2 * h' ∧ 2 ≤ 2 * h' by omega) seed unitary mean td hnd a' ha' box' hb'.1 hb'.2
  have hev : ∀ n : ℕ, ∀ m ∈ [2 * n, 2 * n, 2 * n], m % 2 = 0 := by
    intro n m hm
    simp only [List.mem_cons, List.not_mem_nil, or_false] at hm
    omega
  refine AllReturn.congr (fun _ _ => rfl) (fun r hr => ?_) (C31_modes_partial ts td ha.tiling ha'.tiling hrank (by rw [hns]; simp)
    (by rw [hns, hnd]; rfl) hst (by rw [hns]; exact hev h) (by rw [hnd]; exact hev h') (by
      rw [hns, hnd]
      exact .cons (by omega) (.cons (by omega) (.cons (by omega) .nil))) _ (by
      rw [hns]
      show (toCx (noiseModes rng rnd (2 * h) (2 * h) (2 * h) seed unitary mean [0, 0, 0])).2 = 0
      rw [noiseModes_eq rng rnd (by omega) seed unitary mean (by
        simp only [ValidIndex, List.forall₂_cons, List.forall₂_nil_left_iff, and_true]; omega)]
      simp) _ hs)
  congr 1
  apply List.map_congr_left
  intro c hc
  have hc' := mem_ndindex.1 hc
  congr 1
  split_ifs with h1
  · rw [hd r hr c hc']
    beta_reduce
    have hv := stored_valid ha'.storage (by rw [hnd]; simp) ha'.tiling.mesh_pos (ha'.tiling.inside r hr c hc')
    rw [hns, hnd] at *
    rw [noiseModes_resolution rng rnd hh seed unitary mean hv h1]
  · rfl

end

/-- Non-vacuity of C84: 4 and 8 points per side, on two ranks. -/
def exNoiseFine : Tiling := ⟨[8, 8, 8], [8, 8, 5], 2, fun r => [0, 4 * r, 0], fun _ => [8, 4, 5]⟩

/-- Both ranks in the order of the second axis. -/
def exNoiseFineRank (mem : ℤ → ℝ × ℝ) (_ : ℕ) : NoiseRank := ⟨[5, 40, 1], [1, 0, 2], mem⟩

theorem exNoiseFine_ok : exNoiseFine.OK := tiling_ok_of_decide (by decide +kernel)

theorem exNoiseFine_proper : Proper [8, 4, 5] [5, 40, 1] := proper_of_decide rfl (by decide +kernel)

theorem exNoiseFine_ready (mem : ℤ → ℝ × ℝ) : NoiseReady exNoiseFine (exNoiseFineRank mem) where
  tiling := exNoiseFine_ok
  storage := Or.inr rfl
  inside := by
    intro r hr
    have hr : r < 2 := hr
    interval_cases r <;> exact .cons (by decide) (.cons (by decide) (.cons (by decide) .nil))
  proper := fun _ _ => exNoiseFine_proper
  order := fun _ _ => show ([1, 0, 2] : List ℕ).Perm [0, 1, 2] by decide
  whole := Or.inl (by decide)

example (mem mem' : ℤ → ℝ × ℝ) := C84_noise_resample_partial (ranlxdRng id) id (h := 4) (h' := 2) (by omega) (by omega) 42 false 1
  exNoiseFine exNoiseTiling rfl rfl rfl (Or.inr ⟨rfl, rfl⟩) _ _ (exNoiseFine_ready mem) (exNoise_ready mem') [1, 1, 1] [2, 2, 2] (by simp) (by simp)

example (mem mem' : ℤ → ℝ × ℝ) := C84_noise_resample_partial (ranlxdRng id) id (h := 2) (h' := 4) (by omega) (by omega) 42 false 1
  exNoiseTiling exNoiseFine rfl rfl rfl (Or.inr ⟨rfl, rfl⟩) _ _ (exNoise_ready mem) (exNoiseFine_ready mem') [1, 1, 1] [2, 2, 2] (by simp) (by simp)

/-- A mode that both meshes have: the frequencies `(1, -1, 1)`. -/
example : CommonMode [8, 8, 8] [4, 4, 4] [1, 3, 1] ∧ sameFreq [8, 8, 8] [4, 4, 4] [1, 3, 1] = [1, 7, 1] := by decide

#print axioms C84_noise_resample_partial

end Pmesh
