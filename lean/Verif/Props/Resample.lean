import Verif.Lemmas.Resample
import Verif.Lemmas.Exec
import Verif.Props.Fourier

/-!
# C31: `resample`
-/

namespace Pmesh

/-- Both fields are stored in full, or both in Hermitian-compressed form. -/
def SameStorage (ts td : Tiling) : Prop :=
  (ts.cshape = ts.nmesh ∧ td.cshape = td.nmesh) ∨
  (ts.cshape = ts.nmesh.dropLast ++ [ts.nmesh.getLastD 0 / 2 + 1] ∧ td.cshape = td.nmesh.dropLast ++ [td.nmesh.getLastD 0 / 2 + 1])

theorem axes_full : ∀ {ns ms : List ℕ}, ns.length = ms.length → (∀ n ∈ ns, n % 2 = 0 ∧ 0 < n) → (∀ n ∈ ms, n % 2 = 0 ∧ 0 < n) →
    AxesOK ns ns ms ms
  | [], [], _, _, _ => trivial
  | n :: ns, m :: ms, hl, hn, hm => by
    refine ⟨⟨Or.inl ⟨rfl, rfl⟩, (hn n (by simp)).1, (hm m (by simp)).1, (hn n (by simp)).2, (hm m (by simp)).2⟩, ?_⟩
    exact axes_full (by simpa using hl) (fun x hx => hn x (List.mem_cons_of_mem _ hx)) fun x hx => hm x (List.mem_cons_of_mem _ hx)
  | [], _ :: _, h, _, _ => by simp at h
  | _ :: _, [], h, _, _ => by simp at h

theorem axes_compressed : ∀ {ns ms : List ℕ}, ns ≠ [] → ns.length = ms.length → (∀ n ∈ ns, n % 2 = 0 ∧ 0 < n) →
    (∀ n ∈ ms, n % 2 = 0 ∧ 0 < n) →
    AxesOK (ns.dropLast ++ [ns.getLastD 0 / 2 + 1]) ns (ms.dropLast ++ [ms.getLastD 0 / 2 + 1]) ms
  | [], _, h, _, _, _ => absurd rfl h
  | [n], [m], _, _, hn, hm =>
    ⟨⟨Or.inr ⟨rfl, rfl⟩, (hn n (by simp)).1, (hm m (by simp)).1, (hn n (by simp)).2, (hm m (by simp)).2⟩, trivial⟩
  | n :: n' :: ns, m :: m' :: ms, _, hl, hn, hm => by
    refine ⟨⟨Or.inl ⟨rfl, rfl⟩, (hn n (by simp)).1, (hm m (by simp)).1, (hn n (by simp)).2, (hm m (by simp)).2⟩, ?_⟩
    exact axes_compressed (by simp) (by simpa using hl) (fun x hx => hn x (List.mem_cons_of_mem _ hx))
      fun x hx => hm x (List.mem_cons_of_mem _ hx)
  | _ :: _, [], _, h, _, _ => by simp at h
  | [_], _ :: _ :: _, _, h, _, _ => by simp at h
  | _ :: _ :: _, [_], _, h, _, _ => by simp at h

theorem axes_of_storage {ts td : Tiling} (hts : ts.OK) (htd : td.OK) (hne : ts.nmesh ≠ []) (hst : SameStorage ts td)
    (hdim : ts.nmesh.length = td.nmesh.length) (hes : ∀ n ∈ ts.nmesh, n % 2 = 0) (hed : ∀ n ∈ td.nmesh, n % 2 = 0) :
    AxesOK ts.cshape ts.nmesh td.cshape td.nmesh := by
  have h1 : ∀ n ∈ ts.nmesh, n % 2 = 0 ∧ 0 < n := fun n hn => ⟨hes n hn, hts.mesh_pos n hn⟩
  have h2 : ∀ n ∈ td.nmesh, n % 2 = 0 ∧ 0 < n := fun n hn => ⟨hed n hn, htd.mesh_pos n hn⟩
  rcases hst with ⟨a, b⟩ | ⟨a, b⟩
  · rw [a, b]; exact axes_full hdim h1 h2
  · rw [a, b]; exact axes_compressed hne hdim h1 h2

/-- Along each axis, the mesh is refined or kept, or coarsened at least by a factor 2. -/
def RatioOK (ns ms : List ℕ) : Prop := List.Forall₂ (fun n m => n ≤ m ∨ 2 * m ≤ n) ns ms

instance (ns ms : List ℕ) : Decidable (RatioOK ns ms) := by unfold RatioOK; infer_instance

theorem ratio_half : ∀ {cs ns ds ms : List ℕ}, AxesOK cs ns ds ms → ∀ {js}, ValidIndex ds js → CommonMode ns ms js →
    RatioOK ns ms → ¬ AtHalf ns js
  | [], [], [], [], _, js, hjs, _, _ => by cases hjs; simp [AtHalf]
  | c :: cs, n :: ns, d :: ds, m :: ms, h, js, hjs, hcm, hr => by
    obtain ⟨⟨hcd, hn, hm, hn0, hm0⟩, h2⟩ := h
    cases hjs with
    | @cons _ j _ js hj hjs =>
      obtain ⟨hc, hcm⟩ := hcm
      have hr' := List.forall₂_cons.1 hr
      rw [atHalf_cons]
      rintro (h3 | h3)
      · have hr1 := hr'.1
        unfold freqOf at hc
        by_cases h7 : 2 * j < m
        · rw [if_pos h7, Int.natAbs_natCast] at hc
          omega
        · rw [if_neg h7] at hc
          omega
      · exact ratio_half h2 hjs hcm hr'.2 h3
  | [], _ :: _, _, _, h, _, _, _, _ => by simp [AxesOK] at h
  | _ :: _, [], _, _, h, _, _, _, _ => by simp [AxesOK] at h
  | [], [], _ :: _, _, h, _, _, _, _ => by simp [AxesOK] at h
  | _ :: _, _ :: _, [], _, h, _, _, _, _ => by simp [AxesOK] at h
  | [], [], [], _ :: _, h, _, _, _, _ => by simp [AxesOK] at h
  | _ :: _, _ :: _, _ :: _, [], h, _, _, _, _ => by simp [AxesOK] at h

section
variable {K : Type} [Field K]

/-- **C31** (partial).  For meshes of even sizes, along each axis refined, kept, or coarsened at least by a factor 2, and any
tilings of source and destination: after `resample` each mode strictly below the Nyquist frequency of both meshes has the
value of the mode of the source with the same frequency, and all other modes are zero.  Missing: other ratios (violated, see
`C31_violated_ratio`), odd sizes (`C31_violated_odd`), a complex mean (`C31_violated_mean`), and that nothing changes if the
meshes are equal (`C31_violated_same`). -/
theorem C31_modes_partial (ts td : Tiling) (hts : ts.OK) (htd : td.OK) (hrank : ts.nrank = td.nrank)
    (hne : ts.nmesh ≠ []) (hdim : ts.nmesh.length = td.nmesh.length) (hst : SameStorage ts td)
    (hes : ∀ n ∈ ts.nmesh, n % 2 = 0) (hed : ∀ n ∈ td.nmesh, n % 2 = 0) (hratio : RatioOK ts.nmesh td.nmesh)
    (S : List ℕ → Cx K) (hzero : (S (ts.nmesh.map fun _ => 0)).2 = 0) (f : ℕ → List ℕ → Cx K) (hf : ts.Holds f S) :
    AllReturn td.nrank (fun r => resampleComplex ts td r (f r)) (fun r =>
      .ok ((ndindex (td.lshape r)).map fun c =>
        some (if CommonMode ts.nmesh td.nmesh (td.global r c) then S (sameFreq ts.nmesh td.nmesh (td.global r c)) else 0))) := by
  have hax := axes_of_storage hts htd hne hst hdim hes hed
  refine AllReturn.congr (fun _ _ => rfl) (fun r hr => ?_) (resample_return ts td hts htd hrank hax S hzero f hf)
  congr 1
  apply List.map_congr_left
  intro c hc
  congr 1
  unfold resampledMode
  by_cases h : CommonMode ts.nmesh td.nmesh (td.global r c)
  · rw [if_pos h, if_pos ⟨h, ratio_half hax (htd.inside r hr c (mem_ndindex.1 hc)) h hratio⟩]
  · rw [if_neg h, if_neg fun e => h e.1]

/-- **C31** (partial), any even sizes: a mode is right, or it is zero; it is right if its index is not half the size of the
source along any axis; modes that are not common are zero. -/
theorem C31_any_ratio_partial (ts td : Tiling) (hts : ts.OK) (htd : td.OK) (hrank : ts.nrank = td.nrank)
    (hne : ts.nmesh ≠ []) (hdim : ts.nmesh.length = td.nmesh.length) (hst : SameStorage ts td)
    (hes : ∀ n ∈ ts.nmesh, n % 2 = 0) (hed : ∀ n ∈ td.nmesh, n % 2 = 0)
    (S : List ℕ → Cx K) (hzero : (S (ts.nmesh.map fun _ => 0)).2 = 0) (f : ℕ → List ℕ → Cx K) (hf : ts.Holds f S) :
    ∃ T : List ℕ → Cx K, AllReturn td.nrank (fun r => resampleComplex ts td r (f r))
        (fun r => .ok ((ndindex (td.lshape r)).map fun c => some (T (td.global r c)))) ∧
      (∀ j, ValidIndex td.cshape j → ¬ CommonMode ts.nmesh td.nmesh j → T j = 0) ∧
      (∀ j, ValidIndex td.cshape j → CommonMode ts.nmesh td.nmesh j →
        (∀ d (_ : d < j.length) (h' : d < ts.nmesh.length), j[d] ≠ ts.nmesh[d] / 2) → T j = S (sameFreq ts.nmesh td.nmesh j)) ∧
      (∀ j, ValidIndex td.cshape j → T j = S (sameFreq ts.nmesh td.nmesh j) ∨ T j = 0) := by
  have hax := axes_of_storage hts htd hne hst hdim hes hed
  refine ⟨_, resample_return ts td hts htd hrank hax S hzero f hf, ?_, ?_, ?_⟩
  · intro j _ h
    exact if_neg fun e => h e.1
  · intro j _ h h2
    refine if_pos ⟨h, ?_⟩
    unfold AtHalf
    rw [List.any_eq_true]
    rintro ⟨b, hb, hb'⟩
    obtain ⟨d, hd, rfl⟩ := List.getElem_of_mem hb
    rw [List.length_zipWith] at hd
    rw [List.getElem_zipWith] at hb'
    simp only [id_eq, beq_iff_eq] at hb'
    exact h2 d (by omega) (by omega) hb'
  · intro j _
    unfold resampledMode
    split_ifs
    · exact Or.inl rfl
    · exact Or.inr rfl

end

/-! ## Real fields -/

theorem freq_opposite {m j : ℕ} (hj : j < m) (hhalf : 2 * j ≠ m) : freqOf m ((m - j) % m) = - freqOf m j := by
  unfold freqOf
  by_cases h0 : j = 0
  · subst h0
    simp
    omega
  · rw [Nat.mod_eq_of_lt (by omega)]
    split_ifs <;> omega

theorem half_opposite {m j : ℕ} (hj : j < m) (hhalf : 2 * j = m) : (m - j) % m = j := by
  rw [Nat.mod_eq_of_lt (by omega)]
  omega

theorem common_opposite : ∀ {ns ms js : List ℕ}, ns.length = ms.length → ValidIndex ms js →
    (CommonMode ns ms (opposite ms js) ↔ CommonMode ns ms js)
  | [], [], _, _, h => by cases h; rfl
  | n :: ns, m :: ms, _, hl, h => by
    cases h with
    | @cons _ j _ js hj hjs =>
      have ih := common_opposite (ns := ns) (by simpa using hl) hjs
      unfold opposite at ih ⊢
      rw [List.zipWith_cons_cons]
      unfold CommonMode
      rw [ih]
      by_cases hh : 2 * j = m
      · rw [half_opposite hj hh]
      · rw [freq_opposite hj hh, Int.natAbs_neg]
  | [], _ :: _, _, h, _ => by simp at h
  | _ :: _, [], _, h, _ => by simp at h

theorem sameFreq_opposite : ∀ {ns ms js : List ℕ}, ns.length = ms.length → (∀ n ∈ ns, 0 < n) → ValidIndex ms js →
    CommonMode ns ms js →
    sameFreq ns ms (opposite ms js) = opposite ns (sameFreq ns ms js) ∧ ValidIndex ns (sameFreq ns ms js)
  | [], [], _, _, _, h, _ => by cases h; exact ⟨rfl, List.Forall₂.nil⟩
  | n :: ns, m :: ms, _, hl, hp, h, hcm => by
    cases h with
    | @cons _ j _ js hj hjs =>
      obtain ⟨hc, hcm⟩ := hcm
      have ih := sameFreq_opposite (ns := ns) (by simpa using hl) (fun x hx => hp x (List.mem_cons_of_mem _ hx)) hjs hcm
      have hn : 0 < n := hp n (by simp)
      have hh : 2 * j ≠ m := by
        intro e
        unfold freqOf at hc
        rw [if_neg (by omega)] at hc
        omega
      have h1 : ((-freqOf m j) % n).toNat = (n - (freqOf m j % n).toNat) % n := by
        have h2 : freqOf m j % n = if 0 ≤ freqOf m j then freqOf m j else freqOf m j + n := by
          split_ifs with h0
          · exact Int.emod_eq_of_lt h0 (by omega)
          · rw [← Int.add_emod_right, Int.emod_eq_of_lt (by omega) (by omega)]
        have h3 : (-freqOf m j) % n = if 0 ≤ -freqOf m j then -freqOf m j else -freqOf m j + n := by
          split_ifs with h0
          · exact Int.emod_eq_of_lt h0 (by omega)
          · rw [← Int.add_emod_right, Int.emod_eq_of_lt (by omega) (by omega)]
        rw [h2, h3]
        by_cases h0 : freqOf m j = 0
        · rw [h0]; simp
        · rw [Nat.mod_eq_of_lt (by split_ifs <;> omega)]
          split_ifs <;> omega
      refine ⟨?_, ?_⟩
      · unfold opposite at ih ⊢
        rw [List.zipWith_cons_cons]
        simp only [sameFreq]
        rw [List.zipWith_cons_cons, ih.1, freq_opposite hj hh, h1]
      · refine List.Forall₂.cons ?_ ih.2
        have := Int.emod_lt_of_pos (freqOf m j) (show (0 : ℤ) < n by omega)
        have := Int.emod_nonneg (freqOf m j) (show (n : ℤ) ≠ 0 by omega)
        omega
  | [], _ :: _, _, h, _, _, _ => by simp at h
  | _ :: _, [], _, h, _, _, _ => by simp at h

/-- The modes of the resampled spectrum of a real field. -/
noncomputable def resampledSpectrum (ns ms : List ℕ) (u : List ℕ → ℝ) (j : List ℕ) : ℂ :=
  if CommonMode ns ms j then r2c ns u (sameFreq ns ms j) else 0

/-- **C31** (partial), from a real field to a real field.  `resample` gives the real field `w` whose Fourier modes are those
of `u`, where common, and zero elsewhere: the complex field that is computed from `r2c(u)` holds `resampledSpectrum`, and
`w = c2r` of it has exactly these modes. -/
theorem C31_real_partial (ts td : Tiling) (hts : ts.OK) (htd : td.OK) (hrank : ts.nrank = td.nrank)
    (hne : ts.nmesh ≠ []) (hdim : ts.nmesh.length = td.nmesh.length) (hst : SameStorage ts td)
    (hes : ∀ n ∈ ts.nmesh, n % 2 = 0) (hed : ∀ n ∈ td.nmesh, n % 2 = 0) (hratio : RatioOK ts.nmesh td.nmesh)
    (u : List ℕ → ℝ) (f : ℕ → List ℕ → Cx ℝ) (hf : ts.Holds f fun k => toCx (r2c ts.nmesh u k)) :
    AllReturn td.nrank (fun r => resampleComplex ts td r (f r)) (fun r => .ok ((ndindex (td.lshape r)).map fun c =>
      some (toCx (resampledSpectrum ts.nmesh td.nmesh u (td.global r c))))) ∧
    ∀ j, ValidIndex td.cshape j → r2c td.nmesh (c2r td.nmesh td.cshape (resampledSpectrum ts.nmesh td.nmesh u)) j =
      resampledSpectrum ts.nmesh td.nmesh u j := by
  have hne' : td.nmesh ≠ [] := fun h => hne (List.length_eq_zero_iff.1 (by rw [hdim, h]; rfl))
  have hstd : StoredShape td.nmesh td.cshape := by
    rcases hst with ⟨_, h⟩ | ⟨_, h⟩
    · exact Or.inl h
    · exact Or.inr h
  constructor
  · refine AllReturn.congr (fun _ _ => rfl) (fun r hr => ?_)
      (C31_modes_partial ts td hts htd hrank hne hdim hst hes hed hratio _ ?_ f hf)
    · congr 1
      apply List.map_congr_left
      intro c _
      congr 1
      unfold resampledSpectrum
      split_ifs <;> simp [toCx]
    · show (toCx (r2c ts.nmesh u (ts.nmesh.map fun _ => 0))).2 = 0
      rw [C29_mean]
      simp [toCx]
  · intro j hj
    refine C29_r2c_c2r td.nmesh td.cshape hne' htd.mesh_pos hstd _ ?_ j hj
    intro k hk _
    have hkv := stored_valid hstd hne' htd.mesh_pos hk
    unfold resampledSpectrum
    by_cases h : CommonMode ts.nmesh td.nmesh k
    · obtain ⟨h1, h2⟩ := sameFreq_opposite hdim hts.mesh_pos hkv h
      rw [if_pos h, if_pos ((common_opposite hdim hkv).2 h), h1, r2c_opposite _ _ h2]
    · rw [if_neg h, if_neg (fun e => h ((common_opposite hdim hkv).1 e)), map_zero]

/-! ## Violations -/

/-- A mesh of one axis on one rank, stored in full. -/
def exLine (n : ℕ) : Tiling := ⟨[n], [n], 1, fun _ => [0], fun _ => [n]⟩

/-- A mesh of one axis on one rank, compressed. -/
def exLineC (n : ℕ) : Tiling := ⟨[n], [n / 2 + 1], 1, fun _ => [0], fun _ => [n / 2 + 1]⟩

/-- **C31 violated** for equal meshes: the mode at the Nyquist frequency is lost. -/
theorem C31_violated_same : (exLineC 4).OK ∧
    AllReturn 1 (fun r => resampleComplex (exLineC 4) (exLineC 4) r fun c => (((c.getD 0 0 : ℕ) : ℚ) + 1, 0))
      (fun _ => .ok [some (1, 0), some (2, 0), some (0, 0)]) :=
  ⟨tiling_ok_of_decide (by decide), AllReturn.of_runAll 5 (by decide +kernel)⟩

/-- **C31 violated** for 8 to 6 cells: mode -2 (index 4 of 6) is common, but set to zero because 4 is half of 8. -/
theorem C31_violated_ratio : (exLine 8).OK ∧ (exLine 6).OK ∧ CommonMode [8] [6] [4] ∧ sameFreq [8] [6] [4] = [6] ∧
    AllReturn 1 (fun r => resampleComplex (exLine 8) (exLine 6) r fun c => (((c.getD 0 0 : ℕ) : ℚ) + 1, 0))
      (fun _ => .ok [some (1, 0), some (2, 0), some (3, 0), some (0, 0), some (0, 0), some (8, 0)]) :=
  ⟨tiling_ok_of_decide (by decide), tiling_ok_of_decide (by decide), by decide, by decide,
    AllReturn.of_runAll 5 (by decide +kernel)⟩

/-- **C31 violated** for odd sizes: from 5 to 8 cells modes 2 and -2 are lost; to 7 cells the call fails. -/
theorem C31_violated_odd : (exLine 5).OK ∧ (exLine 8).OK ∧ CommonMode [5] [8] [2] ∧ CommonMode [5] [8] [6] ∧
    AllReturn 1 (fun r => resampleComplex (exLine 5) (exLine 8) r fun c => (((c.getD 0 0 : ℕ) : ℚ) + 1, 0))
      (fun _ => .ok [some (1, 0), some (2, 0), some (0, 0), some (0, 0), some (0, 0), some (0, 0), some (0, 0), some (5, 0)]) ∧
    AllReturn 1 (fun r => resampleComplex (exLine 8) (exLine 7) r fun c => (((c.getD 0 0 : ℕ) : ℚ) + 1, 0))
      (fun _ => .error "ValueError") :=
  ⟨tiling_ok_of_decide (by decide), tiling_ok_of_decide (by decide), by decide, by decide,
    AllReturn.of_runAll 5 (by decide +kernel), AllReturn.of_runAll 5 (by decide +kernel)⟩

/-- The table for an odd size can be made for 1 and 5 points only. -/
theorem reindex_odd (n m : ℕ) (hm : m % 2 = 1) : reindex n m = none ↔ m ≠ 1 ∧ m ≠ 5 := by
  have hv : (arange (n - ((m / 2 : ℕ) : ℤ) + 1) n).length = m / 2 - 1 := by
    simp only [arange, List.length_map, List.length_range]
    omega
  have ha : sliceBound m ((m / 2 : ℕ) + 1) = m / 2 + 1 := by
    unfold sliceBound
    rw [if_neg (by omega)]
    omega
  unfold reindex
  simp only [hv, ha]
  split_ifs with h <;> simp <;> omega

/-- **C31 violated** for odd sizes of the destination: whatever the source, all calls fail on all ranks, unless the odd sizes are 1 and 5. -/
theorem C31_violated_odd_fails {K : Type} [Field K] (ts td : Tiling) (hts : ts.OK) (hdim : ts.nmesh.length = td.nmesh.length)
    (hodd : ∃ n ∈ td.nmesh, n % 2 = 1 ∧ n ≠ 1 ∧ n ≠ 5) (S : List ℕ → Cx K) (f : ℕ → List ℕ → Cx K) (hf : ts.Holds f S) :
    AllReturn ts.nrank (fun r => resampleComplex ts td r (f r)) (fun _ => .error "ValueError") := by
  unfold resampleComplex
  refine AllReturn.andThen (ravel_return hts hf) ?_
  have : ((List.zip ts.nmesh td.nmesh).mapM fun p => reindex p.1 p.2) = none := by
    clear hts hf
    generalize ts.nmesh = ns at hdim
    generalize td.nmesh = ms at hdim hodd
    induction ns generalizing ms with
    | nil =>
      obtain ⟨n, hn, _⟩ := hodd
      have : ms = [] := List.length_eq_zero_iff.1 (by simpa using hdim.symm)
      subst this
      cases hn
    | cons a ns ih =>
      match ms, hdim with
      | b :: ms, hdim =>
        rw [List.zip_cons_cons, List.mapM_cons]
        obtain ⟨n, hn, h1, h2⟩ := hodd
        rcases List.mem_cons.1 hn with e | e
        · subst e
          rw [(reindex_odd a n h1).2 h2]
          rfl
        · rw [ih ms (by simpa using hdim) ⟨n, e, h1, h2⟩]
          cases reindex a b <;> rfl
  simp only [this]
  exact AllReturn.ret _ _

example := C31_violated_odd_fails (K := ℚ) (exLine 8) (exLine 7) (tiling_ok_of_decide (by decide)) rfl ⟨7, by decide, by decide, by decide, by decide⟩
  (fun _ => 1) (fun _ _ => 1) (fun _ _ _ _ => rfl)

/-- **C31 violated** for a destination of 5 cells: mode -2 gets the value of mode -1. -/
theorem C31_violated_five : CommonMode [8] [5] [3] ∧ sameFreq [8] [5] [3] = [6] ∧
    AllReturn 1 (fun r => resampleComplex (exLine 8) (exLine 5) r fun c => (((c.getD 0 0 : ℕ) : ℚ) + 1, 0))
      (fun _ => .ok [some (1, 0), some (2, 0), some (0, 0), some (8, 0), some (0, 0)]) :=
  ⟨by decide, by decide, AllReturn.of_runAll 5 (by decide +kernel)⟩

/-- **C31 violated** for a complex mesh: the imaginary part of the mean is lost. -/
theorem C31_violated_mean : AllReturn 1 (fun r => resampleComplex (exLine 2) (exLine 4) r fun _ => ((1, 1) : Cx ℚ))
      (fun _ => .ok [some (1, 0), some (0, 0), some (0, 0), some (0, 0)]) :=
  AllReturn.of_runAll 5 (by decide +kernel)

/-! ## Examples -/

/-- Eight by eight modes, compressed, on two ranks. -/
def exFine : Tiling := ⟨[8, 8], [8, 5], 2, fun r => [5 * r, 0], fun r => if r = 0 then [5, 5] else [3, 5]⟩

theorem exFine_ok : exFine.OK := tiling_ok_of_decide (by decide)

/-- Ten by two modes, compressed, on two ranks. -/
def exMixed : Tiling := ⟨[10, 2], [10, 2], 2, fun r => [4 * r, 0], fun r => if r = 0 then [4, 2] else [6, 2]⟩

theorem exMixed_ok : exMixed.OK := tiling_ok_of_decide (by decide)

example := C31_modes_partial exFine exTiling exFine_ok exTiling_ok rfl (by decide) rfl (Or.inr ⟨rfl, rfl⟩) (by decide) (by decide)
  (by decide) (fun k => ((k.sum : ℚ), (k.prod : ℚ))) (by decide +kernel) _ fun _ _ _ _ => rfl

example := C31_modes_partial exTiling exMixed exTiling_ok exMixed_ok rfl (by decide) rfl (Or.inr ⟨rfl, rfl⟩) (by decide) (by decide)
  (by decide) (fun k => ((k.sum : ℚ), (k.prod : ℚ))) (by decide +kernel) _ fun _ _ _ _ => rfl

example := C31_any_ratio_partial exFine exMixed exFine_ok exMixed_ok rfl (by decide) rfl (Or.inr ⟨rfl, rfl⟩) (by decide) (by decide)
  (fun k => ((k.sum : ℚ), (k.prod : ℚ))) (by decide +kernel) _ fun _ _ _ _ => rfl

example := C31_real_partial exFine exTiling exFine_ok exTiling_ok rfl (by decide) rfl (Or.inr ⟨rfl, rfl⟩) (by decide) (by decide)
  (by decide) (fun x => x.sum) _ fun _ _ _ _ => rfl

#print axioms C31_modes_partial
#print axioms C31_any_ratio_partial
#print axioms C31_real_partial
#print axioms C31_violated_same
#print axioms C31_violated_ratio
#print axioms C31_violated_odd
#print axioms C31_violated_odd_fails
#print axioms C31_violated_five
#print axioms C31_violated_mean

end Pmesh
