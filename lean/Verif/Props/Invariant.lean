import Verif.Lemmas.InvariantMesh

/-!
# C45, C46, C47: the scale invariant index

`getIndex` is `pmesh.invariant.get_index` for one mode.  The number of axes is at most 32, the number of bits of the masks.
-/

namespace Pmesh

theorem getIndex_val {x : List ℤ} {nmesh : List ℕ} (h0 : nmesh ≠ []) (h32 : nmesh.length ≤ 32) (hn : ∀ n ∈ nmesh, 0 < n) (hx : InMesh x nmesh) (c : Bool)
    (ha : Adm (cmaskOf x.length c) (foldMode x nmesh)) :
    getIndex x nmesh c none = (idx x.length (foldMode x nmesh) (cmaskOf x.length c) : ℤ) := by
  have hl := foldMode_length hx
  have hl' := hx.length_eq
  have hne : x.length ≠ 0 := by rw [hl']; simpa using h0
  rw [getIndex_eq hn hx]
  have := invariantIndex_eq (k := x.length) (x := foldMode x nmesh) (cm := cmaskOf x.length c) (by omega) (by omega)
    (by rw [hl]; exact cmaskOf_lt hne c) ha (-1) (Or.inl (by omega))
  rw [Option.getD_none, this, if_pos (Or.inl (by omega))]

theorem getIndex_adm {x : List ℤ} {nmesh : List ℕ} (hn : ∀ n ∈ nmesh, 0 < n) (hx : InMesh x nmesh) (c : Bool) (ml : Option ℤ)
    (h : getIndex x nmesh c ml ≠ -1) : Adm (cmaskOf x.length c) (foldMode x nmesh) := by
  by_contra ha
  rw [getIndex_eq hn hx, invariantIndex_bad (by rw [foldMode_length hx]) ha] at h
  exact h rfl

/-- **C45**: two modes of any mesh that have an index have the same index exactly if they are the same plane wave on the mesh. -/
theorem C45_distinct {x y : List ℤ} {nmesh : List ℕ} (h0 : nmesh ≠ []) (h32 : nmesh.length ≤ 32) (hn : ∀ n ∈ nmesh, 0 < n)
    (hx : InMesh x nmesh) (hy : InMesh y nmesh) (compressed : Bool)
    (hix : getIndex x nmesh compressed none ≠ -1) :
    getIndex x nmesh compressed none = getIndex y nmesh compressed none ↔ SameMode x y nmesh := by
  have hl : x.length = y.length := hx.length_eq.trans hy.length_eq.symm
  rw [← foldMode_eq_iff hx hy hn]
  have ax := getIndex_adm hn hx compressed none hix
  constructor
  · intro h
    have ay := getIndex_adm hn hy compressed none (h ▸ hix)
    rw [getIndex_val h0 h32 hn hx compressed ax, getIndex_val h0 h32 hn hy compressed ay, ← hl] at h
    rw [← hl] at ay
    exact idx_inj (by rw [foldMode_length hx]) (by rw [foldMode_length hx, foldMode_length hy, hl]) ax ay (by exact_mod_cast h)
  · intro h
    have ay : Adm (cmaskOf y.length compressed) (foldMode y nmesh) := by rw [← hl, ← h]; exact ax
    rw [getIndex_val h0 h32 hn hx compressed ax, getIndex_val h0 h32 hn hy compressed ay, ← hl, h]

example : InMesh [2, 1] [4, 6] ∧ InMesh [-2, 1] [4, 6] ∧ InMesh [1, -2] [4, 6] ∧ getIndex [2, 1] [4, 6] false none ≠ -1
    ∧ getIndex [2, 1] [4, 6] false none = getIndex [-2, 1] [4, 6] false none ∧ getIndex [2, 1] [4, 6] false none ≠ getIndex [1, -2] [4, 6] false none := by
  refine ⟨by simp [InMesh], by simp [InMesh], by simp [InMesh], by decide +kernel⟩

/-- **C45**: on a cubic mesh of size `N` in `d` dimensions, even or odd, the modes of the Fourier transform and the numbers `0 … N^d - 1`
correspond one to one. -/
theorem C45_bijection {N d : ℕ} (hN : 0 < N) (hd : 0 < d) (h32 : d ≤ 32) :
    (∀ x, FFTMode x (List.replicate d N) → ∃ i : ℕ, i < N ^ d ∧ getIndex x (List.replicate d N) false none = i) ∧
    ∀ i : ℕ, i < N ^ d → ∃! x, FFTMode x (List.replicate d N) ∧ getIndex x (List.replicate d N) false none = i := by
  have h0 : List.replicate d N ≠ [] := by simp; omega
  have hn : ∀ n ∈ List.replicate d N, 0 < n := fun n h => by rw [List.eq_of_mem_replicate h]; exact hN
  have hb : boxVol N (N / 2 + 1) d 0 = N ^ d := boxVol_full _ _ _
  have val : ∀ {x}, InMesh x (List.replicate d N) → getIndex x (List.replicate d N) false none = (idx x.length (foldMode x (List.replicate d N)) 0 : ℤ) :=
    fun hx => getIndex_val h0 (by simpa using h32) hn hx false (adm_zero _)
  refine ⟨fun x hx => ⟨_, ?_, val hx.inMesh⟩, fun i hi => ?_⟩
  · have hl : (foldMode x (List.replicate d N)).length = d := by rw [foldMode_length hx.inMesh, hx.length_eq]; simp
    have := idx_lt_cubic hN (adm_zero (foldMode x (List.replicate d N))) fun a ha => by
      obtain ⟨n, h1, h2⟩ := mem_foldMode ha hx.inMesh hn
      rw [List.eq_of_mem_replicate h1] at h2
      exact h2
    rw [hl, hb] at this
    rw [hx.length_eq, List.length_replicate]
    exact this
  · rw [← hb] at hi
    obtain ⟨y, hl, -, hy, e⟩ := idx_surj_cubic hN hi
    have hf : FFTMode (y.map (unfoldAxis · N)) (List.replicate d N) := by
      rw [← hl]
      clear e hl
      induction y with
      | nil => exact List.Forall₂.nil
      | cons a y ih => exact List.Forall₂.cons (unfold_range hN (hy a (by simp))) (ih fun b hb => hy b (by simp [hb]))
    have hfold : foldMode (y.map (unfoldAxis · N)) (List.replicate d N) = y := by
      rw [← hl]
      clear e hl hf
      induction y with
      | nil => rfl
      | cons a y ih =>
        have := ih fun b hb => hy b (by simp [hb])
        simp only [foldMode] at this ⊢
        simp only [List.map_cons, List.length_cons, List.replicate_succ, List.zipWith_cons_cons, this, fold_unfold hN (hy a (by simp))]
    have hv : getIndex (y.map (unfoldAxis · N)) (List.replicate d N) false none = i := by
      rw [val hf.inMesh, hfold, List.length_map, hl, e]
    refine ⟨_, ⟨hf, hv⟩, ?_⟩
    rintro z ⟨hz, hzi⟩
    apply fft_unique hz hf
    rw [← C45_distinct h0 (by simpa using h32) hn hz.inMesh hf.inMesh false (by rw [hzi]; omega), hzi, hv]

example : (0 < 4 ∧ 0 < 2 ∧ (2 : ℕ) ≤ 32) ∧ FFTMode [-2, 1] (List.replicate 2 4) ∧ getIndex [-2, 1] (List.replicate 2 4) false none = 10 := by
  refine ⟨by omega, ?_, by decide +kernel⟩
  simp [FFTMode, List.replicate]

/-- **C45**: with compression the modes that a real transform stores correspond one to one to the first `N^(d-1) (N/2+1)` numbers. -/
theorem C45_compressed {N d : ℕ} (hN : 0 < N) (h32 : d + 1 ≤ 32) :
    (∀ x, HalfMode x (List.replicate (d + 1) N) → ∃ i : ℕ, i < N ^ d * (N / 2 + 1) ∧ getIndex x (List.replicate (d + 1) N) true none = i) ∧
    ∀ i : ℕ, i < N ^ d * (N / 2 + 1) → ∃! x, HalfMode x (List.replicate (d + 1) N) ∧ getIndex x (List.replicate (d + 1) N) true none = i := by
  have h0 : List.replicate (d + 1) N ≠ [] := by simp
  have hn : ∀ n ∈ List.replicate (d + 1) N, 0 < n := fun n h => by rw [List.eq_of_mem_replicate h]; exact hN
  have hb : boxVol N (N / 2 + 1) (d + 1) (2 ^ d) = N ^ d * (N / 2 + 1) := boxVol_last _ _ _
  have hk : ∀ {k : ℤ}, 0 ≤ k → foldAxis k N = k := fun {k} h => by unfold foldAxis; rw [if_neg (by omega)]
  have dec : ∀ {y m : List ℤ} {M : List ℕ} {k : ℤ} {n : ℕ}, List.replicate (d + 1) N = M ++ [n] → FFTMode y M → M = List.replicate d N ∧ n = N ∧ y.length = d := by
    intro y m M k n e hy
    rw [List.replicate_succ'] at e
    have := List.append_inj' e rfl
    simp only [List.cons.injEq, and_true] at this
    exact ⟨this.1.symm, this.2.symm, by rw [hy.length_eq, ← this.1]; simp⟩
  have lenH : ∀ {x}, HalfMode x (List.replicate (d + 1) N) → x.length = d + 1 := fun h => by rw [h.inMesh.length_eq]; simp
  have adm : ∀ {x}, HalfMode x (List.replicate (d + 1) N) → Adm (cmaskOf x.length true) (foldMode x (List.replicate (d + 1) N)) := by
    intro x hx
    rw [lenH hx]
    obtain ⟨y, k, rfl, M, n, e, h1, h2, h3⟩ := hx
    obtain ⟨rfl, rfl, hyl⟩ := dec (m := y) (k := k) e h1
    rw [e, foldMode, List.zipWith_append (by simp [hyl])]
    have := adm_last (List.zipWith foldAxis y (List.replicate d n)) (foldAxis k n)
    simp only [List.length_zipWith, List.length_replicate, hyl, min_self] at this
    simp only [cmaskOf, if_true, Nat.add_sub_cancel, List.zipWith_cons_cons, List.zipWith_nil_right]
    rw [this, hk h2]
    exact h2
  have val : ∀ {x}, HalfMode x (List.replicate (d + 1) N) →
      getIndex x (List.replicate (d + 1) N) true none = (idx (d + 1) (foldMode x (List.replicate (d + 1) N)) (2 ^ d) : ℤ) := by
    intro x hx
    have := getIndex_val h0 (by simpa using h32) hn hx.inMesh true (adm hx)
    rw [this, lenH hx]
    rfl
  refine ⟨fun x hx => ⟨_, ?_, val hx⟩, fun i hi => ?_⟩
  · have hl : (foldMode x (List.replicate (d + 1) N)).length = d + 1 := by rw [foldMode_length hx.inMesh, lenH hx]
    have ha := adm hx
    rw [lenH hx] at ha
    have := idx_lt_cubic hN (x := foldMode x (List.replicate (d + 1) N)) (cm := 2 ^ d) ha fun a ha => by
      obtain ⟨n, h1, h2⟩ := mem_foldMode ha hx.inMesh hn
      rw [List.eq_of_mem_replicate h1] at h2
      exact h2
    rw [hl, hb] at this
    exact this
  · rw [← hb] at hi
    obtain ⟨y, hl, hadm, hy, e⟩ := idx_surj_cubic hN hi
    obtain ⟨y, k, rfl⟩ : ∃ y' k, y = y' ++ [k] := ⟨y.dropLast, y.getLast (by intro h; simp [h] at hl), (List.dropLast_append_getLast _).symm⟩
    have hyl : y.length = d := by simpa using hl
    have hk0 : 0 ≤ k := by rw [← hyl] at hadm; exact (adm_last y k).1 hadm
    have hyk := hy k (by simp)
    have hf : FFTMode (y.map (unfoldAxis · N)) (List.replicate d N) := by
      rw [← hyl]
      have hy' : ∀ a ∈ y, -(N : ℤ) < 2 * a ∧ 2 * a ≤ N := fun a ha => hy a (by simp [ha])
      clear e hl hadm hyl hy
      induction y with
      | nil => exact List.Forall₂.nil
      | cons a y ih => exact List.Forall₂.cons (unfold_range hN (hy' a (by simp))) (ih fun b hb => hy' b (by simp [hb]))
    have hfold : List.zipWith foldAxis (y.map (unfoldAxis · N)) (List.replicate d N) = y := by
      rw [← hyl]
      have hy' : ∀ a ∈ y, -(N : ℤ) < 2 * a ∧ 2 * a ≤ N := fun a ha => hy a (by simp [ha])
      clear e hl hf hadm hyl hy
      induction y with
      | nil => rfl
      | cons a y ih =>
        have := ih fun b hb => hy' b (by simp [hb])
        simp only [List.map_cons, List.length_cons, List.replicate_succ, List.zipWith_cons_cons, this, fold_unfold hN (hy' a (by simp))]
    have hh : HalfMode (y.map (unfoldAxis · N) ++ [k]) (List.replicate (d + 1) N) :=
      ⟨_, k, rfl, List.replicate d N, N, List.replicate_succ', hf, hk0, hyk.2⟩
    have hv : getIndex (y.map (unfoldAxis · N) ++ [k]) (List.replicate (d + 1) N) true none = i := by
      rw [val hh, foldMode, List.replicate_succ', List.zipWith_append (by simp [hyl]), hfold]
      simp only [List.zipWith_cons_cons, List.zipWith_nil_right, hk hk0]
      rw [e]
    refine ⟨_, ⟨hh, hv⟩, ?_⟩
    rintro z ⟨hz, hzi⟩
    have hs := (C45_distinct h0 (by simpa using h32) hn hz.inMesh hh.inMesh true (by rw [hzi]; omega)).1 (by rw [hzi, hv])
    obtain ⟨z, j, rfl, M, n, e', h1, h2, h3⟩ := hz
    obtain ⟨rfl, rfl, hzl⟩ := dec (m := z) (k := j) e' h1
    have hz' : z = y.map (unfoldAxis · n) := by
      apply fft_unique h1 hf
      intro t ht
      have ht' : t < d := by simpa using ht
      have := hs t (by simp; omega)
      rw [List.getD_append _ _ _ _ (by omega), List.getD_append _ _ _ _ (by simp; omega)] at this
      simpa [List.getD_eq_getElem, ht', Nat.lt_succ_of_lt ht'] using this
    have hj : j = k := by
      have := hs d (by simp)
      rw [List.getD_append_right _ _ _ _ (by omega), List.getD_append_right _ _ _ _ (by simp; omega)] at this
      have : j ≡ k [ZMOD n] := by simpa [hzl, hyl] using this
      exact eq_of_modEq ⟨by omega, h3⟩ hyk this
    rw [hz', hj]

example : HalfMode [-2, 2] (List.replicate 2 4) ∧ getIndex [-2, 2] (List.replicate 2 4) true none = 11 := by
  refine ⟨⟨[-2], 2, rfl, [4], 4, rfl, ?_, by omega, by omega⟩, by decide +kernel⟩
  simp [FFTMode]

/-- **C46**: of two modes, both within the frequencies of the mesh, that with the smaller largest component has the smaller index. -/
theorem C46_inside_out {x y : List ℤ} {nmesh : List ℕ} (h0 : nmesh ≠ []) (h32 : nmesh.length ≤ 32) (hn : ∀ n ∈ nmesh, 0 < n)
    (hx : List.Forall₂ (fun (xd : ℤ) (n : ℕ) => |2 * xd| ≤ n) x nmesh) (hy : List.Forall₂ (fun (xd : ℤ) (n : ℕ) => |2 * xd| ≤ n) y nmesh)
    (compressed : Bool) (hix : getIndex x nmesh compressed none ≠ -1) (hiy : getIndex y nmesh compressed none ≠ -1)
    {s : ℕ} (hs : NormLe x s) (hs' : ¬ NormLe y s) : getIndex x nmesh compressed none < getIndex y nmesh compressed none := by
  have inm : ∀ {x : List ℤ}, List.Forall₂ (fun (xd : ℤ) (n : ℕ) => |2 * xd| ≤ n) x nmesh → InMesh x nmesh := fun h =>
    List.Forall₂.imp (fun a n h => by rw [abs_le] at h; exact ⟨by omega, by omega⟩) h
  have norm : ∀ {x : List ℤ}, List.Forall₂ (fun (xd : ℤ) (n : ℕ) => |2 * xd| ≤ n) x nmesh → (NormLe (foldMode x nmesh) s ↔ NormLe x s) := by
    intro x h
    clear hx hy hix hiy hs hs' h0 h32 hn inm
    induction h with
    | nil => simp [NormLe, foldMode]
    | @cons a n x nmesh h1 h2 ih =>
      simp only [NormLe, foldMode] at ih ⊢
      simp only [List.zipWith_cons_cons, List.forall_mem_cons, ih]
      have : (foldAxis a n).natAbs = a.natAbs := by
        rw [abs_le] at h1
        unfold foldAxis
        split_ifs <;> omega
      rw [this]
  have ax := getIndex_adm hn (inm hx) compressed none hix
  have ay := getIndex_adm hn (inm hy) compressed none hiy
  have hl : x.length = y.length := hx.length_eq.trans hy.length_eq.symm
  rw [getIndex_val h0 h32 hn (inm hx) compressed ax, getIndex_val h0 h32 hn (inm hy) compressed ay, ← hl]
  rw [← norm hx] at hs
  rw [← norm hy] at hs'
  have h1 := idx_lt (k := x.length) (by rw [foldMode_length (inm hx)]) ax (absmax_le_iff.2 hs)
  have h2 := le_idx (k := x.length) (x := foldMode y nmesh) (cm := cmaskOf x.length compressed) (by rw [foldMode_length (inm hy), hl]) (S := s)
    (by by_contra h; exact hs' (absmax_le_iff.1 (by omega)))
  rw [foldMode_length (inm hx)] at h1
  rw [foldMode_length (inm hy), ← hl] at h2
  exact_mod_cast lt_of_lt_of_le h1 h2

example : List.Forall₂ (fun (xd : ℤ) (n : ℕ) => |2 * xd| ≤ n) [1, -1] [4, 6] ∧ List.Forall₂ (fun (xd : ℤ) (n : ℕ) => |2 * xd| ≤ n) [0, 2] [4, 6]
    ∧ NormLe [1, -1] 1 ∧ ¬ NormLe [0, 2] 1 := by
  refine ⟨by simp, by simp, by simp [NormLe], by simp [NormLe]⟩

/-- With the frequency -3 of an odd mesh of size 5, which pmesh uses in place of 2, the order is not inside-out. -/
theorem C46_violated_odd : NormLe [2, 2] 2 ∧ ¬ NormLe [-3, 0] 2 ∧ getIndex [-3, 0] [5, 5] false none < getIndex [2, 2] [5, 5] false none := by
  refine ⟨by simp [NormLe], by simp [NormLe], by decide +kernel⟩

/-- **C46**, below the Nyquist mode: the index does not depend on the size of the mesh. -/
theorem C46_resolution_partial {x : List ℤ} {nmesh nmesh' : List ℕ}
    (hx : List.Forall₂ (fun (xd : ℤ) (n : ℕ) => |2 * xd| < n) x nmesh) (hx' : List.Forall₂ (fun (xd : ℤ) (n : ℕ) => |2 * xd| < n) x nmesh')
    (compressed : Bool) (maxlength : Option ℤ) : getIndex x nmesh compressed maxlength = getIndex x nmesh' compressed maxlength := by
  have fold : ∀ {nmesh : List ℕ}, List.Forall₂ (fun (xd : ℤ) (n : ℕ) => |2 * xd| < n) x nmesh → foldMode x nmesh = x := by
    intro nmesh h
    clear hx hx'
    induction h with
    | nil => rfl
    | @cons a n x nmesh h1 h2 ih =>
      simp only [foldMode] at ih ⊢
      rw [List.zipWith_cons_cons, ih]
      rw [abs_lt] at h1
      unfold foldAxis
      rw [if_neg (by omega)]
  have pos : ∀ {nmesh : List ℕ}, List.Forall₂ (fun (xd : ℤ) (n : ℕ) => |2 * xd| < n) x nmesh → (∀ n ∈ nmesh, 0 < n) ∧ InMesh x nmesh := by
    intro nmesh h
    clear hx hx' fold
    induction h with
    | nil => exact ⟨by simp, List.Forall₂.nil⟩
    | @cons a n x nmesh h1 h2 ih =>
      rw [abs_lt] at h1
      exact ⟨by simpa using ⟨by omega, ih.1⟩, List.Forall₂.cons ⟨by omega, by omega⟩ ih.2⟩
  rw [getIndex_eq (pos hx).1 (pos hx).2, getIndex_eq (pos hx').1 (pos hx').2, fold hx, fold hx']

example : List.Forall₂ (fun (xd : ℤ) (n : ℕ) => |2 * xd| < n) [1, -1] [4, 6] ∧ List.Forall₂ (fun (xd : ℤ) (n : ℕ) => |2 * xd| < n) [1, -1] [8, 3]
    ∧ getIndex [1, -1] [4, 6] false none = 7 := by
  refine ⟨by simp, by simp, by decide +kernel⟩

/-- The Nyquist mode of a mesh has another index on a finer mesh. -/
theorem C46_violated_nyquist : getIndex [-2] [4] false none = 3 ∧ getIndex [-2] [8] false none = 4 := by decide +kernel

/-- **C47**: a positive `maxlength` keeps the indices below it and turns the others into -1. -/
theorem C47_maxlength_partial {x : List ℤ} {nmesh : List ℕ} (hl : x.length = nmesh.length) (h0 : nmesh ≠ []) (h32 : nmesh.length ≤ 32) (hn : ∀ n ∈ nmesh, 0 < n)
    (compressed : Bool) {M : ℤ} (hM : 0 < M) :
    getIndex x nmesh compressed (some M) = if getIndex x nmesh compressed none < M then getIndex x nmesh compressed none else -1 := by
  by_cases hx : InMesh x nmesh
  · by_cases ha : Adm (cmaskOf x.length compressed) (foldMode x nmesh)
    · rw [getIndex_val h0 h32 hn hx compressed ha, getIndex_eq hn hx]
      have hfl := foldMode_length hx
      have hne : x.length ≠ 0 := by rw [hl]; simpa using h0
      have := invariantIndex_eq (k := x.length) (x := foldMode x nmesh) (cm := cmaskOf x.length compressed) (by omega) (by omega)
        (by rw [hfl]; exact cmaskOf_lt hne compressed) ha M (Or.inl (by omega))
      rw [Option.getD_some, this]
      have h1 : ¬ M < 0 := by omega
      simp [h1]
    · rw [getIndex_eq hn hx, getIndex_eq hn hx, invariantIndex_bad (by rw [foldMode_length hx]) ha, invariantIndex_bad (by rw [foldMode_length hx]) ha]
      split_ifs <;> rfl
  · rw [getIndex_bad hl hn hx, getIndex_bad hl hn hx]
    split_ifs <;> rfl

/-- **C47**: `maxlength = 0` gives -1 for every mode but the zero mode. -/
theorem C47_zero_length {x : List ℤ} {nmesh : List ℕ} (hl : x.length = nmesh.length) (h0 : nmesh ≠ []) (h32 : nmesh.length ≤ 32) (hn : ∀ n ∈ nmesh, 0 < n)
    (compressed : Bool) (hx0 : ¬ SameMode x (List.replicate x.length 0) nmesh) : getIndex x nmesh compressed (some 0) = -1 := by
  by_cases hx : InMesh x nmesh
  · by_cases ha : Adm (cmaskOf x.length compressed) (foldMode x nmesh)
    · rw [getIndex_eq hn hx]
      have hfl := foldMode_length hx
      have hne : x.length ≠ 0 := by rw [hl]; simpa using h0
      have hz : absmax (foldMode x nmesh) ≠ 0 := by
        intro h
        apply hx0
        have hzm : InMesh (List.replicate x.length 0) nmesh := by
          rw [hl]
          clear * -
          induction nmesh with
          | nil => exact List.Forall₂.nil
          | cons n l ih => exact List.Forall₂.cons ⟨by omega, by omega⟩ ih
        rw [← foldMode_eq_iff hx hzm hn]
        have e1 : foldMode x nmesh = List.replicate x.length 0 := by
          rw [List.eq_replicate_iff]
          exact ⟨hfl, fun a ha => by have := absmax_le_iff.1 h.le a ha; omega⟩
        have e2 : foldMode (List.replicate x.length 0) nmesh = List.replicate x.length 0 := by
          rw [hl]
          clear * - hn
          induction nmesh with
          | nil => rfl
          | cons n l ih =>
            have := ih fun m hm => hn m (by simp [hm])
            have h0 := hn n (by simp)
            simp only [foldMode] at this ⊢
            simp only [List.length_cons, List.replicate_succ, List.zipWith_cons_cons, this]
            congr 1
            unfold foldAxis
            rw [if_neg (by omega)]
        rw [e1, e2]
      have := invariantIndex_eq (k := x.length) (x := foldMode x nmesh) (cm := cmaskOf x.length compressed) (by omega) (by omega)
        (by rw [hfl]; exact cmaskOf_lt hne compressed) ha 0 (Or.inr hz)
      rw [Option.getD_some, this, if_neg (by omega)]
    · rw [getIndex_eq hn hx, invariantIndex_bad (by rw [foldMode_length hx]) ha]
  · rw [getIndex_bad hl hn hx]

example : ¬ SameMode [1, 0] (List.replicate 2 0) [4, 4] := by
  intro h
  have := h 0 (by decide)
  revert this
  decide

/-- With `maxlength = 0` the zero mode has index 0, which is not below 0. -/
theorem C47_violated_zero : getIndex [0, 0] [4, 4] false (some 0) = 0 := by decide +kernel

/-- **C47**: exactly the modes outside the mesh have no index. -/
theorem C47_outside {x : List ℤ} {nmesh : List ℕ} (hl : x.length = nmesh.length) (h0 : nmesh ≠ []) (h32 : nmesh.length ≤ 32) (hn : ∀ n ∈ nmesh, 0 < n) :
    getIndex x nmesh false none = -1 ↔ ¬ InMesh x nmesh := by
  constructor
  · intro h hx
    rw [getIndex_val h0 h32 hn hx false (adm_zero _)] at h
    omega
  · intro h
    exact getIndex_bad hl hn h false none

/-- **C47**: with compression the modes with a negative last component, other than the Nyquist mode, have none either. -/
theorem C47_outside_compressed {y : List ℤ} {k : ℤ} {m : List ℕ} {n : ℕ} (hl : y.length = m.length) (h32 : m.length < 32) (hm : ∀ n ∈ m, 0 < n) (hn : 0 < n) :
    getIndex (y ++ [k]) (m ++ [n]) true none = -1 ↔ ¬ InMesh (y ++ [k]) (m ++ [n]) ∨ (-(n : ℤ) < 2 * k ∧ k < 0) := by
  have hn' : ∀ a ∈ m ++ [n], 0 < a := fun a ha => by
    rcases List.mem_append.1 ha with h | h
    · exact hm a h
    · rw [List.mem_singleton.1 h]; exact hn
  by_cases hx : InMesh (y ++ [k]) (m ++ [n])
  · have hk : -(n : ℤ) - 1 ≤ 2 * k ∧ 2 * k ≤ n := by
      have := List.forall₂_iff_get.1 hx
      have := this.2 y.length (by simp) (by simp [hl])
      simpa [hl] using this
    have ha : Adm (cmaskOf (y ++ [k]).length true) (foldMode (y ++ [k]) (m ++ [n])) ↔ ¬ (-(n : ℤ) < 2 * k ∧ k < 0) := by
      rw [foldMode, List.zipWith_append hl]
      have := adm_last (List.zipWith foldAxis y m) (foldAxis k n)
      simp only [List.length_zipWith, hl, min_self] at this
      simp only [cmaskOf, if_true, List.length_append, List.length_singleton, Nat.add_sub_cancel, List.zipWith_cons_cons, List.zipWith_nil_right, hl]
      rw [this]
      unfold foldAxis
      split_ifs <;> omega
    constructor
    · intro h
      right
      by_contra hc
      rw [getIndex_val (by simp) (by simp; omega) hn' hx true (ha.2 hc)] at h
      omega
    · rintro (h | h)
      · exact absurd hx h
      · by_contra hc
        exact ha.1 (getIndex_adm hn' hx true none hc) h
  · simp only [hx, not_false_eq_true, true_or, iff_true]
    exact getIndex_bad (by simp [hl]) hn' hx true none

example : getIndex [1, -1] [4, 4] true none = -1 ∧ getIndex [1, -2] [4, 4] true none = 9 ∧ getIndex [3, 0] [4, 4] false none = -1
    ∧ getIndex [1, -1] [4, 4] false (some 7) = -1 ∧ getIndex [1, -1] [4, 4] false (some 8) = 7 := by decide +kernel

end Pmesh
