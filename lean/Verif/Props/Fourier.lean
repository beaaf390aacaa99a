import Verif.Lemmas.Fourier
import Verif.Props.Norm

/-!
# C29, C30: `r2c` and `c2r` are inverse, their vjp are adjoint
-/

set_option linter.unusedSectionVars false

namespace Pmesh

open Complex

/-- The stored shape for a mesh: full, or Hermitian-compressed. -/
def StoredShape (nmesh cshape : List ℕ) : Prop :=
  cshape = nmesh ∨ cshape = nmesh.dropLast ++ [nmesh.getLastD 0 / 2 + 1]

/-- Among the stored modes, opposite modes are complex conjugates. -/
def HermitianStored (nmesh cshape : List ℕ) (F : List ℕ → ℂ) : Prop :=
  ∀ k, ValidIndex cshape k → ValidIndex cshape (opposite nmesh k) → F (opposite nmesh k) = (starRingEnd ℂ) (F k)

theorem storedTest {cshape k : List ℕ} (h : k.length = cshape.length) :
    ((List.zipWith (fun (n i : ℕ) => decide (i < n)) cshape k).all id = true) ↔ ValidIndex cshape k := by
  unfold ValidIndex
  induction cshape generalizing k with
  | nil => cases k with
    | nil => simp
    | cons _ _ => simp at h
  | cons n ns ih =>
    cases k with
    | nil => simp at h
    | cons i is =>
      rw [List.zipWith_cons_cons, List.all_cons, List.forall₂_cons, Bool.and_eq_true, ih (by simpa using h)]
      simp

theorem stored_len {nmesh cshape : List ℕ} (hs : StoredShape nmesh cshape) (hne : nmesh ≠ []) : cshape.length = nmesh.length := by
  rcases hs with h | h
  · rw [h]
  · have : 0 < nmesh.length := List.length_pos_iff.2 hne
    rw [h]; simp; omega

/-- The opposite of a mode that is not stored is stored. -/
theorem opposite_stored {nmesh cshape : List ℕ} (hs : StoredShape nmesh cshape) (hne : nmesh ≠ []) {k : List ℕ}
    (hk : ValidIndex nmesh k) (hns : ¬ ValidIndex cshape k) : ValidIndex cshape (opposite nmesh k) := by
  rcases hs with h | h
  · rw [h] at hns; exact absurd hk hns
  · obtain ⟨ns, N, e⟩ := (List.eq_nil_or_concat nmesh).resolve_left hne
    rw [List.concat_eq_append] at e
    subst e
    rw [getLastD_concat, List.dropLast_concat] at h
    subst h
    obtain ⟨k', x, rfl, h1, h2⟩ := validIndex_concat.1 hk
    rw [opposite_concat _ _ h1.len]
    have hx : ¬ x < N / 2 + 1 := fun hx => hns (validIndex_concat.2 ⟨k', x, rfl, h1, hx⟩)
    refine validIndex_concat.2 ⟨_, _, rfl, opposite_valid h1, ?_⟩
    rw [Nat.mod_eq_of_lt (by omega)]
    omega

theorem decompress_stored {nmesh cshape k : List ℕ} (hs : StoredShape nmesh cshape) (hne : nmesh ≠ []) (hk : ValidIndex nmesh k)
    (F : List ℕ → ℂ) : decompress nmesh cshape F k =
      if ValidIndex cshape k then F k else (starRingEnd ℂ) (F (opposite nmesh k)) := by
  unfold decompress
  have := storedTest (cshape := cshape) (k := k) (by rw [hk.len, stored_len hs hne])
  by_cases h : ValidIndex cshape k
  · rw [if_pos (this.2 h), if_pos h]
  · rw [if_neg (fun e => h (this.1 e)), if_neg h]
    rfl

theorem stored_valid {nmesh cshape : List ℕ} (hs : StoredShape nmesh cshape) (hne : nmesh ≠ []) (hpos : ∀ n ∈ nmesh, 0 < n)
    {k : List ℕ} (hk : ValidIndex cshape k) : ValidIndex nmesh k := by
  rcases hs with h | h
  · rw [h] at hk; exact hk
  · obtain ⟨ns, N, e⟩ := (List.eq_nil_or_concat nmesh).resolve_left hne
    rw [List.concat_eq_append] at e
    subst e
    have := hpos N (by simp)
    rw [getLastD_concat, List.dropLast_concat] at h
    subst h
    obtain ⟨k', x, rfl, h1, h2⟩ := validIndex_concat.1 hk
    exact validIndex_concat.2 ⟨k', x, rfl, h1, by omega⟩

theorem decompress_hermitian {nmesh cshape : List ℕ} (hs : StoredShape nmesh cshape) (hne : nmesh ≠ [])
    {F : List ℕ → ℂ} (hF : HermitianStored nmesh cshape F) {k : List ℕ} (hk : ValidIndex nmesh k) :
    decompress nmesh cshape F (opposite nmesh k) = (starRingEnd ℂ) (decompress nmesh cshape F k) := by
  rw [decompress_stored hs hne hk, decompress_stored hs hne (opposite_valid hk), opposite_opposite hk]
  by_cases h1 : ValidIndex cshape k
  · by_cases h2 : ValidIndex cshape (opposite nmesh k)
    · rw [if_pos h1, if_pos h2, hF k h1 h2]
    · rw [if_pos h1, if_neg h2]
  · rw [if_neg h1, if_pos (opposite_stored hs hne hk h1), Complex.conj_conj]

/-- The spectrum of a real mesh is Hermitian. -/
theorem r2c_opposite (nmesh : List ℕ) (f : List ℕ → ℝ) {k : List ℕ} (hk : ValidIndex nmesh k) :
    r2c nmesh f (opposite nmesh k) = (starRingEnd ℂ) (r2c nmesh f k) := by
  unfold r2c
  rw [map_mul, Complex.conj_ofReal, dftForward_eq, dftForward_eq, conj_sum]
  congr 2
  apply List.map_congr_left
  intro x _
  rw [phase_opposite hk, map_mul, Complex.conj_ofReal]

theorem prod_ne {nmesh : List ℕ} (hpos : ∀ n ∈ nmesh, 0 < n) : nmesh.prod ≠ 0 := by
  intro h
  rw [List.prod_eq_zero_iff] at h
  exact absurd (hpos 0 h) (by omega)

theorem prod_cancel {n : ℕ} (h : n ≠ 0) (z : ℂ) : (n : ℂ) * z * (((n : ℝ)⁻¹ : ℝ) : ℂ) = z := by
  have : (n : ℂ) ≠ 0 := Nat.cast_ne_zero.2 h
  rw [Complex.ofReal_inv, Complex.ofReal_natCast]
  field_simp

/-- **C29**: `c2r(r2c(f)) = f` for every real mesh (also of odd sizes), in either storage. -/
theorem C29_c2r_r2c (nmesh cshape : List ℕ) (hne : nmesh ≠ []) (hpos : ∀ n ∈ nmesh, 0 < n) (hs : StoredShape nmesh cshape)
    (f : List ℕ → ℝ) (F : List ℕ → ℂ) (hF : ∀ k, ValidIndex cshape k → F k = r2c nmesh f k) (x : List ℕ)
    (hx : ValidIndex nmesh x) : c2r nmesh cshape F x = f x := by
  have h1 : ∀ k, ValidIndex nmesh k → decompress nmesh cshape F k = r2c nmesh f k := by
    intro k hk
    rw [decompress_stored hs hne hk]
    split_ifs with h
    · exact hF k h
    · rw [hF _ (opposite_stored hs hne hk h), r2c_opposite nmesh f hk, Complex.conj_conj]
  unfold c2r
  have h2 : dftBackward nmesh (decompress nmesh cshape F) x = dftBackward nmesh (r2c nmesh f) x := by
    rw [dftBackward_eq, dftBackward_eq]
    apply sum_congr'
    intro k hk
    rw [h1 k (mem_ndindex.1 hk)]
  have h3 : dftBackward nmesh (r2c nmesh f) x = f x := by
    have h4 : dftBackward nmesh (r2c nmesh f) x =
        dftBackward nmesh (dftForward nmesh fun x => (f x : ℂ)) x * (((nmesh.prod : ℕ) : ℝ)⁻¹ : ℝ) := by
      rw [dftBackward_eq, dftBackward_eq, ← sum_mulc]
      apply sum_congr'
      intro k _
      unfold r2c
      rw [prod_inv]
      ring
    rw [h4, backward_forward nmesh _ hx]
    exact prod_cancel (prod_ne hpos) _
  rw [h2, h3, Complex.ofReal_re]

/-- **C29**: `r2c(c2r(F)) = F` for every Hermitian spectrum, in either storage. -/
theorem C29_r2c_c2r (nmesh cshape : List ℕ) (hne : nmesh ≠ []) (hpos : ∀ n ∈ nmesh, 0 < n) (hs : StoredShape nmesh cshape)
    (F : List ℕ → ℂ) (hF : HermitianStored nmesh cshape F) (k : List ℕ) (hk : ValidIndex cshape k) :
    r2c nmesh (c2r nmesh cshape F) k = F k := by
  have hkv := stored_valid hs hne hpos hk
  have hreal : ∀ x, ValidIndex nmesh x → ((c2r nmesh cshape F x : ℝ) : ℂ) = dftBackward nmesh (decompress nmesh cshape F) x := by
    intro x _
    have hconj : (starRingEnd ℂ) (dftBackward nmesh (decompress nmesh cshape F) x) =
        dftBackward nmesh (decompress nmesh cshape F) x := by
      rw [dftBackward_eq, conj_sum]
      have hp : List.Perm ((ndindex nmesh).map (opposite nmesh)) (ndindex nmesh) := by
        rw [List.perm_ext_iff_of_nodup ?_ (ndindex_nodup _)]
        · intro i
          rw [List.mem_map, mem_ndindex]
          constructor
          · rintro ⟨j, hj, rfl⟩
            exact opposite_valid (mem_ndindex.1 hj)
          · intro h
            exact ⟨_, mem_ndindex.2 (opposite_valid h), opposite_opposite h⟩
        · refine List.Nodup.map_on ?_ (ndindex_nodup _)
          intro a ha b hb hab
          rw [← opposite_opposite (mem_ndindex.1 ha), hab, opposite_opposite (mem_ndindex.1 hb)]
      rw [← (hp.map _).sum_eq (l₁ := ((ndindex nmesh).map (opposite nmesh)).map
        fun k => decompress nmesh cshape F k * phase nmesh k x), List.map_map]
      apply sum_congr'
      intro j hj
      have hj' := mem_ndindex.1 hj
      show _ = decompress nmesh cshape F (opposite nmesh j) * phase nmesh (opposite nmesh j) x
      rw [decompress_hermitian hs hne hF hj', phase_opposite hj', map_mul]
    unfold c2r
    rw [Complex.conj_eq_iff_re] at hconj
    exact hconj
  unfold r2c
  rw [dftForward_eq]
  have h1 : ((ndindex nmesh).map fun x => ((c2r nmesh cshape F x : ℝ) : ℂ) * (starRingEnd ℂ) (phase nmesh k x)).sum =
      dftForward nmesh (dftBackward nmesh (decompress nmesh cshape F)) k := by
    rw [dftForward_eq]
    apply sum_congr'
    intro x hx
    rw [hreal x (mem_ndindex.1 hx)]
  rw [h1, forward_backward nmesh _ hkv, decompress_stored hs hne hkv, if_pos hk, prod_inv]
  exact prod_cancel (prod_ne hpos) _

/-- **C29**: the zero mode of `r2c(f)` is the mean of `f`. -/
theorem C29_mean (nmesh : List ℕ) (f : List ℕ → ℝ) :
    r2c nmesh f (nmesh.map fun _ => 0) = ((((ndindex nmesh).map f).sum / (nmesh.prod : ℕ) : ℝ) : ℂ) := by
  have hz : ∀ (ns : List ℕ) (x : List ℕ), phaseArg ns (ns.map fun _ => 0) x = 0 := by
    intro ns
    induction ns with
    | nil => intro x; simp [phaseArg]
    | cons n ns ih =>
      intro x
      cases x with
      | nil => simp [phaseArg]
      | cons a x =>
        have := ih x
        rw [List.map_cons]
        simp only [phaseArg]
        rw [this]
        simp
  have hsum : ∀ l : List (List ℕ), (l.map fun x => ((f x : ℝ) : ℂ)).sum = (((l.map f).sum : ℝ) : ℂ) := by
    intro l
    induction l with
    | nil => simp
    | cons a l ih => rw [List.map_cons, List.sum_cons, ih, List.map_cons, List.sum_cons, Complex.ofReal_add]
  unfold r2c dftForward
  rw [prod_inv]
  simp only [hz, Complex.ofReal_zero, mul_zero, neg_zero, Complex.exp_zero, mul_one]
  rw [hsum, ← Complex.ofReal_mul, div_eq_mul_inv]

/-- **C29** for a mesh of complex numbers. -/
theorem C29_complex (nmesh : List ℕ) (hpos : ∀ n ∈ nmesh, 0 < n) (f : List ℕ → ℂ) (x : List ℕ) (hx : ValidIndex nmesh x) :
    c2rFull nmesh (r2cFull nmesh f) x = f x ∧ r2cFull nmesh (c2rFull nmesh f) x = f x := by
  constructor
  · have h4 : dftBackward nmesh (r2cFull nmesh f) x =
        dftBackward nmesh (dftForward nmesh f) x * (((nmesh.prod : ℕ) : ℝ)⁻¹ : ℝ) := by
      rw [dftBackward_eq, dftBackward_eq, ← sum_mulc]
      apply sum_congr'
      intro k _
      unfold r2cFull
      rw [prod_inv]
      ring
    unfold c2rFull
    rw [h4, backward_forward nmesh _ hx]
    exact prod_cancel (prod_ne hpos) _
  · unfold r2cFull
    have : dftForward nmesh (c2rFull nmesh f) x = dftForward nmesh (dftBackward nmesh f) x := rfl
    rw [this, forward_backward nmesh _ hx, prod_inv]
    exact prod_cancel (prod_ne hpos) _

/-! ## C30 -/

theorem toCx_conj (z : ℂ) : toCx ((starRingEnd ℂ) z) = cxConj (toCx z) := by
  simp [toCx, cxConj]

/-- Parseval in the form needed: for a Hermitian spectrum and a real mesh. -/
theorem dot_transform {nmesh cshape : List ℕ} (F : List ℕ → ℂ) (v : List ℕ → ℝ) :
    ((ndindex nmesh).map fun k => (decompress nmesh cshape F k * (starRingEnd ℂ) (dftForward nmesh (fun x => (v x : ℂ)) k)).re).sum =
      ((ndindex nmesh).map fun x => c2r nmesh cshape F x * v x).sum := by
  have hre : ∀ (l : List (List ℕ)) (g : List ℕ → ℂ), (l.map fun k => (g k).re).sum = ((l.map g).sum).re := by
    intro l g
    induction l with
    | nil => simp
    | cons a l ih => simp [ih]
  have h1 : ((ndindex nmesh).map fun k => decompress nmesh cshape F k *
      (starRingEnd ℂ) (dftForward nmesh (fun x => (v x : ℂ)) k)).sum =
      ((ndindex nmesh).map fun x => dftBackward nmesh (decompress nmesh cshape F) x * (v x : ℂ)).sum := by
    simp only [dftForward_eq, dftBackward_eq, conj_sum, ← sum_cmul, ← sum_mulc]
    rw [sum_swapC]
    apply sum_congr'
    intro x _
    apply sum_congr'
    intro k _
    rw [map_mul, Complex.conj_conj, Complex.conj_ofReal]
    ring
  rw [hre, h1, ← hre]
  apply sum_congr'
  intro x _
  unfold c2r
  rw [Complex.mul_re]
  simp

section C30
variable (t : Tiling) (ht : t.OK) (hne : t.nmesh ≠ []) (hst : t.Storage)
  (heven : t.cshape ≠ t.nmesh → t.nmesh.getLastD 0 % 2 = 0)
  (tr : Tiling) (htr : tr.OK) (hmesh : tr.nmesh = t.nmesh) (hfull : tr.cshape = t.nmesh)
include ht hne hst heven htr hmesh hfull

/-- `cdot` of two real meshes is the sum over the mesh, on every rank. -/
theorem realCdot_return {K : Type} [Field K] (f g : ℕ → List ℕ → K) (A B : List ℕ → K) (hf : tr.Holds f A) (hg : tr.Holds g B) :
    AllReturn tr.nrank (fun r => realCdot tr r (f r) (g r)) fun _ => ((ndindex t.nmesh).map fun x => A x * B x).sum := by
  unfold realCdot
  refine AllReturn.coll htr.rank_pos ?_
  refine AllReturn.congr (fun _ _ => rfl) (fun r hr => ?_) (AllReturn.ret tr.nrank _)
  rw [← hfull, ← tiles_sum htr]
  apply sum_congr'
  intro r hr
  rw [List.mem_range] at hr
  apply sum_congr'
  intro c hc
  rw [hf r hr c (mem_ndindex.1 hc), hg r hr c (mem_ndindex.1 hc)]

/-- The real part of `cdot` of two Hermitian spectra of which the stored parts are given. -/
theorem cdot_return (F G : List ℕ → ℂ) (hF : HermitianStored t.nmesh t.cshape F) (hG : HermitianStored t.nmesh t.cshape G)
    (f g : ℕ → List ℕ → Cx ℝ) (hf : t.Holds f fun k => toCx (F k)) (hg : t.Holds g fun k => toCx (G k)) :
    ∃ im, AllReturn t.nrank (fun r => cdot Real.pi t [] none r (f r) (g r)) (fun _ =>
      some (((ndindex t.nmesh).map fun k =>
        (decompress t.nmesh t.cshape F k * (starRingEnd ℂ) (decompress t.nmesh t.cshape G k)).re).sum, im)) := by
  have hs : StoredShape t.nmesh t.cshape := hst
  have hholds : ∀ (f : ℕ → List ℕ → Cx ℝ) (F : List ℕ → ℂ), t.Holds f (fun k => toCx (F k)) →
      t.Holds f fun k => toCx (decompress t.nmesh t.cshape F k) := by
    intro f F hf r hr c hc
    show _ = toCx (decompress t.nmesh t.cshape F (t.global r c))
    have := ht.inside r hr c hc
    rw [hf r hr c hc, decompress_stored hs hne (stored_valid hs hne ht.mesh_pos this), if_pos this]
  have hherm : ∀ F : List ℕ → ℂ, HermitianStored t.nmesh t.cshape F →
      HermitianSpectrum t.nmesh fun k => toCx (decompress t.nmesh t.cshape F k) := by
    intro F hF k hk
    show toCx (decompress t.nmesh t.cshape F (opposite t.nmesh k)) = cxConj (toCx (decompress t.nmesh t.cshape F k))
    rw [decompress_hermitian hs hne hF hk, toCx_conj]
  obtain ⟨re, im, h1, h2⟩ := cdot_sum Real.pi t ht hne hst heven [] none (Or.inl rfl) _ _ (hherm F hF) (hherm G hG)
    f g (hholds f F hf) (hholds g G hg)
  refine ⟨im, AllReturn.congr (fun _ _ => rfl) (fun r hr => ?_) h1⟩
  congr 2
  have h3 := congrArg Prod.fst h2
  refine Eq.trans ?_ (show _ = re from h3)
  rw [list_sum_fst]
  apply sum_congr'
  intro k _
  simp [toCx, cxMul, cxConj]

/-- **C30**, `c2r` (partial: even last axis, or full storage; real part of `cdot`).
`cdot(c2r(F), v) = cdot(F, c2r_vjp(v))` for every Hermitian spectrum `F` and real mesh `v`, on any partition of either. -/
theorem C30_c2r_partial (F : List ℕ → ℂ) (hF : HermitianStored t.nmesh t.cshape F) (v : List ℕ → ℝ)
    (f g : ℕ → List ℕ → Cx ℝ) (hf : t.Holds f fun k => toCx (F k)) (hg : t.Holds g fun k => toCx (c2rVjp t.nmesh v k))
    (y w : ℕ → List ℕ → ℝ) (hy : tr.Holds y (c2r t.nmesh t.cshape F)) (hw : tr.Holds w v) :
    ∃ a im, AllReturn tr.nrank (fun r => realCdot tr r (y r) (w r)) (fun _ => a) ∧
      AllReturn t.nrank (fun r => cdot Real.pi t [] none r (f r) (g r)) (fun _ => some (a, im)) := by
  have hs : StoredShape t.nmesh t.cshape := hst
  have hvjp : ∀ k, c2rVjp t.nmesh v k = dftForward t.nmesh (fun x => (v x : ℂ)) k := by
    intro k
    unfold c2rVjp r2c
    rw [prod_inv, prod_cast]
    have h0 : ((t.nmesh.prod : ℕ) : ℂ) ≠ 0 := Nat.cast_ne_zero.2 (prod_ne ht.mesh_pos)
    rw [Complex.ofReal_inv, Complex.ofReal_natCast, mul_assoc, inv_mul_cancel₀ h0, mul_one]
  have hGh : ∀ k, ValidIndex t.nmesh k → c2rVjp t.nmesh v (opposite t.nmesh k) = (starRingEnd ℂ) (c2rVjp t.nmesh v k) := by
    intro k hk
    unfold c2rVjp
    rw [r2c_opposite _ _ hk, map_mul, Complex.conj_ofReal]
  have hG : HermitianStored t.nmesh t.cshape (c2rVjp t.nmesh v) := fun k hk _ => hGh k (stored_valid hs hne ht.mesh_pos hk)
  obtain ⟨im, h1⟩ := cdot_return t ht hne hst heven tr htr hmesh hfull F (c2rVjp t.nmesh v) hF hG f g hf hg
  refine ⟨_, im, realCdot_return t ht hne hst heven tr htr hmesh hfull y w _ v hy hw, ?_⟩
  refine AllReturn.congr (fun _ _ => rfl) (fun r hr => ?_) h1
  congr 2
  rw [← dot_transform]
  apply sum_congr'
  intro k hk
  have hk' := mem_ndindex.1 hk
  have : decompress t.nmesh t.cshape (c2rVjp t.nmesh v) k = dftForward t.nmesh (fun x => (v x : ℂ)) k := by
    rw [decompress_stored hs hne hk']
    split_ifs
    · exact hvjp k
    · rw [hGh k hk', Complex.conj_conj, hvjp]
  rw [this]

/-- **C30**, `r2c` (partial, as above).  `cdot(r2c(u), G) = cdot(u, r2c_vjp(G))`. -/
theorem C30_r2c_partial (G : List ℕ → ℂ) (hG : HermitianStored t.nmesh t.cshape G) (u : List ℕ → ℝ)
    (f g : ℕ → List ℕ → Cx ℝ) (hf : t.Holds f fun k => toCx (r2c t.nmesh u k)) (hg : t.Holds g fun k => toCx (G k))
    (y w : ℕ → List ℕ → ℝ) (hy : tr.Holds y u) (hw : tr.Holds w (r2cVjp t.nmesh t.cshape G)) :
    ∃ a im, AllReturn tr.nrank (fun r => realCdot tr r (y r) (w r)) (fun _ => a) ∧
      AllReturn t.nrank (fun r => cdot Real.pi t [] none r (f r) (g r)) (fun _ => some (a, im)) := by
  have hs : StoredShape t.nmesh t.cshape := hst
  have hF : HermitianStored t.nmesh t.cshape (r2c t.nmesh u) :=
    fun k hk _ => r2c_opposite _ _ (stored_valid hs hne ht.mesh_pos hk)
  obtain ⟨im, h1⟩ := cdot_return t ht hne hst heven tr htr hmesh hfull (r2c t.nmesh u) G hF hG f g hf hg
  refine ⟨_, im, realCdot_return t ht hne hst heven tr htr hmesh hfull y w u _ hy hw, ?_⟩
  refine AllReturn.congr (fun _ _ => rfl) (fun r hr => ?_) h1
  congr 2
  have h3 : ((ndindex t.nmesh).map fun x => u x * r2cVjp t.nmesh t.cshape G x).sum =
      ((ndindex t.nmesh).map fun x => c2r t.nmesh t.cshape G x * u x).sum * ((t.nmesh.prod : ℕ) : ℝ)⁻¹ := by
    rw [← sum_mulc]
    apply sum_congr'
    intro x _
    unfold r2cVjp
    rw [prod_inv]
    ring
  rw [h3, ← dot_transform, ← sum_mulc]
  apply sum_congr'
  intro k hk
  have hk' := mem_ndindex.1 hk
  have : decompress t.nmesh t.cshape (r2c t.nmesh u) k = r2c t.nmesh u k := by
    rw [decompress_stored hs hne hk']
    split_ifs
    · rfl
    · rw [r2c_opposite _ _ hk', Complex.conj_conj]
  rw [this]
  unfold r2c
  rw [prod_inv]
  simp only [Complex.mul_re, Complex.mul_im, Complex.conj_re, Complex.conj_im, Complex.ofReal_re, Complex.ofReal_im]
  ring

end C30

/-! ## Examples -/

theorem exShape : StoredShape [4, 4] [4, 3] := Or.inr rfl
theorem exShapeOdd : StoredShape [3, 5] [3, 3] := Or.inr rfl

example := C29_c2r_r2c [3, 5] [3, 3] (by decide) (by decide) exShapeOdd (fun x => x.sum) _ (fun _ _ => rfl) [2, 1] (by decide)

example := C29_r2c_c2r [4, 4] [4, 3] (by decide) (by decide) exShape (r2c [4, 4] fun x => x.sum)
  (fun k hk _ => r2c_opposite _ _ (stored_valid exShape (by decide) (by decide) hk)) [2, 1] (by decide)

example := C29_complex [3, 5] (by decide) (fun x => x.sum * I) [2, 1] (by decide)

/-- The real mesh of the example, on three ranks. -/
def exRealTiling : Tiling := ⟨[4, 4], [4, 4], 3, fun r => [r, 0], fun r => if r = 2 then [2, 4] else [1, 4]⟩

theorem exRealTiling_ok : exRealTiling.OK := tiling_ok_of_decide (by decide)

example := C30_c2r_partial exTiling exTiling_ok (by decide) (Or.inr rfl) (by decide) exRealTiling exRealTiling_ok rfl rfl
  (r2c [4, 4] fun x => x.sum) (fun k hk _ => r2c_opposite _ _ (stored_valid exShape (by decide) (by decide) hk))
  (fun x => x.prod) _ _ (fun r _ c _ => rfl) (fun r _ c _ => rfl) _ _ (fun r _ c _ => rfl) (fun r _ c _ => rfl)

example := C30_r2c_partial exTiling exTiling_ok (by decide) (Or.inr rfl) (by decide) exRealTiling exRealTiling_ok rfl rfl
  (r2c [4, 4] fun x => x.sum) (fun k hk _ => r2c_opposite _ _ (stored_valid exShape (by decide) (by decide) hk))
  (fun x => x.prod) _ _ (fun r _ c _ => rfl) (fun r _ c _ => rfl) _ _ (fun r _ c _ => rfl) (fun r _ c _ => rfl)

/-- Three modes, compressed to two, and the real mesh of three points. -/
def exOddC : Tiling := ⟨[3], [2], 1, fun _ => [0], fun _ => [2]⟩
def exOddR : Tiling := ⟨[3], [3], 1, fun _ => [0], fun _ => [3]⟩

theorem exOdd_c2r : c2r [3] [2] (fun _ => 1) [0] = 3 := by
  have : ndindex [3] = [[0], [1], [2]] := by decide
  simp [c2r, dftBackward, this, phaseArg, decompress]
  norm_num

theorem exOdd_vjp (k : List ℕ) : c2rVjp [3] (fun x => if x = [0] then 1 else 0) k = 1 := by
  have : ndindex [3] = [[0], [1], [2]] := by decide
  have h0 : phaseArg [3] k [0] = 0 := by
    rcases k with _ | ⟨k, ks⟩ <;> simp [phaseArg]
  simp [c2rVjp, r2c, dftForward, this, h0]

/-- **C30 violated** for an odd size of the last axis.  Three points; the spectrum 1 and the cotangent that is 1 at the first point:
`cdot(c2r(F), v)` is 3, `cdot(F, c2r_vjp(v))` is 2. -/
theorem C30_violated_odd :
    exOddC.OK ∧ exOddR.OK ∧ HermitianStored [3] [2] (fun _ => 1) ∧
    AllReturn 1 (fun r => realCdot exOddR r (fun c => c2r [3] [2] (fun _ => 1) (exOddR.global r c))
      (fun c => if exOddR.global r c = [0] then 1 else 0)) (fun _ => 3) ∧
    AllReturn 1 (fun r => cdot Real.pi exOddC [] none r (fun _ => toCx 1)
      (fun c => toCx (c2rVjp [3] (fun x => if x = [0] then 1 else 0) (exOddC.global r c)))) (fun _ => some (2, 0)) := by
  refine ⟨tiling_ok_of_decide (by decide), tiling_ok_of_decide (by decide), fun k hk _ => by simp, ?_, ?_⟩
  · unfold realCdot
    refine AllReturn.coll (by decide) (AllReturn.congr (fun _ _ => rfl) (fun r hr => ?_) (AllReturn.ret 1 _))
    have h : ndindex [3] = [[0], [1], [2]] := by decide
    simp [exOddR, h, Tiling.global, exOdd_c2r]
  · have hc : exOddC.compressed = some true := by decide
    unfold cdot
    rw [hc]
    dsimp only
    refine AllReturn.coll (by decide) (AllReturn.congr (fun _ _ => rfl) (fun r hr => ?_) (AllReturn.ret 1 _))
    have h : ndindex [2] = [[0], [1]] := by decide
    simp only [exOdd_vjp]
    simp [exOddC, h, Tiling.global, expandHermitian, toCx, cxMul, cxConj]
    norm_num

#print axioms C29_c2r_r2c
#print axioms C29_r2c_c2r
#print axioms C29_mean
#print axioms C29_complex
#print axioms C30_c2r_partial
#print axioms C30_r2c_partial
#print axioms C30_violated_odd

end Pmesh
