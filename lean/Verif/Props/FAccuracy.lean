import Verif.Lemmas.FField
import Verif.Props.FPaint

/-!
# C69: how accurate painting and readout are in floating point
-/

namespace Pmesh

section
variable {K : Type} [Field K] [LinearOrder K] [IsStrictOrderedRing K] [FloorRing K]

/-- **C69** (one particle).  Cloud in cell, triangular and piecewise cubic windows, up to three axes, any number of ranks, positions
inside the box or up to `B` boxes away: with rounding in every step `decompose` succeeds, and what each rank writes to each of its
cells for a particle (nothing if the particle is not sent there) is the exact periodic weight, off by at most the fraction
`2^14 * e` of the mass.  Here `e` bounds `B * N * ε` for the mesh sizes `N`: the rounding error of a position in units of cells.
In particular no particle is lost or painted twice by a disagreement between `decompose` and the painters.  The weights that
readout uses are within the same distance. -/
theorem C69_particle (R : Rounding K) (ε : K) (hR : RelativeError R ε) (t : Tuned) (ht : t ≠ .nnb) (m : PMesh K) (hm : m.OK)
    (hplain : m.PlainRanks) (hd : m.nmesh.length ≤ 3) (B e : K) (hB : 1 ≤ B) (he : e ≤ 1 / 128)
    (hN : ∀ n ∈ m.nmesh, R.rnd n = n ∧ (Tuned.kern t : Kern K).native ≤ 2 * n ∧ B * n * ε ≤ e)
    (hh : m.HaloFits (List.replicate m.nmesh.length (((Tuned.kern t : Kern K).native : K) / 2 + 1 / 8))) (pos : List (List K))
    (hpos : ∀ x ∈ pos, x.length = m.nmesh.length ∧ ∀ j < m.nmesh.length, |x.getD j 0| ≤ B * m.box.getD j 0) :
    ∃ g L, m.domain = some g ∧
      decomposeR R g (List.replicate m.nmesh.length (((Tuned.kern t : Kern K).native : K) / 2)) (pos.map (m.toGridR R)) = .ok L ∧
      (∀ r < m.nrank, ∃ l : List ℕ, L.sentTo r = l.map some ∧ l.Pairwise (· < ·)) ∧
      ∀ (i : ℕ) (x : List K), pos[i]? = some x → ∀ r < m.nrank, ∀ c, ValidIndex (m.localShape r) c →
        (∀ w, |(if some i ∈ L.sentTo r then addedAt (tunedWritesR R t (m.axesR R r) x w) (m.addr r c) else 0) -
          w * m.exactWeight t x (m.global r c)| ≤ |w| * (2 ^ 14 * e)) ∧
        |(if some i ∈ L.sentTo r then addedAt (tunedReadsR R t (m.axesR R r) x) (m.addr r c) else 0) -
          m.exactWeight t x (m.global r c)| ≤ 2 ^ 14 * e := by
  have hε := hR.nonneg
  have hn : 0 < m.nrank := by
    rw [hm.ranks]
    apply Nat.pos_of_ne_zero
    intro h
    rw [List.prod_eq_zero_iff] at h
    obtain ⟨e, he, h0⟩ := List.mem_map.1 h
    obtain ⟨j, hj, rfl⟩ := List.getElem_of_mem he
    have := (hm.slab (j := j) (by rw [← hm.edges_len]; exact hj)).two
    rw [List.getD_eq_getElem _ _ hj] at this
    omega
  have hdim : 0 < m.nmesh.length := List.length_pos_iff.2 hm.dim
  have hN' : ∀ j < m.nmesh.length, R.rnd (m.nmesh.getD j 0 : ℕ) = (m.nmesh.getD j 0 : ℕ) ∧
      (Tuned.kern t : Kern K).native ≤ 2 * m.nmesh.getD j 0 ∧ B * (m.nmesh.getD j 0 : ℕ) * ε ≤ e := by
    intro j hj
    exact hN _ (by rw [List.getD_eq_getElem _ _ hj]; exact List.getElem_mem _)
  have hpos1 : ∀ j < m.nmesh.length, (1 : K) ≤ (m.nmesh.getD j 0 : ℕ) := by
    intro j hj
    exact_mod_cast hm.nmesh_pos hj
  have hεe : ε ≤ e :=
    (le_mul_of_one_le_left hε (one_le_mul_of_one_le_of_one_le hB (hpos1 0 hdim))).trans (hN' 0 hdim).2.2
  have he0 : 0 ≤ e := hε.trans hεe
  have hε1 : ε ≤ 1 / 64 := by linarith
  obtain ⟨a, ha1, ha2, ha3, ha4⟩ := domain_eq hm hn
  have hgn : (m.gridWith a).ndim = m.nmesh.length := gridWith_ndim hm a
  have hg := grid_of_mesh_ok hm ha2 ha4
  set s0 : K := ((Tuned.kern t : Kern K).native : K) / 2 with hs0
  have hs00 : 0 ≤ s0 := by positivity
  have hf : GridInFormat R (m.gridWith a) := by
    constructor
    · intro j hj
      rw [hgn] at hj
      rw [gridWith_box hm a hj]
      exact (hN' j hj).1
    · intro j hj
      rw [hgn] at hj
      rw [gridWith_edge hm a hj (by have := (hm.slab hj).two; omega)]
      exact_mod_cast (hm.slab hj).second_pos
  have hδ : ErrorBound R (m.gridWith a) (2 * e) := by
    intro j hj y hy
    rw [hgn] at hj
    rw [gridWith_box hm a hj] at hy
    refine (hR y).trans ?_
    have h1 := mul_le_mul_of_nonneg_right hy hε
    have h2 : ((m.nmesh.getD j 0 : ℕ) : K) * ε ≤ B * (m.nmesh.getD j 0 : ℕ) * ε :=
      mul_le_mul_of_nonneg_right (le_mul_of_one_le_left (by positivity) hB) hε
    have := (hN' j hj).2.2
    linarith
  have hrep : ∀ (f : K → K), ∀ j < m.nmesh.length, ((List.replicate m.nmesh.length s0).map f).getD j 0 = f s0 := by
    intro f j hj
    rw [List.map_replicate, List.getD_eq_getElem _ _ (by simpa using hj), List.getElem_replicate]
  have hsd : ∀ j < m.nmesh.length, (List.replicate m.nmesh.length s0).getD j 0 = s0 := by
    intro j hj
    rw [List.getD_eq_getElem _ _ (by simpa using hj), List.getElem_replicate]
  have hfit : (m.gridWith a).SmoothingFits ((List.replicate m.nmesh.length s0).map (· + 2 * (2 * e))) := by
    apply smoothingFits_of_halo hm
    intro j hj d hd'
    rcases hh j hj d hd' with h | h
    · left
      rw [List.getD_eq_getElem _ _ (by simpa using hj), List.getElem_replicate] at h
      rw [hrep _ j hj]
      linarith
    · exact Or.inr h
  obtain ⟨L, h1, -, h3, h4⟩ := C56_decompose R (m.gridWith a) hg rfl (flagsAgree_of_plain hm hplain ha2 ha3 ha4) hf (2 * e) hδ
    (List.replicate m.nmesh.length s0) (by rw [hgn]; simp) (by
      intro j hj
      rw [hgn] at hj
      rw [hsd j hj, gridWith_box hm a hj]
      refine ⟨hs00, ?_⟩
      have : ((Tuned.kern t : Kern K).native : K) ≤ 2 * (m.nmesh.getD j 0 : ℕ) := by exact_mod_cast (hN' j hj).2.1
      rw [hs0]
      linarith) hfit (pos.map (m.toGridR R)) (by
      intro u hu
      obtain ⟨x, hx, rfl⟩ := List.mem_map.1 hu
      have hxl := (hpos x hx).1
      refine ⟨by rw [hgn, toGridR_length R hm hxl], fun j hj => ?_⟩
      rw [hgn] at hj
      rw [toGridR_getD R hm hxl hj]
      exact R.idem _)
  refine ⟨m.gridWith a, L, ha1, h1, h3, fun i x hi r hr c hc => ?_⟩
  obtain ⟨hxl, hxb⟩ := hpos x (List.mem_of_getElem? hi)
  have hcl : c.length = m.nmesh.length := by rw [(validIndex_iff.1 hc).1, hm.localShape_len hr]
  have hNB := fun j hj => (hN' j hj).2.2
  by_cases hsent : some i ∈ L.sentTo r
  · simp only [if_pos hsent]
    obtain ⟨hsm, hwt⟩ := rank_weights hR he hB hm hd hNB t ht hxl hxb hr
    have hwc := hwt c hc
    have hal : (m.axesR R r).length = m.nmesh.length := by simp [PMesh.axesR]
    have hshape := shapeOf_axesR R (hm.localShape_len hr)
    have hdist : DistinctElems (m.axesR R r) := by
      intro c1 c2 v1 v2 hv
      rw [hshape] at v1 v2
      rw [elemAddr_axesR R r (by rw [(validIndex_iff.1 v1).1, hm.localShape_len hr]),
        elemAddr_axesR R r (by rw [(validIndex_iff.1 v2).1, hm.localShape_len hr])] at hv
      exact hm.distinct r hr c1 c2 v1 v2 hv
    have hc' : ValidIndex (shapeOf (m.axesR R r)) c := by rw [hshape]; exact hc
    rw [← elemAddr_axesR R r hcl]
    set P := cwProd (List.zipWith (pieceStencil R t) (m.axesR R r) x) c
    set E := m.exactWeight t x (m.global r c)
    constructor
    · intro w
      have k1 := writes_near hR hε hε1 t (m.axesR R r) x (by omega) (by omega) hsm hdist w c hc'
      have k2 : |w * P - w * E| ≤ |w| * (756 * e) := by
        rw [← mul_sub, abs_mul]
        exact mul_le_mul_of_nonneg_left hwc (abs_nonneg w)
      have k3 : |w| * (168 * ε) ≤ |w| * (168 * e) := mul_le_mul_of_nonneg_left (by linarith) (abs_nonneg w)
      have k4 : 0 ≤ |w| * e := mul_nonneg (abs_nonneg w) he0
      have := abs_sub_le (addedAt (tunedWritesR R t (m.axesR R r) x w) (elemAddr (m.axesR R r) c)) (w * P) (w * E)
      linarith
    · have k1 := reads_near hR hε hε1 t (m.axesR R r) x (by omega) (by omega) hsm hdist c hc'
      have := abs_sub_le (addedAt (tunedReadsR R t (m.axesR R r) x) (elemAddr (m.axesR R r) c)) P E
      linarith
  · simp only [if_neg hsent]
    have hnr : ¬ (m.gridWith a).Reaches ((List.replicate m.nmesh.length s0).map (· - 3 * (2 * e))) (m.toGridR R x) r := fun h =>
      hsent ((h4 i (m.toGridR R x) (by rw [List.getElem?_map, hi]; rfl) r hr).1 h)
    have hfar : ∃ j, j < m.nmesh.length ∧ ∀ k : ℤ, s0 - 6 * e <
        |(m.toGridR R x).getD j 0 - ((((m.global r c).getD j 0 : ℕ) : K) + k * (m.nmesh.getD j 0 : ℕ))| := by
      by_contra hcon
      push Not at hcon
      apply hnr
      refine ⟨m.coord r, ?_, ?_, fun j hj => ?_⟩
      · unfold Grid.IsDomain; rw [gridWith_shape]; exact hm.coord_valid r hr
      · unfold Grid.Owner; rw [gridWith_shape]; exact ha3 r hr
      · rw [hgn] at hj
        obtain ⟨k, hk⟩ := hcon j hj
        rw [hrep _ j hj, gridWith_box hm a hj]
        rw [abs_le] at hk
        unfold Grid.lo Grid.hi
        have hlt := hm.coord_lt hr hj
        rw [gridWith_edge hm a hj (by omega), gridWith_edge hm a hj (by omega), ← hm.start_getD hr hj]
        have hsz := hm.localShape_getD hr hj
        rw [← hm.start_getD hr hj] at hsz
        have hcj := (validIndex_iff.1 hc).2 j (by rw [hm.localShape_len hr]; exact hj)
        have e1 : (m.global r c).getD j 0 = (m.start r).getD j 0 + c.getD j 0 :=
          getD_zipWith _ _ _ 0 0 _ _ (by rw [hm.start_len hr]; exact hj) (by omega)
        have y1 : (((m.start r).getD j 0 : ℕ) : K) ≤ ((m.global r c).getD j 0 : ℕ) := by exact_mod_cast (by omega)
        have y2 : (((m.global r c).getD j 0 : ℕ) : K) < ((m.edges.getD j []).getD ((m.coord r).getD j 0 + 1) 0 : ℕ) := by
          exact_mod_cast (by omega)
        refine ⟨((m.global r c).getD j 0 : ℕ) + k * (m.nmesh.getD j 0 : ℕ), by linarith [hk.2], by linarith [hk.1], -k, ?_, ?_⟩ <;> push_cast <;>
          linarith
    obtain ⟨j, hj, hfj⟩ := hfar
    have hw := unreached_weight hR he he0 hm hNB hε1 t ht hxl hxb (g := m.global r c) hj hfj
    constructor
    · intro w
      rw [zero_sub, abs_neg, abs_mul]
      exact mul_le_mul_of_nonneg_left (by linarith) (abs_nonneg w)
    · rw [zero_sub, abs_neg]
      linarith

/-- **C69** (the field).  The particles of all ranks are painted by `decompose`, `exchange` and the painter of each rank, which adds up in the
type of the field: `store` rounds a sum to it with relative error `η` (`2^-53`, or about `2^-24` for fields of type `f4`).  The value of every
cell is the exact sum over all particles, off by at most the fraction `2^14 * e + 512 * ((1 + η)^(64 n) - 1)` of the total mass of the `n`
particles (of its absolute value). -/
theorem C69_field (R : Rounding K) (ε : K) (hR : RelativeError R ε) (store : K → K) (η : K) (hη : 0 ≤ η)
    (hst : ∀ y, |store y - y| ≤ |y| * η) (t : Tuned) (ht : t ≠ .nnb) (m : PMesh K) (hm : m.OK)
    (hplain : m.PlainRanks) (hd : m.nmesh.length ≤ 3) (B e : K) (hB : 1 ≤ B) (he : e ≤ 1 / 128)
    (hN : ∀ n ∈ m.nmesh, R.rnd n = n ∧ (Tuned.kern t : Kern K).native ≤ 2 * n ∧ B * n * ε ≤ e)
    (hh : m.HaloFits (List.replicate m.nmesh.length (((Tuned.kern t : Kern K).native : K) / 2 + 1 / 8)))
    (srcs : List (List (List K × K)))
    (hpos : ∀ ps ∈ srcs, ∀ q ∈ ps, q.1.length = m.nmesh.length ∧ ∀ j < m.nmesh.length, |q.1.getD j 0| ≤ B * m.box.getD j 0) :
    ∃ g Ls, m.domain = some g ∧
      List.Forall₂ (fun ps L => decomposeR R g (List.replicate m.nmesh.length (((Tuned.kern t : Kern K).native : K) / 2))
        (ps.map fun q => m.toGridR R q.1) = .ok L) srcs Ls ∧
      ∀ r < m.nrank, ∀ c, ValidIndex (m.localShape r) c →
        |m.paintR store R t r (arriving srcs Ls r) (m.addr r c) - (srcs.flatten.map fun q => q.2 * m.exactWeight t q.1 (m.global r c)).sum| ≤
          (srcs.flatten.map fun q => |q.2|).sum * (2 ^ 14 * e + 512 * ((1 + η) ^ (64 * srcs.flatten.length) - 1)) := by
  have hε := hR.nonneg
  have hdim : 0 < m.nmesh.length := List.length_pos_iff.2 hm.dim
  have hN' : ∀ j < m.nmesh.length, B * (m.nmesh.getD j 0 : ℕ) * ε ≤ e := by
    intro j hj
    exact (hN _ (by rw [List.getD_eq_getElem _ _ hj]; exact List.getElem_mem _)).2.2
  have hεe : ε ≤ e :=
    (le_mul_of_one_le_left hε (one_le_mul_of_one_le_of_one_le hB (by exact_mod_cast hm.nmesh_pos hdim))).trans (hN' 0 hdim)
  have he0 : 0 ≤ e := hε.trans hεe
  have hε1 : ε ≤ 1 / 64 := by linarith
  obtain ⟨g, L0, hg, -⟩ := C69_particle R ε hR t ht m hm hplain hd B e hB he hN hh [] (by simp)
  -- the layouts, one rank at a time
  have hone : ∀ ps ∈ srcs, ∃ L, decomposeR R g (List.replicate m.nmesh.length (((Tuned.kern t : Kern K).native : K) / 2))
      (ps.map fun q => m.toGridR R q.1) = .ok L ∧ ∀ r < m.nrank, ∀ c, ValidIndex (m.localShape r) c →
        ((L.sentTo r).filterMap fun o => o.bind fun i => ps[i]?).Sublist ps ∧
        |((((L.sentTo r).filterMap fun o => o.bind fun i => ps[i]?).map fun q =>
            addedAt (tunedWritesR R t (m.axesR R r) q.1 q.2) (m.addr r c)).sum -
          (ps.map fun q => q.2 * m.exactWeight t q.1 (m.global r c)).sum)| ≤ (ps.map fun q => |q.2|).sum * (2 ^ 14 * e) := by
    intro ps hps
    obtain ⟨g', L, hg', h1, h2, h3⟩ := C69_particle R ε hR t ht m hm hplain hd B e hB he hN hh (ps.map (·.1)) (by
      intro x hx
      obtain ⟨q, hq, rfl⟩ := List.mem_map.1 hx
      exact hpos ps hps q hq)
    obtain rfl : g = g' := Option.some.inj (hg.symm.trans hg')
    rw [List.map_map] at h1
    refine ⟨L, h1, fun r hr c hc => ?_⟩
    obtain ⟨l, hl, hlp⟩ := h2 r hr
    have hmem : ∀ i, some i ∈ L.sentTo r ↔ i ∈ l := by
      intro i
      rw [hl]
      simp
    rw [hl, arriving_one ps l hlp]
    refine ⟨filterMap_range_sublist ps _, ?_⟩
    rw [filterMap_range_sum ps (fun i => decide (i ∈ l))]
    have ez : ∀ f : List K × K → K, (ps.map f).sum = (ps.zipIdx.map fun q => f q.1).sum := by
      intro f
      conv_lhs => rw [← List.zipIdx_map_fst 0 ps, List.map_map]
      rfl
    rw [ez fun q => q.2 * m.exactWeight t q.1 (m.global r c), ez fun q => |q.2|]
    have esub : ∀ (z : List ((List K × K) × ℕ)) (f h : (List K × K) × ℕ → K), (z.map f).sum - (z.map h).sum = (z.map fun q => f q - h q).sum := by
      intro z f h
      induction z with
      | nil => simp
      | cons q z ih => rw [List.map_cons, List.sum_cons, List.map_cons, List.sum_cons, List.map_cons, List.sum_cons, ← ih]; ring
    rw [esub]
    have key : ∀ z : List ((List K × K) × ℕ), (∀ q ∈ z, ps[q.2]? = some q.1) →
        |(z.map fun q => (if decide (q.2 ∈ l) then addedAt (tunedWritesR R t (m.axesR R r) q.1.1 q.1.2) (m.addr r c) else 0) -
          q.1.2 * m.exactWeight t q.1.1 (m.global r c)).sum| ≤ (z.map fun q => |q.1.2|).sum * (2 ^ 14 * e) := by
      intro z hz
      induction z with
      | nil => simp
      | cons q z ih =>
        rw [List.map_cons, List.sum_cons, List.map_cons, List.sum_cons, add_mul]
        refine (abs_add_le _ _).trans (add_le_add ?_ (ih fun q hq => hz q (by simp [hq])))
        have hq := hz q (by simp)
        have := (h3 q.2 q.1.1 (by rw [List.getElem?_map, hq]; rfl) r hr c hc).1 q.1.2
        simpa only [hmem, decide_eq_true_eq] using this
    apply key
    intro q hq
    have := List.mem_zipIdx_iff_getElem?.1 hq
    simpa using this
  have hex : ∃ Ls, List.Forall₂ (fun ps (L : Sends) => decomposeR R g (List.replicate m.nmesh.length (((Tuned.kern t : Kern K).native : K) / 2))
        (ps.map fun q => m.toGridR R q.1) = .ok L) srcs Ls ∧
      ∀ r < m.nrank, ∀ c, ValidIndex (m.localShape r) c → (arriving srcs Ls r).Sublist srcs.flatten ∧
        |((arriving srcs Ls r).map fun q => addedAt (tunedWritesR R t (m.axesR R r) q.1 q.2) (m.addr r c)).sum -
          (srcs.flatten.map fun q => q.2 * m.exactWeight t q.1 (m.global r c)).sum| ≤ (srcs.flatten.map fun q => |q.2|).sum * (2 ^ 14 * e) := by
    clear hpos
    induction srcs with
    | nil => exact ⟨[], .nil, fun r _ c _ => by simp [arriving]⟩
    | cons ps srcs ih =>
      obtain ⟨L, k1, k2⟩ := hone ps (by simp)
      obtain ⟨Ls, i1, i2⟩ := ih fun ps hps => hone ps (by simp [hps])
      refine ⟨L :: Ls, .cons k1 i1, fun r hr c hc => ?_⟩
      obtain ⟨a1, a2⟩ := k2 r hr c hc
      obtain ⟨b1, b2⟩ := i2 r hr c hc
      have e1 : arriving (ps :: srcs) (L :: Ls) r = ((L.sentTo r).filterMap fun o => o.bind fun i => ps[i]?) ++ arriving srcs Ls r := by
        simp [arriving]
      rw [e1, List.flatten_cons]
      refine ⟨a1.append b1, ?_⟩
      simp only [List.map_append, List.sum_append]
      rw [add_mul, add_sub_add_comm]
      exact (abs_add_le _ _).trans (add_le_add a2 b2)
  obtain ⟨Ls, hLs, hrc⟩ := hex
  refine ⟨g, Ls, hg, hLs, fun r hr c hc => ?_⟩
  obtain ⟨hsub, hsum⟩ := hrc r hr c hc
  -- the running sums
  unfold PMesh.paintR
  rw [depositR_get]
  set fl := (arriving srcs Ls r).flatMap fun q => tunedWritesR R t (m.axesR R r) q.1 q.2 with hfl
  have hacc := foldl_store hη hst ((fl.filter fun w => w.1 = m.addr r c).map (·.2)) 0
  have hal : (m.axesR R r).length = m.nmesh.length := by simp [PMesh.axesR]
  obtain ⟨n1, n2⟩ := flatMap_small (arriving srcs Ls r) (fun q => tunedWritesR R t (m.axesR R r) q.1 q.2) (·.2) (m.addr r c) (by
    intro q hq
    obtain ⟨ps, hps, hqp⟩ := List.mem_flatten.1 (hsub.subset hq)
    obtain ⟨hxl, hxb⟩ := hpos ps hps q hqp
    obtain ⟨hsm, -⟩ := rank_weights hR he hB hm hd hN' t ht hxl hxb hr
    exact writes_small hR hε hε1 t (m.axesR R r) q.1 (by omega) (by omega) hsm q.2)
  rw [← hfl] at n1 n2
  have hadd : ((fl.filter fun w => w.1 = m.addr r c).map (·.2)).sum =
      ((arriving srcs Ls r).map fun q => addedAt (tunedWritesR R t (m.axesR R r) q.1 q.2) (m.addr r c)).sum := addedAt_flatMap _ _ _
  rw [abs_zero, zero_add, zero_add, hadd] at hacc
  set V := (fl.filter fun w => w.1 = m.addr r c).map (·.2)
  have hA : ((arriving srcs Ls r).map fun q => |q.2|).sum ≤ (srcs.flatten.map fun q => |q.2|).sum :=
    (hsub.map fun q => |q.2|).sum_le_sum (by
      intro v hv
      obtain ⟨q, -, rfl⟩ := List.mem_map.1 hv
      exact abs_nonneg _)
  have hlen : V.length ≤ 64 * srcs.flatten.length := n1.trans (Nat.mul_le_mul_left _ hsub.length_le)
  have hpow : (1 + η) ^ V.length ≤ (1 + η) ^ (64 * srcs.flatten.length) := pow_le_pow_right₀ (by linarith) hlen
  have hp1 : 1 ≤ (1 + η) ^ V.length := one_le_pow₀ (by linarith)
  set M := (srcs.flatten.map fun q => |q.2|).sum
  have hVM : (V.map (|·|)).sum ≤ 512 * M := n2.trans (by linarith)
  have hV0 : 0 ≤ (V.map (|·|)).sum := List.sum_nonneg (by
    intro x hx
    obtain ⟨y, -, rfl⟩ := List.mem_map.1 hx
    exact abs_nonneg y)
  have hprod : ((1 + η) ^ V.length - 1) * (V.map (|·|)).sum ≤ ((1 + η) ^ (64 * srcs.flatten.length) - 1) * (512 * M) :=
    mul_le_mul (by linarith) hVM hV0 (by linarith)
  have := abs_sub_le (V.foldl (fun s v => store (s + v)) 0)
    ((arriving srcs Ls r).map fun q => addedAt (tunedWritesR R t (m.axesR R r) q.1 q.2) (m.addr r c)).sum
    (srcs.flatten.map fun q => q.2 * m.exactWeight t q.1 (m.global r c)).sum
  linarith

end

/-- `float64` has relative error `2^-53`, and `float32` `2^-24`. -/
theorem binary_relative {K : Type*} [Field K] [LinearOrder K] [IsStrictOrderedRing K] [FloorRing K] (p : ℕ) (hp : 1 ≤ p) :
    RelativeError (binary p hp : Rounding K) (1 / 2 ^ p) := by
  intro y
  have := flRound_err (K := K) p y
  rwa [div_eq_mul_one_div] at this

/-- Eight cells on two ranks, four on each. -/
def halfMesh : PMesh ℚ := ⟨[8], [8], [[0, 4, 8]], 2, fun r => [r], fun _ => [1], fun _ => 77⟩

theorem halfMesh_ok : halfMesh.OK where
  dim := by decide
  box_len := by decide
  box_pos := by decide +kernel
  edges := .cons (slabEdges_of_decide (by decide)) .nil
  ranks := by decide
  coord_valid := by
    intro r hr
    have : r < 2 := hr
    interval_cases r <;> exact .cons (by decide) .nil
  coord_inj := by
    intro r _ r' _ h
    simpa [halfMesh] using h
  distinct := by
    intro r hr c c' h h' he
    have hl : (halfMesh.localShape r).length = 1 := by simp [PMesh.localShape, halfMesh]
    have h1 := (validIndex_iff.1 h).1
    have h2 := (validIndex_iff.1 h').1
    rw [hl] at h1 h2
    obtain ⟨a, rfl⟩ := List.length_eq_one_iff.1 h1
    obtain ⟨b, rfl⟩ := List.length_eq_one_iff.1 h2
    simp [PMesh.addr, halfMesh] at he
    rw [he]

theorem halfMesh_plain : halfMesh.PlainRanks := Or.inl (by decide)

/-- The hypotheses of `C69_field` hold for `float64` on eight cells, two ranks with particles inside and outside of the box; the error is below
`10^-9` of the mass. -/
example : ∃ g Ls, halfMesh.domain = some g ∧ List.Forall₂ (fun (ps : List (List ℚ × ℚ)) L => decomposeR (binary 53 (by norm_num)) g [1]
      (ps.map fun q => halfMesh.toGridR (binary 53 (by norm_num)) q.1) = .ok L) [[([3], 1), ([-1 / 3], 2)], [([20], 1)]] Ls ∧
    ∀ r < halfMesh.nrank, ∀ c, ValidIndex (halfMesh.localShape r) c →
      |halfMesh.paintR (flRound 53) (binary 53 (by norm_num)) .cic r (arriving [[([(3 : ℚ)], (1 : ℚ)), ([-1 / 3], 2)], [([20], 1)]] Ls r) (halfMesh.addr r c) -
        (halfMesh.exactWeight .cic [3] (halfMesh.global r c) + (2 * halfMesh.exactWeight .cic [-1 / 3] (halfMesh.global r c) +
          halfMesh.exactWeight .cic [20] (halfMesh.global r c)))| ≤ 1 / 10 ^ 9 := by
  obtain ⟨g, Ls, h1, h2, h3⟩ := C69_field (binary 53 (by norm_num)) (1 / 2 ^ 53) (binary_relative 53 (by norm_num)) (flRound 53) (1 / 2 ^ 53)
    (by positivity) (binary_relative 53 (by norm_num)) .cic (by decide) halfMesh halfMesh_ok halfMesh_plain (by decide) 4 (1 / 2 ^ 48) (by norm_num)
    (by norm_num) (by
      intro n hn
      obtain rfl : n = 8 := by simpa [halfMesh] using hn
      refine ⟨by decide +kernel, by decide, by norm_num⟩) (by
      intro j hj d hd
      obtain rfl : j = 0 := by simpa [halfMesh] using hj
      have : d < 2 := hd
      interval_cases d <;> left <;> decide +kernel) [[([3], 1), ([-1 / 3], 2)], [([20], 1)]] (by
      decide +kernel)
  refine ⟨g, Ls, h1, ?_, fun r hr c hc => ?_⟩
  · simpa [Tuned.kern, linearK, halfMesh] using h2
  · have := h3 r hr c hc
    simp only [List.flatten_cons, List.flatten_nil, List.append_nil, List.cons_append, List.nil_append, List.map_cons, List.map_nil, List.sum_cons,
      List.sum_nil, one_mul, add_zero, List.length_cons, List.length_nil] at this
    refine this.trans ?_
    norm_num

#print axioms C69_particle
#print axioms C69_field

end Pmesh
