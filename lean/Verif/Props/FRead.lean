import Verif.Lemmas.FRead
import Verif.Props.FAccuracy

/-!
# C73: how accurate readout is in floating point
-/

namespace Pmesh

section
variable {K : Type} [Field K] [LinearOrder K] [IsStrictOrderedRing K] [FloorRing K]

/-- **C73**.  Cloud in cell, triangular and piecewise cubic windows, up to three axes, any number of ranks, positions inside the box or up
to `B` boxes away, with rounding in every step.  `decompose` succeeds, and what `readout` returns for a particle is the sum of the
field with the exact periodic weights, off by at most the fraction `2^20 * (k + 1) * e + 512 * k * ((1 + ε)^(65 + k) - 1)` of the largest
value of the field.  Here `k` is the number of ranks that the particle is sent to, and `e` bounds `B * N * ε` for the mesh sizes `N`:
the rounding error of a position in units of cells. -/
theorem C73_readout (R : Rounding K) (ε : K) (hR : RelativeError R ε) (t : Tuned) (ht : t ≠ .nnb) (m : PMesh K) (hm : m.OK)
    (hplain : m.PlainRanks) (hd : m.nmesh.length ≤ 3) (B e : K) (hB : 1 ≤ B) (he : e ≤ 1 / 128)
    (hN : ∀ n ∈ m.nmesh, R.rnd n = n ∧ (Tuned.kern t : Kern K).native ≤ 2 * n ∧ B * n * ε ≤ e)
    (hh : m.HaloFits (List.replicate m.nmesh.length (((Tuned.kern t : Kern K).native : K) / 2 + 1 / 8)))
    (field : List ℕ → K) (F : K) (hF : ∀ g, ValidIndex m.nmesh g → |field g| ≤ F) (mem : ℕ → ℤ → K) (hmem : m.HoldsField mem field)
    (pos : List (List K))
    (hpos : ∀ x ∈ pos, x.length = m.nmesh.length ∧ ∀ j < m.nmesh.length, |x.getD j 0| ≤ B * m.box.getD j 0) :
    ∃ g L, m.domain = some g ∧
      decomposeR R g (List.replicate m.nmesh.length (((Tuned.kern t : Kern K).native : K) / 2)) (pos.map (m.toGridR R)) = .ok L ∧
      ∀ (i : ℕ) (x : List K), pos[i]? = some x →
        |m.readoutR R t mem L pos i - ((ndindex m.nmesh).map fun g => m.exactWeight t x g * field g).sum| ≤
          F * (2 ^ 20 * (L.copies m.nrank i + 1) * e + 512 * L.copies m.nrank i * ((1 + ε) ^ (65 + L.copies m.nrank i) - 1)) := by
  classical
  have hε := hR.nonneg
  have hdim : 0 < m.nmesh.length := List.length_pos_iff.2 hm.dim
  have hN' : ∀ j < m.nmesh.length, B * (m.nmesh.getD j 0 : ℕ) * ε ≤ e := by
    intro j hj
    exact (hN _ (by rw [List.getD_eq_getElem _ _ hj]; exact List.getElem_mem _)).2.2
  have hεe : ε ≤ e :=
    (le_mul_of_one_le_left hε (one_le_mul_of_one_le_of_one_le hB (by exact_mod_cast hm.nmesh_pos hdim))).trans (hN' 0 hdim)
  have he0 : 0 ≤ e := hε.trans hεe
  have hε1 : ε ≤ 1 / 64 := by linarith
  have hF0 : 0 ≤ F := by
    have : ValidIndex m.nmesh (List.replicate m.nmesh.length 0) := by
      rw [validIndex_iff]
      refine ⟨by simp, fun j hj => ?_⟩
      rw [List.getD_eq_getElem _ _ (by simpa using hj), List.getElem_replicate]
      exact hm.nmesh_pos hj
    exact (abs_nonneg _).trans (hF _ this)
  obtain ⟨g, L, hg, hL, hsec, hw⟩ := C69_particle R ε hR t ht m hm hplain hd B e hB he hN hh pos hpos
  refine ⟨g, L, hg, hL, fun i x hi => ?_⟩
  obtain ⟨hxl, hxb⟩ := hpos x (List.mem_of_getElem? hi)
  set k := L.copies m.nrank i with hk
  -- the values that come back
  set v : ℕ → K := fun r => readR R (mem r) (tunedReadsR R t (m.axesR R r) x) with hv
  have hent : m.readoutR R t mem L pos i =
      (((List.range m.nrank).filter fun r => decide (some i ∈ L.sentTo r)).map v).foldl (fun s v => R.rnd (s + v)) 0 := by
    unfold PMesh.readoutR bincountR
    congr 1
    rw [List.filter_flatMap]
    have : ((List.range m.nrank).flatMap fun r => ((L.sentTo r).filterMap fun o => o.bind fun k => (pos[k]?).map fun x =>
        (k, readR R (mem r) (tunedReadsR R t (m.axesR R r) x))).filter fun q => decide (q.1 = i)) =
        (List.range m.nrank).flatMap fun r => if some i ∈ L.sentTo r then [(i, v r)] else [] := by
      apply List.flatMap_congr
      intro r hr
      obtain ⟨l, hl, hlp⟩ := hsec r (List.mem_range.1 hr)
      rw [hl, entries_one l (hlp.imp fun h => h.ne) pos (fun x => readR R (mem r) (tunedReadsR R t (m.axesR R r) x)) i x hi]
      simp [hv]
    rw [this, flatMap_ite, List.map_map]
    rfl
  set rs := (List.range m.nrank).filter fun r => decide (some i ∈ L.sentTo r) with hrs
  have hrsk : rs.length = k := rfl
  have hrmem : ∀ r ∈ rs, r < m.nrank := fun r hr => List.mem_range.1 (List.mem_of_mem_filter hr)
  -- one rank
  set reads : ℕ → List (ℤ × K) := fun r => tunedReadsR R t (m.axesR R r) x with hreads
  have hsmall : ∀ r < m.nrank, (reads r).length ≤ 64 ∧ ∀ a ∈ reads r, |a.2| ≤ 8 ∧
      ∃ c ∈ ndindex (m.localShape r), a.1 = m.addr r c := by
    intro r hr
    obtain ⟨hsm, -⟩ := rank_weights hR he hB hm hd hN' t ht hxl hxb hr
    have hal : (m.axesR R r).length = m.nmesh.length := by simp [PMesh.axesR]
    obtain ⟨s1, s2⟩ := reads_small hR hε hε1 t (m.axesR R r) x (by omega) (by omega) hsm
    refine ⟨s1, fun a ha => ?_⟩
    obtain ⟨s3, c, s4, s5⟩ := s2 a ha
    rw [shapeOf_axesR R (hm.localShape_len hr)] at s4
    refine ⟨s3, c, mem_ndindex.2 s4, ?_⟩
    rw [s5, elemAddr_axesR R r (by rw [(validIndex_iff.1 s4).1, hm.localShape_len hr])]
  have hcell : ∀ r < m.nrank, ∀ c ∈ ndindex (m.localShape r), |mem r (m.addr r c)| ≤ F := by
    intro r hr c hc
    rw [hmem r hr c (mem_ndindex.1 hc)]
    exact hF _ (PMesh.OK.global_valid hm hr (mem_ndindex.1 hc))
  set S : ℕ → K := fun r => ((reads r).map fun q => mem r q.1 * q.2).sum with hS
  have habs : ∀ r < m.nrank, ((reads r).map fun q => |mem r q.1 * q.2|).sum ≤ 512 * F := by
    intro r hr
    obtain ⟨s1, s2⟩ := hsmall r hr
    have h := abs_sum_le_of (reads r) (fun q => |mem r q.1 * q.2|) (8 * F) 64 s1 (by positivity) (by
      intro q hq
      obtain ⟨s3, c, s4, s5⟩ := s2 q hq
      rw [abs_abs, abs_mul, mul_comm 8 F, s5]
      exact mul_le_mul (hcell r hr c s4) s3 (abs_nonneg _) hF0)
    have := (le_abs_self _).trans h
    push_cast at this
    linarith
  have hval : ∀ r < m.nrank, |v r - S r| ≤ ((1 + ε) ^ 65 - 1) * (512 * F) := by
    intro r hr
    refine (readR_near hR hε (mem r) (reads r) _ (habs r hr)).trans ?_
    apply mul_le_mul_of_nonneg_right _ (by positivity)
    have := pow_le_pow_right₀ (by linarith : 1 ≤ 1 + ε) (show (reads r).length + 1 ≤ 65 by have := (hsmall r hr).1; omega)
    linarith
  have hSabs : ∀ r < m.nrank, |S r| ≤ 512 * F := fun r hr =>
    (abs_sum_le_sum (reads r) _ _ fun q _ => le_refl _).trans (habs r hr)
  have hp65 : 1 ≤ (1 + ε) ^ 65 := one_le_pow₀ (by linarith)
  have hpk : 1 ≤ (1 + ε) ^ k := one_le_pow₀ (by linarith)
  have hvabs : ∀ r < m.nrank, |v r| ≤ (1 + ε) ^ 65 * (512 * F) := by
    intro r hr
    have h1 := hval r hr
    have h2 := hSabs r hr
    have := abs_sub_abs_le_abs_sub (v r) (S r)
    linarith
  have hgather := foldl_store hε hR (rs.map v) 0
  rw [← hent, abs_zero, zero_add, zero_add, List.length_map, hrsk, List.map_map] at hgather
  have g1 : (rs.map ((fun x => |x|) ∘ v)).sum ≤ k * ((1 + ε) ^ 65 * (512 * F)) := by
    have h := abs_sum_le_of rs (fun r => |v r|) ((1 + ε) ^ 65 * (512 * F)) k hrsk.le (by positivity) fun r hr => by
      rw [abs_abs]; exact hvabs r (hrmem r hr)
    exact (le_abs_self _).trans h
  have g2 : |(rs.map v).sum - (rs.map S).sum| ≤ k * (((1 + ε) ^ 65 - 1) * (512 * F)) :=
    sum_map_sub_le rs v S _ k hrsk.le (mul_nonneg (by linarith) (by positivity)) fun r hr => hval r (hrmem r hr)
  -- the weights
  set W : ℕ → List ℕ → K := fun r c => if some i ∈ L.sentTo r then addedAt (reads r) (m.addr r c) else 0 with hW
  have hinj : ∀ r < m.nrank, ∀ c ∈ ndindex (m.localShape r), ∀ c' ∈ ndindex (m.localShape r), m.addr r c = m.addr r c' → c = c' :=
    fun r hr c hc c' hc' h => hm.distinct r hr c c' (mem_ndindex.1 hc) (mem_ndindex.1 hc') h
  have g3 : (rs.map S).sum = ((List.range m.nrank).map fun r => ((ndindex (m.localShape r)).map fun c => W r c * field (m.global r c)).sum).sum := by
    rw [hrs, ← sum_filter_of_zero (List.range m.nrank) (fun r => decide (some i ∈ L.sentTo r))]
    · apply sum_congr'
      intro r hr
      have hr' := List.mem_range.1 (List.mem_of_mem_filter hr)
      have hsent : some i ∈ L.sentTo r := by simpa using List.of_mem_filter hr
      simp only [hS]
      rw [reads_by_cell (reads r) (mem r) (ndindex (m.localShape r)) (ndindex_nodup _) (m.addr r) (hinj r hr')
        fun q hq => ((hsmall r hr').2 q hq).2]
      apply sum_congr'
      intro c hc
      rw [hW]
      simp only [if_pos hsent]
      rw [hmem r hr' c (mem_ndindex.1 hc)]
    · intro r _ hr
      apply List.sum_eq_zero
      intro y hy
      obtain ⟨c, -, rfl⟩ := List.mem_map.1 hy
      rw [hW]
      simp only [if_neg (of_decide_eq_false hr), zero_mul]
  have g4 : |(rs.map S).sum - ((ndindex m.nmesh).map fun g => m.exactWeight t x g * field g).sum| ≤ F * (2 ^ 14 * e) * (64 * k + 64) := by
    have hτ : 0 ≤ F * (2 ^ 14 * e) := by positivity
    rw [g3, ← sum_ranks hm fun g => m.exactWeight t x g * field g]
    have esub : ∀ {α : Type} (z : List α) (f h : α → K), (z.map f).sum - (z.map h).sum = (z.map fun q => f q - h q).sum := by
      intro α z f h
      induction z with
      | nil => simp
      | cons q z ih => rw [List.map_cons, List.sum_cons, List.map_cons, List.sum_cons, List.map_cons, List.sum_cons, ← ih]; ring
    rw [esub]
    simp only [esub]
    have hone : ∀ {α : Type} (z : List α) (p : α → Prop) [DecidablePred p], (z.map fun c => if p c then (1 : K) else 0).sum = ((z.filter fun c => decide (p c)).length : K) := by
      intro α z p _
      induction z with
      | nil => simp
      | cons a z ih =>
        rw [List.map_cons, List.sum_cons, ih, List.filter_cons]
        by_cases h : p a <;> simp [h, add_comm]
    refine (abs_sum_le_sum _ _ (fun r => F * (2 ^ 14 * e) * ((if some i ∈ L.sentTo r then 64 else 0) +
      ((ndindex (m.localShape r)).map fun c => if m.exactWeight t x (m.global r c) ≠ 0 then (1 : K) else 0).sum)) ?_).trans ?_
    · intro r hr
      have hr' := List.mem_range.1 hr
      refine (abs_sum_le_sum _ _ (fun c => F * (2 ^ 14 * e) * ((if W r c ≠ 0 then 1 else 0) +
        if m.exactWeight t x (m.global r c) ≠ 0 then (1 : K) else 0)) ?_).trans ?_
      · intro c hc
        have h1 := (hw i x hi r hr' c (mem_ndindex.1 hc)).2
        have h2 : |field (m.global r c)| ≤ F := by
          rw [← hmem r hr' c (mem_ndindex.1 hc)]
          exact hcell r hr' c hc
        rw [← sub_mul, abs_mul]
        by_cases hz : W r c = 0 ∧ m.exactWeight t x (m.global r c) = 0
        · rw [hz.1, hz.2]
          simp
        · have h3 : |W r c - m.exactWeight t x (m.global r c)| * |field (m.global r c)| ≤ F * (2 ^ 14 * e) := by
            rw [mul_comm F]
            exact mul_le_mul h1 h2 (abs_nonneg _) (by positivity)
          refine h3.trans (le_mul_of_one_le_right hτ ?_)
          rw [not_and_or] at hz
          rcases hz with hz | hz
          · rw [if_pos hz]
            split_ifs <;> norm_num
          · rw [if_pos hz]
            split_ifs <;> norm_num
      · rw [sum_mul_left', sum_map_add]
        apply mul_le_mul_of_nonneg_left _ hτ
        apply add_le_add _ (le_refl _)
        rw [hone]
        by_cases hs : some i ∈ L.sentTo r
        · rw [if_pos hs]
          have h1 := cells_read (reads r) (ndindex (m.localShape r)) (ndindex_nodup _) (m.addr r) (hinj r hr')
          have h2 := h1.trans (hsmall r hr').1
          simp only [hW, if_pos hs]
          exact_mod_cast h2
        · rw [if_neg hs]
          simp [hW, hs]
    · rw [sum_mul_left']
      apply mul_le_mul_of_nonneg_left _ hτ
      rw [sum_map_add, sum_ranks hm fun g => if m.exactWeight t x g ≠ 0 then (1 : K) else 0, hone]
      apply add_le_add
      · have e1 : ((List.range m.nrank).map fun r => if some i ∈ L.sentTo r then (64 : K) else 0).sum = 64 * k := by
          have : (fun r => if some i ∈ L.sentTo r then (64 : K) else 0) = fun r => 64 * if some i ∈ L.sentTo r then (1 : K) else 0 := by
            funext r
            split_ifs <;> simp
          rw [this, sum_mul_left', hone, ← hrsk]
        rw [e1]
      · exact_mod_cast exactWeight_support hm hd t x
  have hgk := mul_le_mul_of_nonneg_left g1 (by linarith : 0 ≤ (1 + ε) ^ k - 1)
  have t1 := abs_sub_le (m.readoutR R t mem L pos i) (rs.map v).sum (rs.map S).sum
  have t2 := abs_sub_le (m.readoutR R t mem L pos i) (rs.map S).sum ((ndindex m.nmesh).map fun g => m.exactWeight t x g * field g).sum
  have e2 : F * (2 ^ 20 * (k + 1) * e + 512 * k * ((1 + ε) ^ (65 + k) - 1)) =
      ((1 + ε) ^ k - 1) * (k * ((1 + ε) ^ 65 * (512 * F))) + k * (((1 + ε) ^ 65 - 1) * (512 * F)) + F * (2 ^ 14 * e) * (64 * k + 64) := by
    rw [pow_add]
    ring
  rw [e2]
  linarith

end

/-- The hypotheses hold for `float64` on eight cells, two ranks, with positions inside and outside of the box, for the field with value `g` in cell
`g`; the error is below `10^-6`. -/
example : ∃ g L, halfMesh.domain = some g ∧ decomposeR (binary 53 (by norm_num)) g [1]
      ([[(3 : ℚ)], [-1 / 3], [20]].map (halfMesh.toGridR (binary 53 (by norm_num)))) = .ok L ∧
    ∀ (i : ℕ) (x : List ℚ), [[(3 : ℚ)], [-1 / 3], [20]][i]? = some x →
      |halfMesh.readoutR (binary 53 (by norm_num)) .cic (fun r a => ((4 * r + a : ℤ) : ℚ)) L [[3], [-1 / 3], [20]] i -
        ((ndindex [8]).map fun g => halfMesh.exactWeight .cic x g * ((g.getD 0 0 : ℕ) : ℚ)).sum| ≤ 1 / 10 ^ 6 := by
  obtain ⟨g, L, h1, h2, h3⟩ := C73_readout (binary 53 (by norm_num)) (1 / 2 ^ 53) (binary_relative 53 (by norm_num)) .cic (by decide) halfMesh
    halfMesh_ok halfMesh_plain (by decide) 4 (1 / 2 ^ 48) (by norm_num) (by norm_num) (by
      intro n hn
      obtain rfl : n = 8 := by simpa [halfMesh] using hn
      refine ⟨by decide +kernel, by decide, by norm_num⟩) (by
      intro j hj d hd
      obtain rfl : j = 0 := by simpa [halfMesh] using hj
      have : d < 2 := hd
      interval_cases d <;> left <;> decide +kernel) (fun g => ((g.getD 0 0 : ℕ) : ℚ)) 7 (by
      intro g hg
      cases hg with
      | cons h _ =>
        rw [List.getD_cons_zero, abs_of_nonneg (by positivity)]
        exact_mod_cast Nat.lt_succ_iff.1 h) (fun r a => ((4 * r + a : ℤ) : ℚ)) (by
      intro r hr c hc
      have : r < 2 := hr
      interval_cases r <;> (cases hc with | cons h h' => cases h'; simp [PMesh.addr, PMesh.global, PMesh.start, halfMesh])) [[3], [-1 / 3], [20]] (by
      decide +kernel)
  refine ⟨g, L, h1, ?_, fun i x hi => ?_⟩
  · simpa [Tuned.kern, linearK, halfMesh] using h2
  · refine (h3 i x hi).trans ?_
    have hk : L.copies halfMesh.nrank i ≤ 2 := (List.length_filter_le _ _).trans (by simp [halfMesh])
    generalize L.copies halfMesh.nrank i = k at hk
    interval_cases k <;> norm_num

#print axioms C73_readout

end Pmesh
