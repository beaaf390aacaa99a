import Verif.Lemmas.FPaint
import Verif.Lemmas.RoundGrid
import Verif.Lemmas.MeshRoute

/-!
# The nearest window on a mesh, in floating point
-/

set_option linter.unusedSectionVars false

namespace Pmesh

section
variable {K : Type*} [Field K] [LinearOrder K] [IsStrictOrderedRing K] [FloorRing K]

/-- The position in units of cells, evaluated with rounding: `scale = N / L`, `u = scale * x`. -/
theorem gridCoord_bounds {p : ℕ} (hp : 4 ≤ p) {N : ℕ} (hN : (N : K) + 1 < 2 ^ ((p : ℤ) - 4)) {L x : K} (hL : 0 < L) (h0 : 0 ≤ x)
    (h1 : x ≤ L) :
    0 ≤ flRound p (flRound p ((N : K) / L) * x) ∧ flRound p (flRound p ((N : K) / L) * x) ≤ N + 1 / 4 ∧
      |flRound p (flRound p ((N : K) / L) * x) - x * N / L| ≤ 3 * N / 2 ^ p := by
  have hp1 : 1 ≤ p := by omega
  have hN0 : (0 : K) ≤ N := by positivity
  have h2p : (0 : K) < 2 ^ p := by positivity
  have h24 : (2 : K) ^ ((p : ℤ) - 4) = 2 ^ p / 16 := by
    rw [zpow_sub₀ (by norm_num), zpow_natCast]; norm_num
  rw [h24] at hN
  have h16 : (16 : K) ≤ 2 ^ p := by
    have : (2 : K) ^ 4 ≤ 2 ^ p := pow_le_pow_right₀ (by norm_num) hp
    norm_num at this; exact this
  set e : K := 1 / 2 ^ p with he
  have he0 : 0 < e := by positivity
  have he1 : e ≤ 1 / 16 := by
    rw [he]; exact one_div_le_one_div_of_le (by norm_num) h16
  have hNe : (N : K) * e ≤ 1 / 16 := by
    rw [he, mul_one_div, div_le_iff₀ h2p]; linarith
  have a0 : 0 ≤ (N : K) / L := by positivity
  have a1 := flRound_err p ((N : K) / L)
  rw [abs_of_nonneg a0, div_eq_mul_one_div ((N : K) / L) (2 ^ p), ← he] at a1
  set sc := flRound p ((N : K) / L) with hsc
  have hs0 : 0 ≤ sc := by
    have := flRound_mono hp1 a0
    rwa [flRound_zero] at this
  have hx : (N : K) / L * x ≤ N := by
    rw [div_mul_eq_mul_div, div_le_iff₀ hL]
    exact mul_le_mul_of_nonneg_left h1 hN0
  have hx0 : 0 ≤ (N : K) / L * x := by positivity
  have b0 : 0 ≤ sc * x := by positivity
  have b1 := flRound_err p (sc * x)
  rw [abs_of_nonneg b0, div_eq_mul_one_div (sc * x) (2 ^ p), ← he] at b1
  have c1 : |sc * x - (N : K) / L * x| ≤ (N : K) * e := by
    rw [← sub_mul, abs_mul, abs_of_nonneg h0]
    calc |sc - (N : K) / L| * x ≤ (N : K) / L * e * x := mul_le_mul_of_nonneg_right a1 h0
      _ = (N : K) / L * x * e := by ring
      _ ≤ N * e := mul_le_mul_of_nonneg_right hx he0.le
  have c2 : sc * x ≤ N + N * e := by
    have := (abs_le.1 c1).2
    linarith
  have c3 : sc * x * e ≤ 2 * (N * e) := by
    have : sc * x * e ≤ (N + N * e) * e := mul_le_mul_of_nonneg_right c2 he0.le
    have h3 : N * e * e ≤ N * e * 1 := mul_le_mul_of_nonneg_left (by linarith) (by positivity)
    nlinarith
  have key : |flRound p (sc * x) - x * N / L| ≤ 3 * N * e := by
    have e1 : x * N / L = (N : K) / L * x := by ring
    rw [e1]
    have := abs_sub_le (flRound p (sc * x)) (sc * x) ((N : K) / L * x)
    linarith
  refine ⟨?_, ?_, ?_⟩
  · have := flRound_mono hp1 b0
    rwa [flRound_zero] at this
  · have k := (abs_le.1 key).2
    have e1 : x * N / L = (N : K) / L * x := by ring
    rw [e1] at k
    linarith
  · have e2 : 3 * (N : K) / 2 ^ p = 3 * N * e := by rw [he]; ring
    rw [e2]; exact key

/-- The cell of a particle is not farther from it than half a cell and the rounding errors. -/
theorem cellR_near {p : ℕ} (hp : 4 ≤ p) {N : ℕ} {u y : K} (h0 : 0 ≤ u) (h1 : u ≤ N + 1 / 4) (hy : |u - y| ≤ 3 * N / 2 ^ p) :
    |y - (cellR p u : K)| ≤ 1 / 2 + 4 * (N + 1) / 2 ^ p := by
  have h2p : (0 : K) < 2 ^ p := by positivity
  have hN0 : (0 : K) ≤ N := by positivity
  have a := flRound_err p (u + 1 / 2)
  rw [abs_of_nonneg (show (0 : K) ≤ u + 1 / 2 by linarith)] at a
  have a2 : (u + 1 / 2) / 2 ^ p ≤ (N + 1) / 2 ^ p := div_le_div_of_nonneg_right (by linarith) h2p.le
  have f1 := Int.floor_le (flRound p (u + 1 / 2))
  have f2 := Int.lt_floor_add_one (flRound p (u + 1 / 2))
  have e : 4 * ((N : K) + 1) / 2 ^ p = 3 * N / 2 ^ p + (N + 1) / 2 ^ p + 3 * (1 / 2 ^ p) := by ring
  have h3 : (0 : K) ≤ 1 / 2 ^ p := by positivity
  unfold cellR
  rw [abs_le] at a hy ⊢
  rw [e]
  constructor <;> linarith [a.1, a.2, hy.1, hy.2]

/-- The interval that `decompose` sends a particle for has a point in its cell. -/
theorem nnb_delivery {p : ℕ} (hp : 4 ≤ p) {N : ℕ} (hN : 0 < N) (hNp : (N : K) + 1 < 2 ^ ((p : ℤ) - 3)) {u : K} (h0 : 0 ≤ u)
    (h1 : u ≤ N + 1 / 4) (R : Rounding K) (hR : R.rnd = flRound p) :
    ∃ k : ℤ, ((cellR p u % (N : ℤ) : ℤ) : K) + k * N ≤ R.rnd (fpMod R u N + 1 / 2) ∧
      R.rnd (fpMod R u N + 1 / 2) < ((cellR p u % (N : ℤ) : ℤ) : K) + k * N + 1 ∧ fpMod R u N < N := by
  have hp1 : 1 ≤ p := by omega
  have hNK : (0 : K) < N := by exact_mod_cast hN
  have hN1 : (1 : K) ≤ N := by exact_mod_cast hN
  have hpm : fpMod R u N = pyMod u N := by rw [fpMod_eq R hNK, if_pos h0]
  have p32 : (2 : K) ^ ((p : ℤ) - 3) ≤ 2 ^ ((p : ℤ) - 2) := zpow_le_zpow_right₀ (by norm_num) (by omega)
  rw [hpm, hR]
  obtain ⟨q0, q1⟩ := cellR_range hp1 hNp h0 h1
  rcases lt_or_ge u (N : K) with h | h
  · rw [pyMod_self_of hNK h0 h]
    refine ⟨cellR p u / N, ?_, ?_, h⟩
    all_goals
      have e : ((cellR p u % (N : ℤ) : ℤ) : K) + (cellR p u / (N : ℤ) : ℤ) * N = cellR p u := by
        have := Int.emod_add_mul_ediv (cellR p u) N
        have := congrArg (Int.cast : ℤ → K) this
        push_cast at this
        linarith
      rw [e]
    · exact Int.floor_le _
    · exact Int.lt_floor_add_one _
  · have hq : cellR p u = N := by
      apply le_antisymm q1
      unfold cellR
      rw [Int.le_floor]
      have := flRound_mono hp1 (show (N : K) ≤ u + 1 / 2 by linarith)
      rw [flRound_quarter (x := (N : K)) (n := 4 * N) (by push_cast; ring) (by rw [abs_of_nonneg] <;> linarith)] at this
      push_cast
      exact this
    have hm : pyMod u N = u - N := by
      have hf : ⌊u / (N : K)⌋ = 1 := by
        rw [Int.floor_eq_iff, le_div_iff₀ hNK, div_lt_iff₀ hNK]
        push_cast
        constructor <;> linarith
      unfold pyMod
      rw [hf]; push_cast; ring
    rw [hm, hq, Int.emod_self]
    refine ⟨0, ?_, ?_, by linarith⟩
    · have := flRound_mono hp1 (show (0 : K) ≤ u - N + 1 / 2 by linarith)
      rw [flRound_zero] at this
      push_cast; linarith
    · have := flRound_mono hp1 (show u - (N : K) + 1 / 2 ≤ 3 / 4 by linarith)
      rw [flRound_quarter (x := (3 / 4 : K)) (n := 3) (by norm_num) (by rw [abs_of_nonneg] <;> linarith)] at this
      push_cast; linarith

end

section
variable {K : Type} [Field K] [LinearOrder K] [IsStrictOrderedRing K] [FloorRing K]

theorem scaleR_getD (R : Rounding K) {m : PMesh K} (hm : m.OK) {j : ℕ} (hj : j < m.nmesh.length) :
    (m.scaleR R).getD j 0 = R.rnd ((m.nmesh.getD j 0 : ℕ) / m.box.getD j 0) :=
  getD_zipWith _ _ _ 0 0 _ _ hj (by rw [hm.box_len]; exact hj)

theorem toGridR_getD (R : Rounding K) {m : PMesh K} (hm : m.OK) {x : List K} (hx : x.length = m.nmesh.length) {j : ℕ}
    (hj : j < m.nmesh.length) : (m.toGridR R x).getD j 0 = R.rnd ((m.scaleR R).getD j 0 * x.getD j 0) := by
  unfold PMesh.toGridR
  exact getD_zipWith _ _ _ 0 0 _ _ (by simp [PMesh.scaleR, hm.box_len, hj]) (by omega)

theorem toGridR_length (R : Rounding K) {m : PMesh K} (hm : m.OK) {x : List K} (hx : x.length = m.nmesh.length) :
    (m.toGridR R x).length = m.nmesh.length := by
  simp [PMesh.toGridR, PMesh.scaleR, hm.box_len, hx]

theorem SlabEdges.second_pos {n : ℕ} {e : List ℕ} (h : SlabEdges n e) : 0 < e.getD 1 0 := by
  have h2 := h.two
  rcases Nat.lt_or_ge 2 e.length with h3 | h3
  · have := List.pairwise_iff_getElem.1 h.starts 0 1 (by simp; omega) (by simp; omega) (by omega)
    rw [List.getElem_dropLast, List.getElem_dropLast] at this
    rw [List.getD_eq_getElem _ _ (by omega)]
    omega
  · have := h.last_getD
    rw [show e.length - 1 = 1 by omega] at this
    rw [this]; exact h.pos

/-- The particle in units of cells, along an axis. -/
theorem toGridR_bounds {p : ℕ} (hp : 4 ≤ p) {m : PMesh K} (hm : m.OK) (hN : ∀ n ∈ m.nmesh, (n : K) + 1 < 2 ^ ((p : ℤ) - 4))
    {x : List K} (hx : x.length = m.nmesh.length) {j : ℕ} (hj : j < m.nmesh.length) (h0 : 0 ≤ x.getD j 0)
    (h1 : x.getD j 0 ≤ m.box.getD j 0) :
    0 ≤ (m.toGridR (binary p (by omega)) x).getD j 0 ∧
    (m.toGridR (binary p (by omega)) x).getD j 0 ≤ (m.nmesh.getD j 0 : ℕ) + 1 / 4 ∧
    |(m.toGridR (binary p (by omega)) x).getD j 0 - x.getD j 0 * (m.nmesh.getD j 0 : ℕ) / m.box.getD j 0| ≤
      3 * (m.nmesh.getD j 0 : ℕ) / 2 ^ p := by
  rw [toGridR_getD _ hm hx hj, scaleR_getD _ hm hj]
  apply gridCoord_bounds hp _ _ h0 h1
  · apply hN
    rw [List.getD_eq_getElem _ _ hj]; exact List.getElem_mem _
  · apply hm.box_pos
    rw [List.getD_eq_getElem _ _ (by rw [hm.box_len]; exact hj)]; exact List.getElem_mem _

theorem axesR_get (R : Rounding K) (m : PMesh K) (r : ℕ) {j : ℕ} (hj : j < (m.axesR R r).length) :
    (m.axesR R r)[j] = ⟨0, (m.scaleR R).getD j 0, -(((m.start r).getD j 0 : ℕ) : K), m.nmesh.getD j 0, (m.localShape r).getD j 0,
      (m.strides r).getD j 0⟩ := by
  simp [PMesh.axesR]

/-- Which rank writes, and where. -/
theorem nnb_writes_mesh {p : ℕ} (hp : 4 ≤ p) {m : PMesh K} (hm : m.OK) (hd : m.nmesh.length ≤ 3)
    (hN : ∀ n ∈ m.nmesh, (n : K) + 1 < 2 ^ ((p : ℤ) - 4)) {x : List K} (hx : x.length = m.nmesh.length)
    (hb : ∀ j < m.nmesh.length, 0 ≤ x.getD j 0 ∧ x.getD j 0 ≤ m.box.getD j 0) :
    ∃ r < m.nrank, ∃ c, ValidIndex (m.localShape r) c ∧
      (∀ j < m.nmesh.length, (((m.global r c).getD j 0 : ℕ) : ℤ) =
        cellR p ((m.toGridR (binary p (by omega)) x).getD j 0) % (m.nmesh.getD j 0 : ℕ)) ∧
      (∀ w, (binary p (by omega) : Rounding K).rnd w = w →
        tunedWritesR (binary p (by omega)) .nnb (m.axesR (binary p (by omega)) r) x w = [(m.addr r c, w)]) ∧
      tunedReadsR (binary p (by omega)) .nnb (m.axesR (binary p (by omega)) r) x = [(m.addr r c, 1)] ∧
      ∀ r' < m.nrank, r' ≠ r → (∀ w, (binary p (by omega) : Rounding K).rnd w = w →
        tunedWritesR (binary p (by omega)) .nnb (m.axesR (binary p (by omega)) r') x w = []) ∧
        tunedReadsR (binary p (by omega)) .nnb (m.axesR (binary p (by omega)) r') x = [] := by
  set R : Rounding K := binary p (by omega) with hR
  have hRr : R.rnd = flRound p := rfl
  have hd1 : 1 ≤ m.nmesh.length := by
    have := hm.dim
    exact List.length_pos_iff.2 this
  set q : ℕ → ℤ := fun j => cellR p ((m.toGridR R x).getD j 0) % (m.nmesh.getD j 0 : ℕ) with hq
  have hNp : ∀ j < m.nmesh.length, ((m.nmesh.getD j 0 : ℕ) : K) + 1 < 2 ^ ((p : ℤ) - 3) := by
    intro j hj
    have h1 := hN (m.nmesh.getD j 0) (by rw [List.getD_eq_getElem _ _ hj]; exact List.getElem_mem _)
    have h2 : (2 : K) ^ ((p : ℤ) - 4) ≤ 2 ^ ((p : ℤ) - 3) := zpow_le_zpow_right₀ (by norm_num) (by omega)
    linarith
  have hq0 : ∀ j < m.nmesh.length, 0 ≤ q j ∧ q j < (m.nmesh.getD j 0 : ℕ) := by
    intro j hj
    have := hm.nmesh_pos hj
    exact ⟨Int.emod_nonneg _ (by omega), Int.emod_lt_of_pos _ (by omega)⟩
  set g : List ℕ := (List.range m.nmesh.length).map fun j => (q j).toNat with hg
  have hgj : ∀ j < m.nmesh.length, ((g.getD j 0 : ℕ) : ℤ) = q j := by
    intro j hj
    rw [hg, getD_map_range _ _ _ _ hj]
    have := (hq0 j hj).1
    omega
  have hgv : ValidIndex m.nmesh g := by
    rw [validIndex_iff]
    refine ⟨by simp [hg], fun j hj => ?_⟩
    have := hgj j hj
    have := (hq0 j hj).2
    omega
  obtain ⟨r, hr, c, hc, hrc⟩ := owner_of_cell hm hgv
  -- the local index along an axis of any rank
  have haxis : ∀ r' < m.nrank, ∀ j < m.nmesh.length, _ := fun r' hr' j hj =>
    nnb_axis hp (hm.nmesh_pos hj) (hNp j hj) (hm.block_le hr' hj) (u := (m.toGridR R x).getD j 0)
      (by rw [toGridR_getD R hm hx hj]; exact R.idem _) (toGridR_bounds hp hm hN hx hj (hb j hj).1 (hb j hj).2).1
      (toGridR_bounds hp hm hN hx hj (hb j hj).1 (hb j hj).2).2.1
  set t : ℕ → List ℤ := fun r' => List.zipWith (fun (ax : PAxis K) x =>
      tunedWrap ax.period ⌊R.rnd (ax.gridR R x + 1 / 2)⌋) (m.axesR R r') x with ht
  have htl : ∀ r', (t r').length = m.nmesh.length := by intro r'; simp [ht, axesR_len, hx]
  have htj : ∀ r', ∀ j < m.nmesh.length, (t r').getD j 0 = tunedWrap (m.nmesh.getD j 0)
      ⌊flRound p (flRound p ((m.toGridR R x).getD j 0 + -(((m.start r').getD j 0 : ℕ) : K)) + 1 / 2)⌋ := by
    intro r' j hj
    rw [List.getD_eq_getElem _ _ (by rw [htl]; exact hj), toGridR_getD R hm hx hj]
    simp only [ht, List.getElem_zipWith, axesR_get, PAxis.gridR]
    rw [List.getD_eq_getElem x _ (by omega), mul_comm]
    rfl
  have hor : ∀ r', ∀ ax ∈ m.axesR R r', ax.order = 0 := by
    intro r' ax hax
    obtain ⟨j, -, rfl⟩ := List.mem_map.1 hax
    rfl
  have hwr : ∀ r' w, R.rnd w = w → tunedWritesR R .nnb (m.axesR R r') x w = ((tunedAddr (m.axesR R r') (t r')).map fun a => (a, w)).toList := by
    intro r' w hw
    exact nnbWrites R _ _ (by rw [axesR_len]; exact hd1) (by rw [axesR_len]; exact hd) (by rw [axesR_len]; exact hx) (hor r') hw
  have hrd : ∀ r', tunedReadsR R .nnb (m.axesR R r') x = ((tunedAddr (m.axesR R r') (t r')).map fun a => (a, (1 : K))).toList := by
    intro r'
    exact nnbReads R _ _ (by rw [axesR_len]; exact hd1) (by rw [axesR_len]; exact hd) (by rw [axesR_len]; exact hx) (hor r')
      (by have := flRound_zpow (K := K) (p := p) (by omega) 0; rwa [zpow_zero] at this)
  have hgl : ∀ r' < m.nrank, ∀ c', ValidIndex (m.localShape r') c' → ∀ j < m.nmesh.length,
      (m.global r' c').getD j 0 = (m.start r').getD j 0 + c'.getD j 0 := by
    intro r' hr' c' hc' j hj
    have := (validIndex_iff.1 hc').1
    rw [hm.localShape_len hr'] at this
    exact getD_zipWith _ _ _ 0 0 _ _ (by rw [hm.start_len hr']; exact hj) (by omega)
  have hlist : ∀ r', ∀ c' : List ℕ, c'.length = m.nmesh.length → (∀ j < m.nmesh.length, (t r').getD j 0 = (c'.getD j 0 : ℕ)) →
      t r' = c'.map fun i : ℕ => (i : ℤ) := by
    intro r' c' hl h
    apply List.ext_getElem
    · simp [htl, hl]
    · intro j h1 h2
      rw [htl] at h1
      have := h j h1
      rw [List.getD_eq_getElem _ _ (by rw [htl]; exact h1), List.getD_eq_getElem _ _ (by omega)] at this
      rw [this]; simp
  have hcl : c.length = m.nmesh.length := by rw [(validIndex_iff.1 hc).1, hm.localShape_len hr]
  have hown : tunedAddr (m.axesR R r) (t r) = some (m.addr r c) := by
    have e : t r = c.map fun i : ℕ => (i : ℤ) := by
      apply hlist r c hcl
      intro j hj
      have hcj := (validIndex_iff.1 hc).2 j (by rw [hm.localShape_len hr]; exact hj)
      have e1 := hgl r hr c hc j hj
      rw [hrc] at e1
      have e2 := hgj j hj
      obtain ⟨a1, a2⟩ := haxis r hr j hj
      have a3 := (a1.2 ⟨by change _ ≤ q j; omega, by change q j < _; omega⟩).2
      rw [htj r j hj, a2 a3]
      change q j - _ = _
      omega
    rw [e, tunedAddr_of_valid _ _ (by rw [shapeOf_axesR R (hm.localShape_len hr)]; exact hc), elemAddr_axesR R r hcl]
  have hoth : ∀ r' < m.nrank, r' ≠ r → tunedAddr (m.axesR R r') (t r') = none := by
    intro r' hr' hne
    rcases ha : tunedAddr (m.axesR R r') (t r') with _ | a
    · rfl
    · exfalso
      obtain ⟨c', c1, c2, -⟩ := tunedAddr_some _ _ _ (by rw [axesR_len, htl]) ha
      rw [shapeOf_axesR R (hm.localShape_len hr')] at c1
      have hcl' : c'.length = m.nmesh.length := by rw [(validIndex_iff.1 c1).1, hm.localShape_len hr']
      have hcg : m.global r' c' = m.global r c := by
        rw [hrc]
        apply List.ext_getElem
        · simp [PMesh.global, hm.start_len hr', hcl', hg]
        · intro j h1 h2
          have hj : j < m.nmesh.length := by simpa [hg] using h2
          rw [← List.getD_eq_getElem _ 0 h1, ← List.getD_eq_getElem _ 0 h2, hgl r' hr' c' c1 j hj]
          have hcj := (validIndex_iff.1 c1).2 j (by rw [hm.localShape_len hr']; exact hj)
          have e2 := hgj j hj
          have e3 : (t r').getD j 0 = (c'.getD j 0 : ℕ) := by
            rw [c2, List.getD_eq_getElem _ _ (by simpa using (by omega : j < c'.length)), List.getD_eq_getElem _ _ (by omega)]
            simp
          obtain ⟨a1, a2⟩ := haxis r' hr' j hj
          rw [htj r' j hj] at e3
          rw [e3] at a2
          have a4 := a2 (by omega)
          change _ = q j - _ at a4
          omega
      exact hne (global_inj_ranks hm hr' hr c1 hc hcg).1
  refine ⟨r, hr, c, hc, fun j hj => ?_, fun w hw => ?_, ?_, fun r' hr' hne => ⟨fun w hw => ?_, ?_⟩⟩
  · rw [hrc]; exact hgj j hj
  · rw [hwr r w hw, hown]; rfl
  · rw [hrd, hown]; rfl
  · rw [hwr r' w hw, hoth r' hr' hne]; rfl
  · rw [hrd, hoth r' hr' hne]; rfl

end
end Pmesh
