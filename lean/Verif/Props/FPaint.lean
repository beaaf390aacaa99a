import Verif.Lemmas.NnbMesh
import Verif.Props.Mesh
import Verif.Props.Rounding

/-!
# C68: painting and readout in floating point

`decomposeR`, `tunedWritesR` and `tunedReadsR` are `decompose`, the tuned paint functions and the tuned readout functions with a rounding
after every operation; `binary p` is IEEE 754 binary arithmetic with `p` digits (53: `float64`).
-/

namespace Pmesh

section
variable {K : Type*} [Field K] [LinearOrder K] [IsStrictOrderedRing K] [FloorRing K]

/-- **C68** (safety).  Whatever the rounding does, the tuned windows write to and read from elements of the local array only. -/
theorem C68_safe (R : Rounding K) (t : Tuned) (axes : List (PAxis K)) (h1 : 1 ≤ axes.length) (h3 : axes.length ≤ 3) (pos : List K)
    (hl : pos.length = axes.length) (weight : K) :
    ∀ a ∈ tunedWritesR R t axes pos weight ++ tunedReadsR R t axes pos, ∃ c, ValidIndex (shapeOf axes) c ∧ a.1 = elemAddr axes c := by
  intro a ha
  have hc : (tunedCellsR R t axes pos).length = axes.length := by simp [tunedCellsR, hl]
  rcases List.mem_append.1 ha with ha | ha
  · obtain ⟨abc, h, he⟩ := List.mem_filterMap.1 ha
    exact tunedAccessR_mem R axes _ _ abc hc (paintTable_len t h1 h3 abc h) he
  · obtain ⟨abc, h, he⟩ := List.mem_filterMap.1 ha
    exact tunedAccessR_mem R axes _ _ abc hc (readTable_len t h1 h3 abc h) he

/-- With exact arithmetic the functions are the ones of the other properties. -/
theorem C68_exact (t : Tuned) (axes : List (PAxis K)) (pos : List K) (weight : K) :
    tunedWritesR exactArith t axes pos weight = tunedWrites t axes pos weight ∧
      tunedReadsR exactArith t axes pos = tunedReads t axes pos := by
  have hprod : ∀ l : List K, prodR exactArith l = l.prod := by
    intro l
    cases l with
    | nil => rfl
    | cons a l =>
      rw [List.prod_cons]
      change l.foldl (fun p v => p * v) a = _
      induction l generalizing a with
      | nil => simp
      | cons b l ih => rw [List.foldl_cons, ih, List.prod_cons, mul_assoc]
  have hid : ∀ a : K, (exactArith : Rounding K).rnd a = a := fun _ => rfl
  have hset : ∀ (ax : PAxis K) x, tunedSetupR exactArith t ax x = tunedSetup t ax x := by
    intro ax x
    cases t <;> simp only [tunedSetupR, tunedSetup, hprod, PAxis.gridR, PAxis.grid, hid, List.prod_cons, List.prod_nil] <;>
      congr 1 <;> split_ifs <;> simp only [List.cons.injEq, and_true, true_and] <;> (try refine ⟨?_, ?_, ?_⟩) <;>
      (try refine ⟨?_, ?_⟩) <;> (try refine ⟨?_, ?_⟩) <;> (try push_cast) <;> ring
  have hacc : tunedAccessR exactArith axes = tunedAccess axes := by
    funext ijk v abc
    unfold tunedAccessR tunedAccess
    simp only [hprod]
  have hc : tunedCellsR exactArith t axes pos = tunedCells t axes pos := by
    unfold tunedCellsR tunedCells
    simp only [hset]
  have hv : tunedValsR exactArith t axes pos = tunedVals t axes pos := by
    unfold tunedValsR tunedVals
    simp only [hset]
  constructor
  · unfold tunedWritesR tunedWrites
    rw [hc, hv, hacc]
    rfl
  · unfold tunedReadsR tunedReads
    rw [hc, hv, hacc]

end

section
variable {K : Type} [Field K] [LinearOrder K] [IsStrictOrderedRing K] [FloorRing K]

/-- **C68** (nearest window).  Particles inside the box, on a mesh of up to three axes, any number of ranks: with rounding in
every step, `decompose` and the painters of the ranks agree about the cell of a particle.  Exactly one rank writes its weight,
once, to one cell; that rank is sent the particle; no other rank writes anything for it; and the cell is the nearest one, up to
the rounding of the position.  Readout reads the same cell with weight one.  Partial: positions outside of the box
(`C68_violated_lost`), windows other than the nearest. -/
theorem C68_nearest_partial (p : ℕ) (hp : 4 ≤ p) (m : PMesh K) (hm : m.OK) (hplain : m.PlainRanks) (hd : m.nmesh.length ≤ 3)
    (hN : ∀ n ∈ m.nmesh, (n : K) + 1 < 2 ^ ((p : ℤ) - 4)) (pos : List (List K))
    (hpos : ∀ x ∈ pos, x.length = m.nmesh.length ∧ ∀ j < m.nmesh.length, 0 ≤ x.getD j 0 ∧ x.getD j 0 ≤ m.box.getD j 0) :
    ∃ g L, m.domain = some g ∧
      decomposeR (binary p (by omega)) g (List.replicate m.nmesh.length (1 / 2)) (pos.map (m.toGridR (binary p (by omega)))) = .ok L ∧
      (∀ r < m.nrank, ∃ l : List ℕ, L.sentTo r = l.map some ∧ l.Pairwise (· < ·)) ∧
      ∀ (i : ℕ) (x : List K), pos[i]? = some x → ∃ r < m.nrank, ∃ c, ValidIndex (m.localShape r) c ∧
        some i ∈ L.sentTo r ∧
        (∀ w, (binary p (by omega) : Rounding K).rnd w = w →
          tunedWritesR (binary p (by omega)) .nnb (m.axesR (binary p (by omega)) r) x w = [(m.addr r c, w)]) ∧
        tunedReadsR (binary p (by omega)) .nnb (m.axesR (binary p (by omega)) r) x = [(m.addr r c, 1)] ∧
        (∀ r' < m.nrank, r' ≠ r → (∀ w, (binary p (by omega) : Rounding K).rnd w = w →
          tunedWritesR (binary p (by omega)) .nnb (m.axesR (binary p (by omega)) r') x w = []) ∧
          tunedReadsR (binary p (by omega)) .nnb (m.axesR (binary p (by omega)) r') x = []) ∧
        ∀ j < m.nmesh.length, ∃ k : ℤ, |x.getD j 0 * (m.nmesh.getD j 0 : ℕ) / m.box.getD j 0 -
          (((m.global r c).getD j 0 : ℕ) + k * (m.nmesh.getD j 0 : ℕ))| ≤ 1 / 2 + 4 * ((m.nmesh.getD j 0 : ℕ) + 1) / 2 ^ p := by
  set R : Rounding K := binary p (by omega) with hR
  have hn : 0 < m.nrank := by
    rw [hm.ranks]
    apply Nat.pos_of_ne_zero
    intro h
    rw [List.prod_eq_zero_iff] at h
    obtain ⟨e, he, h0⟩ := List.mem_map.1 h
    obtain ⟨j, hj, rfl⟩ := List.getElem_of_mem he
    have := (hm.slab (j := j) (by rw [← hm.edges_len]; exact hj)).two
    rw [List.getD_eq_getElem _ _ hj] at this
    omega
  obtain ⟨a, ha1, ha2, ha3, ha4⟩ := domain_eq hm hn
  have hgn : (m.gridWith a).ndim = m.nmesh.length := gridWith_ndim hm a
  have hg := grid_of_mesh_ok hm ha2 ha4
  have hNp : ∀ j < m.nmesh.length, ((m.nmesh.getD j 0 : ℕ) : K) + 1 < 2 ^ ((p : ℤ) - 4) := by
    intro j hj
    exact hN (m.nmesh.getD j 0) (by rw [List.getD_eq_getElem _ _ hj]; exact List.getElem_mem _)
  have h24 : (2 : K) ^ ((p : ℤ) - 4) = 2 ^ p / 16 := by
    rw [zpow_sub₀ (by norm_num), zpow_natCast]; norm_num
  have hN3 : ∀ j < m.nmesh.length, ((m.nmesh.getD j 0 : ℕ) : K) + 1 < 2 ^ ((p : ℤ) - 3) := by
    intro j hj
    have h2 : (2 : K) ^ ((p : ℤ) - 4) ≤ 2 ^ ((p : ℤ) - 3) := zpow_le_zpow_right₀ (by norm_num) (by omega)
    linarith [hNp j hj]
  have hf : GridInFormat R (m.gridWith a) := by
    constructor
    · intro j hj
      rw [hgn] at hj
      rw [gridWith_box hm a hj]
      have h2 : (2 : K) ^ ((p : ℤ) - 3) ≤ 2 ^ (p : ℤ) := zpow_le_zpow_right₀ (by norm_num) (by omega)
      have := flRound_int (K := K) (p := p) (n := (m.nmesh.getD j 0 : ℕ)) (by
        rw [abs_of_nonneg (by exact_mod_cast Nat.zero_le _)]
        push_cast
        linarith [hN3 j hj])
      push_cast at this
      exact this
    · intro j hj
      rw [hgn] at hj
      rw [gridWith_edge hm a hj (by have := (hm.slab hj).two; omega)]
      exact_mod_cast (hm.slab hj).second_pos
  have hδ : ErrorBound R (m.gridWith a) (1 / 8) := by
    intro j hj y hy
    rw [hgn] at hj
    rw [gridWith_box hm a hj] at hy
    refine (flRound_err p y).trans ?_
    rw [div_le_iff₀ (by positivity)]
    have := hNp j hj
    rw [h24] at this
    linarith
  have hfit : (m.gridWith a).SmoothingFits ((List.replicate m.nmesh.length (1 / 2 : K)).map (· + 2 * (1 / 8))) := by
    apply smoothingFits_of_halo hm
    intro j hj d hd'
    rw [List.map_replicate, List.getD_eq_getElem _ _ (by simpa using hj), List.getElem_replicate]
    have h1 := (hm.slab hj).le_last (a := d + 1) (by omega)
    by_cases h : (m.edges.getD j []).getD (d + 1) 0 - (m.edges.getD j []).getD d 0 = m.nmesh.getD j 0
    · exact Or.inr h
    · left
      have h2 : (m.edges.getD j []).getD (d + 1) 0 - (m.edges.getD j []).getD d 0 + 1 ≤ m.nmesh.getD j 0 := by omega
      have h3 : (((m.edges.getD j []).getD (d + 1) 0 - (m.edges.getD j []).getD d 0 : ℕ) : K) + 1 ≤ (m.nmesh.getD j 0 : ℕ) := by
        exact_mod_cast h2
      linarith
  have hsd : ∀ j < m.nmesh.length, (List.replicate m.nmesh.length (1 / 2 : K)).getD j 0 = 1 / 2 := by
    intro j hj
    rw [List.getD_eq_getElem _ _ (by simpa using hj), List.getElem_replicate]
  refine ⟨m.gridWith a, ?_⟩
  obtain ⟨L, h1, h2, h3, h4⟩ := decomposeR_of_targets R (m.gridWith a) (List.replicate m.nmesh.length (1 / 2)) (pos.map (m.toGridR R))
    (fun u T => ∀ r < m.nrank, (∀ j < m.nmesh.length, ∃ y : ℤ, (((m.start r).getD j 0 : ℕ) : ℤ) ≤ y ∧
      y < (m.start r).getD j 0 + (m.localShape r).getD j 0 ∧ ∃ k : ℤ,
        (y : K) + k * (m.nmesh.getD j 0 : ℕ) ≤ R.rnd (fpMod R (u.getD j 0) (m.nmesh.getD j 0 : ℕ) + 1 / 2) ∧
        R.rnd (fpMod R (u.getD j 0) (m.nmesh.getD j 0 : ℕ) + 1 / 2) < (y : K) + k * (m.nmesh.getD j 0 : ℕ) + 1 ∧
        fpMod R (u.getD j 0) (m.nmesh.getD j 0 : ℕ) < (m.nmesh.getD j 0 : ℕ)) → r ∈ T)
    (fun u hu => by
      obtain ⟨x, hx, rfl⟩ := List.mem_map.1 hu
      have hxl := (hpos x hx).1
      obtain ⟨T, t1, t2, t3, uu, v, huv, hT⟩ := targetsR hg rfl (flagsAgree_of_plain hm hplain ha2 ha3 ha4) hf hδ
        (s := List.replicate m.nmesh.length (1 / 2)) (x := m.toGridR R x) (by change _ = (m.gridWith a).ndim; rw [hgn]; simp)
        ⟨by change (m.gridWith a).ndim ≤ _; rw [hgn, toGridR_length R hm hxl], fun j hj => by
          change j < (m.gridWith a).ndim at hj
          rw [hgn] at hj
          rw [toGridR_getD R hm hxl hj]; exact R.idem _⟩
        (fun j hj => by
          change j < (m.gridWith a).ndim at hj
          change _ ∧ _ ≤ (m.gridWith a).box j
          rw [hgn] at hj
          have h0 : (1 : K) ≤ (m.nmesh.getD j 0 : ℕ) := by exact_mod_cast hm.nmesh_pos hj
          rw [hsd j hj, gridWith_box hm a hj]
          constructor <;> linarith) (Or.inl hfit)
      refine ⟨T, t1, t2, t3, fun r hr hy => ?_⟩
      rw [hT]
      refine ⟨m.coord r, ?_, ?_, fun j hj => ?_⟩
      · change (m.gridWith a).IsDomain _
        unfold Grid.IsDomain; rw [gridWith_shape]; exact hm.coord_valid r hr
      · change (m.gridWith a).Owner _ _
        unfold Grid.Owner; rw [gridWith_shape]; exact ha3 r hr
      · change j < (m.gridWith a).ndim at hj
        have huvj := huv j hj
        rw [hgn] at hj
        obtain ⟨-, -, -, -, hu0, hv0, hvv⟩ := huvj
        obtain ⟨y, y1, y2, k, k1, k2, k3⟩ := hy j hj
        change v j = R.rnd (fpMod R ((m.toGridR R x).getD j 0) ((m.gridWith a).box j) + _) - fpMod R _ ((m.gridWith a).box j) at hvv
        rw [gridWith_box hm a hj, hsd j hj] at hvv
        have hwr : wrapR R (m.gridWith a) (m.toGridR R x) j = fpMod R ((m.toGridR R x).getD j 0) (m.nmesh.getD j 0 : ℕ) := by
          unfold wrapR foldBox
          rw [gridWith_box hm a hj, if_neg k3.ne]
        change ∃ z, (m.gridWith a).lo _ j ≤ z ∧ z < (m.gridWith a).hi _ j ∧ ∃ m' : ℤ,
          wrapR R (m.gridWith a) (m.toGridR R x) j - _ ≤ z + m' * (m.gridWith a).box j ∧ z + m' * (m.gridWith a).box j ≤
            wrapR R (m.gridWith a) (m.toGridR R x) j + _
        rw [hwr, gridWith_box hm a hj]
        unfold Grid.lo Grid.hi
        have hlt := hm.coord_lt hr hj
        rw [gridWith_edge hm a hj (by omega), gridWith_edge hm a hj (by omega), ← hm.start_getD hr hj]
        have hsz := hm.localShape_getD hr hj
        rw [← hm.start_getD hr hj] at hsz
        have y1' : (((m.start r).getD j 0 : ℕ) : K) ≤ y := by exact_mod_cast y1
        have y2' : (y : K) + 1 ≤ (((m.edges.getD j []).getD ((m.coord r).getD j 0 + 1) 0 : ℕ) : K) := by
          have : y + 1 ≤ (((m.edges.getD j []).getD ((m.coord r).getD j 0 + 1) 0 : ℕ) : ℤ) := by omega
          exact_mod_cast this
        refine ⟨R.rnd (fpMod R ((m.toGridR R x).getD j 0) (m.nmesh.getD j 0 : ℕ) + 1 / 2) - k * (m.nmesh.getD j 0 : ℕ), ?_, ?_, k, ?_, ?_⟩
        · linarith
        · linarith
        · linarith
        · linarith)
  refine ⟨L, ha1, h1, h3, fun i x hi => ?_⟩
  have hx := List.mem_of_getElem? hi
  obtain ⟨hxl, hxb⟩ := hpos x hx
  obtain ⟨r, hr, c, hc, hcell, hw, hrd, hoth⟩ := nnb_writes_mesh hp hm hd hN hxl hxb
  obtain ⟨T, t1, -, t3⟩ := h4 i (m.toGridR R x) (by rw [List.getElem?_map, hi]; rfl)
  have hcl : c.length = m.nmesh.length := by rw [(validIndex_iff.1 hc).1, hm.localShape_len hr]
  refine ⟨r, hr, c, hc, (t3 r hr).2 (t1 r hr fun j hj => ?_), hw, hrd, hoth, fun j hj => ?_⟩
  · obtain ⟨b1, b2, -⟩ := toGridR_bounds hp hm hN hxl hj (hxb j hj).1 (hxb j hj).2
    obtain ⟨k, k1⟩ := nnb_delivery hp (hm.nmesh_pos hj) (hN3 j hj) b1 b2 R rfl
    have hcj := (validIndex_iff.1 hc).2 j (by rw [hm.localShape_len hr]; exact hj)
    have e1 : (m.global r c).getD j 0 = (m.start r).getD j 0 + c.getD j 0 :=
      getD_zipWith _ _ _ 0 0 _ _ (by rw [hm.start_len hr]; exact hj) (by omega)
    have e2 := hcell j hj
    exact ⟨_, by rw [← e2, e1]; omega, by rw [← e2, e1]; omega, k, k1⟩
  · obtain ⟨b1, b2, b3⟩ := toGridR_bounds hp hm hN hxl hj (hxb j hj).1 (hxb j hj).2
    refine ⟨cellR p ((m.toGridR R x).getD j 0) / (m.nmesh.getD j 0 : ℕ), ?_⟩
    have e := cellR_near hp b1 b2 b3
    have e2 := hcell j hj
    have e3 := Int.emod_add_mul_ediv (cellR p ((m.toGridR R x).getD j 0)) (m.nmesh.getD j 0 : ℕ)
    rw [← e2] at e3
    have e4 := congrArg (Int.cast : ℤ → K) e3
    push_cast at e4
    rw [mul_comm ((m.nmesh.getD j 0 : ℕ) : K)] at e4
    rw [e4]
    exact e

end

/-- Eight cells on two ranks, seven on the first. -/
def fpMesh : PMesh ℚ := ⟨[8], [8], [[0, 7, 8]], 2, fun r => [r], fun _ => [1], fun _ => 77⟩

theorem fpMesh_ok : fpMesh.OK where
  dim := by decide
  box_len := by decide
  box_pos := by decide +kernel
  edges := .cons (slabEdges_of_decide (by decide)) .nil
  ranks := by decide
  coord_valid := by
    intro r hr
    have : r < 2 := hr
    interval_cases r <;> exact .cons (by decide) .nil
  coord_inj := by
    intro r _ r' _ h
    simpa [fpMesh] using h
  distinct := by
    intro r hr c c' h h' he
    have hl : (fpMesh.localShape r).length = 1 := by simp [PMesh.localShape, fpMesh]
    have h1 := (validIndex_iff.1 h).1
    have h2 := (validIndex_iff.1 h').1
    rw [hl] at h1 h2
    obtain ⟨a, rfl⟩ := List.length_eq_one_iff.1 h1
    obtain ⟨b, rfl⟩ := List.length_eq_one_iff.1 h2
    simp [PMesh.addr, fpMesh] at he
    rw [he]

theorem fpMesh_plain : fpMesh.PlainRanks := Or.inl (by decide)

/-- **C68 is violated** outside of the box.  In `float64`, on a mesh of eight cells with slabs of seven and one: the particle at
`-1/2 - 2^-53` belongs to the last cell, but neither rank writes anything for it, so its mass is lost whatever `decompose` does
and even if it is sent everywhere.  The first rank finds the last cell, which it does not have; the second subtracts its start, which rounds
the position up into the first cell, which it does not have.  In exact arithmetic the second rank writes it to the last cell. -/
theorem C68_violated_lost : (binary 53 (by norm_num) : Rounding ℚ).rnd (-1 / 2 - 1 / 2 ^ 53) = -1 / 2 - 1 / 2 ^ 53 ∧
    (∀ r < fpMesh.nrank, tunedWritesR (binary 53 (by norm_num)) .nnb (fpMesh.axesR (binary 53 (by norm_num)) r)
      [-1 / 2 - 1 / 2 ^ 53] 1 = []) ∧
    tunedWrites .nnb (fpMesh.axesR exactArith 1) [(-1 / 2 - 1 / 2 ^ 53 : ℚ)] 1 = [(0, 1)] := by
  decide +kernel

/-- The hypotheses of `C68_nearest_partial` hold for a mesh on two ranks and particles in the box, on its upper end and between the slabs. -/
example : ∃ g L, fpMesh.domain = some g ∧ decomposeR (binary 53 (by norm_num)) g [1 / 2]
    ([[3], [8], [13 / 2], [15 / 2 - 1 / 2 ^ 50]].map (fpMesh.toGridR (binary 53 (by norm_num)))) = .ok L := by
  obtain ⟨g, L, h1, h2, -⟩ := C68_nearest_partial 53 (by norm_num) fpMesh fpMesh_ok fpMesh_plain (by decide) (by
    intro n hn
    obtain rfl : n = 8 := by simpa [fpMesh] using hn
    norm_num) [[3], [8], [13 / 2], [15 / 2 - 1 / 2 ^ 50]] (by decide +kernel)
  exact ⟨g, L, h1, h2⟩

/-- `C68_safe`: a case with writes and reads. -/
example : (tunedWritesR (binary 53 (by norm_num)) .cic (fpMesh.axesR (binary 53 (by norm_num)) 0) [(13 / 2 : ℚ)] 3).length = 1 ∧
    (tunedReadsR (binary 53 (by norm_num)) .pcs (fpMesh.axesR (binary 53 (by norm_num)) 0) [(13 / 4 : ℚ)]).length = 4 := by
  decide +kernel

#print axioms C68_safe
#print axioms C68_exact
#print axioms C68_nearest_partial
#print axioms C68_violated_lost

end Pmesh
