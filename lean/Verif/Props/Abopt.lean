import Verif.Model.Abopt
import Verif.Spec.Abopt
import Verif.Props.MeshDeriv
import Verif.Props.Fourier
import Verif.Lemmas.Exec

/-!
# C53: the operators of `pmesh.abopt` have matching `jvp` and `vjp`

Violated by `paint` (the `jvp` lacks a factor), `assign_component` (the overwritten component keeps its cotangent), `multiply` of
complex fields (no conjugate), `decompress` in the inner product `cdot`, and `lowpass` (the two match each other but not the operator).
The operators `c2r` and `r2c` are C30.
-/

set_option linter.unusedSectionVars false

namespace Pmesh

/-! ## Elementwise operators -/

section
variable {K ι : Type} [Field K] (n : ℕ) (idx : ℕ → List ι)

theorem arrayDot_congr {a b a' b' : ℕ → ι → K} (h : ∀ r i, a r i * b r i = a' r i * b' r i) :
    arrayDot n idx a b = arrayDot n idx a' b' := by
  unfold arrayDot
  simp only [h]

theorem arrayDot_add {a b c d e f : ℕ → ι → K} (h : ∀ r i, a r i * b r i = c r i * d r i + e r i * f r i) :
    arrayDot n idx a b = arrayDot n idx c d + arrayDot n idx e f := by
  unfold arrayDot
  simp only [h, List.sum_map_add]

/-- **C53**, `residual`: `⟨jvp(u), v⟩ = ⟨u, vjp(v)⟩`, the `jvp` is the change of the operator, and the residual of the data is zero. -/
theorem C53_residual (data sigma model u v : ℕ → ι → K) :
    arrayDot n idx (fun r => abResidualJvp (sigma r) (u r)) v = arrayDot n idx u (fun r => abResidualVjp (sigma r) (v r)) ∧
    ∀ r i, abResidual (data r) (sigma r) (fun i => model r i + u r i) i =
      abResidual (data r) (sigma r) (model r) i + abResidualJvp (sigma r) (u r) i ∧ abResidual (data r) (sigma r) (data r) i = 0 := by
  constructor
  · apply arrayDot_congr
    intro r i
    simp only [abResidualJvp, abResidualVjp]
    ring
  · intro r i
    simp only [abResidual, abResidualJvp]
    exact ⟨by ring, by rw [sub_self, zero_div]⟩

/-- **C53**, `assign`. -/
theorem C53_assign (x u v : ℕ → ι → K) :
    arrayDot n idx (fun r => abAssignJvp (x r) (u r)) v = arrayDot n idx u (fun r => abAssignVjp (v r)) ∧
    ∀ r i, abAssign (fun i => x r i + u r i) i = abAssign (x r) i + abAssignJvp (x r) (u r) i :=
  ⟨rfl, fun _ _ => rfl⟩

/-- **C53**, `add`: the inner product of the inputs is the sum over the two inputs. -/
theorem C53_add (x1 x2 u1 u2 v : ℕ → ι → K) :
    arrayDot n idx (fun r => abAddJvp (u1 r) (u2 r)) v =
      arrayDot n idx u1 (fun r => (abAddVjp (v r)).1) + arrayDot n idx u2 (fun r => (abAddVjp (v r)).2) ∧
    ∀ r i, abAdd (fun i => x1 r i + u1 r i) (fun i => x2 r i + u2 r i) i = abAdd (x1 r) (x2 r) i + abAddJvp (u1 r) (u2 r) i := by
  constructor
  · apply arrayDot_add
    intro r i
    simp only [abAddJvp, abAddVjp]
    ring
  · intro r i
    simp only [abAdd, abAddJvp]
    ring

/-- **C53**, `multiply` of real fields or arrays; the `jvp` is the change of the product up to the product of the changes. -/
theorem C53_multiply (x1 x2 u1 u2 v : ℕ → ι → K) :
    arrayDot n idx (fun r => abMultiplyJvp (x1 r) (x2 r) (u1 r) (u2 r)) v =
      arrayDot n idx u1 (fun r => (abMultiplyVjp (x1 r) (x2 r) (v r)).1) +
      arrayDot n idx u2 (fun r => (abMultiplyVjp (x1 r) (x2 r) (v r)).2) ∧
    ∀ r i, abMultiply (fun i => x1 r i + u1 r i) (fun i => x2 r i + u2 r i) i =
      abMultiply (x1 r) (x2 r) i + abMultiplyJvp (x1 r) (x2 r) (u1 r) (u2 r) i + u1 r i * u2 r i := by
  constructor
  · apply arrayDot_add
    intro r i
    simp only [abMultiplyJvp, abMultiplyVjp]
    ring
  · intro r i
    simp only [abMultiply, abMultiplyJvp]
    ring

/-- **C53**, `to_scalar`: all ranks get the same tangent, whose product with the cotangent `v` is `⟨u, vjp(v)⟩`; and it is the
change of the operator up to `to_scalar(u)`. -/
theorem C53_to_scalar (hn : 0 < n) (x u : ℕ → ι → K) (v : K) :
    ∃ s t y y' : K, AllReturn n (fun r => abToScalarJvp (idx r) (x r) (u r)) (fun _ => s) ∧
      s * v = arrayDot n idx u (fun r => abToScalarVjp (x r) v) ∧
      AllReturn n (fun r => abToScalar (idx r) (x r)) (fun _ => y) ∧
      AllReturn n (fun r => abToScalar (idx r) (u r)) (fun _ => t) ∧
      AllReturn n (fun r => abToScalar (idx r) (fun i => x r i + u r i)) (fun _ => y') ∧ y' = y + s + t := by
  refine ⟨_, _, _, _, AllReturn.coll hn (AllReturn.ret n _), ?_, AllReturn.coll hn (AllReturn.ret n _),
    AllReturn.coll hn (AllReturn.ret n _), AllReturn.coll hn (AllReturn.ret n _), ?_⟩
  · unfold arrayDot abToScalarVjp
    rw [mul_assoc, ← List.sum_map_mul_right]
    apply congrArg List.sum
    apply List.map_congr_left
    intro r _
    dsimp only
    rw [← List.sum_map_mul_right]
    apply congrArg List.sum
    apply List.map_congr_left
    intro i _
    ring
  · rw [← List.sum_map_mul_right, ← List.sum_map_add, ← List.sum_map_add]
    apply congrArg List.sum
    apply List.map_congr_left
    intro r _
    dsimp only
    rw [← List.sum_map_mul_right, ← List.sum_map_add, ← List.sum_map_add]
    apply congrArg List.sum
    apply List.map_congr_left
    intro i _
    ring

/-- **C53**, `assign_component` (partial: the tangent of the component that is overwritten is zero). -/
theorem C53_assign_component_partial (D dim : ℕ) (hdim : dim < D) (a u v : ℕ → ι → ℕ → K) (b w : ℕ → ι → K)
    (hu : ∀ r i, u r i dim = 0) :
    componentsDot n D idx (fun r => abAssignComponentJvp dim (u r) (w r)) v =
      componentsDot n D idx u (fun r => (abAssignComponentVjp dim (v r)).1) +
      arrayDot n idx w (fun r => (abAssignComponentVjp dim (v r)).2) ∧
    ∀ r i d, abAssignComponent dim (fun i d => a r i d + u r i d) (fun i => b r i + w r i) i d =
      abAssignComponent dim (a r) (b r) i d + abAssignComponentJvp dim (u r) (w r) i d := by
  constructor
  · unfold componentsDot
    have h1 : ∀ d, arrayDot n idx (fun r i => abAssignComponentJvp dim (u r) (w r) i d) (fun r i => v r i d) =
        arrayDot n idx (fun r i => u r i d) (fun r i => v r i d) +
          if d = dim then arrayDot n idx w (fun r i => v r i dim) else 0 := by
      intro d
      split_ifs with h
      · subst h
        apply arrayDot_add
        intro r i
        simp [abAssignComponentJvp, hu]
      · rw [add_zero]
        apply arrayDot_congr
        intro r i
        simp [abAssignComponentJvp, h]
    simp only [h1, List.sum_map_add]
    congr 1
    exact sum_pick' hdim _
  · intro r i d
    simp only [abAssignComponent, abAssignComponentJvp]
    split_ifs <;> rfl

end

/-! ## Operators on complex fields -/

section
variable {K : Type} [Field K] [DecidableEq K]

theorem nyquistMask_conj (nmesh i : List ℕ) (z : Cx K) : nyquistMask nmesh i (cxConj z) = cxConj (nyquistMask nmesh i z) := by
  simp only [nyquistMask, cxConj, neg_eq_zero]
  split_ifs
  · rfl
  · exact Prod.ext rfl neg_zero.symm

/-- **C53**, `transfer`: `cdot(jvp(f), g) = cdot(f, vjp(g))`, as programs of each rank, for every transfer function, metric and
storage; and the `jvp` is the change of the operator. -/
theorem C53_transfer (pi : K) (t : Tiling) (box : List K) (metric2 : Option (K → K)) (tf : List ℕ → Cx K) (r : ℕ)
    (f g : List ℕ → Cx K) :
    cdot pi t box metric2 r (abTransferJvp t tf r f) g = cdot pi t box metric2 r f (abTransferVjp t tf r g) ∧
    ∀ c, abTransfer t tf r (fun c => f c + g c) c = abTransfer t tf r f c + abTransferJvp t tf r g c := by
  constructor
  · unfold cdot
    have : ∀ c, cxMul (cxConj (g c)) (abTransferJvp t tf r f c) = cxMul (cxConj (abTransferVjp t tf r g c)) (f c) := by
      intro c
      simp only [abTransferJvp, abTransferVjp, nyquistMask_conj]
      generalize nyquistMask t.nmesh (t.global r c) (tf (t.global r c)) = z
      simp only [cxMul, cxConj]
      ext <;> dsimp only <;> ring
    simp only [this]
  · intro c
    simp only [abTransfer, abTransferJvp]
    generalize nyquistMask t.nmesh (t.global r c) (tf (t.global r c)) = z
    simp only [cxMul]
    ext <;> simp only [Prod.fst_add, Prod.snd_add] <;> ring

/-- The sum over all modes is the sum over independent modes, those that have a partner counted twice. -/
theorem independent_sum {nmesh : List ℕ} {H : List (List ℕ)} (hH : IndependentModes nmesh H) (F : List ℕ → K)
    (hF : ∀ k, ValidIndex nmesh k → F (opposite nmesh k) = F k) :
    ((ndindex nmesh).map F).sum = (H.map fun k => if opposite nmesh k = k then F k else 2 * F k).sum := by
  have hperm : (ndindex nmesh).Perm (H ++ (H.filter fun k => ¬ opposite nmesh k = k).map (opposite nmesh)) := by
    rw [List.perm_ext_iff_of_nodup (ndindex_nodup _)]
    · intro k
      rw [mem_ndindex, List.mem_append, List.mem_map]
      constructor
      · intro hk
        rcases hH.some k hk with h | h
        · exact Or.inl h
        · by_cases he : opposite nmesh k = k
          · exact Or.inl (he ▸ h)
          · refine Or.inr ⟨_, List.mem_filter.2 ⟨h, ?_⟩, opposite_opposite hk⟩
            rw [opposite_opposite hk]
            simpa using fun e => he e.symm
      · rintro (h | ⟨k', h, rfl⟩)
        · exact hH.valid k h
        · exact opposite_valid (hH.valid k' (List.mem_filter.1 h).1)
    · rw [List.nodup_append]
      refine ⟨hH.nodup, ?_, ?_⟩
      · refine List.Nodup.map_on ?_ (hH.nodup.filter _)
        intro a ha b hb he
        have := congrArg (opposite nmesh) he
        rwa [opposite_opposite (hH.valid a (List.mem_filter.1 ha).1), opposite_opposite (hH.valid b (List.mem_filter.1 hb).1)] at this
      · rintro a ha b hb rfl
        obtain ⟨k', h, he⟩ := List.mem_map.1 hb
        obtain ⟨h1, h2⟩ := List.mem_filter.1 h
        have := hH.one k' h1 (by rw [he]; exact ha)
        simp [this] at h2
  rw [(hperm.map F).sum_eq, List.map_append, List.sum_append, List.map_map]
  have h2 : (((H.filter fun k => ¬ opposite nmesh k = k)).map (F ∘ opposite nmesh)).sum =
      (H.map fun k => if opposite nmesh k = k then 0 else F k).sum := by
    have hv := hH.valid
    clear hperm hH
    induction H with
    | nil => simp
    | cons a l ih =>
      have ih' := ih fun k hk => hv k (List.mem_cons_of_mem _ hk)
      rw [List.filter_cons]
      by_cases he : opposite nmesh a = a
      · simpa [he] using ih'
      · simp only [he, not_false_eq_true, decide_true, if_true, List.map_cons, List.sum_cons, ih', Function.comp_apply, if_false]
        rw [hF a (hv a (by simp))]
  rw [h2, ← List.sum_map_add]
  apply congrArg List.sum
  apply List.map_congr_left
  intro k _
  split_ifs <;> ring

theorem self_opposite {nmesh k : List ℕ} (hk : ValidIndex nmesh k) :
    (List.zipWith (fun (n j : ℕ) => decide ((n - j) % n = j)) nmesh k).all id = decide (opposite nmesh k = k) := by
  unfold opposite
  induction hk with
  | nil => rfl
  | @cons n j ns ks h _ ih =>
    rw [List.zipWith_cons_cons, List.zipWith_cons_cons, List.all_cons, ih, id, ← Bool.decide_and]
    simp

/-- **C53**, `decompress` (partial: even size of a compressed axis, as for `cdot`; the real part).  The forward operator takes the independent modes
(those that `csetitem` sets together with their conjugates) to a Hermitian spectrum.  For Hermitian `S` and `T`, the real part of
`cdot(jvp(S), T)` is the sum over any choice of independent modes of `S · conj(vjp(T))`. -/
theorem C53_decompress_partial [CharZero K] (pi : K) (t : Tiling) (ht : t.OK) (hne : t.nmesh ≠ []) (hst : t.Storage)
    (heven : t.cshape ≠ t.nmesh → t.nmesh.getLastD 0 % 2 = 0) (S T : List ℕ → Cx K) (hS : HermitianSpectrum t.nmesh S)
    (hT : HermitianSpectrum t.nmesh T) (f g : ℕ → List ℕ → Cx K) (hf : t.Holds f S) (hg : t.Holds g T)
    (H : List (List ℕ)) (hH : IndependentModes t.nmesh H) :
    ∃ (re im : K) (T' : List ℕ → Cx K),
      AllReturn t.nrank (fun r => cdot pi t [] none r (abDecompressJvp (f r)) (g r)) (fun _ => some (re, im)) ∧
      t.Holds (fun r => abDecompressVjp t r (g r)) T' ∧
      (∀ k, ValidIndex t.nmesh k → T' k = decompressVjp t.nmesh k (T k)) ∧
      re = (H.map fun k => (cxMul (S k) (cxConj (T' k))).1).sum := by
  obtain ⟨re, im, h1, h2⟩ := cdot_sum pi t ht hne hst heven [] none (Or.inl rfl) S T hS hT f g hf hg
  refine ⟨re, im, fun k => decompressVjp t.nmesh k (T k), h1, ?_, fun _ _ => rfl, ?_⟩
  · intro r hr c hc
    show decompressVjp _ _ _ = decompressVjp _ _ _
    rw [hg r hr c hc]
  · have h3 := congrArg Prod.fst h2
    refine (show _ = re from h3).symm.trans ?_
    rw [list_sum_fst, independent_sum hH]
    · apply congrArg List.sum
      apply List.map_congr_left
      intro k hk
      dsimp only
      unfold decompressVjp
      rw [self_opposite (hH.valid k hk)]
      simp only [decide_eq_true_eq, Option.elim_none]
      split_ifs
      · simp [cxMul, cxConj]
      · simp [cxMul, cxConj]
        ring
    · intro k hk
      rw [hS k hk, hT k hk]
      simp [cxMul, cxConj]

end

/-! ## Particles and meshes -/

section
variable {K : Type} [Field K] [LinearOrder K] [IsStrictOrderedRing K] [FloorRing K]

theorem abTotal_return {R : Type} {n : ℕ} (hn : 0 < n) {len : ℕ → ℕ} {k : ℕ → ℕ → Prog (Msg (List K)) R} {f : ℕ → R}
    (h : AllReturn n (fun r => k r ((List.range n).map len).sum) f) : AllReturn n (fun r => abTotal (len r) (k r)) f := by
  unfold abTotal
  refine AllReturn.coll hn ?_
  rw [List.map_map]
  exact h

/-- `paint`: what the `vjp` returns is `Nmesh.prod() / N` times the adjoint of the `jvp`; `N` is the number of particles on all
ranks. -/
theorem C53_paint_factor (m : PMesh K) (hm : m.OK) (w : Resampler K) (hw : w.Valid) (x : ℕ → List (List K))
    (hx : ∀ r < m.nrank, ∀ y ∈ x r, y.length = m.nmesh.length) (lay : ℕ → Option Lay) (S : ℕ → ℕ → List ℕ)
    (hlay : LayoutArg m.nrank (fun q => (x q).length) lay S)
    (u : Option (ℕ → List (List K))) (hu : ∀ u' ∈ u, ∀ r < m.nrank, (u' r).length = (x r).length) (v : ℕ → ℤ → K) :
    ∃ (jvp : ℕ → ℤ → K) (vjp : ℕ → List (List K)),
      AllReturn m.nrank (fun r => abPaintJvp m w r (lay r) (x r) (u.map (· r))) (fun r => .ok (jvp r)) ∧
      AllReturn m.nrank (fun r => abPaintVjp m w r (lay r) (x r) (v r)) (fun r => .ok (vjp r)) ∧
      m.fieldDot jvp v * ((m.nmesh.prod : K) / (((List.range m.nrank).map fun r => (x r).length).sum : ℕ)) =
        u.elim 0 (fun u' => columnsDot m.nrank m.nmesh.length u' vjp) := by
  have hn := hm.nrank_pos
  have hmass : QuantOK m.nrank (fun r => (x r).length) (fun _ => (.scalar 1 : Quant K)) := Or.inr (Or.inl ⟨1, fun _ _ => rfl⟩)
  have hnone : QuantOK m.nrank (fun r => (x r).length) (fun _ => (.none : Quant K)) := Or.inl fun _ _ => rfl
  obtain ⟨jvp, op, om, hj, hv, he⟩ := C25_paint m hm w hw x hx lay S hlay (fun _ => .scalar 1) hmass u hu none (by simp) v
  have hread := fun g => pmReadout_return hm.dim hw g hn hlay hx hnone v
  choose res hres hrl _ using fun d => hread (some d)
  obtain ⟨om', hom, -, -⟩ := hread none
  obtain ⟨cols, hcols, -⟩ := pmGradColumns_return hm hw hlay hx hmass v res hres hrl
  have hv' : AllReturn m.nrank (fun r => pmPaintVjp m w r (lay r) (x r) (.scalar 1) (v r)) (fun r => .ok (cols r, om' r)) := by
    unfold pmPaintVjp
    exact AllReturn.andThen hcols (AllReturn.andThen hom (AllReturn.ret m.nrank _))
  have hop : ∀ r < m.nrank, op r = cols r := by
    intro r hr
    have := Runs.unique hv hv'
    have := List.map_inj_left.1 this r (List.mem_range.2 hr)
    simp only [Except.ok.injEq, Prod.mk.injEq] at this
    exact this.1
  set c : K := (m.nmesh.prod : K) / (((List.range m.nrank).map fun r => (x r).length).sum : ℕ) with hc
  refine ⟨jvp, fun r => (cols r).map fun col => col.map (· * c), hj, ?_, ?_⟩
  · exact abTotal_return hn (AllReturn.andThen hcols (AllReturn.ret m.nrank _))
  · rw [he]
    simp only [Option.elim_none, add_zero]
    cases u with
    | none => simp
    | some u' =>
      simp only [Option.elim_some]
      unfold columnsDot
      rw [← List.sum_map_mul_right]
      apply congrArg List.sum
      apply List.map_congr_left
      intro r hr
      rw [hop r (List.mem_range.1 hr), ← List.sum_map_mul_right]
      apply congrArg List.sum
      apply List.map_congr_left
      intro d _
      have hd : ((cols r).map fun col => col.map (· * c)).getD d [] = ((cols r).getD d []).map (· * c) := by
        rw [List.getD_eq_getElem?_getD, List.getD_eq_getElem?_getD, List.getElem?_map]
        cases (cols r)[d]? <;> simp
      rw [hd]
      generalize column (u' r) d = a
      generalize (cols r).getD d [] = b
      unfold dot
      induction a generalizing b with
      | nil => simp
      | cons y a ih =>
        cases b with
        | nil => simp
        | cons z b => simp [ih, add_mul, mul_assoc]

/-- **C53**, `paint` (partial: as many particles as cells).  `⟨jvp(u), v⟩ = ⟨u, vjp(v)⟩`. -/
theorem C53_paint_partial (m : PMesh K) (hm : m.OK) (w : Resampler K) (hw : w.Valid) (x : ℕ → List (List K))
    (hx : ∀ r < m.nrank, ∀ y ∈ x r, y.length = m.nmesh.length) (lay : ℕ → Option Lay) (S : ℕ → ℕ → List ℕ)
    (hlay : LayoutArg m.nrank (fun q => (x q).length) lay S)
    (u : Option (ℕ → List (List K))) (hu : ∀ u' ∈ u, ∀ r < m.nrank, (u' r).length = (x r).length) (v : ℕ → ℤ → K)
    (hN : ((List.range m.nrank).map fun r => (x r).length).sum = m.nmesh.prod) (hpos : 0 < m.nmesh.prod) :
    ∃ (jvp : ℕ → ℤ → K) (vjp : ℕ → List (List K)),
      AllReturn m.nrank (fun r => abPaintJvp m w r (lay r) (x r) (u.map (· r))) (fun r => .ok (jvp r)) ∧
      AllReturn m.nrank (fun r => abPaintVjp m w r (lay r) (x r) (v r)) (fun r => .ok (vjp r)) ∧
      m.fieldDot jvp v = u.elim 0 (fun u' => columnsDot m.nrank m.nmesh.length u' vjp) := by
  obtain ⟨jvp, vjp, h1, h2, h3⟩ := C53_paint_factor m hm w hw x hx lay S hlay u hu v
  refine ⟨jvp, vjp, h1, h2, ?_⟩
  rw [← h3, hN, div_self (Nat.cast_ne_zero.2 hpos.ne'), mul_one]

/-- **C53**, `readout`: `⟨jvp(mesh_, x_), v⟩ = ⟨mesh_, _mesh⟩ + ⟨x_, _x⟩`. -/
theorem C53_readout (m : PMesh K) (hm : m.OK) (w : Resampler K) (hw : w.Valid) (x : ℕ → List (List K))
    (hx : ∀ r < m.nrank, ∀ y ∈ x r, y.length = m.nmesh.length) (lay : ℕ → Option Lay) (S : ℕ → ℕ → List ℕ)
    (hlay : LayoutArg m.nrank (fun q => (x q).length) lay S) (mesh : ℕ → ℤ → K)
    (meshT : Option (ℕ → ℤ → K)) (xT : Option (ℕ → List (List K))) (hxT : ∀ u ∈ xT, ∀ r < m.nrank, (u r).length = (x r).length)
    (v : ℕ → List K) (hv : ∀ r < m.nrank, (v r).length = (x r).length) :
    ∃ (jvp : ℕ → List K) (meshC : ℕ → ℤ → K) (xC : ℕ → List (List K)),
      AllReturn m.nrank (fun r => abReadoutJvp m w r (lay r) (x r) (mesh r) (meshT.map (· r)) (xT.map (· r)))
        (fun r => .ok (jvp r)) ∧
      AllReturn m.nrank (fun r => abReadoutVjp m w r (lay r) (x r) (mesh r) (v r)) (fun r => .ok (meshC r, xC r)) ∧
      ranksDot m.nrank jvp v = meshT.elim 0 (fun u => m.fieldDot u meshC) +
        xT.elim 0 (fun u => columnsDot m.nrank m.nmesh.length u xC) := by
  obtain ⟨jvp, a, b, h1, h2, _, h3⟩ := C25_readout m hm w hw x hx lay S hlay mesh meshT xT hxT v hv
  exact ⟨jvp, a, b, h1, h2, h3⟩

end
/-! ## Examples -/

/-- Two ranks with two and three elements. -/
def exPositions (r : ℕ) : List ℕ := List.range (r + 2)

example := C53_residual 2 exPositions (fun _ _ => (1 : ℚ)) (fun r i => r + i + 1) (fun _ i => i) (fun _ i => 2 * i) fun r _ => r
example := C53_to_scalar 2 exPositions (by decide) (fun r i => (r + i : ℚ)) (fun r i => 2 * i - r) 3
example := C53_assign_component_partial 2 exPositions 3 1 (by decide) (fun _ i d => (i + d : ℚ)) (fun _ i d => if d = 1 then 0 else i)
  (fun r i d => r * i - d) (fun _ _ => 1) (fun _ i => i) (fun _ _ => rfl)
example := C53_transfer (1 : ℚ) exTiling [1, 1] none (fun k => (1, k.sum)) 1 (fun c => exSpec (exTiling.global 1 c)) fun _ => (2, 3)

/-- The full spectrum of the example. -/
def exSpecFull : List ℕ → Cx ℚ := fun i => if i = [3, 3] then (1, -2) else exSpec i

theorem exSpecFull_hermitian : HermitianSpectrum [4, 4] exSpecFull := by
  intro i hi
  have hi' := mem_ndindex.2 hi
  revert hi
  revert i
  decide

/-- One mode of each pair. -/
def exModes : List (List ℕ) := (ndindex [4, 4]).filter fun k => cOrder [4, 4] k ≤ cOrder [4, 4] (opposite [4, 4] k)

theorem exModes_independent : IndependentModes [4, 4] exModes where
  nodup := by decide
  valid := by
    intro k hk
    exact mem_ndindex.1 (List.mem_filter.1 hk).1
  some := by
    intro k hk
    have hk' := mem_ndindex.2 hk
    clear hk
    revert k
    decide
  one := by decide

example := C53_decompress_partial (1 : ℚ) exTiling exTiling_ok (by decide) (Or.inr rfl) (by decide) exSpecFull exSpecFull
  exSpecFull_hermitian exSpecFull_hermitian _ _ (fun _ _ _ _ => rfl) (fun _ _ _ _ => rfl) exModes exModes_independent

/-- Eight particles on the eight cells. -/
example := C53_paint_partial exMesh exMesh_ok exWin exWin_valid
  (fun r => if r = 0 then [[1 / 2], [7 / 3], [1], [3]] else [[9 / 2], [5], [6], [7]])
  (by decide) _ _ .none (some fun r => if r = 0 then [[1], [-2], [0], [3]] else [[5], [2], [1], [4]])
  (by intro vp hvp; cases hvp; decide) (fun r a => (r : ℚ) - a) (by decide) (by decide)

example := C53_paint_factor exMesh exMesh_ok exWin exWin_valid (fun r => if r = 0 then [[1 / 2], [7 / 3]] else [[9 / 2]])
  (by decide) _ _ .none (some fun r => if r = 0 then [[1], [-2]] else [[5]]) (by intro vp hvp; cases hvp; decide)
  (fun r a => (r : ℚ) - a)

example := C53_readout exMesh exMesh_ok exWin exWin_valid (fun r => if r = 0 then [[1 / 2], [7 / 3]] else [[9 / 2]])
  (by decide) _ _ .none (fun r a => (r : ℚ) - a) (some fun r a => (r : ℚ) * a)
  (some fun r => if r = 0 then [[1], [-2]] else [[5]]) (by intro vp hvp; cases hvp; decide)
  (fun r => if r = 0 then [1, 2] else [-1]) (by decide)

/-! ## Where the code violates the property -/

/-- **C53 violated** by `paint`: one particle at 1/2 on a mesh of eight cells, its tangent 1.  The `jvp` is -1 in cell 0 and 1 in
cell 1; for the cotangent that is 1 in cell 1 and 0 elsewhere the `vjp` is 8, not 1. -/
theorem C53_violated_paint :
    AllReturn 2 (fun r => (abPaintJvp exMesh exWin r none (if r = 0 then [[1 / 2]] else []) (some (if r = 0 then [[1]] else []))).andThen
      fun f => .ret (.ok ((List.range 4).map fun a => f a)))
      (fun r => (.ok (if r = 0 then [-1, 1, 0, 0] else [0, 0, 0, 0]) : Except MeshErr (List ℚ))) ∧
    AllReturn 2 (fun r => abPaintVjp exMesh exWin r none (if r = 0 then [[1 / 2]] else []) (fun a => if r = 0 ∧ a = 1 then 1 else 0))
      (fun r => .ok [if r = 0 then [8] else []]) :=
  ⟨AllReturn.of_runAll 20 (by decide +kernel), AllReturn.of_runAll 20 (by decide +kernel)⟩

/-- **C53 violated** by `assign_component`: the output does not depend on the old value of the component, but the `vjp` passes
the cotangent on to it.  One element with one component, tangent 1 of the old value and 0 of the new one. -/
theorem C53_violated_assign_component :
    componentsDot (K := ℚ) 1 1 (fun _ => [()]) (fun _ => abAssignComponentJvp 0 (fun _ _ => 1) (fun _ => 0)) (fun _ _ _ => 1) = 0 ∧
    componentsDot (K := ℚ) 1 1 (fun _ => [()]) (fun _ _ _ => 1) (fun _ => (abAssignComponentVjp 0 fun _ _ => 1).1) +
      arrayDot (K := ℚ) 1 (fun _ => [()]) (fun _ _ => 0) (fun _ => (abAssignComponentVjp 0 fun _ _ => 1).2) = 1 := by
  decide +kernel

/-- `multiply` of complex fields, elementwise as for arrays; pmesh/abopt.py:253-264. -/
def cxMultiplyVjp (x1 x2 v : List ℕ → Cx ℚ) : (List ℕ → Cx ℚ) × (List ℕ → Cx ℚ) :=
  (fun i => cxMul (v i) (x2 i), fun i => cxMul (v i) (x1 i))
def cxMultiplyJvp (x1 x2 u1 u2 : List ℕ → Cx ℚ) (i : List ℕ) : Cx ℚ := cxMul (u1 i) (x2 i) + cxMul (x1 i) (u2 i)

/-- **C53 violated** by `multiply` of complex fields: the `vjp` lacks the conjugate.  `x2` is `i` in mode (1, 1), the tangent of
`x1` is 1 there and the cotangent is `i`. -/
theorem C53_violated_multiply :
    let one (z : Cx ℚ) (r : ℕ) (c : List ℕ) : Cx ℚ := if exTiling.global r c = [1, 1] then z else 0
    AllReturn 2 (fun r => cdot 1 exTiling [] none r (cxMultiplyJvp (one 0 r) (one (0, 1) r) (one (1, 0) r) (one 0 r)) (one (0, 1) r))
      (fun _ => some (2, 0)) ∧
    AllReturn 2 (fun r => cdot 1 exTiling [] none r (one (1, 0) r) (cxMultiplyVjp (one 0 r) (one (0, 1) r) (one (0, 1) r)).1)
      (fun _ => some (-2, 0)) :=
  ⟨AllReturn.of_runAll 3 (by decide +kernel), AllReturn.of_runAll 3 (by decide +kernel)⟩

/-- **C53 violated** by `decompress` if the inner product of the inputs is `cdot` too, as in `ParticleMeshVectorSpace.dot`
(pmesh/abopt.py:44-57). -/
theorem C53_violated_decompress :
    AllReturn 2 (fun r => cdot 1 exTiling [] none r (abDecompressJvp fun c => exSpec (exTiling.global r c))
      (fun c => exSpec (exTiling.global r c))) (fun _ => some (62, 0)) ∧
    AllReturn 2 (fun r => cdot 1 exTiling [] none r (fun c => exSpec (exTiling.global r c))
      (abDecompressVjp exTiling r fun c => exSpec (exTiling.global r c))) (fun _ => some (124, 0)) :=
  ⟨AllReturn.of_runAll 3 (by decide +kernel), AllReturn.of_runAll 3 (by decide +kernel)⟩

/-- `lowpass`: the `jvp` and the `vjp` leave the field as it is, so that they match each other. -/
theorem C53_lowpass_identity (nmesh cshape : List ℕ) (box : List ℝ) (neff : ℤ) (u v : List ℕ → ℝ) :
    abLowpassJvp nmesh cshape box neff u = u ∧ abLowpassVjp nmesh cshape box neff v = v := ⟨rfl, rfl⟩

/-- **C53 violated** by `lowpass`: the operator, which is linear, takes the field (1, 0) to its mean 1/2 if only the mean is
kept; its `jvp` is 1 in the first cell. -/
theorem C53_violated_lowpass :
    abLowpass [2] [2] [1] 0 (fun x => if x = [0] then 1 else 0) [0] = 1 / 2 ∧
    abLowpassJvp [2] [2] [1] 0 (fun x => if x = [0] then 1 else 0) [0] = 1 := by
  refine ⟨?_, by simp [abLowpassJvp]⟩
  have hpi := Real.pi_pos
  have h1 : ∀ z, lowpassFilter [2] [1] 0 [0] z = z := by
    intro z
    simp [lowpassFilter, wrapIndex]
  have h2 : ∀ z, lowpassFilter [2] [1] 0 [1] z = 0 := by
    intro z
    have : (1 : ℝ) - 2 = 0 ↔ False := by norm_num
    simp [lowpassFilter, wrapIndex, hpi.ne', this]
  have hnd : ndindex [2] = [[0], [1]] := by decide
  simp only [abLowpass, c2r, dftBackward, hnd, List.map_cons, List.map_nil, List.sum_cons, List.sum_nil]
  have hd0 : ∀ F, decompress [2] [2] F [0] = F [0] := fun F => by simp [decompress]
  have hd1 : ∀ F, decompress [2] [2] F [1] = F [1] := fun F => by simp [decompress]
  rw [hd0, hd1, h1, h2]
  simp [r2c, dftForward, hnd, phaseArg]

#print axioms C53_residual
#print axioms C53_assign
#print axioms C53_add
#print axioms C53_multiply
#print axioms C53_to_scalar
#print axioms C53_assign_component_partial
#print axioms C53_transfer
#print axioms C53_decompress_partial
#print axioms C53_paint_factor
#print axioms C53_paint_partial
#print axioms C53_readout
#print axioms C53_violated_paint
#print axioms C53_violated_assign_component
#print axioms C53_violated_multiply
#print axioms C53_violated_decompress
#print axioms C53_lowpass_identity
#print axioms C53_violated_lowpass

end Pmesh
