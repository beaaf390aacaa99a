import Verif.Model.ComplexMesh
import Verif.Props.Fourier
import Verif.Props.Mesh
import Verif.Lemmas.OldPM

/-!
# C94: meshes of complex numbers

The transforms and the inner product of spectra are those of complex functions.  The inner product of the meshes themselves
lacks the complex conjugation, readout sees only the real part, and setting a mode changes the opposite mode as well.
-/

namespace Pmesh

/-- The sum over the modes of `F conj G` is the sum over the mesh of the transforms, divided by the number of cells. -/
theorem parseval_full (nmesh : List ℕ) (hpos : ∀ n ∈ nmesh, 0 < n) (F G : List ℕ → ℂ) :
    ((ndindex nmesh).map fun x => c2rFull nmesh F x * (starRingEnd ℂ) (c2rFull nmesh G x)).sum =
      ((nmesh.prod : ℕ) : ℂ) * ((ndindex nmesh).map fun k => F k * (starRingEnd ℂ) (G k)).sum := by
  have h1 : ((ndindex nmesh).map fun x => c2rFull nmesh F x * (starRingEnd ℂ) (c2rFull nmesh G x)).sum =
      ((ndindex nmesh).map fun k => (dftForward nmesh (dftBackward nmesh F) k) * (starRingEnd ℂ) (G k)).sum := by
    unfold c2rFull
    simp only [dftForward_eq, dftBackward_eq, conj_sum, ← sum_cmul, ← sum_mulc]
    rw [sum_swapC]
    apply sum_congr'
    intro k _
    apply sum_congr'
    intro x _
    apply sum_congr'
    intro k' _
    rw [map_mul]
    ring
  rw [h1, ← sum_cmul]
  apply sum_congr'
  intro k hk
  rw [forward_backward nmesh F (mem_ndindex.1 hk)]
  ring

theorem toCx_sum {α : Type} (l : List α) (f : α → ℂ) : (l.map fun a => toCx (f a)).sum = toCx (l.map f).sum := by
  induction l with
  | nil => rfl
  | cons a l ih => rw [List.map_cons, List.sum_cons, ih, List.map_cons, List.sum_cons]; simp [toCx]

theorem toCx_mul (z w : ℂ) : cxMul (toCx z) (toCx w) = toCx (z * w) := by
  simp [cxMul, toCx]

/-- **C94**, the inner product of spectra: `cdot` of two spectra stored in full, Hermitian or not, is on every rank the
complex inner product `∑ F conj G`, and this is the inner product of the complex meshes `c2r(F)` and `c2r(G)` divided by the
number of cells, also the imaginary part.  `cnorm` is the sum of the squared absolute values, likewise. -/
theorem C94_inner (t : Tiling) (ht : t.OK) (hne : t.nmesh ≠ []) (hfull : t.cshape = t.nmesh) (F G : List ℕ → ℂ)
    (f g : ℕ → List ℕ → Cx ℝ) (hf : t.Holds f fun k => toCx (F k)) (hg : t.Holds g fun k => toCx (G k)) :
    AllReturn t.nrank (fun r => cdot Real.pi t [] none r (f r) (g r)) (fun _ => some (toCx
      (((ndindex t.nmesh).map fun x => c2rFull t.nmesh F x * (starRingEnd ℂ) (c2rFull t.nmesh G x)).sum / (t.nmesh.prod : ℕ)))) ∧
    AllReturn t.nrank (fun r => cnorm Real.pi t [] none (fun z => z.1 ^ 2 + z.2 ^ 2) r (f r)) (fun _ => some
      (((ndindex t.nmesh).map fun x => ‖c2rFull t.nmesh F x‖ ^ 2).sum / (t.nmesh.prod : ℕ), 0)) := by
  have hN : ((t.nmesh.prod : ℕ) : ℂ) ≠ 0 := Nat.cast_ne_zero.2 (prod_ne ht.mesh_pos)
  have hcomp : t.compressed = some false := by simp [Tiling.compressed, hfull]
  have hsumF : ((ndindex t.nmesh).map fun x => ‖c2rFull t.nmesh F x‖ ^ 2).sum / (t.nmesh.prod : ℕ) =
      ((ndindex t.nmesh).map fun k => (F k).re ^ 2 + (F k).im ^ 2).sum := by
    have h := parseval_full t.nmesh ht.mesh_pos F F
    have hz : ∀ z : ℂ, z * (starRingEnd ℂ) z = ((z.re ^ 2 + z.im ^ 2 : ℝ) : ℂ) := by
      intro z
      rw [Complex.mul_conj, Complex.normSq_apply]
      push_cast
      ring
    have hs : ∀ (l : List (List ℕ)) (u : List ℕ → ℝ), (l.map fun x => ((u x : ℝ) : ℂ)).sum = (((l.map u).sum : ℝ) : ℂ) := by
      intro l u
      induction l with
      | nil => simp
      | cons a l ih => rw [List.map_cons, List.sum_cons, ih, List.map_cons, List.sum_cons, Complex.ofReal_add]
    simp only [hz, hs] at h
    have h' : ((ndindex t.nmesh).map fun x => (c2rFull t.nmesh F x).re ^ 2 + (c2rFull t.nmesh F x).im ^ 2).sum =
        (t.nmesh.prod : ℕ) * ((ndindex t.nmesh).map fun k => (F k).re ^ 2 + (F k).im ^ 2).sum := by
      apply Complex.ofReal_injective
      rw [Complex.ofReal_mul, Complex.ofReal_natCast]
      exact h
    have hn : ∀ z : ℂ, ‖z‖ ^ 2 = z.re ^ 2 + z.im ^ 2 := by
      intro z
      rw [Complex.sq_norm, Complex.normSq_apply]
      ring
    simp only [hn]
    rw [h', mul_comm, mul_div_assoc, div_self (by exact_mod_cast prod_ne ht.mesh_pos), mul_one]
  constructor
  · rw [parseval_full _ ht.mesh_pos, mul_comm, mul_div_assoc, div_self hN, mul_one]
    unfold cdot
    rw [hcomp]
    dsimp only
    refine AllReturn.coll ht.rank_pos ?_
    refine AllReturn.congr (fun _ _ => rfl) (fun r hr => ?_) (AllReturn.ret t.nrank _)
    congr 1
    rw [← toCx_sum, ← hfull, ← tiles_sum ht]
    apply sum_congr'
    intro r hr
    rw [List.mem_range] at hr
    apply sum_congr'
    intro c hc
    rw [hf r hr c (mem_ndindex.1 hc), hg r hr c (mem_ndindex.1 hc)]
    simp only [expandHermitian, Bool.false_eq_true, if_false, Option.elim_none]
    rw [← toCx_conj, toCx_mul, mul_comm]
    simp [cxMul, toCx]
  · rw [hsumF]
    unfold cnorm
    rw [hcomp]
    dsimp only
    refine AllReturn.coll ht.rank_pos ?_
    refine AllReturn.congr (fun _ _ => rfl) (fun r hr => ?_) (AllReturn.ret t.nrank _)
    congr 1
    have : ((((ndindex t.nmesh).map fun k => (F k).re ^ 2 + (F k).im ^ 2).sum, 0) : Cx ℝ) =
        ((ndindex t.nmesh).map fun k => (((F k).re ^ 2 + (F k).im ^ 2, 0) : Cx ℝ)).sum := by
      apply Prod.ext
      · rw [list_sum_fst]
      · rw [list_sum_snd]; simp
    rw [this, ← hfull, ← tiles_sum ht]
    apply sum_congr'
    intro r hr
    rw [List.mem_range] at hr
    apply sum_congr'
    intro c hc
    rw [hf r hr c (mem_ndindex.1 hc)]
    simp [expandHermitian, toCx]

/-- **C94**, the inner product of complex meshes (partial: the second mesh has real values).  Then `a.cdot(b)` is the inner
product `∑ a conj b` on every rank, and it is the number of cells times the `cdot` of the transforms of `a` and `b`. -/
theorem C94_cdot_partial (t tc : Tiling) (ht : t.OK) (hne : t.nmesh ≠ []) (hfull : t.cshape = t.nmesh)
    (htc : tc.OK) (hmesh : tc.nmesh = t.nmesh) (hfullc : tc.cshape = tc.nmesh) (A B : List ℕ → ℂ)
    (hB : ∀ x, ValidIndex t.nmesh x → (B x).im = 0)
    (a b : ℕ → List ℕ → Cx ℝ) (ha : t.Holds a fun x => toCx (A x)) (hb : t.Holds b fun x => toCx (B x))
    (f g : ℕ → List ℕ → Cx ℝ) (hf : tc.Holds f fun k => toCx (r2cFull t.nmesh A k))
    (hg : tc.Holds g fun k => toCx (r2cFull t.nmesh B k)) :
    AllReturn t.nrank (fun r => complexCdot t r (a r) (b r)) (fun _ =>
      toCx ((ndindex t.nmesh).map fun x => A x * (starRingEnd ℂ) (B x)).sum) ∧
    AllReturn tc.nrank (fun r => cdot Real.pi tc [] none r (f r) (g r)) (fun _ => some (toCx
      (((ndindex t.nmesh).map fun x => A x * (starRingEnd ℂ) (B x)).sum / (t.nmesh.prod : ℕ)))) := by
  constructor
  · unfold complexCdot
    refine AllReturn.coll ht.rank_pos ?_
    refine AllReturn.congr (fun _ _ => rfl) (fun r hr => ?_) (AllReturn.ret t.nrank _)
    rw [← toCx_sum, ← hfull, ← tiles_sum ht]
    apply sum_congr'
    intro r hr
    rw [List.mem_range] at hr
    apply sum_congr'
    intro c hc
    have hv := ht.inside r hr c (mem_ndindex.1 hc)
    rw [hfull] at hv
    rw [ha r hr c (mem_ndindex.1 hc), hb r hr c (mem_ndindex.1 hc), toCx_mul, Complex.conj_eq_iff_im.2 (hB _ hv)]
  · rw [← hmesh] at hf hg ⊢
    refine AllReturn.congr (fun _ _ => rfl) (fun r hr => ?_)
      (C94_inner tc htc (hmesh.symm ▸ hne) hfullc (r2cFull tc.nmesh A) (r2cFull tc.nmesh B) f g hf hg).1
    congr 3
    apply sum_congr'
    intro x hx
    rw [(C29_complex tc.nmesh htc.mesh_pos A x (mem_ndindex.1 hx)).1, (C29_complex tc.nmesh htc.mesh_pos B x (mem_ndindex.1 hx)).1]

/-- **C94**, setting a mode (partial: the opposite mode changes with it).  `csetitem` on any array of modes, Hermitian or
not: the mode gets the value and the opposite mode its conjugate; a mode that is its own opposite gets the real part; all
other modes stay. -/
theorem C94_setitem_partial {K : Type} [Field K] (t : Tiling) (ht : t.OK) (hfull : t.cshape = t.nmesh) (G : List ℕ → Cx K)
    (f : ℕ → List ℕ → Cx K) (hf : t.Holds f G) (index : List ℤ) (hidx : IndexInRange t.nmesh index) (y : Cx K) :
    let i := meant t.nmesh index
    let d := opposite t.nmesh i
    ∃ f' : ℕ → List ℕ → Cx K,
      AllReturn t.nrank (fun r => csetitem t true r .whole index y (f r)) (fun r => some (f' r, if d = i then (y.1, 0) else y)) ∧
      t.Holds f' fun j => if j = i then (if d = i then (y.1, 0) else y) else if j = d then cxConj y else G j := by
  intro i d
  have hi : ValidIndex t.nmesh i := meant_valid hidx
  have hd : ValidIndex t.nmesh d := opposite_valid hi
  obtain ⟨f', G', w, h1, h2, -, h4, h5, h6, h7, h8⟩ := csetitem_any t ht G f hf .whole index hidx y (by simp)
  have hw : w = if d = i then (y.1, 0) else y := by
    by_cases e : d = i
    · rw [if_pos e]
      obtain ⟨r0, hr0⟩ : ∃ r, r < t.nrank := ⟨0, ht.rank_pos⟩
      have ha := C27_cgetitem t ht G' f' h2 .whole index hidx
      have h9 := AllReturn.unique h4 ha r0 hr0
      rw [Option.some.injEq] at h9
      rw [h9, if_pos (hfull.symm ▸ hi)]
      exact h7 (hfull.symm ▸ hi) e
    · rw [if_neg e]
      exact (h5 (hfull.symm ▸ hi) e).1
  refine ⟨f', hw ▸ h1, ?_⟩
  intro r hr c hc
  rw [h2 r hr c hc]
  beta_reduce
  by_cases e1 : t.global r c = i
  · rw [if_pos e1, e1]
    by_cases e : d = i
    · rw [if_pos e]
      exact h7 (hfull.symm ▸ hi) e
    · rw [if_neg e]
      exact (h5 (hfull.symm ▸ hi) e).2
  · rw [if_neg e1]
    by_cases e2 : t.global r c = d
    · rw [if_pos e2, e2]
      exact h6 (hfull.symm ▸ hd) (fun e => e1 (e2.trans e))
    · rw [if_neg e2]
      exact h8 _ e1 e2

section
variable {K : Type} [Field K] [LinearOrder K] [IsStrictOrderedRing K] [FloorRing K]

/-- **C94**, readout (partial: the imaginary part is lost; else the restrictions of `C24_readout_partial`).  All ranks finish
`decompose` and `readout` of a complex mesh, and each rank gets for its particles the values that a single process reads from
the real part of the whole mesh. -/
theorem C94_readout_partial (m : PMesh K) (hm : m.OK) (hp : m.PlainRanks) (w : Resampler K) (hw : w.Valid)
    (sm : List K) (hsm : m.SmoothingOK sm) (hh : m.HaloFits sm) (gradient : Option ℕ) (pos : ℕ → List (List K))
    (hpos : ∀ r < m.nrank, ∀ x ∈ pos r, x.length = m.nmesh.length) (hsml : ℕ → Quant K)
    (hhsml : QuantOK m.nrank (fun r => (pos r).length) hsml)
    (hcov : ∀ p ∈ allParticles m.nrank pos (fun _ => .none) hsml, ∀ s ∈ sm, w.Covers s p.hsml)
    (strides : List ℤ) (field : ℕ → ℤ → Cx K) (glob : ℤ → Cx K)
    (hf : ∀ r < m.nrank, ∀ c, ValidIndex (m.localShape r) c →
      field r (m.addr r c) = glob ((m.serial strides).addr 0 (m.global r c))) :
    ∃ res : ℕ → List K,
      AllReturn m.nrank (fun r => (pmDecompose m sm r (pos r)).andThen fun lay =>
        cxReadout m w gradient r (some lay) (pos r) (hsml r) (field r)) (fun r => .ok (res r)) ∧
      ∀ r < m.nrank, readout ((m.serial strides).painter w gradient 0) (fun a => (glob a).1)
        (particlesOf (pos r) .none (hsml r)) = some (res r) :=
  C24_readout_partial m hm hp w hw sm hsm hh gradient pos hpos hsml hhsml hcov strides (fun r a => (field r a).1)
    (fun a => (glob a).1) (fun r hr c hc => congrArg Prod.fst (hf r hr c hc))

/-- **C94**, painting.  Painting into a complex mesh paints into its real part, as into a real mesh, and leaves the
imaginary part 0, or as it was with `hold=True`. -/
theorem C94_paint (m : PMesh K) (w : Resampler K) (gradient : Option ℕ) (hold : Bool) (lay : ℕ → Option Lay)
    (pos : ℕ → List (List K)) (mass hsml : ℕ → Quant K) (out : ℕ → ℤ → Cx K) (res : ℕ → ℤ → K)
    (h : AllReturn m.nrank (fun r => pmPaint m w gradient hold r (lay r) (pos r) (mass r) (hsml r) fun a => (out r a).1)
      (fun r => .ok (res r))) :
    AllReturn m.nrank (fun r => cxPaint m w gradient hold r (lay r) (pos r) (mass r) (hsml r) (out r))
      (fun r => .ok fun a => (res r a, if hold then (out r a).2 else 0)) :=
  AllReturn.andThen h (AllReturn.ret m.nrank _)

end

/-! ## Examples and violations -/

/-- A line of four complex numbers on two ranks, and its spectrum on one. -/
def exCLine : Tiling := ⟨[4], [4], 2, fun r => [3 * r], fun r => if r = 0 then [3] else [1]⟩

def exCLine1 : Tiling := ⟨[4], [4], 1, fun _ => [0], fun _ => [4]⟩

theorem exCLine_ok : exCLine.OK := tiling_ok_of_decide (by decide)

example (F G : List ℕ → ℂ) := C94_inner exCLine exCLine_ok (by decide) rfl F G
  (fun r c => toCx (F (exCLine.global r c))) (fun r c => toCx (G (exCLine.global r c))) (fun _ _ _ _ => rfl) (fun _ _ _ _ => rfl)

example (A : List ℕ → ℂ) := C94_cdot_partial exCLine (exCLine1) exCLine_ok (by decide) rfl (tiling_ok_of_decide (by decide)) rfl rfl
  A (fun _ => 2) (by simp) _ _ (fun r _ c _ => rfl) (fun _ _ _ _ => rfl) _ _ (fun r _ c _ => rfl) (fun _ _ _ _ => rfl)

example := C94_setitem_partial exCLine exCLine_ok rfl (fun i => ((i.headD 0 : ℚ), 1)) (fun r c => (((exCLine.global r c).headD 0 : ℚ), 1))
  (fun _ _ _ _ => rfl) [-1] (by simp [IndexInRange, exCLine]) (2, 3)

example := C94_readout_partial exMesh exMesh_ok exMesh_plain exWin exWin_valid [1] exMesh_smooth exMesh_halo (some 0)
  (fun r => if r = 0 then [[15 / 2]] else [[7 / 2]]) (by decide) (fun _ => .none) (Or.inl fun _ _ => rfl)
  (by
    intro p hp s hs
    rw [List.mem_singleton] at hs
    subst hs
    have : p.hsml = 1 := by
      obtain ⟨r, _, hp⟩ := List.mem_flatMap.1 hp
      obtain ⟨i, _, rfl⟩ := List.mem_map.1 hp
      rfl
    rw [this]
    exact exWin_covers)
  [1] (fun r a => ((4 * r + a, 7) : ℚ × ℚ)) (fun a => ((a, 7) : ℚ × ℚ)) (by
    intro r hr c hc
    obtain ⟨i, rfl⟩ := List.length_eq_one_iff.1 ((validIndex_iff.1 hc).1.trans (by simp [PMesh.localShape, exMesh]))
    have : r = 0 ∨ r = 1 := by simp only [exMesh] at hr; omega
    rcases this with rfl | rfl <;>
      simp [PMesh.addr, PMesh.serial, PMesh.global, PMesh.start, exMesh])

/-- **C94 violated**, inner product of complex meshes: the mesh that is `i` in all four cells gets the norm -4 and not the
sum 4 of its squared absolute values.  The norm of its spectrum (`i` in the zero mode) is 1 = 4/4. -/
theorem C94_violated_cdot : exCLine.OK ∧
    AllReturn 2 (fun r => complexCnorm exCLine r fun _ => ((0, 1) : Cx ℚ)) (fun _ => (-4, 0)) ∧
    ((ndindex [4]).map fun _ => cxMul ((0, 1) : Cx ℚ) (cxConj (0, 1))).sum = (4, 0) ∧
    AllReturn 2 (fun r => cnorm (22 / 7 : ℚ) exCLine [] none (fun z => z.1 ^ 2 + z.2 ^ 2) r
      fun c => if exCLine.global r c = [0] then (0, 1) else 0) (fun _ => some (1, 0)) :=
  ⟨exCLine_ok, AllReturn.of_runAll 2 (by decide +kernel), by decide +kernel, AllReturn.of_runAll 2 (by decide +kernel)⟩

/-- The spectrum of the mesh that is `i` everywhere. -/
theorem exCLine_spectrum {k : List ℕ} (hk : ValidIndex [4] k) :
    r2cFull [4] (fun _ => Complex.I) k = if k = [0] then Complex.I else 0 := by
  have h := (C29_complex [4] (by simp) (fun k => if k = [0] then Complex.I else 0) k hk).2
  rw [← h]
  unfold r2cFull
  rw [dftForward_eq, dftForward_eq]
  congr 1
  apply sum_congr'
  intro x _
  congr 1
  unfold c2rFull
  rw [dftBackward_eq]
  have : ndindex [4] = [[0], [1], [2], [3]] := by decide
  rw [this]
  cases x with
  | nil => simp [phase, phaseArg]
  | cons a x => simp [phase, phaseArg]

/-- **C94 violated**, setting a mode: `csetitem(0, i)` of a spectrum of a complex mesh sets 0, although `i` is the zero mode
of the mesh that is `i` everywhere; and `csetitem(1, 5)` overwrites mode 3, which held 7. -/
theorem C94_violated_setitem :
    (∃ f', AllReturn 2 (fun r => csetitem exCLine true r .whole [0] ((0, 1) : Cx ℚ) fun _ => 0) (fun r => some (f' r, 0)) ∧
      exCLine.Holds f' fun _ => 0) ∧
    (∃ f', AllReturn 2 (fun r => csetitem exCLine true r .whole [1] ((5, 0) : Cx ℚ)
        fun c => if exCLine.global r c = [3] then (7, 0) else 0) (fun r => some (f' r, (5, 0))) ∧
      exCLine.Holds f' fun j => if j = [1] ∨ j = [3] then (5, 0) else 0) := by
  constructor
  · obtain ⟨f', h1, h2⟩ := C94_setitem_partial exCLine exCLine_ok rfl (fun _ => (0 : Cx ℚ)) (fun _ _ => 0) (fun _ _ _ _ => rfl)
      [0] (by simp [IndexInRange, exCLine]) (0, 1)
    refine ⟨f', h1, ?_⟩
    intro r hr c hc
    rw [h2 r hr c hc]
    have e : meant exCLine.nmesh [0] = [0] ∧ opposite exCLine.nmesh [0] = [0] := by decide
    simp only [e.1, e.2, if_true]
    split_ifs <;> rfl
  · obtain ⟨f', h1, h2⟩ := C94_setitem_partial exCLine exCLine_ok rfl (fun j => if j = [3] then ((7, 0) : Cx ℚ) else 0)
      (fun r c => if exCLine.global r c = [3] then (7, 0) else 0) (fun _ _ _ _ => rfl)
      [1] (by simp [IndexInRange, exCLine]) (5, 0)
    have e : meant exCLine.nmesh [1] = [1] ∧ opposite exCLine.nmesh [1] = [3] := by decide
    simp only [e.1, e.2] at h1 h2
    refine ⟨f', h1, ?_⟩
    intro r hr c hc
    rw [h2 r hr c hc]
    beta_reduce
    by_cases a : exCLine.global r c = [1]
    · simp [a]
    · by_cases b : exCLine.global r c = [3]
      · simp [b, cxConj]
      · simp [a, b]

/-- **C94 violated**, readout: the mesh that is `i` in all cells reads 0 everywhere, and not `i`. -/
theorem C94_violated_readout : exMesh.OK ∧
    AllReturn 2 (fun r => cxReadout exMesh exWin none r none [[(4 * r + 1 : ℚ)]] .none fun _ => (0, 1)) (fun _ => .ok [0]) ∧
    AllReturn 2 (fun r => pmReadout exMesh exWin none r none [[(4 * r + 1 : ℚ)]] .none fun _ => 1) (fun _ => .ok [1]) :=
  ⟨exMesh_ok, AllReturn.of_runAll 2 (by decide +kernel), AllReturn.of_runAll 2 (by decide +kernel)⟩

#print axioms C94_inner
#print axioms C94_cdot_partial
#print axioms C94_setitem_partial
#print axioms C94_readout_partial
#print axioms C94_paint
#print axioms C94_violated_cdot
#print axioms C94_violated_setitem
#print axioms C94_violated_readout

end Pmesh
