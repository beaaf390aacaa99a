import Verif.Props.RankFree
import Verif.Props.Products
import Verif.Spec.Symmetry

/-! # Weights of a particle as products over the axes; symmetries of the solver -/

namespace Pmesh

open Complex

section
variable {K : Type} [Field K] [LinearOrder K] [IsStrictOrderedRing K] [FloorRing K]

/-- The fast method on `d` value axes. -/
def fastOf (w : Resampler K) (d : ℕ) : Option Tuned :=
  match w.tuned with
  | none => none
  | some t =>
    if d > 3 then none
    else if (windowInfo w.kern.native ((w.support : K) * 1)).support ≠ (Tuned.kern t : Kern K).native then none
    else if d = 1 ∨ d = 2 ∨ d = 3 then some t
    else none

/-- A value axis of `n` cells on which positions are in units of cells. -/
def unitAxis (n : ℕ) : PAxis K := ⟨0, 1, 0, n, n, 0⟩

/-- Weight on cell `c` of an axis of `n` cells of a particle at `u` cells, in `d` dimensions. -/
def gridW (w : Resampler K) (d n : ℕ) (u : K) (c : ℕ) : K :=
  cw (match fastOf w d with
    | some t => tunedStencil t (unitAxis n) u
    | none => genStencil w.kern (windowInfo w.kern.native ((w.support : K) * 1)) (unitAxis n) u) c

theorem gen_unit (k : Kern K) (w : Win K) (ax : PAxis K) (h : ax.order = 0) (x : K) :
    genStencil k w ax x = genStencil k w (unitAxis ax.period) (ax.grid x) := by
  unfold genStencil fillAxis
  simp [unitAxis, PAxis.grid, h]

theorem tuned_unit (t : Tuned) (ax : PAxis K) (h : ax.order = 0) (x : K) :
    tunedStencil t ax x = tunedStencil t (unitAxis ax.period) (ax.grid x) := by
  unfold tunedStencil tunedSetup
  cases t <;> simp [unitAxis, PAxis.grid, h]

theorem cwProd_range : ∀ (n : ℕ) (f : ℕ → PAxis K) (st : PAxis K → K → List (ℤ × K)) (x : List K) (g : List ℕ),
    x.length = n → g.length = n →
    cwProd (List.zipWith st ((List.range n).map f) x) g = ((List.range n).map fun j => cw (st (f j) (x.getD j 0)) (g.getD j 0 : ℕ)).prod
  | 0, f, st, x, g, hx, hg => by simp [cwProd]
  | n + 1, f, st, x :: xs, g :: gs, hx, hg => by
    rw [List.range_succ_eq_map, List.map_cons, List.zipWith_cons_cons, cwProd, List.map_map, List.map_cons, List.prod_cons, List.map_map,
      cwProd_range n (f ∘ Nat.succ) st xs gs (by simpa using hx) (by simpa using hg)]
    rfl

theorem fast_eq (m : PMesh K) (w : Resampler K) :
    fastMethod ((m.serial (cStrides m.nmesh)).painter w none 0) (partWin ((m.serial (cStrides m.nmesh)).painter w none 0) 1) =
      fastOf w m.nmesh.length := by
  unfold fastMethod fastOf partWin
  simp only [PMesh.painter, PMesh.serial, List.length_map, List.length_range]
  have : ((List.map (fun j => (⟨if (none : Option ℕ) = some j then 1 else 0, (m.serial (cStrides m.nmesh)).scale.getD j 0,
      -((((m.serial (cStrides m.nmesh)).start 0).getD j 0 : ℕ) : K), m.nmesh.getD j 0,
      ((m.serial (cStrides m.nmesh)).localShape 0).getD j 0, ((cStrides m.nmesh)).getD j 0⟩ : PAxis K)) (List.range m.nmesh.length)).take 3).any
      (fun ax => decide (ax.order > 1)) = false := by
    rw [List.any_eq_false]
    intro ax hax
    obtain ⟨j, _, rfl⟩ := List.mem_map.1 (List.mem_of_mem_take hax)
    simp
  simp only [PMesh.serial] at this
  rw [this]
  rfl

/-- The weight is the product of the weights along the axes. -/
theorem weightAt_prod {m : PMesh K} (hm : m.OK) (w : Resampler K) {x : List K} (hx : x.length = m.nmesh.length) {g : List ℕ}
    (hg : g.length = m.nmesh.length) :
    m.weightAt w x g = ((List.range m.nmesh.length).map fun j =>
      gridW w m.nmesh.length (m.nmesh.getD j 0) (x.getD j 0 * ((m.nmesh.getD j 0 : ℕ) / m.box.getD j 0)) (g.getD j 0)).prod := by
  unfold PMesh.weightAt
  set S := m.serial (cStrides m.nmesh) with hS
  have hax : (S.painter w none 0).axes = (List.range m.nmesh.length).map fun j =>
    (⟨0, S.scale.getD j 0, -(((S.start 0).getD j 0 : ℕ) : K), m.nmesh.getD j 0, (S.localShape 0).getD j 0, (S.strides 0).getD j 0⟩ : PAxis K) := by
    simp [PMesh.painter, hS, PMesh.serial]
  obtain ⟨st, hst⟩ : ∃ st, st = axisStencil (S.painter w none 0) 1 := ⟨_, rfl⟩
  rw [← hst, hax, cwProd_range _ _ _ _ _ hx hg]
  congr 1
  apply List.map_congr_left
  intro j hj
  have hj' := List.mem_range.1 hj
  have hgrid : (⟨0, S.scale.getD j 0, -(((S.start 0).getD j 0 : ℕ) : K), m.nmesh.getD j 0, (S.localShape 0).getD j 0,
      (S.strides 0).getD j 0⟩ : PAxis K).grid (x.getD j 0) = x.getD j 0 * ((m.nmesh.getD j 0 : ℕ) / m.box.getD j 0) := by
    have e1 : S.scale.getD j 0 = ((m.nmesh.getD j 0 : ℕ) : K) / m.box.getD j 0 := scale_getD hm hj'
    have e2 : (S.start 0).getD j 0 = 0 := by
      rw [serial_start]
      simp [List.getD_eq_getElem?_getD, hj']
    unfold PAxis.grid
    simp only
    rw [e1, e2]
    simp
  rw [hst]
  unfold axisStencil gridW
  rw [fast_eq]
  cases fastOf w m.nmesh.length with
  | none =>
    simp only
    rw [gen_unit _ _ _ rfl, hgrid]
    rfl
  | some t =>
    simp only
    rw [tuned_unit _ _ rfl, hgrid]

/-- The size of the window. -/
def Resampler.width1 (w : Resampler K) : K := if (w.support : K) * 1 ≤ 0 then (w.kern.native : K) else w.support * 1

theorem gridW_axisWeight {w : Resampler K} (hw : w.Valid) (hk : Confined w.kern) (d n : ℕ) (u : K) (c : ℕ) :
    gridW w d n u c = axisWeight w.kern w.width1 (unitAxis n) u c := by
  unfold gridW
  rw [Resampler.width1, ← cw_eq_axisWeight hk]
  cases hf : fastOf w d with
  | none => rfl
  | some t =>
    simp only
    unfold fastOf at hf
    cases ht : w.tuned with
    | none => simp [ht] at hf
    | some t' =>
      rw [ht] at hf
      simp only at hf
      split_ifs at hf with h1 h2 h3
      obtain rfl : t' = t := by simpa using hf
      have hkern := hw.tuned_kern t' ht
      rw [hkern]
      congr 1
      refine tunedStencil_eq t' _ _ _ ?_ (Or.inl rfl)
      rw [not_not, hkern] at h2
      unfold windowInfo at h2
      simp only at h2
      split_ifs at h2 ⊢ with h4 h5
      · rfl
      · exact absurd (by simp) h5
      · rw [mul_one] at h2 ⊢
        rw [← h2]
        simp

/-- A window that is the same on both sides of the particle puts the same weight on the mirror image. -/
theorem gridW_mirror {w : Resampler K} (hw : w.Valid) (hk : Confined w.kern) (heven : ∀ x, w.kern.kernel (-x) = w.kern.kernel x)
    (d n : ℕ) (u : K) {c : ℕ} (hc : c < n) : gridW w d n ((n : K) - u) ((n - c) % n) = gridW w d n u c := by
  rw [gridW_axisWeight hw hk, gridW_axisWeight hw hk]
  unfold axisWeight
  refine finsum_eq_of_bijective (fun k : ℤ => (n : ℤ) - k) ⟨fun a b h => by simpa using h, fun b => ⟨(n : ℤ) - b, by simp⟩⟩ ?_
  intro k
  have hn : n ≠ 0 := by omega
  have e1 : IsCell (unitAxis (K := K) n).period k ((n - c) % n : ℕ) ↔ IsCell (unitAxis (K := K) n).period ((n : ℤ) - k) c := by
    unfold IsCell unitAxis
    simp only [if_neg hn]
    have hc' : ((n - c : ℕ) : ℤ) = (n : ℤ) - c := by omega
    push_cast
    rw [hc', Int.sub_emod_left, Int.sub_emod_left]
    constructor
    · intro h
      have h1 : (-(-(c : ℤ))) % n = (-k) % n := Int.ModEq.neg h
      rw [neg_neg, Int.emod_eq_of_lt (by omega) (by omega)] at h1
      exact h1
    · intro h
      have h0 : (c : ℤ) % n = (-k) % n := by rw [Int.emod_eq_of_lt (by omega) (by omega)]; exact h
      have h1 : (-(c : ℤ)) % n = (-(-k)) % n := Int.ModEq.neg h0
      rw [neg_neg] at h1
      exact h1
  simp only [e1]
  congr 1
  unfold windowAt unitAxis
  simp only [if_true, mul_one, add_zero]
  rw [← heven]
  congr 2
  push_cast
  ring

end

/-- A symmetry: positions go to positions and cells to cells, such that weights and phases stay the same. -/
structure Symmetry (w : Resampler ℝ) (m m' : PMesh ℝ) (φ : List ℝ → List ℝ) (ψ : List ℕ → List ℕ) : Prop where
  perm : ((ndindex m.nmesh).map ψ).Perm (ndindex m'.nmesh)
  vol : (m.nmesh.map fun (n : ℕ) => ((n : ℝ)⁻¹)).prod = (m'.nmesh.map fun (n : ℕ) => ((n : ℝ)⁻¹)).prod
  weight : ∀ x : List ℝ, x.length = m.nmesh.length → ∀ g, ValidIndex m.nmesh g → m'.weightAt w (φ x) (ψ g) = m.weightAt w x g
  phase : ∀ k g, ValidIndex m.nmesh k → ValidIndex m.nmesh g → phase m'.nmesh (ψ k) (ψ g) = phase m.nmesh k g
  opp : ∀ k, ValidIndex m.nmesh k → ψ (opposite m.nmesh k) = opposite m'.nmesh (ψ k)

namespace Symmetry
variable {w : Resampler ℝ} {m m' : PMesh ℝ} {φ : List ℝ → List ℝ} {ψ : List ℕ → List ℕ} (S : Symmetry w m m' φ ψ)
include S

theorem sum {M : Type} [AddCommMonoid M] (F : List ℕ → M) :
    ((ndindex m'.nmesh).map F).sum = ((ndindex m.nmesh).map fun g => F (ψ g)).sum := by
  have := (S.perm.map F).sum_eq
  rw [List.map_map] at this
  exact this.symm

theorem valid {g : List ℕ} (hg : ValidIndex m.nmesh g) : ValidIndex m'.nmesh (ψ g) :=
  mem_ndindex.1 (S.perm.subset (List.mem_map.2 ⟨g, mem_ndindex.2 hg, rfl⟩))

theorem onto {g' : List ℕ} (hg : ValidIndex m'.nmesh g') : ∃ g, ValidIndex m.nmesh g ∧ ψ g = g' := by
  obtain ⟨g, h1, h2⟩ := List.mem_map.1 (S.perm.symm.subset (mem_ndindex.2 hg))
  exact ⟨g, mem_ndindex.1 h1, h2⟩

theorem modes {f f' : List ℕ → ℝ} (h : ∀ g, ValidIndex m.nmesh g → f' (ψ g) = f g) {k : List ℕ} (hk : ValidIndex m.nmesh k) :
    r2c m'.nmesh f' (ψ k) = r2c m.nmesh f k := by
  unfold r2c
  rw [dftForward_eq, dftForward_eq, S.sum, S.vol]
  congr 1
  apply sum_congr'
  intro g hg
  have hg := mem_ndindex.1 hg
  rw [h g hg, S.phase k g hk hg]

theorem transfer {T T' : List ℕ → ℂ} (hT : RealTransfer m.nmesh T) (h : ∀ k, ValidIndex m.nmesh k → T' (ψ k) = T k) :
    RealTransfer m'.nmesh T' := by
  intro k' hk'
  obtain ⟨k, hk, rfl⟩ := S.onto hk'
  rw [← S.opp k hk, h _ (opposite_valid hk), h k hk, hT k hk]

end Symmetry

/-- `c2r` of a product with the transfer function of a real kernel. -/
theorem c2r_real {nmesh cshape : List ℕ} (hs : StoredShape nmesh cshape) (hne : nmesh ≠ []) {T : List ℕ → ℂ} (hT : RealTransfer nmesh T)
    (f : List ℕ → ℝ) (x : List ℕ) :
    c2r nmesh cshape (fun k => T k * r2c nmesh f k) x = (dftBackward nmesh (fun k => T k * r2c nmesh f k) x).re := by
  unfold c2r
  rw [dftBackward_eq, dftBackward_eq]
  congr 1
  apply sum_congr'
  intro k hk
  have hk := mem_ndindex.1 hk
  rw [decompress_stored hs hne hk]
  split_ifs
  · rfl
  · rw [r2c_opposite _ _ hk, hT k hk, map_mul, Complex.conj_conj, Complex.conj_conj]

theorem Symmetry.field {w : Resampler ℝ} {m m' : PMesh ℝ} {φ : List ℝ → List ℝ} {ψ : List ℕ → List ℕ} (S : Symmetry w m m' φ ψ)
    {cshape cshape' : List ℕ} (hs : StoredShape m.nmesh cshape) (hs' : StoredShape m'.nmesh cshape') (hne : m.nmesh ≠ []) (hne' : m'.nmesh ≠ [])
    {T T' : List ℕ → ℂ} (hT : RealTransfer m.nmesh T) (hTT : ∀ k, ValidIndex m.nmesh k → T' (ψ k) = T k)
    {f f' : List ℕ → ℝ} (h : ∀ g, ValidIndex m.nmesh g → f' (ψ g) = f g) {g : List ℕ} (hg : ValidIndex m.nmesh g) :
    c2r m'.nmesh cshape' (fun k => T' k * r2c m'.nmesh f' k) (ψ g) = c2r m.nmesh cshape (fun k => T k * r2c m.nmesh f k) g := by
  rw [c2r_real hs hne hT, c2r_real hs' hne' (S.transfer hT hTT), dftBackward_eq, dftBackward_eq, S.sum]
  congr 1
  apply sum_congr'
  intro k hk
  have hk := mem_ndindex.1 hk
  rw [hTT k hk, S.modes h hk, S.phase k g hk hg]

/-- Two runs of the solver give the same up to a change `φ` of positions and `ψ` of cells and modes.  Each run paints its particles,
transforms, multiplies the modes by `T` in run `a` and `T'` in run `b`, transforms back and reads out at the particles.  Then the
painted fields, their modes, and the values read correspond. -/
def SolverRun.SolvesAlike (a b : SolverRun) (w : Resampler ℝ) (φ : List ℝ → List ℝ) (ψ : List ℕ → List ℕ) (cshape cshape' : List ℕ)
    (T T' : List ℕ → ℂ) : Prop :=
  ∃ (rho rho' : List ℕ → ℝ) (da db : ℕ → ℤ → ℝ) (value value' : List ℝ → ℝ),
    AllReturn a.m.nrank (a.paint w) (fun r => .ok (da r)) ∧ a.m.HoldsField da rho ∧
    AllReturn b.m.nrank (b.paint w) (fun r => .ok (db r)) ∧ b.m.HoldsField db rho' ∧
    (∀ g, ValidIndex a.m.nmesh g → rho' (ψ g) = rho g) ∧
    (∀ k, ValidIndex a.m.nmesh k → r2c b.m.nmesh rho' (ψ k) = r2c a.m.nmesh rho k) ∧
    (∀ field, a.m.HoldsField field (c2r a.m.nmesh cshape fun k => T k * r2c a.m.nmesh rho k) →
      AllReturn a.m.nrank (a.readout w field) (fun r => .ok ((a.pos r).map value))) ∧
    (∀ field, b.m.HoldsField field (c2r b.m.nmesh cshape' fun k => T' k * r2c b.m.nmesh rho' k) →
      AllReturn b.m.nrank (b.readout w field) (fun r => .ok ((b.pos r).map value'))) ∧
    ∀ x, x.length = a.m.nmesh.length → value' (φ x) = value x

/-- The solver under a symmetry. -/
theorem Symmetry.solver {w : Resampler ℝ} (hw : w.Valid) {a b : SolverRun} (ha : a.OK w) (hb : b.OK w)
    {φ : List ℝ → List ℝ} {ψ : List ℕ → List ℕ} (S : Symmetry w a.m b.m φ ψ)
    (hsame : (allParticles b.m.nrank b.pos b.mass fun _ => .none).Perm
      ((allParticles a.m.nrank a.pos a.mass fun _ => .none).map fun p => ⟨φ p.pos, p.mass, p.hsml⟩))
    {cshape cshape' : List ℕ} (hs : StoredShape a.m.nmesh cshape) (hs' : StoredShape b.m.nmesh cshape')
    {T T' : List ℕ → ℂ} (hT : RealTransfer a.m.nmesh T) (hTT : ∀ k, ValidIndex a.m.nmesh k → T' (ψ k) = T k) :
    a.SolvesAlike b w φ ψ cshape cshape' T T' := by
  obtain ⟨da, h1, h2⟩ := paint_weightAt a.m ha.mesh ha.plain w hw a.sm ha.smoothing ha.halo ha.covers a.pos ha.pos a.mass ha.mass
  obtain ⟨db, h3, h4⟩ := paint_weightAt b.m hb.mesh hb.plain w hw b.sm hb.smoothing hb.halo hb.covers b.pos hb.pos b.mass hb.mass
  obtain ⟨rho, hrd⟩ : ∃ rho : List ℕ → ℝ, rho = fun g =>
    ((allParticles a.m.nrank a.pos a.mass fun _ => .none).map fun p => p.mass * a.m.weightAt w p.pos g).sum := ⟨_, rfl⟩
  obtain ⟨rho', hrd'⟩ : ∃ rho : List ℕ → ℝ, rho = fun g =>
    ((allParticles b.m.nrank b.pos b.mass fun _ => .none).map fun p => p.mass * b.m.weightAt w p.pos g).sum := ⟨_, rfl⟩
  rw [← hrd] at h2
  rw [← hrd'] at h4
  have hrho : ∀ g, ValidIndex a.m.nmesh g → rho' (ψ g) = rho g := by
    intro g hg
    rw [hrd, hrd']
    simp only
    rw [(hsame.map _).sum_eq, List.map_map]
    apply sum_congr'
    intro p hp
    obtain ⟨_, r, hr, hpr⟩ := mem_allParticles_hsml hp
    simp only [Function.comp]
    rw [S.weight _ (ha.pos r hr _ hpr) _ hg]
  refine ⟨rho, rho', da, db,
    fun x => ((ndindex a.m.nmesh).map fun g => a.m.weightAt w x g * c2r a.m.nmesh cshape (fun k => T k * r2c a.m.nmesh rho k) g).sum,
    fun x => ((ndindex b.m.nmesh).map fun g => b.m.weightAt w x g * c2r b.m.nmesh cshape' (fun k => T' k * r2c b.m.nmesh rho' k) g).sum,
    h1, h2, h3, h4, hrho, fun k hk => S.modes hrho hk, fun field hf => ?_, fun field hf => ?_, fun x hx => ?_⟩
  · exact readout_all ha.mesh ha.plain hw ha.smoothing ha.halo ha.pos ha.covers field _ hf (cStrides a.m.nmesh)
  · exact readout_all hb.mesh hb.plain hw hb.smoothing hb.halo hb.pos hb.covers field _ hf (cStrides b.m.nmesh)
  · simp only
    rw [S.sum]
    apply sum_congr'
    intro g hg
    have hg := mem_ndindex.1 hg
    rw [S.weight x hx g hg, S.field hs hs' ha.mesh.dim hb.mesh.dim hT hTT hrho hg]

end Pmesh
