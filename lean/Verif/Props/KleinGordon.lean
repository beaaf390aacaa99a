import Verif.Model.KleinGordon
import Verif.Props.Simulation
import Verif.Lemmas.Translate

/-!
# C88: the Klein-Gordon solver of the examples

Violated: the term of the previous step lacks the factor 2 of the documented scheme.
-/

namespace Pmesh

/-- The spectra of the solver, step by step: `kgSpectra ... j` is that at the time `steps[j]`. -/
noncomputable def kgSpectra (nmesh cshape : List ℕ) (box : List ℝ) (F : ℝ → ℝ) : List ℝ → (List ℕ → ℂ) → (List ℕ → ℂ) → ℕ → List ℕ → ℂ
  | _, A2, _, 0 => A2
  | _, _, A1, 1 => A1
  | [], _, A1, _ + 2 => A1
  | dt :: ds, A2, A1, j + 2 => kgSpectra nmesh cshape box F ds A1 (fun k => ((1 / kgFactor nmesh box dt k : ℝ) : ℂ) *
      (r2c nmesh (fun x => F (c2r nmesh cshape A1 x)) k - (kgFactor1 nmesh box dt k : ℝ) * A1 k) - A2 k) (j + 1)

section
variable {a : Machine} {w : Resampler ℝ} (ha : a.OK w) (F : ℝ → ℝ)
include ha

theorem kgNext_iff (dt : ℝ) {U2 U1 : ℕ → List ℕ → ℂ} {A2 A1 : List ℕ → ℂ} (h2 : a.t.Holds U2 A2) (h1 : a.t.Holds U1 A1) :
    (∃ U, a.KgNext F dt U2 U1 U) ∧ ∀ U, a.KgNext F dt U2 U1 U → a.t.Holds U fun k =>
      ((1 / kgFactor a.m.nmesh a.m.box dt k : ℝ) : ℂ) *
      (r2c a.m.nmesh (fun x => F (c2r a.m.nmesh a.t.cshape A1 x)) k - (kgFactor1 a.m.nmesh a.m.box dt k : ℝ) * A1 k) - A2 k := by
  have hfield : ∀ x, a.IsC2r U1 x → a.m.HoldsField (fun r z => F (x r z)) fun g => F (c2r a.m.nmesh a.t.cshape A1 g) := by
    intro x hx r hr c hc
    exact congrArg F (hx A1 h1 r hr c hc)
  constructor
  · obtain ⟨x, hx⟩ := exists_c2r ha h1
    obtain ⟨G, hG⟩ := exists_r2c ha (hfield x hx)
    exact ⟨_, x, G, hx, hG, fun _ _ => rfl⟩
  · rintro U ⟨x, G, hx, hG, hU⟩ r hr c hc
    have := hG _ (hfield x hx) r hr c hc
    rw [hU, this, times_holds h1 _ r hr c hc, h2 r hr c hc]

theorem kgLoop_iff : ∀ (ds : List ℝ) {U2 U1 : ℕ → List ℕ → ℂ} {A2 A1 : List ℕ → ℂ}, a.t.Holds U2 A2 → a.t.Holds U1 A1 →
    (∃ U, a.KgLoop F ds U2 U1 U) ∧ ∀ U, a.KgLoop F ds U2 U1 U → a.t.Holds U (kgSpectra a.m.nmesh a.t.cshape a.m.box F ds A2 A1 (ds.length + 1))
  | [], U2, U1, A2, A1, _, h1 => ⟨⟨U1, rfl⟩, fun U h => by rw [show U = U1 from h]; exact h1⟩
  | dt :: ds, U2, U1, A2, A1, h2, h1 => by
    obtain ⟨⟨U', hU'⟩, n2⟩ := kgNext_iff ha F dt h2 h1
    refine ⟨?_, ?_⟩
    · obtain ⟨⟨U, hU⟩, -⟩ := kgLoop_iff ds h1 (n2 U' hU')
      exact ⟨U, U', hU', hU⟩
    · rintro U ⟨U', hU', hU⟩
      exact (kgLoop_iff ds h1 (n2 U' hU')).2 U hU

end

theorem kgFactor_pos (nmesh : List ℕ) (box : List ℝ) {dt : ℝ} (hdt : dt ≠ 0) (k : List ℕ) : 0 < kgFactor nmesh box dt k := by
  unfold kgFactor kgK2
  have h1 : 0 ≤ ((waveVector Real.pi nmesh box k).map fun ki => ki ^ 2).sum := by
    apply List.sum_nonneg
    intro x hx
    obtain ⟨y, -, rfl⟩ := List.mem_map.1 hx
    positivity
  have h2 : 0 < 1 / dt ^ 2 := by positivity
  nlinarith

theorem kgSpectra_one (nmesh cshape : List ℕ) (box : List ℝ) (F : ℝ → ℝ) (ds : List ℝ) (A2 A1 : List ℕ → ℂ) :
    kgSpectra nmesh cshape box F ds A2 A1 1 = A1 := by
  cases ds <;> rfl

theorem kgSpectra_step (nmesh cshape : List ℕ) (box : List ℝ) (F : ℝ → ℝ) : ∀ (ds : List ℝ) (A2 A1 : List ℕ → ℂ) (j : ℕ) (hj : j < ds.length),
    ds[j] ≠ 0 → ∀ k,
    (kgFactor nmesh box ds[j] k : ℂ) * kgSpectra nmesh cshape box F ds A2 A1 (j + 2) k +
      (kgFactor1 nmesh box ds[j] k : ℂ) * kgSpectra nmesh cshape box F ds A2 A1 (j + 1) k +
      (kgFactor nmesh box ds[j] k : ℂ) * kgSpectra nmesh cshape box F ds A2 A1 j k =
      r2c nmesh (fun x => F (c2r nmesh cshape (kgSpectra nmesh cshape box F ds A2 A1 (j + 1)) x)) k
  | [], _, _, j, hj, _, _ => by simp at hj
  | dt :: ds, A2, A1, 0, hj, h, k => by
    have hne : ((kgFactor nmesh box dt k : ℝ) : ℂ) ≠ 0 := by exact_mod_cast (kgFactor_pos nmesh box h k).ne'
    simp only [kgSpectra, zero_add, kgSpectra_one, List.getElem_cons_zero]
    push_cast
    field_simp
    ring
  | dt :: ds, A2, A1, j + 1, hj, h, k => by
    obtain ⟨B, hB⟩ : ∃ B : List ℕ → ℂ, B = fun k => ((1 / kgFactor nmesh box dt k : ℝ) : ℂ) *
      (r2c nmesh (fun x => F (c2r nmesh cshape A1 x)) k - (kgFactor1 nmesh box dt k : ℝ) * A1 k) - A2 k := ⟨_, rfl⟩
    have := kgSpectra_step nmesh cshape box F ds A1 B j (by simpa using hj) (by simpa using h) k
    have e : ∀ i, kgSpectra nmesh cshape box F (dt :: ds) A2 A1 (i + 2) = kgSpectra nmesh cshape box F ds A1 B (i + 1) := fun i => by rw [hB]; rfl
    rw [e, e]
    have e1 : kgSpectra nmesh cshape box F (dt :: ds) A2 A1 (j + 1) = kgSpectra nmesh cshape box F ds A1 B j := by
      cases j with
      | zero => cases ds <;> rfl
      | succ j => exact e j
    rw [e1]
    exact this

/-- **C88**, what the solver computes.  Two runs of `kgsolver` on any numbers of ranks with the same initial fields `u`, `du` and at least three
times: both return a field on all ranks; there are spectra `A 0`, `A 1`, ... , the same for both runs, of which the first two are those of
`u` and `u + du (t₁ - t₀)`, each further one solves (with dt the last step, k the wave vector)
`(1/dt² + k²/4 + 1/4) A (j+2) + (-1/dt² + k²/4 + 1/4) A (j+1) + (1/dt² + k²/4 + 1/4) A j = F(u_{j+1})`, and the result is the real field of the last.
Partial: the documented scheme has 2 A (j+1) (`C88_violated_stationary`). -/
theorem C88_scheme_partial (w : Resampler ℝ) (F : ℝ → ℝ) (a b : Machine) (ha : a.OK w) (hb : b.OK w) (hn : a.m.nmesh = b.m.nmesh)
    (hbox : a.m.box = b.m.box) (hst : a.t.cshape = b.t.cshape) (t0 t1 t2 : ℝ) (ts : List ℝ)
    (hinc : ∀ d ∈ diffs (t0 :: t1 :: t2 :: ts), d ≠ 0) (u du : List ℕ → ℝ)
    (ua dua ub dub : ℕ → ℤ → ℝ) (hua : a.m.HoldsField ua u) (hdua : a.m.HoldsField dua du) (hub : b.m.HoldsField ub u) (hdub : b.m.HoldsField dub du) :
    ∃ A : ℕ → List ℕ → ℂ,
      (∀ k, A 0 k = r2c a.m.nmesh u k) ∧ (∀ k, A 1 k = r2c a.m.nmesh (fun x => u x + du x * (t1 - t0)) k) ∧
      (∀ j (hj : j < (t2 :: ts).length) k,
        let dt := (t2 :: ts)[j] - (t1 :: t2 :: ts)[j]'(by simp at hj ⊢; omega)
        let k2 := ((waveVector Real.pi a.m.nmesh a.m.box k).map fun ki => ki ^ 2).sum
        ((1 / dt ^ 2 + k2 / 4 + 1 / 4 : ℝ) : ℂ) * A (j + 2) k + ((-(1 / dt ^ 2) + k2 / 4 + 1 / 4 : ℝ) : ℂ) * A (j + 1) k +
          ((1 / dt ^ 2 + k2 / 4 + 1 / 4 : ℝ) : ℂ) * A j k = r2c a.m.nmesh (fun x => F (c2r a.m.nmesh a.t.cshape (A (j + 1)) x)) k) ∧
      (∃ out, a.KgSolve F (t0 :: t1 :: t2 :: ts) ua dua (some out)) ∧ (∃ out, b.KgSolve F (t0 :: t1 :: t2 :: ts) ub dub (some out)) ∧
      (∀ res, a.KgSolve F (t0 :: t1 :: t2 :: ts) ua dua res →
        ∃ out, res = some out ∧ a.m.HoldsField out (c2r a.m.nmesh a.t.cshape (A ((t2 :: ts).length + 1)))) ∧
      ∀ res, b.KgSolve F (t0 :: t1 :: t2 :: ts) ub dub res →
        ∃ out, res = some out ∧ b.m.HoldsField out (c2r a.m.nmesh a.t.cshape (A ((t2 :: ts).length + 1))) := by
  obtain ⟨ds, hds⟩ : ∃ ds, ds = diffs (t1 :: t2 :: ts) := ⟨_, rfl⟩
  have hd : diffs (t0 :: t1 :: t2 :: ts) = (t1 - t0) :: ds := by rw [hds]; rfl
  have hlen : ds.length = (t2 :: ts).length := by rw [hds]; simp [diffs]
  obtain ⟨d1, ds', hds'⟩ : ∃ d1 ds', ds = d1 :: ds' := by rw [hds]; exact ⟨_, _, rfl⟩
  refine ⟨kgSpectra a.m.nmesh a.t.cshape a.m.box F ds (r2c a.m.nmesh u) (r2c a.m.nmesh fun x => u x + du x * (t1 - t0)), ?_, ?_, ?_, ?_⟩
  · intro k
    cases ds <;> rfl
  · intro k
    cases ds <;> rfl
  · intro j hj k
    have hj' : j < ds.length := by rw [hlen]; exact hj
    have e : ds[j] = (t2 :: ts)[j] - (t1 :: t2 :: ts)[j]'(by simp at hj ⊢; omega) := by
      simp only [hds, diffs, List.getElem_zipWith, List.tail_cons]
    have hne : ds[j] ≠ 0 := hinc _ (by rw [hd]; exact List.mem_cons_of_mem _ (List.getElem_mem hj'))
    have := kgSpectra_step a.m.nmesh a.t.cshape a.m.box F ds (r2c a.m.nmesh u) (r2c a.m.nmesh fun x => u x + du x * (t1 - t0)) j hj' hne k
    rw [← this, e]
    simp only [kgFactor, kgFactor1, kgK2]
    congr 1
    · congr 1
      · congr 2
        ring
      · congr 2
        ring
    · congr 2
      ring
  · have run : ∀ (c : Machine) (uc duc : ℕ → ℤ → ℝ), c.OK w → a.m.nmesh = c.m.nmesh → a.m.box = c.m.box → a.t.cshape = c.t.cshape →
        c.m.HoldsField uc u → c.m.HoldsField duc du →
        (∃ out, c.KgSolve F (t0 :: t1 :: t2 :: ts) uc duc (some out)) ∧
        ∀ res, c.KgSolve F (t0 :: t1 :: t2 :: ts) uc duc res → ∃ out, res = some out ∧ c.m.HoldsField out (c2r a.m.nmesh a.t.cshape
          (kgSpectra a.m.nmesh a.t.cshape a.m.box F ds (r2c a.m.nmesh u) (r2c a.m.nmesh fun x => u x + du x * (t1 - t0)) ((t2 :: ts).length + 1))) := by
      intro c uc duc hc e1 e2 e3 hu hdu
      rw [e1, e2, e3]
      have h1 : c.m.HoldsField (fun r z => uc r z + duc r z * (t1 - t0)) fun x => u x + du x * (t1 - t0) := by
        intro r hr q hq
        beta_reduce
        rw [hu r hr q hq, hdu r hr q hq]
      unfold Machine.KgSolve
      rw [hd, hds']
      simp only
      constructor
      · obtain ⟨U2, g2⟩ := exists_r2c hc hu
        obtain ⟨U1, g1⟩ := exists_r2c hc h1
        obtain ⟨⟨U, hU⟩, hl⟩ := kgLoop_iff hc F (d1 :: ds') (g2 _ hu) (g1 _ h1)
        obtain ⟨out, hout⟩ := exists_c2r hc (hl U hU)
        exact ⟨out, U2, U1, U, out, g2, g1, hU, hout, rfl⟩
      · rintro res ⟨U2, U1, U, out, g2, g1, hU, hout, rfl⟩
        obtain ⟨-, hl⟩ := kgLoop_iff hc F (d1 :: ds') (g2 _ hu) (g1 _ h1)
        refine ⟨out, rfl, ?_⟩
        have := hout _ (hl U hU)
        rw [← hds', hlen, hds'] at this
        exact this
    obtain ⟨r1, r2⟩ := run a ua dua ha rfl rfl rfl hua hdua
    obtain ⟨r3, r4⟩ := run b ub dub hb hn hbox hst hub hdub
    exact ⟨r1, r3, r2, r4⟩

theorem r2c_uniform {nmesh : List ℕ} (hpos : ∀ n ∈ nmesh, 0 < n) {f : List ℕ → ℝ} {c : ℝ} (h : ∀ g, ValidIndex nmesh g → f g = c) :
    r2c nmesh f (nmesh.map fun _ => 0) = (c : ℂ) := by
  rw [C29_mean]
  have h1 : ((ndindex nmesh).map f).sum = (nmesh.prod : ℝ) * c := by
    rw [List.map_congr_left (g := fun _ => c) fun x hx => h x (mem_ndindex.1 hx)]
    rw [List.map_const', List.sum_replicate, ndindex_length, nsmul_eq_mul]
  have h2 : ((nmesh.prod : ℕ) : ℝ) ≠ 0 := by
    have := List.prod_pos hpos
    positivity
  rw [h1, mul_div_cancel_left₀ _ h2]

theorem kgK2_zero : ∀ (nmesh : List ℕ) (box : List ℝ), kgK2 nmesh box (nmesh.map fun _ => 0) = 0
  | [], _ => by simp [kgK2, waveVector]
  | _ :: _, [] => by simp [kgK2, waveVector]
  | n :: ns, b :: bs => by
    have := kgK2_zero ns bs
    simp only [kgK2, waveVector] at this ⊢
    simpa using this

/-- **C88**, violated.  A uniform field `c` with `F(c) = c` and no initial derivative is a solution of the equation and of the documented scheme, which has
2 u_{n-1} (first part), so that it should stay `c` for ever; the solver, which adds u_{n-1} only once, changes it in one step of `dt` to
`2 dt² / (4 + dt²) c` (second part), on every mesh, with every number of ranks and every `dt`: nearly zero for a short step, and not `c` unless `dt = 2`. -/
theorem C88_violated_stationary (w : Resampler ℝ) (F : ℝ → ℝ) (c : ℝ) (hF : F c = c) (dt : ℝ) (hdt : 0 < dt) :
    (1 / dt ^ 2 + 1 / 4) * c + (-(1 / dt ^ 2) + 1 / 4) * 2 * c + (1 / dt ^ 2 + 1 / 4) * c = F c ∧
    ((c ≠ 0 ∧ dt ≠ 2) → 2 * dt ^ 2 / (4 + dt ^ 2) * c ≠ c) ∧
    ∀ (a : Machine), a.OK w → ∀ (t0 t1 : ℝ), t0 ≠ t1 → ∀ (u du : ℕ → ℤ → ℝ), a.m.HoldsField u (fun _ => c) → a.m.HoldsField du (fun _ => 0) →
      (∃ out, a.KgSolve F [t0, t1, t1 + dt] u du (some out)) ∧
      ∀ res, a.KgSolve F [t0, t1, t1 + dt] u du res → ∃ out, res = some out ∧ a.m.HoldsField out fun _ => 2 * dt ^ 2 / (4 + dt ^ 2) * c := by
  refine ⟨?_, ?_, ?_⟩
  · rw [hF]; ring
  · rintro ⟨hc, h2⟩ h
    have hp : (4 + dt ^ 2) ≠ 0 := by positivity
    have : 2 * dt ^ 2 / (4 + dt ^ 2) = 1 := by
      have := mul_right_cancel₀ hc (h.trans (one_mul c).symm)
      exact this
    rw [div_eq_one_iff_eq hp] at this
    have h3 : (dt - 2) * (dt + 2) = 0 := by linarith
    rcases mul_eq_zero.1 h3 with h4 | h4
    · exact h2 (by linarith)
    · linarith
  intro a ha t0 t1 ht u du hu hdu
  obtain ⟨A, h0, h1, hA, ex, -, h, -⟩ := C88_scheme_partial w F a a ha ha rfl rfl rfl t0 t1 (t1 + dt) []
    (by
      intro d hd
      simp only [diffs, List.tail_cons, List.zipWith_cons_cons, List.zipWith_nil_left, List.mem_cons, List.not_mem_nil, or_false] at hd
      rcases hd with rfl | rfl
      · exact sub_ne_zero.2 (Ne.symm ht)
      · rw [add_sub_cancel_left]; exact hdt.ne')
    (fun _ => c) (fun _ => 0) u du u du hu hdu hu hdu
  refine ⟨ex, fun res hres => ?_⟩
  obtain ⟨out, e, ho⟩ := h res hres
  refine ⟨out, e, ?_⟩
  have hpos := nmesh_pos' ha.mesh
  have hs : StoredShape a.m.nmesh a.t.cshape := by rw [← ha.modes_mesh]; exact ha.storage
  have hstep := hA 0 (by simp)
  simp only [List.getElem_cons_zero, add_sub_cancel_left] at hstep
  have hu1 : ∀ x, ValidIndex a.m.nmesh x → c2r a.m.nmesh a.t.cshape (A 1) x = c := by
    intro x hx
    refine C29_c2r_r2c a.m.nmesh a.t.cshape ha.mesh.dim hpos hs (fun _ => c) (A 1) (fun k _ => ?_) x hx
    rw [h1]
    simp
  have hr : ∀ k, r2c a.m.nmesh (fun x => F (c2r a.m.nmesh a.t.cshape (A (0 + 1)) x)) k = r2c a.m.nmesh (fun _ => c) k := fun k =>
    r2c_congr (fun x hx => by rw [zero_add, hu1 x hx, hF]) k
  intro r hr' q hq
  rw [ho r hr' q hq]
  refine C29_c2r_r2c a.m.nmesh a.t.cshape ha.mesh.dim hpos hs (fun _ => 2 * dt ^ 2 / (4 + dt ^ 2) * c) _ (fun k hk => ?_) _
    (ha.mesh.global_valid hr' hq)
  have hkv := stored_valid hs ha.mesh.dim hpos hk
  have hk := hstep k
  rw [hr, zero_add, h0, h1] at hk
  simp only [zero_mul, add_zero] at hk
  simp only [List.length_cons, List.length_nil, zero_add]
  by_cases hz : k = a.m.nmesh.map fun _ => 0
  · subst hz
    have := kgK2_zero a.m.nmesh a.m.box
    unfold kgK2 at this
    rw [this, r2c_uniform hpos fun _ _ => rfl] at hk
    rw [r2c_uniform hpos fun _ _ => rfl]
    have hd : (dt : ℂ) ≠ 0 := by exact_mod_cast hdt.ne'
    have hd4 : (4 + (dt : ℂ) ^ 2) ≠ 0 := by
      have : (4 + dt ^ 2) ≠ 0 := by positivity
      exact_mod_cast this
    push_cast at hk ⊢
    have hT : (1 / (dt : ℂ) ^ 2 + 0 / 4 + 1 / 4) ≠ 0 := by
      have : (1 / dt ^ 2 + 0 / 4 + 1 / 4 : ℝ) ≠ 0 := by positivity
      have := Complex.ofReal_ne_zero.2 this
      push_cast at this
      exact this
    apply mul_left_cancel₀ hT
    have e2 : (1 / (dt : ℂ) ^ 2 + 0 / 4 + 1 / 4) * A 2 (a.m.nmesh.map fun _ => 0) = 1 / 2 * (c : ℂ) := by
      linear_combination hk
    refine e2.trans ?_
    field_simp
    ring
  · rw [r2c_const (fun _ _ => rfl) hkv hz] at hk ⊢
    have hT := kgFactor_pos a.m.nmesh a.m.box hdt.ne' k
    have hT' : ((1 / dt ^ 2 + ((waveVector Real.pi a.m.nmesh a.m.box k).map fun ki => ki ^ 2).sum / 4 + 1 / 4 : ℝ) : ℂ) ≠ 0 := by
      have : (1 / dt ^ 2 + ((waveVector Real.pi a.m.nmesh a.m.box k).map fun ki => ki ^ 2).sum / 4 + 1 / 4 : ℝ) ≠ 0 := by
        unfold kgFactor kgK2 at hT
        linarith
      exact_mod_cast this
    simp only [mul_zero, add_zero] at hk
    exact (mul_eq_zero.1 hk).resolve_left hT'

/-- **C88**, violated.  With two times (the smallest run: the start and one step) the solver raises instead of returning the field at the second time;
with fewer also. -/
theorem C88_violated_two_times (a : Machine) (F : ℝ → ℝ) (steps : List ℝ) (h : steps.length ≤ 2) (u du : ℕ → ℤ → ℝ) (res : Option (ℕ → ℤ → ℝ)) :
    a.KgSolve F steps u du res ↔ res = none := by
  match steps, h with
  | [], _ => rfl
  | [_], _ => rfl
  | [_, _], _ => rfl

/-- Runs that meet the hypotheses: two ranks and one rank, a field that is not uniform, four times with unequal steps. -/
example (ua dua ub dub : ℕ → ℤ → ℝ) (hua : exMachine2.m.HoldsField ua fun g => (g.sum : ℝ)) (hdua : exMachine2.m.HoldsField dua fun g => (g.headD 0 : ℝ))
    (hub : exMachine1.m.HoldsField ub fun g => (g.sum : ℝ)) (hdub : exMachine1.m.HoldsField dub fun g => (g.headD 0 : ℝ)) :=
  C88_scheme_partial exWinR (fun v => -v ^ 3) exMachine2 exMachine1 exMachine2_ok exMachine1_ok rfl rfl rfl 0 (1 / 10) (1 / 4) [1 / 3]
    (by intro d hd; simp [diffs] at hd; rcases hd with rfl | rfl | rfl <;> norm_num) _ _ ua dua ub dub hua hdua hub hdub

example : ∃ ua, exMachine2.m.HoldsField ua fun g => (g.sum : ℝ) := exists_field exMachine2_ok.mesh _

/-- A stationary field: `F(v) = v³` at 1. -/
example := C88_violated_stationary exWinR (fun v => v ^ 3) 1 (by norm_num) (1 / 10) (by norm_num)

example := C88_violated_two_times exMachine2 (fun v => -v ^ 3) [0, 1] (by simp)

end Pmesh

#print axioms Pmesh.C88_scheme_partial
#print axioms Pmesh.C88_violated_stationary
#print axioms Pmesh.C88_violated_two_times
