import Verif.Lemmas.Buffers
import Mathlib.Algebra.BigOperators.Fin
import Mathlib.Algebra.Ring.Rat
import Mathlib.Tactic.FinCases
import Mathlib.Tactic.NormNum
import Mathlib.Tactic.Ring

/-!
# C59: transforms give the right result for every sharing of memory

`F` is arbitrary: what the transforms compute is the subject of C29.  `junk` is arbitrary: it is what memory holds that no contract
of pfft speaks about.
-/

namespace Pmesh

variable {Mem R C : Type} (F : Fft Mem R C) (hF : F.OK) (junk : Plan → Memory Mem → ℕ → Mem)

include hF in
/-- `r2c` of a real field in buffer `a` into a new field, in place, or into any complex field, which may share the buffer: the result
has the normalised transform of the values, and nothing else changes, so the source is kept unless it shares the buffer of the
result. The buffer of the result counts as taken afterwards, so no later result gets it. -/
theorem C59_r2c (a : ℕ) (out : OutArg) (m : Memory Mem) (ha : a < m.next) (hout : ∀ f, out = .other f → f.ty ≠ .real ∧ f.buf < m.next) :
    ∃ g m' t, F.r2c junk a out m = some (g, m') ∧ g.ty = .complex t
      ∧ F.getC t (m'.mem g.buf) = F.norm (F.fwd (F.getR (m.mem a)))
      ∧ OnlyWrites g.buf m m' ∧ m.next ≤ m'.next ∧ g.buf < m'.next
      ∧ (out = .none → t = true ∧ m.next ≤ g.buf) ∧ (out = .inplace → t = true ∧ g.buf = a) ∧ (∀ f, out = .other f → g = f) := by
  rcases out with _ | _ | f
  · obtain ⟨m', e1, e2, e3, e4⟩ := r2c_other F hF junk a true m.next m.alloc.2
    have e2 : m'.next = m.next + 1 := e2
    exact ⟨_, m', true, e1, rfl, e3, fun c _ hc => e4 c hc, by omega, by simp only; omega, by simp, by simp, by simp⟩
  · obtain ⟨m', e1, e2, e3, e4⟩ := r2c_other F hF junk a true a m
    exact ⟨_, m', true, e1, rfl, e3, fun c _ hc => e4 c hc, e2.ge, e2.symm ▸ ha, by simp, by simp, by simp⟩
  · obtain ⟨⟨ty, b⟩, rfl⟩ : ∃ g, g = f := ⟨f, rfl⟩
    rcases ty with _ | t
    · exact absurd rfl (hout _ rfl).1
    · obtain ⟨m', e1, e2, e3, e4⟩ := r2c_other F hF junk a t b m
      exact ⟨_, m', t, e1, rfl, e3, fun c _ hc => e4 c hc, e2.ge, e2.symm ▸ (hout _ rfl).2, by simp, by simp, by rintro f ⟨⟩; rfl⟩

include hF in
/-- `c2r` of a complex field in buffer `a` likewise. -/
theorem C59_c2r (t : Bool) (a : ℕ) (out : OutArg) (m : Memory Mem) (ha : a < m.next)
    (hout : ∀ f, out = .other f → f.ty = .real ∧ f.buf < m.next) :
    ∃ g m', F.c2r junk t a out m = some (g, m') ∧ g.ty = .real
      ∧ F.getR (m'.mem g.buf) = F.bwd (F.getC t (m.mem a))
      ∧ OnlyWrites g.buf m m' ∧ m.next ≤ m'.next ∧ g.buf < m'.next
      ∧ (out = .none → m.next ≤ g.buf) ∧ (out = .inplace → g.buf = a) ∧ (∀ f, out = .other f → g = f) := by
  rcases out with _ | _ | f
  · obtain ⟨m', e1, e2, e3, e4⟩ := c2r_other F hF junk t a m.next m.alloc.2
    have e2 : m'.next = m.next + 1 := e2
    exact ⟨_, m', e1, rfl, e3, fun c _ hc => e4 c hc, by omega, by simp only; omega, by simp, by simp, by simp⟩
  · obtain ⟨m', e1, e2, e3, e4⟩ := c2r_other F hF junk t a a m
    exact ⟨_, m', e1, rfl, e3, fun c _ hc => e4 c hc, e2.ge, e2.symm ▸ ha, by simp, by simp, by simp⟩
  · obtain ⟨⟨ty, b⟩, rfl⟩ : ∃ g, g = f := ⟨f, rfl⟩
    obtain rfl : ty = .real := (hout _ rfl).1
    obtain ⟨m', e1, e2, e3, e4⟩ := c2r_other F hF junk t a b m
    exact ⟨_, m', e1, rfl, e3, fun c _ hc => e4 c hc, e2.ge, e2.symm ▸ (hout _ rfl).2, by simp, by simp, by rintro f ⟨⟩; rfl⟩

include hF in
/-- `cast` keeps the meaning of the field, for every class of source and result and every buffer: the values are the same, given that
the transforms are inverse (C29), and so are the modes if they are Hermitian. -/
theorem C59_cast (hinv : ∀ x, F.bwd (F.norm (F.fwd x)) = x) (s : Fld) (ty : FieldType) (out : Option ℕ) (m : Memory Mem)
    (hs : s.buf < m.next) (hout : ∀ b, out = some b → b < m.next) :
    ∃ g m', F.cast junk s ty out m = some (g, m') ∧ g.ty = ty ∧ F.values m' g = F.values m s
      ∧ (F.norm (F.fwd (F.values m s)) = F.modes m s → F.modes m' g = F.modes m s)
      ∧ OnlyWrites g.buf m m' ∧ m.next ≤ m'.next ∧ g.buf < m'.next ∧ (out = none → m.next ≤ g.buf) ∧ ∀ b, out = some b → g.buf = b := by
  cases out with
  | some b =>
    obtain ⟨m', e1, e2, e3, e4, e5⟩ := cast_key F hF junk hinv s ty m b
    exact ⟨_, m', e1, rfl, e2, e3, fun c _ hc => e4 c hc, e5.ge, e5.symm ▸ hout b rfl, by simp, by rintro b ⟨⟩; rfl⟩
  | none =>
    obtain ⟨m', e1, e2, e3, e4, e5⟩ := cast_key F hF junk hinv s ty m.alloc.2 m.next
    have e5 : m'.next = m.next + 1 := e5
    exact ⟨_, m', e1, rfl, e2, e3, fun c _ hc => e4 c hc, by omega, by simp only; omega, by simp, by simp⟩

include hF in
/-- In place and back: the values of a real field survive `r2c` and `c2r` in its own buffer, with no other memory used. -/
theorem C59_roundtrip (hinv : ∀ x, F.bwd (F.norm (F.fwd x)) = x) (a : ℕ) (m : Memory Mem) :
    ∃ m₁ m₂, F.r2c junk a .inplace m = some (⟨.complex true, a⟩, m₁) ∧ F.c2r junk true a .inplace m₁ = some (⟨.real, a⟩, m₂)
      ∧ F.getR (m₂.mem a) = F.getR (m.mem a) ∧ (∀ c, c ≠ a → m₂.mem c = m.mem c) ∧ m₂.next = m.next := by
  obtain ⟨m₁, e1, e2, e3, e4⟩ := r2c_other F hF junk a true a m
  obtain ⟨m₂, d1, d2, d3, d4⟩ := c2r_other F hF junk true a a m₁
  exact ⟨m₁, m₂, e1, d1, by rw [d3, e3, hinv], fun c hc => (d4 c hc).trans (e4 c hc), d2.trans e2⟩

variable {R' C' : Type} (G : Fft Mem R' C') (hG : G.OK)

include hF hG in
/-- `resample` of a Hermitian field into a real or transposed field: the result has the modes selected from the modes of the source.
Missing: results that are untransposed fields, and, if the meshes have the same size, results that share memory with a source of
another class. -/
theorem C59_resample_partial (sel : C → C') (same : Bool) (s o : Fld) (m : Memory Mem) (hs : s.buf < m.next) (ho : o.buf < m.next)
    (hherm : F.norm (F.fwd (F.values m s)) = F.modes m s)
    (hty : o.ty ≠ .complex false) (hshare : same = true → s.buf = o.buf → s.ty = o.ty) :
    ∃ m', F.resample G junk sel same s o m = some (o, m') ∧ OnlyWrites o.buf m m'
      ∧ (o.ty = .complex true → G.modes m' o = sel (F.modes m s))
      ∧ (o.ty = .real → G.values m' o = G.bwd (sel (F.modes m s))) := by
  obtain ⟨ot, ob⟩ := o
  simp only at ho hty hshare
  -- the first step leaves the source as it is
  have h1 : ∃ m₁, (if same then (F.cast junk s ot (some ob) m).map (·.2) else some m) = some m₁ ∧ m₁.next = m.next
      ∧ (∀ c, c ≠ ob → m₁.mem c = m.mem c) ∧ F.values m₁ s = F.values m s ∧ F.modes m₁ s = F.modes m s := by
    cases same with
    | false => exact ⟨m, rfl, rfl, fun _ _ => rfl, rfl, rfl⟩
    | true =>
      obtain ⟨m₁, e1, e2, e3, e4, e5⟩ := cast_some F hF junk s ot ob m
      refine ⟨m₁, by simp [e1], e2, e3, ?_⟩
      by_cases hb : s.buf = ob
      · obtain ⟨st, sb⟩ := s
        obtain rfl : sb = ob := hb
        obtain rfl : st = ot := hshare rfl rfl
        rcases st with _ | t
        · have := e4 rfl
          simp only [Fft.values, Fft.modes] at this ⊢
          rw [this]
          exact ⟨rfl, rfl⟩
        · have := e5 t rfl
          simp only [if_true, Fft.values, Fft.modes] at this ⊢
          rw [this]
          exact ⟨rfl, rfl⟩
      · have := e3 _ hb
        simp only [Fft.values, Fft.modes, this]
        exact ⟨trivial, trivial⟩
  obtain ⟨m₁, e1, e2, e3, e4, e5⟩ := h1
  obtain ⟨m₂, d1, d2, d3, _, d5⟩ := cast_some F hF junk s (.complex true) m₁.next m₁.alloc.2
  have hc : F.getC true (m₂.mem m₁.next) = F.modes m s := by
    rw [d5 true rfl]
    split_ifs
    · exact e5
    · refine Eq.trans ?_ hherm
      exact congrArg (fun v => F.norm (F.fwd v)) e4
  have hob : ob ≠ m₁.next := by omega
  have hm : ∀ c, c < m.next → c ≠ ob → m₂.mem c = m.mem c := fun c hc hcb => (d3 c (by omega)).trans (e3 c hcb)
  rcases ot with _ | t
  · obtain ⟨m₃, f1, f2, f3, f4⟩ := c2r_other G hG junk true ob ob (m₂.put ob (G.setC true (sel (F.modes m s)) (m₂.mem ob)))
    refine ⟨m₃, ?_, ?_, by simp, ?_⟩
    · simp only [Fft.resample, e1, Option.bind_some, cast_none, d1, hc]
      exact f1
    · intro c h1 h2
      rw [f4 c h2, Memory.put_mem_ne _ _ h2]
      exact hm c h1 h2
    · intro _
      simp only [Fft.values]
      rw [f3, Memory.put_mem_self, hG.complex]
  · obtain rfl : t = true := by
      cases t
      · exact absurd rfl hty
      · rfl
    refine ⟨m₂.put ob (G.setC true (sel (F.modes m s)) (m₂.mem ob)), ?_, ?_, ?_, by simp⟩
    · simp only [Fft.resample, e1, Option.bind_some, cast_none, d1, hc]
    · intro c h1 h2
      rw [Memory.put_mem_ne _ _ h2]
      exact hm c h1 h2
    · intro _
      simp only [Fft.modes]
      rw [Memory.put_mem_self, hG.complex]

/-! ## A mesh of 4 by 4 points on one rank -/

/-- The powers of the imaginary unit, as real and imaginary part. -/
def iPow (k : ℕ) : ℚ × ℚ := match k % 4 with
  | 0 => (1, 0)
  | 1 => (0, 1)
  | 2 => (-1, 0)
  | _ => (0, -1)

/-- The frequency of the compressed mode that holds the mode `(i, j)`, and whether it is conjugated. -/
def mode44 (c : Fin 4 → Fin 3 → ℚ × ℚ) (i j : Fin 4) : ℚ × ℚ :=
  if h : j.1 < 3 then c i ⟨j.1, h⟩ else ((c (-i) 1).1, -(c (-i) 1).2)

/-- Double precision mesh with `Nmesh = [4, 4]`: buffers are 24 numbers, real rows are padded to 6, complex numbers are stored as
pairs; the untransposed array has its last axis fastest, the transposed one its first. The transforms are the discrete Fourier
transform and its inverse. -/
def fft44 (padded : Bool) : Fft (Fin 24 → ℚ) (Fin 4 → Fin 4 → ℚ) (Fin 4 → Fin 3 → ℚ × ℚ) where
  getR m i j := m ⟨6 * i.1 + j.1, by omega⟩
  setR v m k := if h : k.1 % 6 < 4 then v ⟨k.1 / 6, by omega⟩ ⟨k.1 % 6, h⟩ else m k
  getC t m i j := if t then (m ⟨2 * (4 * j.1 + i.1), by omega⟩, m ⟨2 * (4 * j.1 + i.1) + 1, by omega⟩)
    else (m ⟨2 * (3 * i.1 + j.1), by omega⟩, m ⟨2 * (3 * i.1 + j.1) + 1, by omega⟩)
  setC t c _ k :=
    let z := if t then c ⟨k.1 / 2 % 4, by omega⟩ ⟨k.1 / 2 / 4, by omega⟩ else c ⟨k.1 / 2 / 3, by omega⟩ ⟨k.1 / 2 % 3, by omega⟩
    if k.1 % 2 = 0 then z.1 else z.2
  fwd v i j := (∑ a : Fin 4, ∑ b : Fin 4, v a b * (iPow (3 * (a.1 * i.1 + b.1 * j.1))).1,
    ∑ a : Fin 4, ∑ b : Fin 4, v a b * (iPow (3 * (a.1 * i.1 + b.1 * j.1))).2)
  bwd c a b := ∑ i : Fin 4, ∑ j : Fin 4, ((mode44 c i j).1 * (iPow (a.1 * i.1 + b.1 * j.1)).1 - (mode44 c i j).2 * (iPow (a.1 * i.1 + b.1 * j.1)).2)
  norm c i j := ((c i j).1 / 16, (c i j).2 / 16)
  padded := padded

theorem fft44_ok (p : Bool) : (fft44 p).OK := by
  constructor
  · intro v m
    funext i j
    simp only [fft44]
    rw [dif_pos (by omega)]
    congr 2 <;> omega
  · intro t c m
    funext i j
    cases t
    · simp only [fft44, Bool.false_eq_true, if_false]
      have h1 : 2 * (3 * i.1 + j.1) % 2 = 0 := by omega
      have h2 : (2 * (3 * i.1 + j.1) + 1) % 2 ≠ 0 := by omega
      have h3 : (⟨2 * (3 * i.1 + j.1) / 2 / 3, by omega⟩ : Fin 4) = i := Fin.ext (by simp only; omega)
      have h4 : (⟨2 * (3 * i.1 + j.1) / 2 % 3, by omega⟩ : Fin 3) = j := Fin.ext (by simp only; omega)
      have h5 : (⟨(2 * (3 * i.1 + j.1) + 1) / 2 / 3, by omega⟩ : Fin 4) = i := Fin.ext (by simp only; omega)
      have h6 : (⟨(2 * (3 * i.1 + j.1) + 1) / 2 % 3, by omega⟩ : Fin 3) = j := Fin.ext (by simp only; omega)
      rw [if_pos h1, if_neg h2, h3, h4, h5, h6]
    · simp only [fft44, if_true]
      have h1 : 2 * (4 * j.1 + i.1) % 2 = 0 := by omega
      have h2 : (2 * (4 * j.1 + i.1) + 1) % 2 ≠ 0 := by omega
      have h3 : (⟨2 * (4 * j.1 + i.1) / 2 % 4, by omega⟩ : Fin 4) = i := Fin.ext (by simp only; omega)
      have h4 : (⟨2 * (4 * j.1 + i.1) / 2 / 4, by omega⟩ : Fin 3) = j := Fin.ext (by simp only; omega)
      have h5 : (⟨(2 * (4 * j.1 + i.1) + 1) / 2 % 4, by omega⟩ : Fin 4) = i := Fin.ext (by simp only; omega)
      have h6 : (⟨(2 * (4 * j.1 + i.1) + 1) / 2 / 4, by omega⟩ : Fin 3) = j := Fin.ext (by simp only; omega)
      rw [if_pos h1, if_neg h2, h3, h4, h5, h6]

/-- A mesh with `Nmesh = [2]`: the two modes are the sum and the difference, divided by 2. -/
def fft2 : Fft (Fin 4 → ℚ) (Fin 2 → ℚ) (Fin 2 → ℚ × ℚ) where
  getR m j := m ⟨j.1, by omega⟩
  setR v m k := if h : k.1 < 2 then v ⟨k.1, h⟩ else m k
  getC _ m j := (m ⟨2 * j.1, by omega⟩, m ⟨2 * j.1 + 1, by omega⟩)
  setC _ c _ k := if k.1 % 2 = 0 then (c ⟨k.1 / 2, by omega⟩).1 else (c ⟨k.1 / 2, by omega⟩).2
  fwd v := ![(v 0 + v 1, 0), (v 0 - v 1, 0)]
  bwd c := ![(c 0).1 + (c 1).1, (c 0).1 - (c 1).1]
  norm c j := ((c j).1 / 2, (c j).2 / 2)
  padded := true

/-- The hypotheses of `C59_cast` and `C59_roundtrip` hold for it. -/
example : fft2.OK ∧ ∀ x, fft2.bwd (fft2.norm (fft2.fwd x)) = x := by
  refine ⟨⟨?_, ?_⟩, ?_⟩
  · intro v m
    funext j
    fin_cases j <;> simp [fft2]
  · intro t c m
    funext j
    fin_cases j <;> simp [fft2]
  · intro x
    funext j
    fin_cases j <;> simp [fft2] <;> ring

/-- A memory in which buffer 0 holds the real field `cos(π j / 2)` and everything else is zero. -/
def memory44 : Memory (Fin 24 → ℚ) := ⟨fun b => if b = 0 then (fft44 true).setR (fun _ j => if j = 0 then 1 else if j = 2 then -1 else 0) (fun _ => 0) else fun _ => 0, 5⟩

/-- `resample` between meshes with `Nmesh = [4, 4]` keeps the modes below the Nyquist frequency (C31). -/
def sel44 (c : Fin 4 → Fin 3 → ℚ × ℚ) : Fin 4 → Fin 3 → ℚ × ℚ := fun i j =>
  if i = 2 ∨ j = 2 then (0, 0) else if i = 0 ∧ j = 0 then ((c i j).1, 0) else c i j

/-- The wave has the modes expected, the hypotheses of the theorems hold. -/
example : (fft44 true).modes memory44 ⟨.real, 0⟩ 0 1 = (1 / 2, 0) ∧ (fft44 true).norm ((fft44 true).fwd ((fft44 true).values memory44 ⟨.real, 0⟩))
    = (fft44 true).modes memory44 ⟨.real, 0⟩ := by
  refine ⟨?_, rfl⟩
  decide +kernel

/-- `resample` into an untransposed field gives wrong modes: the wave has mode `(0, 1)`, the result has mode `(1, 1)` instead. -/
theorem C59_violated_resample_untransposed :
    ∃ m', (fft44 true).resample (fft44 true) (fun _ _ _ _ => 0) sel44 true ⟨.real, 0⟩ ⟨.complex false, 1⟩ memory44 = some (⟨.complex false, 1⟩, m')
      ∧ sel44 ((fft44 true).modes memory44 ⟨.real, 0⟩) 0 1 = (1 / 2, 0) ∧ (fft44 true).modes m' ⟨.complex false, 1⟩ 0 1 = (0, 0)
      ∧ sel44 ((fft44 true).modes memory44 ⟨.real, 0⟩) 1 1 = (0, 0) ∧ (fft44 true).modes m' ⟨.complex false, 1⟩ 1 1 = (1 / 2, 0) := by
  refine ⟨_, rfl, ?_, ?_, ?_, ?_⟩ <;> decide +kernel

/-- `resample` of a real field into a complex view of its own memory, same size: the transform is done twice. -/
theorem C59_violated_resample_shared :
    ∃ m', (fft44 true).resample (fft44 true) (fun _ _ _ _ => 0) sel44 true ⟨.real, 0⟩ ⟨.complex true, 0⟩ memory44 = some (⟨.complex true, 0⟩, m')
      ∧ sel44 ((fft44 true).modes memory44 ⟨.real, 0⟩) 0 1 = (1 / 2, 0) ∧ (fft44 true).modes m' ⟨.complex true, 0⟩ 0 1 ≠ (1 / 2, 0) := by
  refine ⟨_, rfl, ?_, ?_⟩ <;> decide +kernel

end Pmesh
