import Verif.Spec.Buffers
import Mathlib.Tactic.SplitIfs

/-!
# The transforms with a buffer given
-/

set_option linter.unusedSectionVars false

namespace Pmesh

variable {Mem R C : Type}

theorem Memory.put_mem_self (m : Memory Mem) (b : ℕ) (x : Mem) : (m.put b x).mem b = x := by simp [Memory.put]

theorem Memory.put_mem_ne (m : Memory Mem) {b c : ℕ} (x : Mem) (h : c ≠ b) : (m.put b x).mem c = m.mem c := by
  simp [Memory.put, Function.update_of_ne h]

theorem Memory.put_next (m : Memory Mem) (b : ℕ) (x : Mem) : (m.put b x).next = m.next := rfl

variable (F : Fft Mem R C) (hF : F.OK) (junk : Plan → Memory Mem → ℕ → Mem)

include hF in
/-- The core of `r2c` with a field given. -/
theorem r2c_other (a : ℕ) (t : Bool) (b : ℕ) (m : Memory Mem) :
    ∃ m', F.r2c junk a (.other ⟨.complex t, b⟩) m = some (⟨.complex t, b⟩, m') ∧ m'.next = m.next
      ∧ F.getC t (m'.mem b) = F.norm (F.fwd (F.getR (m.mem a))) ∧ ∀ c, c ≠ b → m'.mem c = m.mem c := by
  cases hp : F.padded
  · refine ⟨?m1, ?h1, ?h2, ?h3, ?h4⟩
    case h1 => simp [Fft.r2c, hp, Fft.execute]; rfl
    case h2 => rfl
    case h3 => simp [Memory.put_mem_self, hF.complex, hF.real]
    case h4 =>
      intro c hc
      simp [Memory.put_mem_ne _ _ hc]
  · by_cases hab : a = b
    · subst hab
      refine ⟨?m2, ?h1, ?h2, ?h3, ?h4⟩
      case h1 => simp [Fft.r2c, hp, Fft.execute]; rfl
      case h2 => rfl
      case h3 => simp [Memory.put_mem_self, hF.complex]
      case h4 =>
        intro c hc
        simp [Memory.put_mem_ne _ _ hc]
    · refine ⟨?m3, ?h1, ?h2, ?h3, ?h4⟩
      case h1 => simp [Fft.r2c, hp, Fft.execute, hab]; rfl
      case h2 => rfl
      case h3 => simp [Memory.put_mem_self, hF.complex]
      case h4 =>
        intro c hc
        simp [Memory.put_mem_ne _ _ hc]

include hF in
/-- The core of `c2r` with a field given. -/
theorem c2r_other (t : Bool) (a b : ℕ) (m : Memory Mem) :
    ∃ m', F.c2r junk t a (.other ⟨.real, b⟩) m = some (⟨.real, b⟩, m') ∧ m'.next = m.next
      ∧ F.getR (m'.mem b) = F.bwd (F.getC t (m.mem a)) ∧ ∀ c, c ≠ b → m'.mem c = m.mem c := by
  cases hp : F.padded
  · refine ⟨?m4, ?h1, ?h2, ?h3, ?h4⟩
    case h1 => simp [Fft.c2r, hp, Fft.execute]; rfl
    case h2 => rfl
    case h3 => simp [Memory.put_mem_self, hF.complex, hF.real]
    case h4 =>
      intro c hc
      simp [Memory.put_mem_ne _ _ hc]
  · by_cases hab : a = b
    · subst hab
      refine ⟨?m5, ?h1, ?h2, ?h3, ?h4⟩
      case h1 => simp [Fft.c2r, hp, Fft.execute]; rfl
      case h2 => rfl
      case h3 => simp [Memory.put_mem_self, hF.real]
      case h4 =>
        intro c hc
        simp [Memory.put_mem_ne _ _ hc]
    · refine ⟨?m6, ?h1, ?h2, ?h3, ?h4⟩
      case h1 => simp [Fft.c2r, hp, Fft.execute, hab]; rfl
      case h2 => rfl
      case h3 => simp [Memory.put_mem_self, hF.real]
      case h4 =>
        intro c hc
        simp [Memory.put_mem_ne _ _ hc]

/-- A new field is a field given. -/
theorem r2c_none (a : ℕ) (m : Memory Mem) :
    F.r2c junk a .none m = F.r2c junk a (.other ⟨.complex true, m.next⟩) m.alloc.2 := rfl

theorem r2c_inplace (a : ℕ) (m : Memory Mem) :
    F.r2c junk a .inplace m = F.r2c junk a (.other ⟨.complex true, a⟩) m := rfl

theorem c2r_none (t : Bool) (a : ℕ) (m : Memory Mem) :
    F.c2r junk t a .none m = F.c2r junk t a (.other ⟨.real, m.next⟩) m.alloc.2 := rfl

theorem c2r_inplace (t : Bool) (a : ℕ) (m : Memory Mem) :
    F.c2r junk t a .inplace m = F.c2r junk t a (.other ⟨.real, a⟩) m := rfl

theorem cast_none (s : Fld) (ty : FieldType) (m : Memory Mem) :
    F.cast junk s ty none m = F.cast junk s ty (some m.next) m.alloc.2 := rfl

include hF in
/-- The core of `cast` with a buffer given. -/
theorem cast_some (s : Fld) (ty : FieldType) (b : ℕ) (m : Memory Mem) :
    ∃ m', F.cast junk s ty (some b) m = some (⟨ty, b⟩, m') ∧ m'.next = m.next ∧ (∀ c, c ≠ b → m'.mem c = m.mem c)
      ∧ (ty = .real → F.getR (m'.mem b) = F.values m s)
      ∧ (∀ t, ty = .complex t → F.getC t (m'.mem b) = if s.ty = ty then F.modes m s else F.norm (F.fwd (F.values m s))) := by
  obtain ⟨st, sb⟩ := s
  rcases st with _ | t <;> rcases ty with _ | u
  · refine ⟨?m7, ?h1, ?h2, ?h3, ?h4, ?h5⟩
    case h1 => simp only [Fft.cast]; rfl
    case h2 => rfl
    case h3 =>
      intro c hc
      simp [Memory.put_mem_ne _ _ hc]
    case h4 => simp [Memory.put_mem_self, hF.real, Fft.values]
    case h5 => simp
  · obtain ⟨m', e1, e2, e3, e4⟩ := r2c_other F hF junk sb u b m
    refine ⟨m', e1, e2, e4, by simp, ?_⟩
    intro t ht
    cases ht
    simpa [Fft.values] using e3
  · obtain ⟨m', e1, e2, e3, e4⟩ := c2r_other F hF junk t sb b m
    exact ⟨m', e1, e2, e4, fun _ => e3, by simp⟩
  · by_cases htu : t = u
    · subst htu
      refine ⟨?m8, ?h1, ?h2, ?h3, ?h4, ?h5⟩
      case h1 => simp only [Fft.cast, if_true]; rfl
      case h2 => rfl
      case h3 =>
        intro c hc
        simp [Memory.put_mem_ne _ _ hc]
      case h4 => simp
      case h5 =>
        intro v hv
        cases hv
        simp [Memory.put_mem_self, hF.complex, Fft.modes]
    · obtain ⟨m1, e1, e2, e3, e4⟩ := c2r_other F hF junk t sb b m
      obtain ⟨m2, d1, d2, d3, d4⟩ := r2c_other F hF junk b u b m1
      refine ⟨m2, ?_, d2.trans e2, fun c hc => (d4 c hc).trans (e4 c hc), by simp, ?_⟩
      · simp only [Fft.cast, htu, if_false, e1, Option.bind_some, d1]
      · intro v hv
        cases hv
        simp [htu, d3, e3, Fft.values]

include hF in
/-- The core of `C59_cast`. -/
theorem cast_key (hinv : ∀ x, F.bwd (F.norm (F.fwd x)) = x) (s : Fld) (ty : FieldType) (m : Memory Mem) (b : ℕ) :
    ∃ m', F.cast junk s ty (some b) m = some (⟨ty, b⟩, m') ∧ F.values m' ⟨ty, b⟩ = F.values m s
      ∧ (F.norm (F.fwd (F.values m s)) = F.modes m s → F.modes m' ⟨ty, b⟩ = F.modes m s) ∧ (∀ c, c ≠ b → m'.mem c = m.mem c)
      ∧ m'.next = m.next := by
  obtain ⟨m', e1, e2, e3, e4, e5⟩ := cast_some F hF junk s ty b m
  refine ⟨m', e1, ?_, ?_, e3, e2⟩
  · rcases ty with _ | t
    · simpa [Fft.values] using e4 rfl
    · have := e5 t rfl
      simp only [Fft.values]
      rw [this]
      split_ifs with h
      · obtain ⟨st, sb⟩ := s
        obtain rfl : st = _ := h
        rfl
      · exact hinv _
  · intro hh
    rcases ty with _ | t
    · simp only [Fft.modes, e4 rfl]
      exact hh
    · have := e5 t rfl
      simp only [Fft.modes] at this ⊢
      rw [this]
      split_ifs with h
      · rfl
      · exact hh

end Pmesh
