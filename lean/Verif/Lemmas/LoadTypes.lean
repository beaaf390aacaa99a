import Verif.Model.LoadTypes
import Verif.Lemmas.Load

set_option linter.unusedSectionVars false

namespace Pmesh

theorem wrapInt64_eq {x : ℤ} (h0 : 0 ≤ x) (h : x < 9223372036854775808) : wrapInt64 x = x := by
  unfold wrapInt64
  omega

theorem wrapInt64_nat {n : ℕ} (h : n < 9223372036854775808) : wrapInt64 (n : ℤ) = n := wrapInt64_eq (by omega) (by omega)

theorem rnd_nat {rnd : ℤ → ℤ} (hr : ∀ z : ℤ, 0 ≤ z → z ≤ 9007199254740992 → rnd z = z) {n : ℕ} (h : n ≤ 9007199254740992) : rnd (n : ℤ) = n :=
  hr _ (by omega) (by omega)

theorem bincount_le (x : List ℕ) (n : ℕ) : ∀ v ∈ bincount x n, v ≤ x.length := by
  intro v hv
  obtain ⟨k, hk, rfl⟩ := List.mem_iff_getElem.1 hv
  rw [← List.getD_eq_getElem _ 0, bincount_getD x (by simpa [bincount_length] using hk)]
  exact List.count_le_length

theorem mapM_option_length {α β : Type*} {f : α → Option β} : ∀ {l : List α} {r : List β}, l.mapM f = some r → r.length = l.length := by
  intro l
  induction l with
  | nil => intro r h; simp at h; simp [← h]
  | cons a l ih =>
    intro r h
    rw [List.mapM_cons] at h
    cases ha : f a with
    | none => simp [ha] at h
    | some b =>
      cases hl : l.mapM f with
      | none => simp [ha, hl] at h
      | some t =>
        simp [ha, hl] at h
        simp [← h, ih hl]

theorem mapM_eq_none_of_mem {α β : Type*} {f : α → Option β} {l : List α} {a : α} (ha : a ∈ l) (h : f a = none) : l.mapM f = none := by
  induction l with
  | nil => simp at ha
  | cons b l ih =>
    rw [List.mapM_cons]
    rcases List.mem_cons.1 ha with rfl | ha'
    · simp [h]
    · cases f b <;> simp [ih ha']

/-- The array that a rank contributes. -/
def loadTag {α : Type*} (P : List α) (l : List ℕ) : LoadArr := if P.length ≠ 0 then .int (l.map Nat.cast) else .float (l.map Nat.cast)

theorem loadTag_vals {α : Type*} (P : List α) (l : List ℕ) : (loadTag P l).vals = l.map Nat.cast := by
  unfold loadTag; split <;> rfl

/-- The kind of numbers in an array. -/
def LoadArr.IsFloat : LoadArr → Prop
  | .int _ => False
  | .float _ => True

theorem loadTag_float {α : Type*} {P : List α} {l : List ℕ} (h : (loadTag P l).IsFloat) : P = [] := by
  unfold loadTag at h
  split at h
  · exact h.elim
  · rename_i h'; simpa using h'

section
variable {K : Type*} [Field K] [LinearOrder K] [IsStrictOrderedRing K] [FloorRing K]

theorem loadLocalT_eq (ld : List K → Option ℕ) (size : ℕ) (P : List (List K)) : loadLocalT ld size P = (loadLocalOf ld size P).map (loadTag P) := by
  unfold loadLocalT loadLocalOf loadTag
  split
  · cases P.mapM ld <;> simp_all
  · simp_all

theorem loadLocalOf_bound {ld : List K → Option ℕ} {size : ℕ} {P : List (List K)} {l : List ℕ} (h : loadLocalOf ld size P = some l) :
    l.length = size ∧ ∀ v ∈ l, v ≤ P.length := by
  unfold loadLocalOf at h
  split at h
  · cases hd : P.mapM ld with
    | none => simp [hd] at h
    | some d =>
      simp [hd] at h
      subst h
      exact ⟨bincount_length _ _, fun v hv => (mapM_option_length hd) ▸ bincount_le _ _ v hv⟩
  · simp at h
    subst h
    simp

/-- One addition. -/
theorem loadAdd_vals {rnd : ℤ → ℤ} (hr : ∀ z : ℤ, 0 ≤ z → z ≤ 9007199254740992 → rnd z = z) {A B : LoadArr} {a b : List ℕ} {m n : ℕ}
    (hA : A.vals = a.map Nat.cast) (hB : B.vals = b.map Nat.cast) (ha : ∀ v ∈ a, v ≤ m) (hb : ∀ v ∈ b, v ≤ n)
    (hfit : m + n < 9223372036854775808) (hfl : A.IsFloat ∨ B.IsFloat → m + n ≤ 9007199254740992) :
    (A.add rnd B).vals = (List.zipWith (· + ·) a b).map Nat.cast := by
  have key : ∀ f : ℤ → ℤ → ℤ, (∀ x y : ℕ, x ≤ m → y ≤ n → f x y = ((x + y : ℕ) : ℤ)) →
      List.zipWith f A.vals B.vals = (List.zipWith (· + ·) a b).map Nat.cast := by
    intro f hf
    rw [hA, hB]
    apply List.ext_getElem (by simp)
    intro i h1 h2
    simp only [List.getElem_zipWith, List.getElem_map]
    exact hf _ _ (ha _ (List.getElem_mem _)) (hb _ (List.getElem_mem _))
  cases A with
  | int A =>
    cases B with
    | int B =>
      refine key _ fun x y hx hy => ?_
      rw [wrapInt64_eq (by omega) (by omega)]; push_cast; rfl
    | float B =>
      have := hfl (Or.inr trivial)
      refine key (fun x y => rnd (rnd x + y)) fun x y hx hy => ?_
      rw [hr x (by omega) (by omega), hr _ (by omega) (by omega)]; push_cast; rfl
  | float A =>
    have := hfl (Or.inl trivial)
    cases B with
    | int B =>
      refine key (fun x y => rnd (x + rnd y)) fun x y hx hy => ?_
      rw [hr y (by omega) (by omega), hr _ (by omega) (by omega)]; push_cast; rfl
    | float B =>
      refine key (fun x y => rnd (x + y)) fun x y hx hy => ?_
      rw [hr _ (by omega) (by omega)]; push_cast; rfl

theorem loadAdd_float {rnd : ℤ → ℤ} {A B : LoadArr} (h : (A.add rnd B).IsFloat) : A.IsFloat ∨ B.IsFloat := by
  cases A <;> cases B <;> simp_all [LoadArr.add, LoadArr.IsFloat]

theorem loadFold_vals {rnd : ℤ → ℤ} (hr : ∀ z : ℤ, 0 ≤ z → z ≤ 9007199254740992 → rnd z = z) (F : Prop) (N : ℕ)
    (hN : N < 9223372036854775808) (hF : F → N ≤ 9007199254740992) (loc : List (List K) → List ℕ) :
    ∀ (pos : List (List (List K))) (A : LoadArr) (a : List ℕ) (m : ℕ),
      (∀ P ∈ pos, ∀ v ∈ loc P, v ≤ P.length) → (∀ P ∈ pos, P = [] → F) → A.vals = a.map Nat.cast → (A.IsFloat → F) → (∀ v ∈ a, v ≤ m) →
      m + pos.flatten.length ≤ N →
      let R := (pos.map fun P => loadTag P (loc P)).foldl (LoadArr.add rnd) A
      let r := (pos.map loc).foldl (fun acc l => List.zipWith (· + ·) acc l) a
      R.vals = r.map Nat.cast ∧ (R.IsFloat → F) ∧ ∀ v ∈ r, v ≤ N := by
  intro pos
  induction pos with
  | nil =>
    intro A a m _ _ hA hAF ha hm
    exact ⟨hA, hAF, fun v hv => (ha v hv).trans (by simpa using hm)⟩
  | cons P pos ih =>
    intro A a m hl he hA hAF ha hm
    simp only [List.flatten_cons, List.length_append] at hm
    have hb := hl P (by simp)
    have hPF : (loadTag P (loc P)).IsFloat → F := fun h => he P (by simp) (loadTag_float h)
    simp only [List.map_cons, List.foldl_cons]
    refine ih _ _ (m + P.length) (fun Q hQ => hl Q (by simp [hQ])) (fun Q hQ => he Q (by simp [hQ]))
      (loadAdd_vals hr hA (loadTag_vals _ _) ha hb (by omega) fun h => ?_) (fun h => (loadAdd_float h).elim hAF hPF) ?_ (by omega)
    · have := hF (h.elim hAF hPF)
      omega
    · intro v hv
      obtain ⟨i, hi, rfl⟩ := List.mem_iff_getElem.1 hv
      rw [List.getElem_zipWith]
      exact Nat.add_le_add (ha _ (List.getElem_mem _)) (hb _ (List.getElem_mem _))

theorem loadPow_int (rnd : ℤ → ℤ) (gamma : ℕ) (a : List ℤ) : ((LoadArr.int a).pow rnd gamma).vals = a.map fun x => wrapInt64 (x ^ gamma) := rfl

theorem loadPow_float (rnd : ℤ → ℤ) (gamma : ℕ) (a : List ℤ) : ((LoadArr.float a).pow rnd gamma).vals = a.map fun x => rnd (x ^ gamma) := rfl

theorem map_pow_vals {f : ℤ → ℤ} {gamma : ℕ} {a : List ℕ} (h : ∀ v ∈ a, f ((v ^ gamma : ℕ) : ℤ) = ((v ^ gamma : ℕ) : ℤ)) :
    (a.map (Nat.cast : ℕ → ℤ)).map (fun x => f (x ^ gamma)) = (a.map (· ^ gamma)).map Nat.cast := by
  rw [List.map_map, List.map_map]
  refine List.map_congr_left fun v hv => ?_
  have := h v hv
  rw [Nat.cast_pow] at this
  rw [Function.comp_apply, Function.comp_apply, this, Nat.cast_pow]

theorem loadPow_vals {rnd : ℤ → ℤ} (hr : ∀ z : ℤ, 0 ≤ z → z ≤ 9007199254740992 → rnd z = z) {A : LoadArr} {a : List ℕ} {M gamma : ℕ}
    (hA : A.vals = a.map Nat.cast) (hpow : ∀ v ∈ a, v ^ gamma ≤ M) (hN : M < 9223372036854775808)
    (hF : A.IsFloat → M ≤ 9007199254740992) : (A.pow rnd gamma).vals = (a.map (· ^ gamma)).map Nat.cast := by
  cases A with
  | int A =>
    have hA' : A = a.map Nat.cast := hA
    rw [loadPow_int, hA']
    exact map_pow_vals fun v hv => wrapInt64_nat (lt_of_le_of_lt (hpow v hv) hN)
  | float A =>
    have hA' : A = a.map Nat.cast := hA
    rw [loadPow_float, hA']
    exact map_pow_vals fun v hv => rnd_nat hr ((hpow v hv).trans (hF trivial))

theorem loadT_eq {rnd : ℤ → ℤ} (hr : ∀ z : ℤ, 0 ≤ z → z ≤ 9007199254740992 → rnd z = z) (g : Grid K) (gamma : ℕ)
    (pos : List (List (List K))) (hne : pos ≠ []) {N : ℕ} (hlen : pos.flatten.length ≤ N)
    (hN : N < 9223372036854775808) (hNg : N ^ gamma < 9223372036854775808)
    (hF : [] ∈ pos → N ≤ 9007199254740992 ∧ N ^ gamma ≤ 9007199254740992) :
    (loadT rnd g gamma pos).map LoadArr.vals = (load g gamma pos).map fun l => l.map Nat.cast := by
  unfold loadT load loadOf
  by_cases hall : ∀ P ∈ pos, (loadLocalOf (loadDomain g) g.size P).isSome
  · choose! loc hloc using fun P (hP : P ∈ pos) => Option.isSome_iff_exists.1 (hall P hP)
    rw [mapM_option_some pos hloc, mapM_option_some (f := loadLocalT (loadDomain g) g.size) (g := fun P => loadTag P (loc P)) pos
      (fun P hP => by rw [loadLocalT_eq, hloc P hP]; rfl)]
    cases pos with
    | nil => exact (hne rfl).elim
    | cons P pos =>
      have hb := fun Q (hQ : Q ∈ P :: pos) => loadLocalOf_bound (hloc Q hQ)
      simp only [List.map_cons, Option.bind_eq_bind, Option.bind_some, Option.map_some, Option.pure_def, List.foldl_cons]
      have h0 : List.zipWith (· + ·) (List.replicate g.size 0) (loc P) = loc P := by
        apply List.ext_getElem (by simp [(hb P (by simp)).1])
        intro i h1 h2
        simp
      rw [h0]
      simp only [List.flatten_cons, List.length_append] at hlen
      obtain ⟨h1, h2, h3⟩ := loadFold_vals hr ([] ∈ P :: pos) N hN (fun h => (hF h).1) loc pos (loadTag P (loc P)) (loc P) P.length
        (fun Q hQ => (hb Q (by simp [hQ])).2) (fun Q hQ h => by subst h; simp [hQ]) (loadTag_vals _ _)
        (fun h => by rw [loadTag_float h]; simp) (hb P (by simp)).2 hlen
      rw [loadPow_vals hr h1 (M := N ^ gamma) (fun v hv => Nat.pow_le_pow_left (h3 v hv) gamma) hNg fun h => (hF (h2 h)).2]
  · push Not at hall
    obtain ⟨P, hP, h⟩ := hall
    have h' : loadLocalOf (loadDomain g) g.size P = none := by simpa using h
    rw [mapM_eq_none_of_mem hP h', mapM_eq_none_of_mem hP (f := loadLocalT (loadDomain g) g.size) (by rw [loadLocalT_eq, h']; rfl)]
    rfl

theorem loadAdd_float_iff {rnd : ℤ → ℤ} {A B : LoadArr} : (A.add rnd B).IsFloat ↔ A.IsFloat ∨ B.IsFloat := by
  cases A <;> cases B <;> simp [LoadArr.add, LoadArr.IsFloat]

theorem loadTag_float_iff {α : Type*} {P : List α} {l : List ℕ} : (loadTag P l).IsFloat ↔ P = [] := by
  refine ⟨loadTag_float, ?_⟩
  rintro rfl
  exact trivial

theorem loadFold_float {rnd : ℤ → ℤ} (loc : List (List K) → List ℕ) (pos : List (List (List K))) : ∀ A : LoadArr,
    ((pos.map fun P => loadTag P (loc P)).foldl (LoadArr.add rnd) A).IsFloat ↔ A.IsFloat ∨ [] ∈ pos := by
  induction pos with
  | nil => intro A; simp
  | cons P pos ih =>
    intro A
    rw [List.map_cons, List.foldl_cons, ih, loadAdd_float_iff, loadTag_float_iff, List.mem_cons, or_assoc, @eq_comm _ P]

theorem loadPow_float_iff {rnd : ℤ → ℤ} {gamma : ℕ} {A : LoadArr} : (A.pow rnd gamma).IsFloat ↔ A.IsFloat := by
  cases A <;> exact Iff.rfl

theorem loadT_float {rnd : ℤ → ℤ} {g : Grid K} {gamma : ℕ} {pos : List (List (List K))} {A : LoadArr} (h : loadT rnd g gamma pos = some A) :
    A.IsFloat ↔ [] ∈ pos := by
  have hall : ∀ P ∈ pos, (loadLocalOf (loadDomain g) g.size P).isSome := by
    intro P hP
    by_contra hno
    have h' : loadLocalOf (loadDomain g) g.size P = none := by simpa using hno
    unfold loadT at h
    rw [mapM_eq_none_of_mem hP (f := loadLocalT (loadDomain g) g.size) (by rw [loadLocalT_eq, h']; rfl)] at h
    cases h
  choose! loc hloc using fun P (hP : P ∈ pos) => Option.isSome_iff_exists.1 (hall P hP)
  unfold loadT at h
  rw [mapM_option_some (f := loadLocalT (loadDomain g) g.size) (g := fun P => loadTag P (loc P)) pos
    (fun P hP => by rw [loadLocalT_eq, hloc P hP]; rfl)] at h
  cases pos with
  | nil => cases h
  | cons P pos =>
    have hA : ((pos.map fun P => loadTag P (loc P)).foldl (LoadArr.add rnd) (loadTag P (loc P))).pow rnd gamma = A := Option.some.inj h
    rw [← hA, loadPow_float_iff, loadFold_float, loadTag_float_iff, List.mem_cons, @eq_comm _ P]

end
end Pmesh
