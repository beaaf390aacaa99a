import Verif.Props.NoiseField
import Verif.Props.Products
import Verif.Props.Resample

/-! # C83: white noise on three axes as a field in real space -/

namespace Pmesh

open Complex

/-- What `generate_whitenoise` needs to know of the local array of a rank besides its place in the mesh. -/
structure NoiseRank where
  strides : List ℤ
  /-- the order of the axes in memory -/
  order : List ℕ
  /-- what is in the memory before -/
  mem : ℤ → ℝ × ℝ

section
variable {σ : Type} (rng : Rng σ) (rnd : ℚ → ℚ)

/-- `generate_whitenoise(seed, unitary, mean, type='complex')` on the ranks of a tiling: the local arrays
(pm.py:1655-1695; `generateWhitenoise` is the model of it on one rank). -/
noncomputable def noiseOn (t : Tiling) (box : List ℝ) (seed : ℕ) (unitary : Bool) (mean : ℝ) (a : ℕ → NoiseRank) (r : ℕ) (c : List ℕ) : Cx ℝ :=
  generateWhitenoise rng polarReal rnd Real.pi t.nmesh (t.start r) (t.lshape r) (a r).strides (a r).order box seed unitary mean (a r).mem
    (elementAddr (a r).strides c)

/-- Local arrays of a field of three axes that the generator can fill: they lie inside the mesh, no two elements are at the same place in memory, and
the last axis of a full field is not split. -/
structure NoiseReady (t : Tiling) (a : ℕ → NoiseRank) : Prop where
  tiling : t.OK
  storage : t.Storage
  inside : ∀ r < t.nrank, List.Forall₂ (fun (ab : ℕ × ℕ) N => ab.1 + ab.2 ≤ N) ((t.start r).zip (t.lshape r)) t.nmesh
  proper : ∀ r < t.nrank, Proper (t.lshape r) (a r).strides
  order : ∀ r < t.nrank, (a r).order.Perm [0, 1, 2]
  whole : t.cshape ≠ t.nmesh ∨ ∀ r < t.nrank, (t.start r).getD 2 0 = 0

/-- The field on one rank, in full storage. -/
def oneTiling (nmesh : List ℕ) : Tiling := ⟨nmesh, nmesh, 1, fun _ => nmesh.map fun _ => 0, fun _ => nmesh⟩

/-- The modes made by a single process. -/
noncomputable def noiseModes (N0 N1 N2 seed : ℕ) (unitary : Bool) (mean : ℝ) (k : List ℕ) : ℂ :=
  let v := generateWhitenoise rng polarReal rnd Real.pi [N0, N1, N2] [0, 0, 0] [N0, N1, N2] [N1 * N2, N2, 1] [0, 1, 2] [1, 1, 1] seed unitary mean
    (fun _ => (0, 0)) (elementAddr [N1 * N2, N2, 1] k)
  ⟨v.1, v.2⟩

theorem proper_c (N0 N1 N2 : ℕ) : Proper [N0, N1, N2] [N1 * N2, N2, 1] := by
  refine ⟨rfl, fun c c' hc hc' h => ?_⟩
  match c, c', hc, hc' with
  | [a, b, d], [a', b', d'], hc, hc' =>
    simp only [ValidIndex, List.forall₂_cons, List.forall₂_nil_left_iff, and_true] at hc hc'
    simp only [elementAddr, List.zipWith_cons_cons, List.zipWith_nil_left, List.sum_cons, List.sum_nil, add_zero, mul_one] at h
    have h2 : ((a * N1 + b) * N2 + d : ℕ) = (a' * N1 + b') * N2 + d' := by
      zify
      linarith
    have e1 : d = d' := by
      have := congrArg (· % N2) h2
      simpa [Nat.mul_add_mod', Nat.mod_eq_of_lt hc.2.2, Nat.mod_eq_of_lt hc'.2.2] using this
    have e2 : a * N1 + b = a' * N1 + b' := by
      subst e1
      exact Nat.eq_of_mul_eq_mul_right (show 0 < N2 by omega) (Nat.add_right_cancel h2)
    have e3 : b = b' := by
      have := congrArg (· % N1) e2
      simpa [Nat.mul_add_mod', Nat.mod_eq_of_lt hc.2.1, Nat.mod_eq_of_lt hc'.2.1] using this
    have e4 : a = a' := by
      subst e3
      exact Nat.eq_of_mul_eq_mul_right (show 0 < N1 by omega) (Nat.add_right_cancel e2)
    rw [e1, e3, e4]

theorem noiseModes_eq {N0 N1 N2 : ℕ} (hN : 2 ≤ N0 ∧ 2 ≤ N1 ∧ 2 ≤ N2) (seed : ℕ) (unitary : Bool) (mean : ℝ) {i j k : ℕ}
    (hv : ValidIndex [N0, N1, N2] [i, j, k]) :
    toCx (noiseModes rng rnd N0 N1 N2 seed unitary mean [i, j, k]) = if i = 0 ∧ j = 0 ∧ k = 0 then (mean, 0)
      else genericFill rng polarReal rnd (noiseGen [N0, N1, N2] [0, 0, 0] [N0, N1, N2] [N1 * N2, N2, 1] unitary) seed (fun _ => (0, 0))
        (noiseAddr (noiseGen [N0, N1, N2] [0, 0, 0] [N0, N1, N2] [N1 * N2, N2, 1] unitary) i j k) := by
  have h := C42_mean_partial rng polarReal rnd Real.pi_ne_zero (s0 := 0) (s1 := 0) (s2 := 0) hN (by omega) (proper_c N0 N1 N2) [0, 1, 2]
    (List.Perm.refl _) (b0 := 1) (b1 := 1) (b2 := 1) (by norm_num) seed unitary mean (fun _ => (0, 0)) i j k hv
  have e := noiseGen_addr N0 N1 N2 0 0 0 N0 N1 N2 (N1 * N2) N2 1 unitary i j k
  simp only [Nat.zero_add, Nat.cast_zero, zero_add] at h e
  rw [e, ← h]
  rfl

/-- Each rank gets its piece of one field of modes. -/
theorem noiseOn_eq {N0 N1 N2 : ℕ} (hN : 2 ≤ N0 ∧ 2 ≤ N1 ∧ 2 ≤ N2) (seed : ℕ) (unitary : Bool) (mean : ℝ) (t : Tiling)
    (hn : t.nmesh = [N0, N1, N2]) (a : ℕ → NoiseRank) (ha : NoiseReady t a) (box : List ℝ) (hb : box.length = 3) (hb0 : ∀ b ∈ box, 0 < b) :
    t.Holds (noiseOn rng rnd t box seed unitary mean a) fun k => toCx (noiseModes rng rnd N0 N1 N2 seed unitary mean k) := by
  intro r hr c hc
  beta_reduce
  have hsl := ha.tiling.start_len r hr
  have hll := ha.tiling.shape_len r hr
  have hcl := hc.len
  have hin := ha.inside r hr
  have hp := ha.proper r hr
  have ho := ha.order r hr
  have hw := ha.whole
  have hs := ha.storage
  have hall := ha.tiling.inside r hr
  unfold noiseOn
  unfold Tiling.global at hall ⊢
  unfold Tiling.Storage at hs
  have hw' : ((t.cshape = [N0, N1, N2] ∧ (t.start r).getD 2 0 = 0) ∨ t.cshape = [N0, N1, N2 / 2 + 1]) := by
    rw [hn] at hs hw
    rcases hs with h | h
    · exact Or.inl ⟨h, hw.elim (fun h' => absurd h h') fun h' => h' r hr⟩
    · exact Or.inr h
  have hst := hp.len
  rw [hn] at hsl hll hin ⊢
  generalize t.start r = s at *
  generalize t.lshape r = l at *
  generalize (a r).strides = st at *
  generalize (a r).order = o at *
  generalize (a r).mem = mem at *
  match s, l, st, c, box, hsl, hll, hst, hcl, hb with
  | [s0, s1, s2], [n0, n1, n2], [t0, t1, t2], [x, y, z], [b0, b1, b2], _, _, _, _, _ =>
    simp only [List.zip_cons_cons, List.zip_nil_left, List.forall₂_cons, List.forall₂_nil_left_iff, and_true] at hin
    have hb' : b0 ≠ 0 ∧ b1 ≠ 0 ∧ b2 ≠ 0 := ⟨(hb0 b0 (by simp)).ne', (hb0 b1 (by simp)).ne', (hb0 b2 (by simp)).ne'⟩
    rw [C42_mean_partial rng polarReal rnd Real.pi_ne_zero hN hin hp o ho hb' seed unitary mean mem x y z hc]
    have hxyz := hc
    simp only [ValidIndex, List.forall₂_cons, List.forall₂_nil_left_iff, and_true] at hxyz
    show _ = toCx (noiseModes rng rnd N0 N1 N2 seed unitary mean [s0 + x, s1 + y, s2 + z])
    have hv : ValidIndex [N0, N1, N2] [s0 + x, s1 + y, s2 + z] := by
      simp only [ValidIndex, List.forall₂_cons, List.forall₂_nil_left_iff, and_true]
      omega
    rw [noiseModes_eq rng rnd hN seed unitary mean hv]
    refine if_congr Iff.rfl rfl ?_
    have hg := noiseGen_plain unitary (by omega) hin hp (N0 := N0) (N1 := N1) (N2 := N2) (s0 := s0) (s1 := s1) (s2 := s2)
    have hg' := noiseGen_plain unitary (by omega) (show 0 + N0 ≤ N0 ∧ 0 + N1 ≤ N1 ∧ 0 + N2 ≤ N2 by omega) (proper_c N0 N1 N2)
    have hm : (noiseGen [N0, N1, N2] [s0, s1, s2] [n0, n1, n2] [t0, t1, t2] unitary).Mirrored := by
      intro k h1 h2 h3
      simp only [noiseGen, List.getD_cons_succ, List.getD_cons_zero, Fin.isValue, Fin.val_two] at h1 h2 h3 ⊢
      rcases hw' with ⟨_, h⟩ | h
      · simp at h
        omega
      · have := hall [x, y, (k - s2).toNat] (by
          simp only [ValidIndex, List.forall₂_cons, List.forall₂_nil_left_iff, and_true]
          omega)
        rw [h] at this
        simp only [ValidIndex, List.zipWith_cons_cons, List.zipWith_nil_left, List.forall₂_cons, List.forall₂_nil_left_iff, and_true] at this
        omega
    have hm' : (noiseGen [N0, N1, N2] [0, 0, 0] [N0, N1, N2] [N1 * N2, N2, 1] unitary).Mirrored := by
      intro k h1 h2 h3
      simp only [noiseGen, List.getD_cons_succ, List.getD_cons_zero, Fin.isValue, Fin.val_two] at h1 h2 h3 ⊢
      omega
    have hsame : NoiseGen.SameField (noiseGen [N0, N1, N2] [s0, s1, s2] [n0, n1, n2] [t0, t1, t2] unitary)
      (noiseGen [N0, N1, N2] [0, 0, 0] [N0, N1, N2] [N1 * N2, N2, 1] unitary) := ⟨rfl, rfl⟩
    have h38 := (C38_partition_partial rng polarReal rnd seed hsame hg hg' hm hm' mem fun _ => (0, 0)).1
      (s0 + x) (s1 + y) (s2 + z)
      ((noiseGen_stores ..).2 ⟨x, y, z, hc, rfl, rfl, rfl⟩)
      ((noiseGen_stores ..).2 ⟨s0 + x, s1 + y, s2 + z, hv, by simp, by simp, by simp⟩)
    rw [noiseGen_addr] at h38
    rw [h38]
    push_cast
    rfl

theorem toCx_inj {z w : ℂ} (h : toCx z = toCx w) : z = w := by
  unfold toCx at h
  exact Complex.ext (congrArg Prod.fst h) (congrArg Prod.snd h)

theorem noiseModes_hermitian {N N2 : ℕ} (hN : 2 ≤ N ∧ 2 ≤ N2) (heven : N2 % 2 = 0) (seed : ℕ) (unitary : Bool) (mean : ℝ) (k : List ℕ)
    (hk : ValidIndex [N, N, N2] k) : noiseModes rng rnd N N N2 seed unitary mean (opposite [N, N, N2] k) =
      (starRingEnd ℂ) (noiseModes rng rnd N N N2 seed unitary mean k) := by
  have hkl := hk.len
  match k, hkl with
  | [i, j, l], _ =>
    have hv := hk
    simp only [ValidIndex, List.forall₂_cons, List.forall₂_nil_left_iff, and_true] at hv
    have hop : opposite [N, N, N2] [i, j, l] = [(N - i) % N, (N - j) % N, (N2 - l) % N2] := rfl
    have l0 : (N - i) % N < N := Nat.mod_lt _ (by omega)
    have l1 : (N - j) % N < N := Nat.mod_lt _ (by omega)
    have l2 : (N2 - l) % N2 < N2 := Nat.mod_lt _ (by omega)
    have hvo : ValidIndex [N, N, N2] [(N - i) % N, (N - j) % N, (N2 - l) % N2] := by
      simp only [ValidIndex, List.forall₂_cons, List.forall₂_nil_left_iff, and_true]
      omega
    apply toCx_inj
    rw [toCx_conj, hop, noiseModes_eq rng rnd (by omega) seed unitary mean hvo, noiseModes_eq rng rnd (by omega) seed unitary mean hk]
    have z : ∀ {n x : ℕ}, x < n → ((n - x) % n = 0 ↔ x = 0) := by
      intro n x hx
      rcases Nat.eq_zero_or_pos x with rfl | h
      · simp
      · rw [Nat.mod_eq_of_lt (by omega)]; omega
    have sum0 : ∀ {n x : ℕ}, x < n → ((x : ℤ) + ((n - x) % n : ℕ)) % n = 0 := by
      intro n x hx
      rcases Nat.eq_zero_or_pos x with rfl | h
      · simp
      · rw [Nat.mod_eq_of_lt (by omega), show ((x : ℤ) + ((n - x : ℕ) : ℤ)) = n by omega]
        simp
    simp only [z hv.1, z hv.2.1, z hv.2.2]
    split_ifs with h0
    · simp [cxConj]
    · have hg := noiseGen_plain unitary (by omega) (show 0 + N ≤ N ∧ 0 + N ≤ N ∧ 0 + N2 ≤ N2 by omega) (proper_c N N N2)
      have hm : (noiseGen [N, N, N2] [0, 0, 0] [N, N, N2] [N * N2, N2, 1] unitary).Mirrored := by
        intro k h1 h2 h3
        simp only [noiseGen, List.getD_cons_succ, List.getD_cons_zero, Fin.isValue, Fin.val_two] at h1 h2 h3 ⊢
        omega
      have h39 := C39_hermitian rng polarReal rnd seed (show NoiseGen.SameField _ _ from ⟨rfl, rfl⟩) hg hg hm hm rfl
        (by simp [noiseGen]; omega) (fun _ => (0, 0)) (fun _ => (0, 0))
        ((noiseGen_stores N N N2 0 0 0 N N N2 _ _ _ unitary i j l).2 ⟨i, j, l, hk, by simp, by simp, by simp⟩)
        ((noiseGen_stores N N N2 0 0 0 N N N2 _ _ _ unitary ((N - i) % N : ℕ) ((N - j) % N : ℕ) ((N2 - l) % N2 : ℕ)).2
          ⟨_, _, _, hvo, by simp, by simp, by simp⟩)
        (sum0 hv.1) (sum0 hv.2.1) (sum0 hv.2.2)
      exact Prod.ext h39.1 h39.2.1

/-- **C83**.  On a mesh of three axes, the first two of equal and the last of even size, there is one field of modes `G`, determined by the seed and not by
the ranks, of which `generate_whitenoise` gives each rank its piece, whatever the partition, the storage, the order in memory, the box and the
previous content of memory.  In either storage it is the transform of the real field `c2r(G)`, which is what `type='real'` returns; the average of
the real field over the mesh is the requested mean, and with `unitary=True` its mean square is the square of the mean plus the number of
the other modes, exactly.
Partial: see C39, C41 for other shapes of the mesh. -/
theorem C83_noise_partial {N N2 : ℕ} (hN : 2 ≤ N ∧ 2 ≤ N2) (heven : N2 % 2 = 0) (seed : ℕ) (unitary : Bool) (mean : ℝ) :
    ∃ G : List ℕ → ℂ,
      (∀ t a, t.nmesh = [N, N, N2] → NoiseReady t a → ∀ box : List ℝ, box.length = 3 → (∀ b ∈ box, 0 < b) →
        t.Holds (noiseOn rng rnd t box seed unitary mean a) fun k => toCx (G k)) ∧
      (∀ k, ValidIndex [N, N, N2] k → G (opposite [N, N, N2] k) = (starRingEnd ℂ) (G k)) ∧
      ∀ cshape, StoredShape [N, N, N2] cshape →
        (∀ k, ValidIndex cshape k → r2c [N, N, N2] (c2r [N, N, N2] cshape G) k = G k) ∧
        ((ndindex [N, N, N2]).map (c2r [N, N, N2] cshape G)).sum / ((N * N * N2 : ℕ) : ℝ) = mean ∧
        (unitary = true → ((ndindex [N, N, N2]).map fun x => c2r [N, N, N2] cshape G x ^ 2).sum / ((N * N * N2 : ℕ) : ℝ) =
          mean ^ 2 + ((N * N * N2 : ℕ) - 1)) := by
  have hpos : ∀ n ∈ [N, N, N2], 0 < n := by
    intro n hn
    simp only [List.mem_cons, List.not_mem_nil, or_false] at hn
    omega
  have hne : [N, N, N2] ≠ [] := by simp
  have hprod : ([N, N, N2] : List ℕ).prod = N * N * N2 := by simp [Nat.mul_assoc]
  obtain ⟨G, hG⟩ : ∃ G, G = noiseModes rng rnd N N N2 seed unitary mean := ⟨_, rfl⟩
  have hh : ∀ k, ValidIndex [N, N, N2] k → G (opposite [N, N, N2] k) = (starRingEnd ℂ) (G k) := by
    intro k hk
    rw [hG]
    exact noiseModes_hermitian rng rnd hN heven seed unitary mean k hk
  have hz : G [0, 0, 0] = mean := by
    apply toCx_inj
    rw [hG, noiseModes_eq rng rnd (by omega) seed unitary mean (by
      simp only [ValidIndex, List.forall₂_cons, List.forall₂_nil_left_iff, and_true]; omega)]
    simp [toCx]
  refine ⟨G, ?_, hh, fun cshape hs => ?_⟩
  · intro t a hn ha box hb hb0
    rw [hG]
    exact noiseOn_eq rng rnd (by omega) seed unitary mean t hn a ha box hb hb0
  · have hst : HermitianStored [N, N, N2] cshape G := fun k hk _ => hh k (stored_valid hs hne hpos hk)
    have hrt : ∀ k, ValidIndex cshape k → r2c [N, N, N2] (c2r [N, N, N2] cshape G) k = G k :=
      fun k hk => C29_r2c_c2r [N, N, N2] cshape hne hpos hs G hst k hk
    refine ⟨hrt, ?_, ?_⟩
    · have hm := C29_mean [N, N, N2] (c2r [N, N, N2] cshape G)
      have h0 : ValidIndex cshape [0, 0, 0] := by
        rcases hs with h | h
        · rw [h]
          simp only [ValidIndex, List.forall₂_cons, List.forall₂_nil_left_iff, and_true]; omega
        · rw [h]
          simp only [ValidIndex, List.dropLast, List.getLastD, List.getLast, List.cons_append, List.nil_append, List.forall₂_cons,
            List.forall₂_nil_left_iff, and_true]
          omega
      rw [show ([N, N, N2].map fun _ => 0) = [0, 0, 0] from rfl, hrt _ h0, hz, hprod] at hm
      exact_mod_cast hm.symm
    · intro hu
      have hd := full_dot hs hne hpos G hst
      rw [hprod] at hd
      simp only [sq]
      rw [← hd]
      have hdec : ∀ k, ValidIndex [N, N, N2] k → decompress [N, N, N2] cshape G k = G k := by
        intro k hk
        rw [decompress_stored hs hne hk]
        split_ifs with h
        · rfl
        · rw [hh k hk, Complex.conj_conj]
      have hone : ∀ k, ValidIndex [N, N, N2] k → k ≠ [0, 0, 0] → (G k * (starRingEnd ℂ) (G k)).re = 1 := by
        intro k hk hk0
        have hkl := hk.len
        match k, hkl with
        | [i, j, l], _ =>
          subst hu
          obtain ⟨v, hv, _, h2⟩ := C42_unitary_partial rng rnd (s0 := 0) (s1 := 0) (s2 := 0) (show 2 ≤ N ∧ 2 ≤ N ∧ 2 ≤ N2 by omega) (by omega)
            (proper_c N N N2) (by omega) [0, 1, 2] (List.Perm.refl _) (b0 := 1) (b1 := 1) (b2 := 1) (by norm_num) seed mean (fun _ => (0, 0)) i j l hk
          have hv' : G [i, j, l] = ⟨v.1, v.2⟩ := by rw [hG, hv]; rfl
          have := (h2 (by
            intro h
            apply hk0
            simp only [Nat.zero_add] at h
            rw [h.1, h.2.1, h.2.2])).1
          rw [hv', Complex.mul_re, Complex.conj_re, Complex.conj_im]
          linarith
      have hsum : ((ndindex [N, N, N2]).map fun k => (decompress [N, N, N2] cshape G k * (starRingEnd ℂ) (decompress [N, N, N2] cshape G k)).re) =
          (ndindex [N, N, N2]).map fun k => 1 + (if [0, 0, 0] = k then mean ^ 2 - 1 else 0) := by
        apply List.map_congr_left
        intro k hk
        have hk' := mem_ndindex.1 hk
        rw [hdec k hk']
        split_ifs with h0
        · rw [← h0, hz, Complex.conj_ofReal, ← Complex.ofReal_mul, Complex.ofReal_re]
          ring
        · rw [hone k hk' (Ne.symm h0), add_zero]
      rw [hsum, List.sum_map_add, sum_single _ (show ValidIndex [N, N, N2] [0, 0, 0] by
        simp only [ValidIndex, List.forall₂_cons, List.forall₂_nil_left_iff, and_true]; omega) fun _ => mean ^ 2 - 1]
      rw [List.map_const', List.sum_replicate, ndindex_length, hprod]
      simp
      ring

end

/-- Four points cubed, compressed, on two ranks that split the second axis. -/
def exNoiseTiling : Tiling := ⟨[4, 4, 4], [4, 4, 3], 2, fun r => [0, 2 * r, 0], fun _ => [4, 2, 3]⟩

/-- Transposed in memory on rank 0 and not on rank 1. -/
def exNoiseRank (mem : ℤ → ℝ × ℝ) (r : ℕ) : NoiseRank := if r = 0 then ⟨[3, 12, 1], [1, 0, 2], mem⟩ else ⟨[6, 3, 1], [0, 1, 2], mem⟩

theorem exNoise_ready (mem : ℤ → ℝ × ℝ) : NoiseReady exNoiseTiling (exNoiseRank mem) where
  tiling := tiling_ok_of_decide (by decide)
  storage := Or.inr rfl
  inside := by
    intro r hr
    have hr : r < 2 := hr
    interval_cases r <;> exact .cons (by decide) (.cons (by decide) (.cons (by decide) .nil))
  proper := by
    intro r hr
    have hr : r < 2 := hr
    interval_cases r
    · exact proper_of_decide (strides := [3, 12, 1]) rfl (by decide)
    · exact proper_of_decide (strides := [6, 3, 1]) rfl (by decide)
  order := by
    intro r hr
    have hr : r < 2 := hr
    interval_cases r
    · exact show ([1, 0, 2] : List ℕ).Perm [0, 1, 2] by decide
    · exact List.Perm.refl _
  whole := Or.inl (by decide)

/-- Non-vacuity of C83: two ranks, compressed, any memory; the mean square of the real field is `25 + 63`. -/
example (mem : ℤ → ℝ × ℝ) : ∃ G : List ℕ → ℂ,
    exNoiseTiling.Holds (noiseOn (ranlxdRng id) id exNoiseTiling [1, 2, 3] 42 true 5 (exNoiseRank mem)) (fun k => toCx (G k)) ∧
      ((ndindex [4, 4, 4]).map fun x => c2r [4, 4, 4] [4, 4, 3] G x ^ 2).sum / ((4 * 4 * 4 : ℕ) : ℝ) = 88 := by
  obtain ⟨G, h, _, h3⟩ := C83_noise_partial (ranlxdRng id) id (N := 4) (N2 := 4) (by omega) (by omega) 42 true 5
  refine ⟨G, h _ _ rfl (exNoise_ready mem) [1, 2, 3] rfl (by simp), ?_⟩
  rw [(h3 [4, 4, 3] (Or.inr rfl)).2.2 rfl]
  norm_num

#print axioms C83_noise_partial

end Pmesh
