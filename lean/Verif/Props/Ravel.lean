import Verif.Lemmas.Ravel
import Verif.Props.Field

/-!
# C33: `ravel` and `unravel`
-/

namespace Pmesh

variable {V : Type}

/-- **C33**, `ravel`.  On any tiling, `ravel` ends on all ranks; the output of a rank is as long as its local array, and the
outputs of all ranks, one after the other, are the global array in C order. -/
theorem C33_ravel (t : Tiling) (ht : t.OK) (f : ℕ → List ℕ → V) (G : List ℕ → V) (hf : t.Holds f G) :
    ∃ out : ℕ → List V, AllReturn t.nrank (fun r => ravel t r (f r)) (fun r => .ok (out r)) ∧
      (∀ r < t.nrank, (out r).length = (t.lshape r).prod) ∧
      (List.range t.nrank).flatMap out = (ndindex t.cshape).map G :=
  ⟨_, ravel_return ht hf, fun _ hr => ravelOut_length ht G hr, ravelOut_concat ht G⟩

/-- **C33**, `unravel`.  If the inputs of the ranks, one after the other, are a global array in C order, cut in pieces of any
lengths, then the local arrays hold this global array afterwards. -/
theorem C33_unravel (t : Tiling) (ht : t.OK) (flat : ℕ → List V) (G : List ℕ → V)
    (hflat : (List.range t.nrank).flatMap flat = (ndindex t.cshape).map G) :
    AllReturn t.nrank (fun r => unravel t r (flat r))
      (fun r => .ok ((ndindex (t.lshape r)).map fun c => G (t.global r c))) := by
  have hlen : (((List.range t.nrank).map fun r => (flat r).map fun v => ((0 : ℕ), v)).map List.length).sum = t.cshape.prod := by
    have := congrArg List.length hflat
    rw [List.length_map, ndindex_length, List.length_flatMap] at this
    rw [← this, List.map_map]
    congr 1
    apply List.map_congr_left
    intro r _
    simp
  unfold unravel
  refine AllReturn.coll ht.rank_pos ?_
  simp only [hlen, if_true]
  by_cases h1 : t.nrank > 1
  · simp only [h1, if_true]
    refine AllReturn.coll ht.rank_pos ?_
    refine AllReturn.congr (fun r hr => ?_) (fun _ _ => rfl) (AllReturn.ret _ _)
    have := take_cOrder (G := G) (shape := t.cshape) (vs := (List.range t.nrank).map fun r => (flat r).map fun v => ((0 : ℕ), v))
      (by rw [flatten_tagged, hflat]) ((ndindex (t.lshape r)).map (t.global r)) (by
        intro g hg
        rw [List.mem_map] at hg
        obtain ⟨c, hc, rfl⟩ := hg
        exact ht.inside r hr c (mem_ndindex.1 hc))
    rw [List.map_map, List.map_map] at this
    rw [ravelKeys_eq ht hr]
    rw [show (ndindex (t.lshape r)).map (fun c => cOrder t.cshape (t.global r c)) =
      (ndindex (t.lshape r)).map (cOrder t.cshape ∘ t.global r) from rfl, this]
    rfl
  · simp only [h1, if_false]
    have hn : t.nrank = 1 := by have := ht.rank_pos; omega
    refine AllReturn.congr (fun r _ => rfl) (fun r hr => ?_) (AllReturn.ret _ _)
    have hr0 : r = 0 := by omega
    subst hr0
    -- on a single rank the local array is the global one
    have h2 := ravelOut_concat ht G
    have h3 := ravel_return ht (f := fun r c => G (t.global r c)) (G := G) fun _ _ _ _ => rfl
    have h4 : AllReturn t.nrank (fun r => ravel t r fun c => G (t.global r c))
        fun r => .ok (flatOf t r fun c => G (t.global r c)) := by
      refine AllReturn.congr (fun r _ => ?_) (fun _ _ => rfl) (AllReturn.ret _ _)
      exact if_neg h1
    have h5 := Runs.unique h3 h4
    rw [hn] at h2 h5 hflat
    simp only [List.range_one, List.map_cons, List.map_nil, List.cons.injEq, Except.ok.injEq, and_true, List.flatMap_cons,
      List.flatMap_nil, List.append_nil] at h2 h5 hflat
    rw [hflat, ← h2, h5]
    rfl

/-- **C33**.  `unravel` after `ravel` gives the field back. -/
theorem C33_round_trip (t : Tiling) (ht : t.OK) (f : ℕ → List ℕ → V) :
    AllReturn t.nrank (fun r => (ravel t r (f r)).andThen fun flat => unravel t r flat)
      (fun r => .ok ((ndindex (t.lshape r)).map (f r))) := by
  obtain ⟨G, hG⟩ := exists_holds ht f
  refine AllReturn.andThen (ravel_return ht hG) ?_
  refine AllReturn.congr (fun _ _ => rfl) (fun r hr => ?_) (C33_unravel t ht _ G (ravelOut_concat ht G))
  congr 1
  apply List.map_congr_left
  intro c hc
  exact hG r hr c (mem_ndindex.1 hc)

/-- If the lengths do not add up, `unravel` fails on every rank. -/
theorem C33_unravel_length (t : Tiling) (hn : 0 < t.nrank) (flat : ℕ → List V)
    (hlen : ((List.range t.nrank).map fun r => (flat r).length).sum ≠ t.cshape.prod) :
    AllReturn t.nrank (fun r => unravel t r (flat r)) (fun _ => .error "AssertionError") := by
  unfold unravel
  refine AllReturn.coll hn ?_
  refine AllReturn.congr (fun r _ => ?_) (fun _ _ => rfl) (AllReturn.ret _ _)
  have : (((List.range t.nrank).map fun r => (flat r).map fun v => ((0 : ℕ), v)).map List.length).sum ≠ t.cshape.prod := by
    rw [List.map_map]
    simpa [Function.comp_def] using hlen
  exact if_neg this

/-! ## Examples -/

example := C33_ravel exTiling exTiling_ok (fun r c => cOrder [4, 3] (exTiling.global r c)) (cOrder [4, 3]) fun _ _ _ _ => rfl

/-- Pieces of other lengths than the local arrays. -/
example := C33_unravel (V := ℕ) exTiling exTiling_ok
  (fun r => if r = 0 then [] else if r = 1 then List.range 12 else []) (cOrder [4, 3]) (by decide)

example := C33_round_trip exTiling exTiling_ok fun r c => (r, c)

#print axioms C33_ravel
#print axioms C33_unravel
#print axioms C33_round_trip
#print axioms C33_unravel_length

end Pmesh
