import Verif.Lemmas.Rotator

/-!
# C49: `Rotator`
-/

namespace Pmesh

/-- **C49**: when rank `r'` is about to do a step of its body, or has done one, all lower ranks have done all of their bodies. -/
theorem C49_order {size : ℕ} {w : ℕ → ℕ} {s : ℕ → ℕ} (h : RotReach size w s) {r r' : ℕ} (hlt : r < r') (hr' : r' < size)
    (hb : (rotProg size w r')[s r']? = some RotOp.work ∨ RotOp.work ∈ rotDone size w s r') :
    (rotDone size w s r).count RotOp.work = w r := by
  have hge : 2 * (1 + r') ≤ s r' := by
    rcases hb with hb | hb
    · rw [rotProg_get] at hb
      split_ifs at hb <;> first | (simp at hb; done) | omega
    · have := List.count_pos_iff.2 hb
      rw [rotDone_work] at this
      omega
  have hi := (rot_inv h).2 r' hr' r (by omega)
  rw [rotDone_leave, rotDone_arrive] at hi
  rw [rotDone_work]
  omega

/-- **C49**: two ranks are never in their bodies at the same time. -/
theorem C49_exclusive {size : ℕ} {w : ℕ → ℕ} {s : ℕ → ℕ} (h : RotReach size w s) {r r' : ℕ} (hr : r < size) (hr' : r' < size)
    (hb : (rotProg size w r)[s r]? = some RotOp.work) (hb' : (rotProg size w r')[s r']? = some RotOp.work) : r = r' := by
  have key : ∀ {r r' : ℕ}, r < r' → r' < size → (rotProg size w r)[s r]? = some RotOp.work → (rotProg size w r')[s r']? = some RotOp.work → False := by
    intro r r' hlt hr' hb hb'
    have := C49_order h hlt hr' (Or.inl hb')
    rw [rotDone_work] at this
    rw [rotProg_get] at hb
    split_ifs at hb <;> first | (simp at hb; done) | omega
  rcases Nat.lt_trichotomy r r' with e | e | e
  · exact (key e hr' hb hb').elim
  · exact e
  · exact (key e hr hb' hb).elim

/-- **C49**: nobody blocks: as long as some rank is not at its end, some rank can go on. -/
theorem C49_progress {size : ℕ} {w : ℕ → ℕ} {s : ℕ → ℕ} (h : RotReach size w s) {r : ℕ} (hr : r < size) (hn : s r ≠ (rotProg size w r).length) :
    ∃ r' < size, RotEnabled size w s r' := by
  by_contra hc
  push Not at hc
  obtain ⟨hle, -⟩ := rot_inv h
  -- the rank, of those not at their end, that has arrived at the fewest barriers
  have hex : ∃ n, ∃ r < size, s r ≠ (rotProg size w r).length ∧ (rotDone size w s r).count RotOp.arrive = n := ⟨_, r, hr, hn, rfl⟩
  classical
  obtain ⟨q, hq, hqn, hqe⟩ := Nat.find_spec hex
  have hmin := fun n hn => Nat.find_min hex (m := n) hn
  have hqlt : s q < (rotProg size w q).length := lt_of_le_of_ne (hle q) hqn
  apply hc q hq
  refine ⟨(rotProg size w q)[s q], List.getElem?_eq_getElem hqlt, fun _ r' hr' => ?_⟩
  by_cases hend : s r' = (rotProg size w r').length
  · rw [rotDone_arrive, rotDone_arrive]
    rw [rotProg_length] at hend hqlt
    omega
  · by_contra hlt
    exact hmin _ (by omega) ⟨r', hr', hend, rfl⟩

/-- **C49**: every rank passes the same number of barriers. -/
theorem C49_barriers {size : ℕ} {w : ℕ → ℕ} {r : ℕ} (hr : r < size) :
    (rotProg size w r).count RotOp.arrive = size + 2 ∧ (rotProg size w r).count RotOp.leave = size + 2 := by
  have h1 := rotDone_arrive size w (fun r => (rotProg size w r).length) r
  have h2 := rotDone_leave size w (fun r => (rotProg size w r).length) r
  simp only [rotDone, List.take_length] at h1 h2
  rw [rotProg_length] at h1 h2
  omega

/-- Each step brings a rank forward, so every schedule that goes on as long as it can ends with all ranks at their ends. -/
theorem C49_finite {size : ℕ} {w : ℕ → ℕ} {s : ℕ → ℕ} (h : RotReach size w s) (r : ℕ) : s r ≤ (rotProg size w r).length := (rot_inv h).1 r

/-- Three ranks with two steps each: rank 0 in its body. -/
example : ∃ s, RotReach 3 (fun _ => 2) s ∧ (rotProg 3 (fun _ => 2) 0)[s 0]? = some RotOp.work := by
  have a0 := (RotReach.start (size := 3) (w := fun _ => 2)).step 0 (by omega) ⟨_, rfl, by simp⟩
  have a1 := a0.step 1 (by omega) ⟨RotOp.arrive, by decide, by simp⟩
  have a2 := a1.step 2 (by omega) ⟨RotOp.arrive, by decide, by simp⟩
  have a3 := a2.step 0 (by omega) ⟨RotOp.leave, by decide, fun _ => by decide⟩
  exact ⟨_, a3, by decide⟩

end Pmesh
