import Verif.Model.TableWindows
import Mathlib.Tactic.Linarith
import Mathlib.Tactic.IntervalCases

/-!
# Computations with the tables of the windows, done by the kernel

Written with the functions on natural numbers that the kernel evaluates quickly.
-/

namespace Pmesh

/-- Element of a list, 0 beyond the end. -/
def nth (l : List ℕ) (i : ℕ) : ℕ := List.rec (motive := fun _ => ℕ → ℕ) (fun _ => 0)
  (fun a _ ih i => Nat.rec (motive := fun _ => ℕ) a (fun i _ => ih i) i) l i

/-- Entry `i` of a table plus `10^8`. -/
def rawEntry (rows : List ℕ) (i : ℕ) : ℕ :=
  Nat.mod (Nat.div (nth rows (Nat.div i 256)) (Nat.pow 10 (Nat.mul 9 (Nat.sub 255 (Nat.mod i 256))))) 1000000000

/-- Entry of the table at the place `a * 10^10 / den`, linearly interpolated, plus `10^8`, times `den`. -/
def rawLerp (rows : List ℕ) (den a : ℕ) : ℕ :=
  (fun q r => cond (Nat.ble 8191 q) (Nat.mul 100000000 den)
    (Nat.add (Nat.mul (rawEntry rows q) (Nat.sub den r)) (Nat.mul (rawEntry rows (Nat.succ q)) r)))
    (Nat.div (Nat.mul a 10000000000) den) (Nat.mod (Nat.mul a 10000000000) den)

/-- `f 0 + f 1 + .. + f (n - 1)` -/
def natSum (f : ℕ → ℕ) (n : ℕ) : ℕ := Nat.rec 0 (fun j s => Nat.add s (f j)) n

/-- Sum over the stencil of a particle at `k / N` of a cell. -/
def rawNode (rows : List ℕ) (S N den k : ℕ) : ℕ :=
  natSum (fun j => rawLerp rows den (Nat.add (Nat.sub (Nat.add (Nat.mul 2 k) (Nat.mul (Nat.mul 2 j) N)) (Nat.mul S N))
    (Nat.sub (Nat.mul S N) (Nat.add (Nat.mul 2 k) (Nat.mul (Nat.mul 2 j) N))))) S

/-- `lo ≤ s ≤ hi` -/
def within (lo hi s : ℕ) : Bool := and (Nat.ble lo s) (Nat.ble s hi)

/-- `p` holds for `b * n`, .., `b * n + n - 1`. -/
def allRow (p : ℕ → Bool) (b n : ℕ) (m : ℕ) : Bool := Nat.rec true (fun i acc => cond acc (p (Nat.add (Nat.mul b n) i)) false) m

/-- `p` holds below `B * n`. -/
def allBelow (p : ℕ → Bool) (B n : ℕ) : Bool := Nat.rec true (fun b acc => cond acc (allRow p b n n) false) B

theorem allRow_spec {p : ℕ → Bool} {b n m : ℕ} (h : allRow p b n m = true) : ∀ i < m, p (b * n + i) = true := by
  induction m with
  | zero => intro i hi; omega
  | succ m ih =>
    have h' : cond (allRow p b n m) (p (b * n + m)) false = true := h
    cases hm : allRow p b n m with
    | false => rw [hm] at h'; exact absurd h' (by simp)
    | true =>
      rw [hm] at h'
      intro i hi
      rcases Nat.lt_succ_iff_lt_or_eq.1 hi with h1 | rfl
      · exact ih hm i h1
      · exact h'

theorem allBelow_spec {p : ℕ → Bool} {B n : ℕ} (h : allBelow p B n = true) : ∀ k < B * n, p k = true := by
  induction B with
  | zero => intro k hk; omega
  | succ B ih =>
    have h' : cond (allBelow p B n) (allRow p B n n) false = true := h
    cases hm : allBelow p B n with
    | false => rw [hm] at h'; exact absurd h' (by simp)
    | true =>
      rw [hm] at h'
      intro k hk
      rcases Nat.lt_or_ge k (B * n) with h1 | h1
      · exact ih hm k h1
      · have := allRow_spec h' (k - B * n) (by rw [Nat.succ_mul] at hk; omega)
        rwa [Nat.add_sub_cancel' h1] at this

theorem natSum_eq (f : ℕ → ℕ) (n : ℕ) : natSum f n = ((List.range n).map f).sum := by
  induction n with
  | zero => rfl
  | succ n ih =>
    rw [List.range_succ, List.map_append, List.sum_append, ← ih]
    simp [natSum]

theorem nth_eq (l : List ℕ) (i : ℕ) : nth l i = l.getD i 0 := by
  induction l generalizing i with
  | nil => simp [nth]
  | cons a l ih =>
    cases i with
    | zero => rfl
    | succ i => exact (ih i).trans (by simp)

theorem rawEntry_eq (rows : List ℕ) (i : ℕ) : (rawEntry rows i : ℤ) = packedEntry rows i + 10 ^ 8 := by
  unfold packedEntry
  rw [← nth_eq]
  have : rawEntry rows i = nth rows (i / 256) / 10 ^ (9 * (255 - i % 256)) % 10 ^ 9 := rfl
  rw [this]
  omega

theorem within_spec {lo hi s : ℕ} (h : within lo hi s = true) : lo ≤ s ∧ s ≤ hi := by
  unfold within at h
  rw [Bool.and_eq_true] at h
  exact ⟨Nat.le_of_ble_eq_true h.1, Nat.le_of_ble_eq_true h.2⟩

/-- Neighbouring entries differ by at most `D` (nothing is asked of the last one). -/
def rawStep (rows : List ℕ) (D i : ℕ) : Bool := cond (Nat.beq i 8191) true <|
  (fun x y => and (Nat.ble x (Nat.add y D)) (Nat.ble y (Nat.add x D))) (rawEntry rows i) (rawEntry rows (Nat.succ i))

theorem rawStep_spec {rows : List ℕ} {D i : ℕ} (hi : i < 8191) (h : rawStep rows D i = true) :
    |packedEntry rows (i + 1) - packedEntry rows i| ≤ D := by
  have hb : Nat.beq i 8191 = false := by
    cases hc : Nat.beq i 8191 with
    | false => rfl
    | true => exact absurd (Nat.eq_of_beq_eq_true hc) (by omega)
  unfold rawStep at h
  rw [hb, cond_false, Bool.and_eq_true] at h
  have h1 := Nat.le_of_ble_eq_true h.1
  have h2 := Nat.le_of_ble_eq_true h.2
  have e1 := rawEntry_eq rows i
  have e2 := rawEntry_eq rows (i + 1)
  have h1' : rawEntry rows i ≤ rawEntry rows (i + 1) + D := h1
  have h2' : rawEntry rows (i + 1) ≤ rawEntry rows i + D := h2
  rw [abs_le]
  constructor <;> omega

/-! ### the checks -/

/-- Bound on the difference of neighbouring entries. -/
def SymWin.diffs : SymWin → ℕ
  | .lanczos2 => 33967 | .lanczos3 => 50498 | .lanczos4 => 66811 | .lanczos5 => 83621 | .lanczos6 => 100240
  | .acg2 => 15957 | .acg3 => 10115 | .acg4 => 7389 | .acg5 => 5355 | .acg6 => 4895

/-- Bounds on the sums over the stencil at the multiples of 1/2048 of a cell. -/
def SymWin.lo : SymWin → ℕ
  | .lanczos2 => 99030493 | .lanczos3 => 99723490 | .lanczos4 => 99874534 | .lanczos5 => 99939291 | .lanczos6 => 99962394
  | .acg2 => 77556799 | .acg3 => 90634747 | .acg4 => 94915303 | .acg5 => 97092174 | .acg6 => 98426795

def SymWin.hi : SymWin → ℕ
  | .lanczos2 => 100907091 | .lanczos3 => 100295333 | .lanczos4 => 100117510 | .lanczos5 => 100064802 | .lanczos6 => 100035257
  | .acg2 => 111471993 | .acg3 => 104743027 | .acg4 => 102557864 | .acg5 => 101451789 | .acg6 => 100778357

/-- The sum over the stencil of a particle at `k / 2048` of a cell is in the range `lo..hi`. -/
def SymWin.node (w : SymWin) (k : ℕ) : Bool :=
  (fun den => within (Nat.mul (Nat.add (Nat.mul w.native 100000000) w.lo) den) (Nat.mul (Nat.add (Nat.mul w.native 100000000) w.hi) den)
    (rawNode w.rows w.native 2048 den k)) (Nat.mul 4096 w.step)

/-- Bounds on the sums over the stencil of a wavelet. -/
def WaveWin.lo : WaveWin → ℕ
  | .sym6 => 99902471 | .sym12 => 99800204 | .sym20 => 99827163 | .db6 => 99798541 | .db12 => 99792416 | .db20 => 99790681

def WaveWin.hi : WaveWin → ℕ
  | .sym6 => 100201958 | .sym12 => 100057240 | .sym20 => 100202985 | .db6 => 100052343 | .db12 => 100041796 | .db20 => 100069639

/-- Bounds on the displacement of the mass by a wavelet, at the multiples of 1/256 of a cell. -/
def WaveWin.dlo : WaveWin → ℕ
  | .sym6 => 21728662 | .sym12 => 22001984 | .sym20 => 34883403 | .db6 => 224322407 | .db12 => 329916930 | .db20 => 446989498

def WaveWin.dhi : WaveWin → ℕ
  | .sym6 => 22791872 | .sym12 => 23323411 | .sym20 => 36615893 | .db6 => 225151040 | .db12 => 331314345 | .db20 => 448571371

/-- The sum over the stencil of a particle at `m / 256` of a cell is in the range `lo..hi`. -/
def WaveWin.node (w : WaveWin) (m : ℕ) : Bool :=
  within (w.native * 100000000 + w.lo) (w.native * 100000000 + w.hi) (natSum (fun j => rawEntry w.rows (m + 256 * j)) w.native)

/-- The first moment over the stencil of a particle at `m / 256` of a cell. -/
def WaveWin.moment (w : WaveWin) (m : ℕ) : Bool :=
  (fun A B => and (Nat.ble (A + 100000000 * (256 * w.native) + 512 * w.dlo) (B + 100000000 * (2 * m * w.native)))
    (Nat.ble (B + 100000000 * (2 * m * w.native)) (A + 100000000 * (256 * w.native) + 512 * w.dhi)))
    (natSum (fun j => rawEntry w.rows (m + 256 * j) * (2 * (m + 256 * j))) w.native)
    (natSum (fun j => rawEntry w.rows (m + 256 * j) * (256 * w.native)) w.native)

end Pmesh
