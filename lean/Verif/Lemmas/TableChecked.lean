import Verif.Lemmas.TableChecks

/-!
# The tables of the windows, checked by the kernel
-/

namespace Pmesh

theorem steps_lanczos2 : allBelow (rawStep SymWin.lanczos2.rows SymWin.lanczos2.diffs) 16 512 = true := by decide +kernel
theorem steps_lanczos3 : allBelow (rawStep SymWin.lanczos3.rows SymWin.lanczos3.diffs) 16 512 = true := by decide +kernel
theorem steps_lanczos4 : allBelow (rawStep SymWin.lanczos4.rows SymWin.lanczos4.diffs) 16 512 = true := by decide +kernel
theorem steps_lanczos5 : allBelow (rawStep SymWin.lanczos5.rows SymWin.lanczos5.diffs) 16 512 = true := by decide +kernel
theorem steps_lanczos6 : allBelow (rawStep SymWin.lanczos6.rows SymWin.lanczos6.diffs) 16 512 = true := by decide +kernel
theorem steps_acg2 : allBelow (rawStep SymWin.acg2.rows SymWin.acg2.diffs) 16 512 = true := by decide +kernel
theorem steps_acg3 : allBelow (rawStep SymWin.acg3.rows SymWin.acg3.diffs) 16 512 = true := by decide +kernel
theorem steps_acg4 : allBelow (rawStep SymWin.acg4.rows SymWin.acg4.diffs) 16 512 = true := by decide +kernel
theorem steps_acg5 : allBelow (rawStep SymWin.acg5.rows SymWin.acg5.diffs) 16 512 = true := by decide +kernel
theorem steps_acg6 : allBelow (rawStep SymWin.acg6.rows SymWin.acg6.diffs) 16 512 = true := by decide +kernel

theorem nodes_lanczos2 : allBelow SymWin.lanczos2.node 3 683 = true := by decide +kernel
theorem nodes_lanczos3 : allBelow SymWin.lanczos3.node 3 683 = true := by decide +kernel
theorem nodes_lanczos4 : allBelow SymWin.lanczos4.node 3 683 = true := by decide +kernel
theorem nodes_lanczos5 : allBelow SymWin.lanczos5.node 3 683 = true := by decide +kernel
theorem nodes_lanczos6 : allBelow SymWin.lanczos6.node 3 683 = true := by decide +kernel
theorem nodes_acg2 : allBelow SymWin.acg2.node 3 683 = true := by decide +kernel
theorem nodes_acg3 : allBelow SymWin.acg3.node 3 683 = true := by decide +kernel
theorem nodes_acg4 : allBelow SymWin.acg4.node 3 683 = true := by decide +kernel
theorem nodes_acg5 : allBelow SymWin.acg5.node 3 683 = true := by decide +kernel
theorem nodes_acg6 : allBelow SymWin.acg6.node 3 683 = true := by decide +kernel

theorem waves_sym6 : allBelow WaveWin.sym6.node 1 257 = true := by decide +kernel
theorem waves_sym12 : allBelow WaveWin.sym12.node 1 257 = true := by decide +kernel
theorem waves_sym20 : allBelow WaveWin.sym20.node 1 257 = true := by decide +kernel
theorem waves_db6 : allBelow WaveWin.db6.node 1 257 = true := by decide +kernel
theorem waves_db12 : allBelow WaveWin.db12.node 1 257 = true := by decide +kernel
theorem waves_db20 : allBelow WaveWin.db20.node 1 257 = true := by decide +kernel
theorem moments_sym6 : allBelow WaveWin.sym6.moment 1 257 = true := by decide +kernel
theorem moments_sym12 : allBelow WaveWin.sym12.moment 1 257 = true := by decide +kernel
theorem moments_sym20 : allBelow WaveWin.sym20.moment 1 257 = true := by decide +kernel
theorem moments_db6 : allBelow WaveWin.db6.moment 1 257 = true := by decide +kernel
theorem moments_db12 : allBelow WaveWin.db12.moment 1 257 = true := by decide +kernel
theorem moments_db20 : allBelow WaveWin.db20.moment 1 257 = true := by decide +kernel

theorem SymWin.steps_ok (w : SymWin) {i : ℕ} (hi : i < 8191) : |packedEntry w.rows (i + 1) - packedEntry w.rows i| ≤ w.diffs := by
  have h : allBelow (rawStep w.rows w.diffs) 16 512 = true := by
    cases w
    · exact steps_lanczos2
    · exact steps_lanczos3
    · exact steps_lanczos4
    · exact steps_lanczos5
    · exact steps_lanczos6
    · exact steps_acg2
    · exact steps_acg3
    · exact steps_acg4
    · exact steps_acg5
    · exact steps_acg6
  exact rawStep_spec hi (allBelow_spec h i (by omega))

theorem SymWin.last_ok (w : SymWin) : |packedEntry w.rows 8191| ≤ 1 := by
  cases w <;> decide +kernel

theorem SymWin.nodes_ok (w : SymWin) {k : ℕ} (hk : k ≤ 2048) : w.node k = true := by
  have h : allBelow w.node 3 683 = true := by
    cases w
    · exact nodes_lanczos2
    · exact nodes_lanczos3
    · exact nodes_lanczos4
    · exact nodes_lanczos5
    · exact nodes_lanczos6
    · exact nodes_acg2
    · exact nodes_acg3
    · exact nodes_acg4
    · exact nodes_acg5
    · exact nodes_acg6
  exact allBelow_spec h k (by omega)

theorem WaveWin.nodes_ok (w : WaveWin) {m : ℕ} (hm : m ≤ 256) : w.node m = true := by
  have h : allBelow w.node 1 257 = true := by
    cases w
    · exact waves_sym6
    · exact waves_sym12
    · exact waves_sym20
    · exact waves_db6
    · exact waves_db12
    · exact waves_db20
  exact allBelow_spec h m (by omega)

theorem WaveWin.moments_ok (w : WaveWin) {m : ℕ} (hm : m ≤ 256) : w.moment m = true := by
  have h : allBelow w.moment 1 257 = true := by
    cases w
    · exact moments_sym6
    · exact moments_sym12
    · exact moments_sym20
    · exact moments_db6
    · exact moments_db12
    · exact moments_db20
  exact allBelow_spec h m (by omega)

end Pmesh
