import Verif.Spec.Pace
import Mathlib.Analysis.PSeries

/-! # Lemmas: the sums of certain advances grow beyond all bounds -/

noncomputable section

namespace LcpPhysics
open Spec Filter

theorem headway_succ (dt δ V a : ℝ) (N : ℕ) : headway dt δ V a (N + 1) = pace dt δ (V + a) + headway dt δ (V + a) a N := by
  unfold headway
  rw [Finset.sum_range_succ', add_comm]
  congr 1
  · simp
  · refine Finset.sum_congr rfl fun k _ => ?_
    push_cast
    congr 1
    ring

/-- Without forces the certain advance is the same in all steps. -/
theorem headway_const (dt δ V : ℝ) (N : ℕ) : headway dt δ V 0 N = N * pace dt δ V := by
  unfold headway
  simp

theorem pace_pos {dt δ V : ℝ} (hdt : 0 < dt) (hδ : 0 < δ) (hV : 0 < V) : 0 < pace dt δ V :=
  lt_min hdt (by positivity)

theorem pace_harmonic {dt δ V a : ℝ} (hdt : 0 < dt) (hδ : 0 < δ) (hV : 0 < V) (ha : 0 ≤ a) (k : ℕ) :
    pace dt δ (V + a) * (1 / ((k : ℝ) + 1)) ≤ pace dt δ (V + (k + 1) * a) := by
  have hk : (0 : ℝ) ≤ k := Nat.cast_nonneg k
  have h1 : 1 / ((k : ℝ) + 1) ≤ 1 := by
    rw [div_le_one (by positivity)]; linarith
  have h2 : 0 ≤ 1 / ((k : ℝ) + 1) := by positivity
  have hp := (pace_pos hdt hδ (show 0 < V + a by linarith)).le
  refine le_min ?_ ?_
  · calc _ ≤ pace dt δ (V + a) * 1 := mul_le_mul_of_nonneg_left h1 hp
      _ ≤ dt := by rw [mul_one]; exact min_le_left _ _
  · calc _ ≤ δ / (4 * (V + a)) * (1 / ((k : ℝ) + 1)) := mul_le_mul_of_nonneg_right (min_le_right _ _) h2
      _ = δ / (4 * (V + a) * (k + 1)) := by rw [div_mul_div_comm, mul_one]
      _ ≤ _ := by
        have h3 : 0 < V + (k + 1) * a := by nlinarith [mul_nonneg hk ha]
        refine div_le_div_of_nonneg_left hδ.le (by linarith) ?_
        nlinarith [mul_nonneg hk hV.le]

/-- However the speeds grow, linearly with the number of steps, the advances add up to any time. -/
theorem headway_unbounded {dt δ V a : ℝ} (hdt : 0 < dt) (hδ : 0 < δ) (hV : 0 < V) (ha : 0 ≤ a) (T : ℝ) :
    ∃ N, T ≤ headway dt δ V a N := by
  have hp := pace_pos hdt hδ (show 0 < V + a by linarith)
  obtain ⟨N, hN⟩ := (Real.tendsto_sum_range_one_div_nat_succ_atTop.eventually_ge_atTop (T / pace dt δ (V + a))).exists
  refine ⟨N, ?_⟩
  rw [div_le_iff₀ hp] at hN
  refine hN.trans ?_
  unfold headway
  rw [Finset.sum_mul]
  refine Finset.sum_le_sum fun k _ => ?_
  rw [mul_comm]
  exact pace_harmonic hdt hδ hV ha k

end LcpPhysics
