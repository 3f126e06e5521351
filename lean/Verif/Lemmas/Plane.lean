import Verif.Spec.Plane
import Verif.Model.Geom
import Mathlib.Tactic.Linarith
import Mathlib.Tactic.NormNum
import Mathlib.Tactic.LinearCombination
import Mathlib.Tactic.Positivity

/-! Helper lemmas about plane vectors: relating the model's helpers to the specification. -/

noncomputable section

namespace LcpPhysics

theorem dot_eq_inner (a b : V2) : dot a b = Spec.inner a b := rfl
theorem cross_eq_det (a b : V2) : cross_2d a b = Spec.det a b := rfl
theorem nrm_eq_len (a : V2) : nrm a = Spec.len a := by
  unfold nrm Spec.len; congr 1; ring
theorem matmul_eq_rot (t : ℝ) (a : V2) : (rotation_matrix t).matmul a = Spec.rot t a := by
  simp [rotation_matrix, M22.matmul, Spec.rot]; ring

namespace Spec

theorem rot_inner (t : ℝ) (a b : V2) : inner (rot t a) (rot t b) = inner a b := by
  simp only [inner, rot]
  linear_combination (a.1 * b.1 + a.2 * b.2) * Real.sin_sq_add_cos_sq t

theorem rot_det (t : ℝ) (a b : V2) : det (rot t a) (rot t b) = det a b := by
  simp only [det, rot]
  linear_combination (a.1 * b.2 - a.2 * b.1) * Real.sin_sq_add_cos_sq t

theorem len_eq_sqrt_inner (a : V2) : len a = Real.sqrt (inner a a) := by
  unfold len inner; congr 1; ring

theorem rot_len (t : ℝ) (a : V2) : len (rot t a) = len a := by
  rw [len_eq_sqrt_inner, rot_inner, ← len_eq_sqrt_inner]

theorem rot_add (s t : ℝ) (a : V2) : rot t (rot s a) = rot (s + t) a := by
  ext <;> simp only [rot, Real.cos_add, Real.sin_add] <;> ring

theorem rot_zero (a : V2) : rot 0 a = a := by ext <;> simp [rot]

theorem rot_map_add (t : ℝ) (a b : V2) : rot t (a + b) = rot t a + rot t b := by
  ext <;> simp [rot] <;> ring

theorem rot_map_sub (t : ℝ) (a b : V2) : rot t (a - b) = rot t a - rot t b := by
  ext <;> simp [rot] <;> ring

theorem rot_map_neg (t : ℝ) (a : V2) : rot t (-a) = -rot t a := by
  ext <;> simp [rot] <;> ring

theorem rot_map_smul (t k : ℝ) (a : V2) : rot t (k • a) = k • rot t a := by
  ext <;> simp [rot] <;> ring

theorem rot_map_zero (t : ℝ) : rot t 0 = 0 := by ext <;> simp [rot]

theorem rot_dist (t : ℝ) (a b : V2) : dist (rot t a) (rot t b) = dist a b := by
  unfold dist; rw [← rot_map_sub, rot_len]

theorem inner_self_nonneg (a : V2) : 0 ≤ inner a a := by
  unfold inner; nlinarith [sq_nonneg a.1, sq_nonneg a.2]

theorem len_nonneg (a : V2) : 0 ≤ len a := Real.sqrt_nonneg _

theorem len_sq (a : V2) : len a ^ 2 = inner a a := by
  rw [len_eq_sqrt_inner, Real.sq_sqrt (inner_self_nonneg a)]

theorem len_mul_self (a : V2) : len a * len a = inner a a := by rw [← sq, len_sq]

theorem inner_self_eq_zero {a : V2} : inner a a = 0 ↔ a = 0 := by
  constructor
  · intro h
    have h1 : a.1 = 0 := by unfold inner at h; nlinarith [sq_nonneg a.1, sq_nonneg a.2]
    have h2 : a.2 = 0 := by unfold inner at h; nlinarith [sq_nonneg a.1, sq_nonneg a.2]
    ext <;> simp [h1, h2]
  · rintro rfl; simp [inner]

theorem len_eq_zero {a : V2} : len a = 0 ↔ a = 0 := by
  rw [← inner_self_eq_zero, ← len_sq]; simp

theorem len_pos {a : V2} (h : a ≠ 0) : 0 < len a :=
  lt_of_le_of_ne (len_nonneg a) (fun h' => h (len_eq_zero.1 h'.symm))

theorem inner_comm (a b : V2) : inner a b = inner b a := by unfold inner; ring

theorem inner_le_len_mul (a b : V2) : inner a b ≤ len a * len b := by
  have h : inner a b ^ 2 ≤ (len a * len b) ^ 2 := by
    rw [mul_pow, len_sq, len_sq]; unfold inner
    nlinarith [sq_nonneg (a.1 * b.2 - a.2 * b.1)]
  exact le_of_sq_le_sq h (mul_nonneg (len_nonneg a) (len_nonneg b))
where
  le_of_sq_le_sq {x y : ℝ} (h : x ^ 2 ≤ y ^ 2) (hy : 0 ≤ y) : x ≤ y := by
    by_contra hc; push Not at hc; nlinarith

theorem len_add_le (a b : V2) : len (a + b) ≤ len a + len b := by
  have h : len (a + b) ^ 2 ≤ (len a + len b) ^ 2 := by
    have h1 := inner_le_len_mul a b
    have h2 := len_sq a
    have h3 := len_sq b
    have h4 := len_sq (a + b)
    have h5 : inner (a + b) (a + b) = inner a a + 2 * inner a b + inner b b := by
      simp [inner]; ring
    nlinarith
  have := add_nonneg (len_nonneg a) (len_nonneg b)
  by_contra hc; push Not at hc; nlinarith [len_nonneg (a + b)]

theorem len_neg (a : V2) : len (-a) = len a := by simp [len]

theorem len_smul (k : ℝ) (a : V2) : len (k • a) = |k| * len a := by
  unfold len
  have : (k • a).1 ^ 2 + (k • a).2 ^ 2 = k ^ 2 * (a.1 ^ 2 + a.2 ^ 2) := by
    simp; ring
  rw [this, Real.sqrt_mul (sq_nonneg k), Real.sqrt_sq_eq_abs]

theorem dist_comm (a b : V2) : dist a b = dist b a := by
  unfold dist; rw [← len_neg, neg_sub]

theorem dist_self (a : V2) : dist a a = 0 := by simp [dist, len]

theorem dist_triangle (a b c : V2) : dist a c ≤ dist a b + dist b c := by
  unfold dist
  calc len (a - c) = len ((a - b) + (b - c)) := by congr 1; abel
    _ ≤ _ := len_add_le _ _

theorem dist_eq_zero {a b : V2} : dist a b = 0 ↔ a = b := by
  unfold dist; rw [len_eq_zero, sub_eq_zero]

end Spec
end LcpPhysics
