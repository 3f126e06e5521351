import Verif.Lemmas.Plane

/-!
# C01, C02: polar conversion and rotations (utils.py:75-112)
-/

noncomputable section

namespace LcpPhysics

/-- C01: converting to polar and back is the identity, for both values of `positive`. -/
theorem C01_polar_roundtrip (v : V2) (positive : Bool) :
    polar_to_cart (cart_to_polar v positive).1 (cart_to_polar v positive).2 = v := by
  have hn : nrm v = ‖(⟨v.1, v.2⟩ : ℂ)‖ := by
    rw [Complex.norm_eq_sqrt_sq_add_sq]; unfold nrm; congr 1; ring
  have hc : Real.cos (atan2 v.2 v.1) * nrm v = v.1 := by
    rw [hn, mul_comm]; exact Complex.norm_mul_cos_arg ⟨v.1, v.2⟩
  have hs : Real.sin (atan2 v.2 v.1) * nrm v = v.2 := by
    rw [hn, mul_comm]; exact Complex.norm_mul_sin_arg ⟨v.1, v.2⟩
  unfold cart_to_polar polar_to_cart
  ext
  · dsimp only; split_ifs
    · rw [Real.cos_add_two_pi]; exact hc
    · exact hc
  · dsimp only; split_ifs
    · rw [Real.sin_add_two_pi]; exact hs
    · exact hs

/-- C01: the radius is the Euclidean length. -/
theorem C01_polar_radius (v : V2) (positive : Bool) :
    (cart_to_polar v positive).1 = Spec.len v := nrm_eq_len v

/-- C01: with the default `positive=True` the angle is in `[0, 2π)`. -/
theorem C01_polar_angle_range (v : V2) :
    0 ≤ (cart_to_polar v).2 ∧ (cart_to_polar v).2 < 2 * Real.pi := by
  have h1 := Complex.neg_pi_lt_arg ⟨v.1, v.2⟩
  have h2 := Complex.arg_le_pi ⟨v.1, v.2⟩
  have hp := Real.pi_pos
  unfold cart_to_polar atan2
  dsimp only
  split_ifs with h
  · constructor <;> linarith [h.1]
  · simp only [and_true, not_lt] at h; constructor <;> linarith

/-- C01: with `positive=False` the angle is in `(-π, π]`. -/
theorem C01_polar_angle_range_signed (v : V2) :
    -Real.pi < (cart_to_polar v false).2 ∧ (cart_to_polar v false).2 ≤ Real.pi := by
  have h1 := Complex.neg_pi_lt_arg ⟨v.1, v.2⟩
  have h2 := Complex.arg_le_pi ⟨v.1, v.2⟩
  unfold cart_to_polar atan2
  simpa using ⟨h1, h2⟩

/-- C01, the other direction: polar coordinates with `r > 0`, `0 ≤ θ < 2π` are recovered. -/
theorem C01_cart_roundtrip (r θ : ℝ) (hr : 0 < r) (h0 : 0 ≤ θ) (h2 : θ < 2 * Real.pi) :
    cart_to_polar (polar_to_cart r θ) = (r, θ) := by
  have hrad : nrm (polar_to_cart r θ) = r := by
    unfold nrm polar_to_cart
    have : Real.cos θ * r * (Real.cos θ * r) + Real.sin θ * r * (Real.sin θ * r) = r ^ 2 := by
      linear_combination r ^ 2 * Real.sin_sq_add_cos_sq θ
    dsimp only
    rw [this, Real.sqrt_sq hr.le]
  have hz : ∀ φ : ℝ, Real.cos φ = Real.cos θ → Real.sin φ = Real.sin θ →
      (⟨(polar_to_cart r θ).1, (polar_to_cart r θ).2⟩ : ℂ)
        = (r : ℂ) * (Complex.cos φ + Complex.sin φ * Complex.I) := by
    intro φ hc hs
    rw [← Complex.ofReal_cos, ← Complex.ofReal_sin, hc, hs]
    apply Complex.ext
    · simp [polar_to_cart, mul_comm, -Complex.ofReal_cos, -Complex.ofReal_sin]
    · simp [polar_to_cart, mul_comm, -Complex.ofReal_cos, -Complex.ofReal_sin]
  have hp := Real.pi_pos
  unfold cart_to_polar
  dsimp only
  rw [hrad]
  by_cases hθ : θ ≤ Real.pi
  · have : atan2 (polar_to_cart r θ).2 (polar_to_cart r θ).1 = θ := by
      unfold atan2; rw [hz θ rfl rfl]
      exact Complex.arg_mul_cos_add_sin_mul_I hr ⟨by linarith, hθ⟩
    rw [this, if_neg]; rintro ⟨h, _⟩; linarith
  · push Not at hθ
    have : atan2 (polar_to_cart r θ).2 (polar_to_cart r θ).1 = θ - 2 * Real.pi := by
      unfold atan2
      rw [hz (θ - 2 * Real.pi) (Real.cos_sub_two_pi θ) (Real.sin_sub_two_pi θ)]
      exact Complex.arg_mul_cos_add_sin_mul_I hr ⟨by linarith, by linarith⟩
    rw [this, if_pos ⟨by linarith, rfl⟩]; simp

/-- Non-vacuity: the hypotheses of `C01_cart_roundtrip` hold at `r = 2, θ = π`, and the result is
the expected concrete vector. -/
example : polar_to_cart 2 Real.pi = (-2, 0) ∧ cart_to_polar (-2, 0) = (2, Real.pi) := by
  have h : polar_to_cart 2 Real.pi = (-2, 0) := by simp [polar_to_cart]
  refine ⟨h, ?_⟩
  rw [← h]
  exact C01_cart_roundtrip 2 Real.pi (by norm_num) Real.pi_pos.le (by linarith [Real.pi_pos])

/-- C02: `rotation_matrix(t)` acts as the counter-clockwise rotation by `t`. -/
theorem C02_rotation_matrix_spec (t : ℝ) (v : V2) :
    (rotation_matrix t).matmul v = Spec.rot t v := matmul_eq_rot t v

/-- C02: rotations preserve dot products. -/
theorem C02_rotation_preserves_dot (t : ℝ) (a b : V2) :
    Spec.inner ((rotation_matrix t).matmul a) ((rotation_matrix t).matmul b) = Spec.inner a b := by
  rw [matmul_eq_rot, matmul_eq_rot, Spec.rot_inner]

/-- C02: rotations preserve `cross_2d` (orientation and area). -/
theorem C02_rotation_preserves_cross (t : ℝ) (a b : V2) :
    cross_2d ((rotation_matrix t).matmul a) ((rotation_matrix t).matmul b) = Spec.det a b := by
  rw [matmul_eq_rot, matmul_eq_rot, cross_eq_det, Spec.rot_det]

/-- C02: rotations preserve lengths. -/
theorem C02_rotation_preserves_norm (t : ℝ) (a : V2) :
    nrm ((rotation_matrix t).matmul a) = Spec.len a := by
  rw [matmul_eq_rot, nrm_eq_len, Spec.rot_len]

/-- C02: rotating by `s`, then by `t`, is rotating by `s + t`. -/
theorem C02_rotation_compose (s t : ℝ) (a : V2) :
    (rotation_matrix t).matmul ((rotation_matrix s).matmul a) = (rotation_matrix (s + t)).matmul a := by
  simp only [matmul_eq_rot, Spec.rot_add]

/-- C02: rotating by `t` and back is the identity. -/
theorem C02_rotation_inverse (t : ℝ) (a : V2) :
    (rotation_matrix (-t)).matmul ((rotation_matrix t).matmul a) = a := by
  rw [C02_rotation_compose, add_neg_cancel, matmul_eq_rot, Spec.rot_zero]

/-- C02: `left_orthogonal` is the rotation by `-π/2`: perpendicular, same length, and the cross
product of `v` with it is `-|v|²`. -/
theorem C02_left_orthogonal (v : V2) :
    left_orthogonal v = Spec.rot (-(Real.pi / 2)) v ∧ Spec.inner (left_orthogonal v) v = 0 ∧
    Spec.len (left_orthogonal v) = Spec.len v ∧
    Spec.det v (left_orthogonal v) = -(Spec.len v) ^ 2 := by
  refine ⟨?_, ?_, ?_, ?_⟩
  · ext <;> simp [left_orthogonal, Spec.rot]
  · simp [left_orthogonal, Spec.inner]; ring
  · unfold Spec.len left_orthogonal; congr 1; ring
  · rw [Spec.len_sq]; simp [left_orthogonal, Spec.inner, Spec.det]; ring

/-- Non-vacuity / orientation check: the quarter turn takes `(1,0)` to `(0,1)`. -/
example : (rotation_matrix (Real.pi / 2)).matmul (1, 0) = (0, 1) := by
  simp [rotation_matrix, M22.matmul]

end LcpPhysics
