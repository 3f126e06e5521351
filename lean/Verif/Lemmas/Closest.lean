import Verif.Lemmas.Support
import Mathlib.LinearAlgebra.Matrix.Determinant.Basic
import Mathlib.Tactic.FieldSimp
import Mathlib.Tactic.LinearCombination

/-! # Lemmas: barycentric coordinates and `get_closest` -/

noncomputable section

namespace LcpPhysics
open Spec

theorem inner_self_pos {a : V2} (h : a ≠ 0) : 0 < inner a a :=
  lt_of_le_of_ne (inner_self_nonneg a) fun he => h (inner_self_eq_zero.1 he.symm)

/-- Barycentric coordinates on a segment. -/
theorem bary2_eq (p a b : V2) (h : a ≠ b) :
    bary2 p a b = (inner (b - p) (b - a) / inner (b - a) (b - a),
      inner (p - a) (b - a) / inner (b - a) (b - a)) := by
  have hl : len (b - a) ≠ 0 := fun h0 => h (sub_eq_zero.1 (len_eq_zero.1 h0)).symm
  unfold bary2
  simp only [nrm_eq_len, dot_eq_inner, inner_smul_right]
  rw [← len_mul_self (b - a)]
  ext <;> simp only <;> field_simp

theorem div_nonpos_iff' {x y : ℝ} (hy : 0 < y) : x / y ≤ 0 ↔ x ≤ 0 := by
  constructor
  · intro h
    by_contra hc
    exact absurd h (not_le.2 (div_pos (not_le.1 hc) hy))
  · intro h; exact div_nonpos_of_nonpos_of_nonneg h hy.le

theorem bary2_fst_nonpos (p a b : V2) (h : a ≠ b) : (bary2 p a b).1 ≤ 0 ↔ inner (p - b) (a - b) ≤ 0 := by
  rw [bary2_eq p a b h]
  simp only
  rw [div_nonpos_iff' (inner_self_pos (sub_ne_zero.2 h.symm))]
  have : inner (b - p) (b - a) = inner (p - b) (a - b) := by
    simp only [inner, Prod.fst_sub, Prod.snd_sub]; ring
  rw [this]

theorem bary2_snd_nonpos (p a b : V2) (h : a ≠ b) : (bary2 p a b).2 ≤ 0 ↔ inner (p - a) (b - a) ≤ 0 := by
  rw [bary2_eq p a b h]
  simp only
  rw [div_nonpos_iff' (inner_self_pos (sub_ne_zero.2 h.symm))]

theorem bary2_sum (p a b : V2) (h : a ≠ b) : (bary2 p a b).1 + (bary2 p a b).2 = 1 := by
  rw [bary2_eq p a b h]
  have := (inner_self_pos (sub_ne_zero.2 h.symm)).ne'
  simp only
  rw [← add_div, div_eq_one_iff_eq this]
  simp only [inner, Prod.fst_sub, Prod.snd_sub]; ring

/-- The foot point on the line. -/
theorem bary2_perp (p a b : V2) (h : a ≠ b) :
    inner (p - ((bary2 p a b).1 • a + (bary2 p a b).2 • b)) (b - a) = 0 := by
  have hs := bary2_sum p a b h
  have e : inner (p - ((bary2 p a b).1 • a + (bary2 p a b).2 • b)) (b - a) =
      inner (p - a) (b - a) - (bary2 p a b).2 * inner (b - a) (b - a) := by
    have : (bary2 p a b).1 = 1 - (bary2 p a b).2 := by linarith
    rw [this]
    simp only [inner, Prod.fst_sub, Prod.snd_sub, Prod.fst_add, Prod.snd_add, Prod.smul_fst,
      Prod.smul_snd, smul_eq_mul]
    ring
  rw [e, bary2_eq p a b h]
  simp only
  rw [div_mul_cancel₀ _ (inner_self_pos (sub_ne_zero.2 h.symm)).ne', sub_self]

theorem baryMat_det (a b c : V2) : (baryMat a b c).det = det (b - a) (c - a) := by
  unfold baryMat
  rw [Matrix.det_fin_three]
  simp [det]
  ring

/-- Barycentric coordinates of a triangle. -/
theorem bary3_spec (p a b c : V2) {u v w : ℝ} (h : bary3 p a b c = .ok (u, v, w)) :
    det (b - a) (c - a) ≠ 0 ∧ u • a + v • b + w • c = p ∧ u + v + w = 1 := by
  unfold bary3 at h
  by_cases hd : (baryMat a b c).det = 0
  · rw [if_pos hd] at h; cases h
  · rw [if_neg hd] at h
    injection h with h
    simp only [Prod.mk.injEq] at h
    obtain ⟨h1, h2, h3⟩ := h
    refine ⟨baryMat_det a b c ▸ hd, ?_⟩
    have hm : (baryMat a b c).mulVec ((baryMat a b c)⁻¹.mulVec ![p.1, p.2, 1]) = ![p.1, p.2, 1] := by
      rw [Matrix.mulVec_mulVec, Matrix.mul_nonsing_inv _ (isUnit_iff_ne_zero.2 hd), Matrix.one_mulVec]
    have e0 := congrFun hm 0
    have e1 := congrFun hm 1
    have e2 := congrFun hm 2
    rw [Matrix.mulVec, dotProduct, Fin.sum_univ_three] at e0 e1 e2
    rw [h1, h2, h3] at e0 e1 e2
    simp [baryMat] at e0 e1 e2
    constructor
    · ext
      · simp only [Prod.fst_add, Prod.smul_fst, smul_eq_mul]; linarith
      · simp only [Prod.snd_add, Prod.smul_snd, smul_eq_mul]; linarith
    · linarith

theorem bary3_ok (p a b c : V2) (h : det (b - a) (c - a) ≠ 0) : ∃ u v w, bary3 p a b c = .ok (u, v, w) := by
  unfold bary3
  rw [if_neg (by rw [baryMat_det]; exact h)]
  exact ⟨_, _, _, rfl⟩

/-- Projection on an edge with the third corner on the other side. -/
theorem edge_other_side (p a b c : V2) (hab : a ≠ b) {u v w : ℝ} (hp : u • a + v • b + w • c = p)
    (hs : u + v + w = 1) (hw : w ≤ 0) :
    inner (c - ((bary2 p a b).1 • a + (bary2 p a b).2 • b))
      (p - ((bary2 p a b).1 • a + (bary2 p a b).2 • b)) ≤ 0 := by
  set q := (bary2 p a b).1 • a + (bary2 p a b).2 • b with hq
  have hperp := bary2_perp p a b hab
  rw [← hq] at hperp
  have hsum := bary2_sum p a b hab
  have hqa : inner (p - q) (q - a) = 0 := by
    have : q - a = (bary2 p a b).2 • (b - a) := by
      rw [hq]
      have : (bary2 p a b).1 = 1 - (bary2 p a b).2 := by linarith
      rw [this]; module
    rw [this, inner_smul_right, hperp, mul_zero]
  -- p - q is perpendicular to the edge, and w (c - q) is p - q up to the edge direction
  have hk : inner (p - q) (p - q) = w * inner (p - q) (c - q) := by
    have e : p - q = v • (b - a) + w • (c - q) + (w - 1) • (q - a) := by
      have hu : u = 1 - v - w := by linarith
      rw [← hp, hu]; module
    have := inner_sub_right (p - q) (v • (b - a) + w • (c - q) + (w - 1) • (q - a)) 0
    have e2 : inner (p - q) (p - q) = inner (p - q) (v • (b - a) + w • (c - q) + (w - 1) • (q - a)) := by
      rw [← e]
    rw [e2, inner_add_right, inner_add_right, inner_smul_right, inner_smul_right, inner_smul_right,
      hperp, hqa]
    ring
  rw [inner_comm]
  by_contra hc
  have hc := not_le.1 hc
  have h1 := inner_self_nonneg (p - q)
  rcases hw.eq_or_lt with hw | hw
  · rw [hw, zero_mul] at hk
    have : p - q = 0 := inner_self_eq_zero.1 hk
    rw [this, inner_zero_left] at hc
    exact absurd hc (lt_irrefl _)
  · nlinarith [mul_pos_of_neg_of_neg hw (neg_lt_zero.2 hc)]

/-- Region coverage: outside edge `ab` and beyond `a`, but not in the corner region of `a`. -/
theorem region_cover (p a b c : V2) {u v w : ℝ} (hp : u • a + v • b + w • c = p)
    (hs : u + v + w = 1) (hw : w ≤ 0) (h1 : inner (p - a) (b - a) ≤ 0) (h2 : 0 < inner (p - a) (c - a)) :
    v ≤ 0 ∧ (inner (p - c) (a - c) ≤ 0 → inner (p - c) (b - c) ≤ 0) := by
  set B := inner (b - a) (b - a) with hB
  set C := inner (c - a) (c - a) with hC
  set X := inner (b - a) (c - a) with hX
  have hB0 : 0 ≤ B := inner_self_nonneg _
  have hC0 : 0 ≤ C := inner_self_nonneg _
  have hCS : X ^ 2 ≤ B * C := by
    have : 0 ≤ det (b - a) (c - a) ^ 2 := sq_nonneg _
    have e : det (b - a) (c - a) ^ 2 = B * C - X ^ 2 := by
      simp only [hB, hC, hX, det, inner]; ring
    linarith
  have hpa : p - a = v • (b - a) + w • (c - a) := by
    have hu : u = 1 - v - w := by linarith
    rw [← hp, hu]; module
  have e1 : inner (p - a) (b - a) = v * B + w * X := by
    rw [hpa, inner_add_left, inner_smul_left, inner_smul_left, inner_comm (c - a) (b - a)]
  have e2 : inner (p - a) (c - a) = v * X + w * C := by
    rw [hpa, inner_add_left, inner_smul_left, inner_smul_left]
  rw [e1] at h1
  rw [e2] at h2
  have hv : v ≤ 0 := by
    by_contra hc
    have hc := not_le.1 hc
    -- X > 0 from h2, contradiction with h1 by Cauchy-Schwarz
    have hX0 : 0 < X := by
      by_contra hx
      have hx := not_lt.1 hx
      nlinarith [mul_nonneg hc.le (neg_nonneg.2 hx), mul_nonneg (neg_nonneg.2 hw) hC0]
    have a1 : v * B ≤ -w * X := by linarith
    have a2 : -w * C < v * X := by linarith
    have a3 : (v * B) * C ≤ (-w * X) * C := mul_le_mul_of_nonneg_right a1 hC0
    have a4 : (-w * C) * X < (v * X) * X := mul_lt_mul_of_pos_right a2 hX0
    nlinarith [mul_le_mul_of_nonneg_left hCS hc.le]
  refine ⟨hv, fun h3 => ?_⟩
  have e3 : inner (p - c) (a - c) = -(v * X + w * C) + C := by
    have : inner (p - c) (a - c) = -inner (p - a) (c - a) + C := by
      simp only [hC, inner, Prod.fst_sub, Prod.snd_sub]; ring
    rw [this, e2]
  have e4 : inner (p - c) (b - c) = (v * B + w * X) - (v * X + w * C) - X + C := by
    have : inner (p - c) (b - c) = inner (p - a) (b - a) - inner (p - a) (c - a) - X + C := by
      simp only [hC, hX, inner, Prod.fst_sub, Prod.snd_sub]; ring
    rw [this, e1, e2]
  rw [e3] at h3
  rw [e4]
  -- v X ≥ (1 - w) C
  have b1 : (1 - w) * C ≤ v * X := by linarith
  have hX0 : X ≤ 0 := by
    by_contra hx
    have hx := not_le.1 hx
    nlinarith [mul_nonneg (neg_nonneg.2 hv) hx.le, mul_nonneg (neg_nonneg.2 hw) hC0]
  -- v B ≤ (1 - w) X
  have b2 : v * B ≤ (1 - w) * X := by
    rcases hX0.eq_or_lt with hx | hx
    · rw [hx, mul_zero]; exact mul_nonpos_of_nonpos_of_nonneg hv hB0
    · have c1 : (1 - w) * X ^ 2 ≤ (1 - w) * (B * C) :=
        mul_le_mul_of_nonneg_left hCS (by linarith)
      have c2 : ((1 - w) * C) * B ≤ (v * X) * B := mul_le_mul_of_nonneg_right b1 hB0
      have c3 : X * ((1 - w) * X) ≤ X * (v * B) := by nlinarith
      by_contra hc
      have hc := not_le.1 hc
      nlinarith [mul_lt_mul_of_neg_left hc hx]
  linarith

end LcpPhysics
