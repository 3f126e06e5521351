import Verif.Spec.Billiard
import Verif.Lemmas.Plane
import Verif.Lemmas.Support
import Verif.Lemmas.Closest

/-! # The relative motion of two discs -/

noncomputable section

namespace LcpPhysics
open Spec

theorem inner_struck {e : ℝ} {q v : V2} (hq : q ≠ 0) : Spec.inner q (struck e q v) = -e * Spec.inner q v := by
  have := (inner_self_pos hq).ne'
  unfold struck
  rw [inner_sub_right, inner_smul_right]
  field_simp
  ring

theorem det_struck (e : ℝ) (q v : V2) : Spec.det q (struck e q v) = Spec.det q v := by
  unfold struck Spec.det
  simp only [Prod.fst_sub, Prod.snd_sub, Prod.smul_fst, Prod.smul_snd, smul_eq_mul]
  ring

theorem lagrange (q v : V2) : Spec.inner q v ^ 2 + Spec.det q v ^ 2 = Spec.inner q q * Spec.inner v v := by
  unfold Spec.inner Spec.det; ring

/-- The square of the relative speed after an impact. -/
theorem struck_speed {e : ℝ} {q v : V2} (hq : q ≠ 0) :
    Spec.inner (struck e q v) (struck e q v) =
      Spec.inner v v - (1 - e ^ 2) * (Spec.inner v v - Spec.det q v ^ 2 / Spec.inner q q) := by
  have hp := (inner_self_pos hq).ne'
  have h1 := lagrange q (struck e q v)
  rw [inner_struck hq, det_struck] at h1
  have h2 := lagrange q v
  field_simp
  linear_combination -h1 + e ^ 2 * h2

theorem det_along (q v : V2) (t : ℝ) : Spec.det (q + t • v) v = Spec.det q v := by
  unfold Spec.det
  simp only [Prod.fst_add, Prod.snd_add, Prod.smul_fst, Prod.smul_snd, smul_eq_mul]
  ring

theorem inner_along (q v : V2) (t : ℝ) : Spec.inner (q + t • v) v = Spec.inner q v + t * Spec.inner v v := by
  rw [inner_add_left, inner_smul_left]

/-- One step of the relative motion: the velocity is changed if the discs strike, and the step is the first of
`dt, dt/2, dt/4, …` at whose end they are not deeper in each other than `tol`. -/
def Glides (R eps tol e dt : ℝ) (q v q' v' : V2) (d : ℝ) : Prop :=
  (Strikes R eps q v → v' = struck e q v) ∧ (¬ Strikes R eps q v → v' = v) ∧
  ∃ j : ℕ, d = dt / 2 ^ j ∧ q' = q + d • v' ∧ R - tol ≤ len q' ∧ ∀ i < j, len (q + (dt / 2 ^ i) • v') < R - tol

variable {R eps tol e dt : ℝ}

theorem glides_pos (hdt : 0 < dt) {q v q' v' : V2} {d : ℝ} (h : Glides R eps tol e dt q v q' v' d) : 0 < d ∧ d ≤ dt := by
  obtain ⟨-, -, j, rfl, -⟩ := h
  exact ⟨by positivity, div_le_self hdt.le (one_le_pow₀ (by norm_num))⟩

theorem ne_zero_of_far (ht : tol < R) {q : V2} (h : R - tol ≤ len q) : q ≠ 0 := by
  rintro rfl
  have : len (0 : V2) = 0 := len_eq_zero.2 rfl
  linarith

/-- Discs that have struck do not strike again. -/
theorem once_free (ht : tol < R) (he : 0 ≤ e) {q0 v0 q v : V2} {T : ℝ} (h : StruckOnce R eps tol e q0 v0 T q v) :
    0 ≤ Spec.inner q v := by
  obtain ⟨τ, -, h2, h3, h4, rfl, rfl⟩ := h
  set p := q0 + τ • v0
  rw [inner_along, inner_struck (ne_zero_of_far ht h3)]
  have := mul_nonneg (sub_nonneg.2 h2) (inner_self_nonneg (struck e p v0))
  nlinarith [h4.2]

/-- Free flight or one impact: kept by a step. -/
theorem glides_path (hdt : 0 < dt) (ht : tol < R) (he : 0 ≤ e) {q0 v0 q v q' v' : V2} {T d : ℝ} (hT : 0 ≤ T)
    (hq : R - tol ≤ len q)
    (h : (v = v0 ∧ q = q0 + T • v0) ∨ StruckOnce R eps tol e q0 v0 T q v) (hg : Glides R eps tol e dt q v q' v' d) :
    (v' = v0 ∧ q' = q0 + (T + d) • v0) ∨ StruckOnce R eps tol e q0 v0 (T + d) q' v' := by
  have hd := glides_pos hdt hg
  obtain ⟨g1, g2, j, hdj, hq', -, -⟩ := hg
  rcases h with ⟨rfl, rfl⟩ | h
  · by_cases hs : Strikes R eps (q0 + T • v) v
    · refine Or.inr ⟨T, hT, by linarith, hq, hs, g1 hs, ?_⟩
      rw [hq', add_sub_cancel_left]
    · refine Or.inl ⟨g2 hs, ?_⟩
      rw [hq', g2 hs, add_smul, add_assoc]
  · have hs : ¬ Strikes R eps q v := fun hs => absurd hs.2 (not_lt.2 (once_free ht he h))
    obtain ⟨τ, h1, h2, h3, h4, h5, h6⟩ := h
    refine Or.inr ⟨τ, h1, by linarith, h3, h4, (g2 hs).trans h5, ?_⟩
    rw [hq', g2 hs, h6]
    module

/-- A step is not cut once the discs have struck. -/
theorem glides_whole (hdt : 0 < dt) {q v q' v' : V2} {d : ℝ} (hq : R - tol ≤ len q) (hv : 0 ≤ Spec.inner q v')
    (grow : ∀ (x u : V2) (t : ℝ), 0 ≤ t → 0 ≤ Spec.inner x u → len x ≤ len (x + t • u))
    (hg : Glides R eps tol e dt q v q' v' d) : d = dt := by
  obtain ⟨-, -, j, rfl, -, -, hj⟩ := hg
  cases j with
  | zero => simp
  | succ j =>
    have h1 := hj 0 (by omega)
    have h2 := grow q v' (dt / 2 ^ 0) (by positivity) hv
    linarith

/-- Discs that come nearer do not pass the point of closest approach unnoticed, if the steps are short. -/
theorem approach_kept (hR : 0 ≤ R + eps) {q v : V2} {d : ℝ} (hd : 0 ≤ d) (hdd : d ≤ dt) (hfar : R + eps < len q)
    (hin : Spec.inner q v < 0)
    (H : (dt * Spec.inner v v) ^ 2 + Spec.det q v ^ 2 ≤ (R + eps) ^ 2 * Spec.inner v v) :
    Spec.inner (q + d • v) v < 0 := by
  rw [inner_along]
  by_contra hc
  push Not at hc
  have hv := inner_self_nonneg v
  have h1 := lagrange q v
  have h2 : (R + eps) ^ 2 < Spec.inner q q := by
    rw [← len_sq]; exact pow_lt_pow_left₀ hfar hR (by norm_num)
  have hv0 : 0 < Spec.inner v v := by
    rcases hv.lt_or_eq with h | h
    · exact h
    · rw [← h] at hc; linarith
  have h3 : d * Spec.inner v v ≤ dt * Spec.inner v v := mul_le_mul_of_nonneg_right hdd hv
  have h4 : Spec.inner q v ^ 2 ≤ (dt * Spec.inner v v) ^ 2 := by
    rw [← neg_sq]
    exact pow_le_pow_left₀ (by linarith) (by linarith) 2
  nlinarith [mul_lt_mul_of_pos_right h2 hv0]

/-- A step of discs that are apart is not very short. -/
theorem glides_long {q v q' v' : V2} {d : ℝ} (hdt : 0 < dt) (hfar : R + eps < len q) (hs : ¬ Strikes R eps q v)
    (hg : Glides R eps tol e dt q v q' v' d) : d = dt ∨ eps + tol < 2 * (d * len v) := by
  obtain ⟨-, g2, j, rfl, -, -, hj⟩ := hg
  rw [g2 hs] at hj
  cases j with
  | zero => left; simp
  | succ j =>
    right
    have h1 := hj j (by omega)
    have h3 : len q ≤ len (q + (dt / 2 ^ j) • v) + len (-((dt / 2 ^ j) • v)) := by
      have := len_add_le (q + (dt / 2 ^ j) • v) (-((dt / 2 ^ j) • v))
      rwa [add_neg_cancel_right] at this
    rw [len_neg, len_smul, abs_of_pos (by positivity)] at h3
    have : 2 * (dt / 2 ^ (j + 1) * len v) = dt / 2 ^ j * len v := by rw [pow_succ]; field_simp
    rw [this]
    linarith

end LcpPhysics
