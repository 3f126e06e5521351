import Verif.Spec.Cradle
import Mathlib.Algebra.BigOperators.Intervals
import Mathlib.Tactic.Linarith
import Mathlib.Tactic.Ring
import Mathlib.Tactic.FieldSimp
import Mathlib.Tactic.Positivity

/-! # Lemmas: balls in a row -/

noncomputable section

namespace LcpPhysics
open Spec Finset

/-- Summation by parts along a row of masses. -/
theorem row_abel (G m u : ℕ → ℝ) (hG : ∀ j, G (j + 1) = G j + m (j + 1)) (hG0 : G 0 = 0) (n : ℕ) : ∀ j ≤ n,
    ∑ i ∈ range j, (G n - G i) * (u (i + 1) - u i) =
      ∑ i ∈ range j, m (i + 1) * u (i + 1) + (G n - G j) * u j - G n * u 0 := by
  intro j
  induction j with
  | zero => intro _; simp [hG0]
  | succ j ih =>
    intro hj
    rw [sum_range_succ, sum_range_succ, ih (by omega), hG j]
    ring

/-- Two motions of a row under pushes between neighbours, both keeping the law of impact, are the same. -/
theorem row_unique {L : ℕ} {m x X Y : ℕ → ℝ} (hm : ∀ k < L, 0 < m k) {ι : Type} (I : Finset ι) (p : ι → ℝ) (g : ι → ℕ)
    (K : Finset ℕ) (P : ℕ → ℝ)
    (hX : ∀ u : ℕ → ℝ, ∑ k ∈ range L, m k * (X k - x k) * u k = ∑ i ∈ I, p i * (u (g i + 1) - u (g i)))
    (hY : ∀ u : ℕ → ℝ, ∑ k ∈ range L, m k * (Y k - x k) * u k = ∑ k ∈ K, P k * (u (k + 1) - u k))
    (w : ℕ → ℝ)
    (h1 : ∀ i ∈ I, 0 ≤ p i ∧ p i * (X (g i + 1) - X (g i) + w (g i)) = 0 ∧ 0 ≤ Y (g i + 1) - Y (g i) + w (g i))
    (h2 : ∀ k ∈ K, 0 ≤ P k ∧ P k * (Y (k + 1) - Y k + w k) = 0 ∧ 0 ≤ X (k + 1) - X k + w k) :
    ∀ k < L, X k = Y k := by
  have hd : ∑ k ∈ range L, m k * (X k - Y k) ^ 2 ≤ 0 := by
    have e1 := hX fun k => X k - Y k
    have e2 := hY fun k => X k - Y k
    have e3 : ∑ k ∈ range L, m k * (X k - Y k) ^ 2 =
        ∑ k ∈ range L, m k * (X k - x k) * (X k - Y k) - ∑ k ∈ range L, m k * (Y k - x k) * (X k - Y k) := by
      rw [← sum_sub_distrib]
      exact sum_congr rfl fun k _ => by ring
    rw [e3, e1, e2]
    have a1 : ∑ i ∈ I, p i * ((fun k => X k - Y k) (g i + 1) - (fun k => X k - Y k) (g i)) ≤ 0 := by
      apply sum_nonpos
      intro i hi
      obtain ⟨q1, q2, q3⟩ := h1 i hi
      have := mul_nonneg q1 q3
      simp only
      linear_combination q2 + this
    have a2 : 0 ≤ ∑ k ∈ K, P k * ((fun k => X k - Y k) (k + 1) - (fun k => X k - Y k) k) := by
      apply sum_nonneg
      intro k hk
      obtain ⟨q1, q2, q3⟩ := h2 k hk
      have := mul_nonneg q1 q3
      simp only
      linear_combination q2 + this
    linarith
  have hz := (sum_eq_zero_iff_of_nonneg fun k hk => mul_nonneg (hm k (mem_range.1 hk)).le (sq_nonneg (X k - Y k))).1
    (le_antisymm hd (sum_nonneg fun k hk => mul_nonneg (hm k (mem_range.1 hk)).le (sq_nonneg _)))
  intro k hk
  have := hz k (mem_range.2 hk)
  rcases mul_eq_zero.1 this with h | h
  · exact absurd h (hm k hk).ne'
  · exact sub_eq_zero.1 (pow_eq_zero_iff two_ne_zero |>.1 h)

/-- The motion of a row in which one ball hits a group of `n`. -/
theorem row_struck {L : ℕ} {m x : ℕ → ℝ} (hm : ∀ k < L, 0 < m k) {s n : ℕ} (hs : s + n < L) {a u e : ℝ}
    (hx : ∀ k < L, x k = if k = s then a + u else a) {M : ℝ} (hM : M = ∑ k ∈ range n, m (s + 1 + k)) {Y : ℕ → ℝ}
    (hY : ∀ k < L, Y k = if k = s then a + hitterSpeed (m s) M e u else if s < k ∧ k ≤ s + n then a + struckSpeed (m s) M e u else a)
    (v : ℕ → ℝ) :
    ∑ k ∈ range L, m k * (Y k - x k) * v k =
      ∑ k ∈ (range n).image (s + ·), struckSpeed (m s) M e u * (M - ∑ i ∈ range (k - s), m (s + 1 + i)) * (v (k + 1) - v k) := by
  have hms := hm s (by omega)
  have hM0 : 0 ≤ M := by rw [hM]; exact sum_nonneg fun k hk => (hm _ (by have := mem_range.1 hk; omega)).le
  set V := struckSpeed (m s) M e u with hV
  have hhit : m s * (hitterSpeed (m s) M e u - u) = -(V * M) := by
    rw [hV]; unfold hitterSpeed struckSpeed
    have : m s + M ≠ 0 := by positivity
    field_simp
    ring
  rw [sum_image (fun a _ b _ h => by simpa using h)]
  simp only [Nat.add_sub_cancel_left]
  have hab := row_abel (fun j => ∑ i ∈ range j, m (s + 1 + i)) (fun j => m (s + j)) (fun j => v (s + j))
    (fun j => by simp only [sum_range_succ]; rw [show s + 1 + j = s + (j + 1) by omega]) (by simp) n n le_rfl
  simp only [sub_self, zero_mul, add_zero] at hab
  rw [← hM] at hab
  have hR : ∑ j ∈ range n, V * (M - ∑ i ∈ range j, m (s + 1 + i)) * (v (s + j + 1) - v (s + j)) =
      V * (∑ i ∈ range n, m (s + (i + 1)) * v (s + (i + 1)) - M * v s) := by
    rw [← hab, mul_sum]
    exact sum_congr rfl fun j _ => by rw [show s + (j + 1) = s + j + 1 by omega]; ring
  rw [hR]
  have hsub : (range (n + 1)).image (s + ·) ⊆ range L := by
    intro k hk
    obtain ⟨j, hj, rfl⟩ := mem_image.1 hk
    have := mem_range.1 hj
    exact mem_range.2 (by omega)
  rw [← sum_subset hsub, sum_image (fun a _ b _ h => by simpa using h), sum_range_succ']
  · rw [add_zero, hY s (by omega), hx s (by omega), if_pos rfl, if_pos rfl]
    have : ∑ k ∈ range n, m (s + (k + 1)) * (Y (s + (k + 1)) - x (s + (k + 1))) * v (s + (k + 1)) =
        ∑ k ∈ range n, V * (m (s + (k + 1)) * v (s + (k + 1))) := by
      refine sum_congr rfl fun k hk => ?_
      have := mem_range.1 hk
      rw [hY _ (by omega), hx _ (by omega), if_neg (by omega), if_pos (by omega), if_neg (by omega)]
      ring
    rw [this, ← mul_sum]
    linear_combination v s * hhit
  · intro k hk hk'
    have hk := mem_range.1 hk
    have h1 : ¬ (s ≤ k ∧ k ≤ s + n) := by
      rintro ⟨h1, h2⟩
      exact hk' (mem_image.2 ⟨k - s, mem_range.2 (by omega), by show s + (k - s) = k; omega⟩)
    rw [hY k hk, hx k hk, if_neg (by omega), if_neg (by omega), if_neg (by omega)]
    ring

end LcpPhysics
