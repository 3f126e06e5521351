import Verif.Spec.Hinge
import Verif.Lemmas.Plane
import Mathlib.Analysis.SpecialFunctions.Trigonometric.Deriv
import Mathlib.Analysis.SpecialFunctions.Trigonometric.Bounds
import Mathlib.Analysis.Calculus.Deriv.MeanValue
import Mathlib.Analysis.SpecialFunctions.Exp

/-! # Lemmas for C125: two material points of moving bodies -/

noncomputable section

namespace LcpPhysics
open Spec

/-- A right angle to the left. -/
def quarter (a : V2) : V2 := (-a.2, a.1)

theorem len_quarter (a : V2) : len (quarter a) = len a := by
  unfold len quarter
  congr 1
  ring

theorem chord_bound (x : ℝ) : (1 - Real.cos x) ^ 2 + (x - Real.sin x) ^ 2 ≤ (x ^ 2 / 2) ^ 2 := by
  have key : ∀ x : ℝ, 0 ≤ x → (1 - Real.cos x) ^ 2 + (x - Real.sin x) ^ 2 ≤ (x ^ 2 / 2) ^ 2 := by
    intro x hx
    set g : ℝ → ℝ := fun x => x ^ 4 / 4 - ((1 - Real.cos x) ^ 2 + (x - Real.sin x) ^ 2) with hg
    have hd : ∀ y, HasDerivAt g (2 * y * (y ^ 2 / 2 - 1 + Real.cos y)) y := by
      intro y
      have h1 := ((hasDerivAt_pow 4 y).div_const 4)
      have h2 := ((Real.hasDerivAt_cos y).const_sub 1).pow 2
      have h3 := ((hasDerivAt_id y).sub (Real.hasDerivAt_sin y)).pow 2
      refine (h1.sub (h2.add h3)).congr_deriv ?_
      simp
      ring
    have hm : MonotoneOn g (Set.Ici 0) := by
      apply monotoneOn_of_deriv_nonneg (convex_Ici 0)
      · exact fun y _ => (hd y).continuousAt.continuousWithinAt
      · exact fun y _ => (hd y).differentiableAt.differentiableWithinAt
      · intro y hy
        rw [interior_Ici] at hy
        rw [(hd y).deriv]
        have := Real.one_sub_sq_div_two_le_cos (x := y)
        have hy : (0 : ℝ) < y := hy
        exact mul_nonneg (by linarith) (by linarith)
    have := hm (Set.mem_Ici.2 le_rfl) (Set.mem_Ici.2 hx) hx
    simp [hg] at this
    nlinarith [this]
  rcases le_total 0 x with h | h
  · exact key x h
  · have := key (-x) (by linarith)
    rw [Real.cos_neg, Real.sin_neg] at this
    nlinarith [this]

/-- A turn differs from its linear part by at most half the square of the angle. -/
theorem chord_error (x : ℝ) (a : V2) : len (rot x a - a - x • quarter a) ≤ x ^ 2 / 2 * len a := by
  have h : len (rot x a - a - x • quarter a) = Real.sqrt (((1 - Real.cos x) ^ 2 + (x - Real.sin x) ^ 2) * (a.1 ^ 2 + a.2 ^ 2)) := by
    unfold len rot quarter
    congr 1
    simp
    ring
  rw [h]
  unfold len
  rw [Real.sqrt_mul (by positivity)]
  apply mul_le_mul_of_nonneg_right _ (Real.sqrt_nonneg _)
  exact Real.sqrt_le_iff.2 ⟨by positivity, chord_bound x⟩

theorem tilt_len (s : ℝ) (g : V2) : len (g + s • quarter g) ≤ (1 + s ^ 2 / 2) * len g := by
  have h : len (g + s • quarter g) = Real.sqrt ((1 + s ^ 2) * (g.1 ^ 2 + g.2 ^ 2)) := by
    unfold len quarter
    congr 1
    simp
    ring
  rw [h, Real.sqrt_mul (by positivity)]
  apply mul_le_mul_of_nonneg_right _ (Real.sqrt_nonneg _)
  exact Real.sqrt_le_iff.2 ⟨by positivity, by nlinarith [sq_nonneg (s ^ 2)]⟩

/-- One move of two bodies: `x`, `y` are the centres, `a`, `m` the arms of the two material points, `g` their difference. -/
theorem hinge_move (x y u v a m : V2) (ω τ d : ℝ) :
    (x + d • u + rot (d * ω) a) - (y + d • v + rot (d * τ) m) =
      (((x + a) - (y + m)) + (d * τ) • quarter ((x + a) - (y + m))) + (rot (d * ω) a - a - (d * ω) • quarter a) -
      (rot (d * τ) m - m - (d * τ) • quarter m) +
      d • ((u + ω • quarter a) - (v + τ • quarter (x + a - y))) := by
  ext <;> simp [quarter] <;> ring

theorem hinge_bound (x y u v a m : V2) (ω τ d Ω ε : ℝ) (hd : 0 ≤ d) (hω : |ω| ≤ Ω) (hτ : |τ| ≤ Ω)
    (hrel : len ((u + ω • quarter a) - (v + τ • quarter (x + a - y))) ≤ ε) :
    len ((x + d • u + rot (d * ω) a) - (y + d • v + rot (d * τ) m)) ≤
      (1 + (d * Ω) ^ 2 / 2) * len ((x + a) - (y + m)) + (d * Ω) ^ 2 / 2 * (len a + len m) + d * ε := by
  rw [hinge_move]
  set g := (x + a) - (y + m)
  have hsq : ∀ r : ℝ, |r| ≤ Ω → (d * r) ^ 2 ≤ (d * Ω) ^ 2 := by
    intro r hr
    rw [mul_pow, mul_pow]
    apply mul_le_mul_of_nonneg_left _ (sq_nonneg d)
    rw [← sq_abs r]
    exact pow_le_pow_left₀ (abs_nonneg r) hr 2
  have h1 := tilt_len (d * τ) g
  have h2 := chord_error (d * ω) a
  have h3 := chord_error (d * τ) m
  have h4 : len (d • ((u + ω • quarter a) - (v + τ • quarter (x + a - y)))) ≤ d * ε := by
    rw [len_smul, abs_of_nonneg hd]
    exact mul_le_mul_of_nonneg_left hrel hd
  have t1 := len_add_le ((g + (d * τ) • quarter g) + (rot (d * ω) a - a - (d * ω) • quarter a) -
      (rot (d * τ) m - m - (d * τ) • quarter m)) (d • ((u + ω • quarter a) - (v + τ • quarter (x + a - y))))
  have t2 := len_add_le ((g + (d * τ) • quarter g) + (rot (d * ω) a - a - (d * ω) • quarter a))
      (-(rot (d * τ) m - m - (d * τ) • quarter m))
  rw [len_neg, ← sub_eq_add_neg] at t2
  have t3 := len_add_le (g + (d * τ) • quarter g) (rot (d * ω) a - a - (d * ω) • quarter a)
  have b1 : (1 + (d * τ) ^ 2 / 2) * len g ≤ (1 + (d * Ω) ^ 2 / 2) * len g :=
    mul_le_mul_of_nonneg_right (by linarith [hsq τ hτ]) (len_nonneg _)
  have b2 : (d * ω) ^ 2 / 2 * len a ≤ (d * Ω) ^ 2 / 2 * len a :=
    mul_le_mul_of_nonneg_right (by linarith [hsq ω hω]) (len_nonneg _)
  have b3 : (d * τ) ^ 2 / 2 * len m ≤ (d * Ω) ^ 2 / 2 * len m :=
    mul_le_mul_of_nonneg_right (by linarith [hsq τ hτ]) (len_nonneg _)
  linarith

/-- The recursion of the distances. -/
theorem parted_sum (G d : ℕ → ℝ) (n : ℕ) (R Ω ε dt : ℝ) (hR : 0 ≤ R) (hε : 0 ≤ ε) (h0 : G 0 = 0)
    (hd : ∀ q < n, 0 ≤ d q ∧ d q ≤ dt)
    (hG : ∀ q < n, G (q + 1) ≤ (1 + (d q * Ω) ^ 2 / 2) * G q + (d q * Ω) ^ 2 / 2 * R + d q * ε) :
    ∀ q ≤ n, G q + R ≤ Real.exp (Ω ^ 2 * dt * (∑ k ∈ Finset.range q, d k) / 2) * (R + ε * ∑ k ∈ Finset.range q, d k) := by
  intro q
  induction q with
  | zero => intro _; simp [h0]
  | succ q ih =>
    intro hq
    have hi := ih (by omega)
    obtain ⟨d0, d1⟩ := hd q (by omega)
    have hg := hG q (by omega)
    rw [Finset.sum_range_succ]
    set S := ∑ k ∈ Finset.range q, d k with hS
    have hS0 : 0 ≤ S := Finset.sum_nonneg fun k hk => (hd k (by have := Finset.mem_range.1 hk; omega)).1
    have e1 : 1 + (d q * Ω) ^ 2 / 2 ≤ Real.exp (Ω ^ 2 * dt * d q / 2) := by
      have := Real.add_one_le_exp (Ω ^ 2 * dt * d q / 2)
      have h2 : (d q * Ω) ^ 2 ≤ Ω ^ 2 * dt * d q := by
        have : d q * d q ≤ dt * d q := mul_le_mul_of_nonneg_right d1 d0
        nlinarith [mul_le_mul_of_nonneg_left this (sq_nonneg Ω)]
      linarith
    have e2 : Real.exp (Ω ^ 2 * dt * (S + d q) / 2) = Real.exp (Ω ^ 2 * dt * S / 2) * Real.exp (Ω ^ 2 * dt * d q / 2) := by
      rw [← Real.exp_add]; congr 1; ring
    have hE : 1 ≤ Real.exp (Ω ^ 2 * dt * S / 2) := Real.one_le_exp (by
      have : 0 ≤ dt := d0.trans d1
      positivity)
    have hF : 1 ≤ Real.exp (Ω ^ 2 * dt * d q / 2) := Real.one_le_exp (by
      have : 0 ≤ dt := d0.trans d1
      positivity)
    rw [e2]
    set E := Real.exp (Ω ^ 2 * dt * S / 2)
    set F := Real.exp (Ω ^ 2 * dt * d q / 2)
    have a1 : G (q + 1) + R ≤ (1 + (d q * Ω) ^ 2 / 2) * (G q + R) + d q * ε := by nlinarith
    have hP : 0 ≤ E * (R + ε * S) := by positivity
    have a2 : (1 + (d q * Ω) ^ 2 / 2) * (G q + R) ≤ F * (E * (R + ε * S)) :=
      (mul_le_mul_of_nonneg_left hi (by positivity)).trans (mul_le_mul_of_nonneg_right e1 hP)
    have a3 : d q * ε ≤ E * F * (ε * d q) := by
      have h1 : 1 ≤ E * F := one_le_mul_of_one_le_of_one_le hE hF
      have h2 : 0 ≤ ε * d q := mul_nonneg hε d0
      nlinarith [mul_le_mul_of_nonneg_right h1 h2]
    calc G (q + 1) + R ≤ F * (E * (R + ε * S)) + E * F * (ε * d q) := by linarith
      _ = E * F * (R + ε * (S + d q)) := by ring

end LcpPhysics
