import Verif.Lemmas.RoundedWorld
import Verif.Model.RoundedFlight

/-! # Lemmas on the engine in double precision -/

noncomputable section

namespace LcpPhysics
open Spec Rounded

variable {A : Arith}

theorem vel_sum {X D b c B G s u t : ℝ} (hu : 0 ≤ u) (hu1 : u ≤ 1 / 1000) (ht : 0 ≤ t) (hD0 : 0 ≤ D) (hX : X = B + G) (hD : |B| + |G| = D)
    (hb : |b - B| ≤ u * |B| + t) (hc : |c - G| ≤ u * |G| + t) (hs : |s - (b + c)| ≤ u * |b + c|) :
    |s - X| ≤ 201 / 100 * (u * D) + 3 * t ∧ |s| ≤ 11 / 10 * D + 3 * t := by
  have hut : u * t ≤ 1 / 1000 * t := mul_le_mul_of_nonneg_right hu1 ht
  have huD : u * D ≤ 1 / 1000 * D := mul_le_mul_of_nonneg_right hu1 hD0
  have huu : u * (u * D) ≤ 1 / 1000 * (u * D) := mul_le_mul_of_nonneg_right hu1 (mul_nonneg hu hD0)
  have huD0 : 0 ≤ u * D := mul_nonneg hu hD0
  have eD : u * |B| + u * |G| = u * D := by rw [← mul_add, hD]
  have hbc : |b + c - X| ≤ u * D + 2 * t := by
    have e : b + c - X = (b - B) + (c - G) := by rw [hX]; ring
    rw [e]
    refine (abs_add_le _ _).trans ?_
    linarith
  have hXD : |X| ≤ D := by
    rw [hX, ← hD]
    exact abs_add_le _ _
  have hbc' : |b + c| ≤ D + u * D + 2 * t := by
    have := abs_add_le (b + c - X) X
    rw [sub_add_cancel] at this
    linarith
  have e2 := mul_le_mul_of_nonneg_left hbc' hu
  have hs' : |s - X| ≤ 201 / 100 * (u * D) + 3 * t := by
    have e := abs_sub_le s (b + c) X
    linarith
  refine ⟨hs', ?_⟩
  have := abs_add_le (s - X) X
  rw [sub_add_cancel] at this
  linarith

theorem vel_product {i a X D s q u t : ℝ} (hi0 : 0 < i) (hu : 0 ≤ u) (hu1 : u ≤ 1 / 1000) (ht : 0 ≤ t) (hti : t ≤ u * i / 1000) (hD0 : 0 ≤ D)
    (ha : |a - i| ≤ u * i + t) (hX : |X| ≤ D) (hs' : |s - X| ≤ 201 / 100 * (u * D) + 3 * t) (hsa : |s| ≤ 11 / 10 * D + 3 * t)
    (hq : |q - a * s| ≤ u * |a * s| + t) : |q - i * X| ≤ 5 * u * (i * D) + (4 * i + 1) * t := by
  have ha' : |a - i| ≤ 1001 / 1000 * (u * i) := by linarith
  have k2 : 0 ≤ i * D := by positivity
  have k0 : 0 ≤ u * (i * D) := by positivity
  have k1 : 0 ≤ i * t := by positivity
  have huu : u * (u * (i * D)) ≤ 1 / 1000 * (u * (i * D)) := mul_le_mul_of_nonneg_right hu1 k0
  have hut' : u * (i * t) ≤ 1 / 1000 * (i * t) := mul_le_mul_of_nonneg_right hu1 k1
  have p1 : |a * s - i * X| ≤ 32 / 10 * (u * (i * D)) + 31 / 10 * (i * t) := by
    have e : a * s - i * X = (a - i) * s + i * (s - X) := by ring
    rw [e]
    refine (abs_add_le _ _).trans ?_
    rw [abs_mul, abs_mul, abs_of_pos hi0]
    have d1 : |a - i| * |s| ≤ 1001 / 1000 * (u * i) * (11 / 10 * D + 3 * t) := mul_le_mul ha' hsa (abs_nonneg _) (by positivity)
    have d2 : i * |s - X| ≤ i * (201 / 100 * (u * D) + 3 * t) := mul_le_mul_of_nonneg_left hs' hi0.le
    have e1 : 1001 / 1000 * (u * i) * (11 / 10 * D + 3 * t) = 11011 / 10000 * (u * (i * D)) + 3003 / 1000 * (u * (i * t)) := by ring
    have e2 : i * (201 / 100 * (u * D) + 3 * t) = 201 / 100 * (u * (i * D)) + 3 * (i * t) := by ring
    linarith
  have p2 : |a * s| ≤ 12 / 10 * (i * D) + 31 / 10 * (i * t) := by
    have haa : |a| ≤ 1002 / 1000 * i := by
      have := abs_add_le (a - i) i
      rw [sub_add_cancel, abs_of_pos hi0] at this
      have := mul_le_mul_of_nonneg_right hu1 hi0.le
      linarith
    rw [abs_mul]
    have := mul_le_mul haa hsa (abs_nonneg _) (by positivity)
    have e1 : 1002 / 1000 * i * (11 / 10 * D + 3 * t) = 11022 / 10000 * (i * D) + 3006 / 1000 * (i * t) := by ring
    linarith
  have p3 : u * |a * s| ≤ u * (12 / 10 * (i * D) + 31 / 10 * (i * t)) := mul_le_mul_of_nonneg_left p2 hu
  have e3 : u * (12 / 10 * (i * D) + 31 / 10 * (i * t)) = 12 / 10 * (u * (i * D)) + 31 / 10 * (u * (i * t)) := by ring
  have p4 := abs_sub_le q (a * s) (i * X)
  have e4 : 5 * u * (i * D) + (4 * i + 1) * t = 5 * (u * (i * D)) + 4 * (i * t) + t := by ring
  linarith

theorem vel_scalar {m v g a b c s q u t : ℝ} (hm : 0 < m) (hu : 0 ≤ u) (hu1 : u ≤ 1 / 1000) (ht : 0 ≤ t) (htm : t ≤ u * (1 / m) / 1000)
    (ha : |a - 1 / m| ≤ u * |1 / m| + t) (hb : |b - m * v| ≤ u * |m * v| + t) (hc : |c - g| ≤ u * |g| + t)
    (hs : |s - (b + c)| ≤ u * |b + c|) (hq : |q - a * s| ≤ u * |a * s| + t) :
    |q - (v + g / m)| ≤ 5 * u * (|v| + |g| / m) + (4 / m + 1) * t := by
  have hi0 : 0 < 1 / m := by positivity
  rw [abs_of_pos hi0] at ha
  obtain ⟨h1, h2⟩ := vel_sum hu hu1 ht (show 0 ≤ |m * v| + |g| by positivity) rfl rfl hb hc hs
  have h3 := vel_product hi0 hu hu1 ht htm (by positivity) ha (abs_add_le (m * v) g) h1 h2 hq
  rw [abs_mul, abs_of_pos hm] at h3
  have e1 : v + g / m = 1 / m * (m * v + g) := by field_simp
  have e2 : |v| + |g| / m = 1 / m * (m * |v| + |g|) := by field_simp
  have e3 : 4 / m = 4 * (1 / m) := by ring
  rw [e1, e2, e3]
  exact h3

/-- Rounding near a number with a mantissa of full length. -/
theorem round_near {rnd : ℝ → ℝ} (hr : Nearest rnd) {x : ℝ} (k : ℕ) (e : ℤ) (he : -1074 ≤ e) (hk : k ≤ 2 ^ 53) (hk2 : 2 ^ 52 + 1 ≤ k)
    (h : |x - k * (2 : ℝ) ^ e| < (2 : ℝ) ^ e / 2) : rnd x = k * (2 : ℝ) ^ e := by
  have hp : (0 : ℝ) < 2 ^ e := by positivity
  have hy := rep_nat k hk e he
  have h1 := (hr x).2 _ hy
  rw [abs_sub_comm (k * (2 : ℝ) ^ e) x] at h1
  have h2 : |rnd x - k * (2 : ℝ) ^ e| < 2 ^ e := by
    have := abs_sub_le (rnd x) x (k * (2 : ℝ) ^ e)
    linarith
  have hkr : (2 : ℝ) ^ 52 + 1 ≤ k := by exact_mod_cast hk2
  have h3 : (2 : ℝ) ^ (e + 52) ≤ |rnd x| := by
    have e1 : (2 : ℝ) ^ (e + 52) = 2 ^ 52 * 2 ^ e := by
      rw [zpow_add₀ (by norm_num), mul_comm]; norm_cast
    have := (abs_lt.mp h2).1
    have l := le_abs_self (rnd x)
    have := mul_le_mul_of_nonneg_right hkr hp.le
    rw [e1]
    linarith
  obtain ⟨z, hz⟩ := rep_multiple (hr x).1 e h3
  rw [hz, ← sub_mul, abs_mul, abs_of_pos hp] at h2
  have h4 : |(z : ℝ) - k| < 1 := by
    by_contra hc
    push Not at hc
    have := mul_le_mul_of_nonneg_right hc hp.le
    linarith
  have h5 : |z - (k : ℤ)| < 1 := by exact_mod_cast h4
  have h6 : z = k := by
    have := Int.abs_lt_one_iff.mp h5
    omega
  rw [hz, h6]
  simp

end LcpPhysics
