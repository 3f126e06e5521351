import Verif.Lemmas.RoundedWorld
import Verif.Spec.RoundedContact
import Verif.Model.RoundedContact

/-! # Lemmas on the contact of two circles in double precision -/

noncomputable section

namespace LcpPhysics
open Spec Rounded

variable {A : Arith}

theorem quot_scalar {x x' L N q u t : ℝ} (hu : 0 ≤ u) (hu1 : u ≤ 1 / 1000) (hL : 0 < L) (h1 : |x' - x| ≤ u * |x|)
    (h2 : |N - L| ≤ 6 * u * L) (h3 : |q - x' / N| ≤ u * |x' / N| + t) : |q - x / L| ≤ 9 * u * (|x| / L) + t := by
  have a2 := abs_le.mp h2
  have b1 : u * L ≤ 1 / 1000 * L := mul_le_mul_of_nonneg_right hu1 hL.le
  have hN1 : 994 / 1000 * L ≤ N := by linarith
  have hN : 0 < N := by linarith
  have hx : |x'| ≤ 1001 / 1000 * |x| := by
    have e : |x'| ≤ |x' - x| + |x| := by have := abs_add_le (x' - x) x; rwa [sub_add_cancel] at this
    have := mul_le_mul_of_nonneg_right hu1 (abs_nonneg x)
    linarith
  set y := |x| / L with hy
  have hy0 : 0 ≤ y := div_nonneg (abs_nonneg _) hL.le
  have hxy : |x| = y * L := by rw [hy]; field_simp
  have k1 : |x' / N| ≤ 102 / 100 * y := by
    rw [abs_div, abs_of_pos hN, div_le_iff₀ hN]
    have : 0 ≤ y * (N - 994 / 1000 * L) := mul_nonneg hy0 (by linarith)
    rw [hxy] at hx
    nlinarith [mul_nonneg hy0 hL.le]
  have k2 : |x' / N - x / L| ≤ 71 / 10 * u * y := by
    have e : x' / N - x / L = ((x' - x) * L - x * (N - L)) / (N * L) := by field_simp; ring
    rw [e, abs_div, abs_of_pos (mul_pos hN hL), div_le_iff₀ (mul_pos hN hL)]
    have e1 : |(x' - x) * L - x * (N - L)| ≤ |x' - x| * L + |x| * |N - L| := by
      refine (abs_sub _ _).trans ?_
      rw [abs_mul, abs_mul, abs_of_pos hL]
    have e2 : |x' - x| * L ≤ u * |x| * L := mul_le_mul_of_nonneg_right h1 hL.le
    have e3 : |x| * |N - L| ≤ |x| * (6 * u * L) := mul_le_mul_of_nonneg_left h2 (abs_nonneg _)
    rw [hxy] at e1 e2 e3
    have e4 : 0 ≤ u * y * L * (N - 994 / 1000 * L) := by
      have : 0 ≤ N - 994 / 1000 * L := by linarith
      positivity
    have e5 : 0 ≤ u * y * L * L := by positivity
    nlinarith
  have k3 : u * |x' / N| ≤ u * (102 / 100 * y) := mul_le_mul_of_nonneg_left k1 hu
  have k4 := abs_sub_le q (x' / N) (x / L)
  have k5 : 0 ≤ u * y := mul_nonneg hu hy0
  nlinarith

theorem arm_scalar {r R L S P H a u t : ℝ} (hu : 0 ≤ u) (hu1 : u ≤ 1 / 1000) (hr : 0 ≤ r) (hrR : r ≤ R) (hL : 0 ≤ L) (hS : S = R + L)
    (ht : t ≤ u * S / 100) (h1 : |P - (R - L)| ≤ 8 * u * S) (h2 : |H - P / 2| ≤ u * |P / 2| + t) (h3 : |a - (r - H)| ≤ u * |r - H|) :
    |a - (r - (R - L) / 2)| ≤ 6 * u * S ∧ |r - (R - L) / 2| ≤ S / 2 := by
  have hS0 : 0 ≤ S := by linarith
  have uS : 0 ≤ u * S := mul_nonneg hu hS0
  have uS1 : u * S ≤ 1 / 1000 * S := mul_le_mul_of_nonneg_right hu1 hS0
  have c1 : |r - (R - L) / 2| ≤ S / 2 := by rw [abs_le]; constructor <;> linarith
  have c2 : |P / 2| ≤ 51 / 100 * S := by
    have := abs_le.mp h1
    rw [abs_le]; constructor <;> linarith
  have c3 : u * |P / 2| ≤ u * (51 / 100 * S) := mul_le_mul_of_nonneg_left c2 hu
  have c4 : |H - (R - L) / 2| ≤ 46 / 10 * (u * S) := by
    have a1 := abs_le.mp h1
    have a2 := abs_le.mp h2
    rw [abs_le]; constructor <;> linarith
  have c5 : |r - H| ≤ 51 / 100 * S := by
    have a1 := abs_le.mp c1
    have a2 := abs_le.mp c4
    rw [abs_le]; constructor <;> linarith
  have c6 : u * |r - H| ≤ u * (51 / 100 * S) := mul_le_mul_of_nonneg_left c5 hu
  refine ⟨?_, c1⟩
  have a1 := abs_le.mp c4
  have a2 := abs_le.mp h3
  rw [abs_le]; constructor <;> linarith

theorem point_scalar {n n' a a' S q u t : ℝ} (hu : 0 ≤ u) (hu1 : u ≤ 1 / 1000) (hS : 0 ≤ S) (ht : t ≤ u * S / 100) (hn : |n| ≤ 1)
    (h1 : |n' - n| ≤ 10 * u) (h2 : |a' - a| ≤ 6 * u * S) (ha : |a| ≤ S / 2) (h3 : |q - n' * a'| ≤ u * |n' * a'| + t) :
    |q - n * a| ≤ 12 * u * S := by
  have uS : 0 ≤ u * S := mul_nonneg hu hS
  have uS1 : u * S ≤ 1 / 1000 * S := mul_le_mul_of_nonneg_right hu1 hS
  have c1 : |a'| ≤ 51 / 100 * S := by
    have a1 := abs_le.mp h2
    have a2 := abs_le.mp ha
    rw [abs_le]; constructor <;> linarith
  have c2 : |n'| ≤ 101 / 100 := by
    have a1 := abs_le.mp h1
    have a2 := abs_le.mp hn
    rw [abs_le]; constructor <;> linarith
  have c3 : |n' * a' - n * a| ≤ 10 * u * (51 / 100 * S) + 6 * u * S := by
    have e : n' * a' - n * a = (n' - n) * a' + n * (a' - a) := by ring
    rw [e]
    refine (abs_add_le _ _).trans ?_
    rw [abs_mul, abs_mul]
    have d1 : |n' - n| * |a'| ≤ 10 * u * (51 / 100 * S) := mul_le_mul h1 c1 (abs_nonneg _) (by positivity)
    have d2 : |n| * |a' - a| ≤ 1 * (6 * u * S) := mul_le_mul hn h2 (abs_nonneg _) zero_le_one
    linarith
  have c4 : |n' * a'| ≤ 101 / 100 * (51 / 100 * S) := by
    rw [abs_mul]
    exact mul_le_mul c2 c1 (abs_nonneg _) (by norm_num)
  have c5 : u * |n' * a'| ≤ u * (101 / 100 * (51 / 100 * S)) := mul_le_mul_of_nonneg_left c4 hu
  have c6 := abs_sub_le q (n' * a') (n * a)
  nlinarith

theorem len_le_parts {v : V2} {e : ℝ} (he : 0 ≤ e) (h1 : |v.1| ≤ e) (h2 : |v.2| ≤ e) : len v ≤ 3 / 2 * e := by
  apply abs_le_of_sq_le_sq' _ (by positivity) |>.2
  rw [len_sq]
  simp only [Spec.inner]
  have k1 := pow_le_pow_left₀ (abs_nonneg _) h1 2
  have k2 := pow_le_pow_left₀ (abs_nonneg _) h2 2
  rw [sq_abs] at k1 k2
  nlinarith

theorem abs_le_len (v : V2) : |v.1| ≤ len v ∧ |v.2| ≤ len v := by
  have h0 := len_nonneg v
  have h := len_sq v
  simp only [Spec.inner] at h
  constructor
  · exact abs_le_of_sq_le_sq (by nlinarith [sq_nonneg v.2]) h0
  · exact abs_le_of_sq_le_sq (by nlinarith [sq_nonneg v.1]) h0

/-! ## The direction -/

/-- The computed distance of centres that are not too close. -/
theorem fnorm_far (h : DoubleArith A) {c1 c2 : V2} (hc : RepCentres c1 c2) (hf : 1 / 2 ^ 470 ≤ Spec.dist c1 c2) :
    |fnorm A (fdiff A c1 c2) - Spec.dist c1 c2| ≤ 6 * (1 / 2 ^ 53) * Spec.dist c1 c2 := by
  have e := fnorm_error h hc.x1 hc.y1 hc.x2 hc.y2
  change |fnorm A (fdiff A c1 c2) - Spec.dist c1 c2| ≤ 5 / 2 ^ 53 * Spec.dist c1 c2 + 2 / 2 ^ 536 at e
  refine e.trans ?_
  have k : (2 : ℝ) / 2 ^ 536 ≤ 1 / 2 ^ 53 * (1 / 2 ^ 470) := by
    have e : (2 : ℝ) ^ 536 = 2 ^ 53 * 2 ^ 470 * 2 ^ 13 := by rw [← pow_add, ← pow_add]
    rw [e]
    have key : ∀ X Y : ℝ, 0 < X → 0 < Y → 2 / (X * Y * 2 ^ 13) ≤ 1 / X * (1 / Y) := by
      intro X Y hX hY
      rw [one_div_mul_one_div, div_le_div_iff₀ (by positivity) (by positivity)]
      have := mul_pos hX hY
      linarith
    exact key _ _ (by positivity) (by positivity)
  have := mul_le_mul_of_nonneg_left hf (show (0 : ℝ) ≤ 1 / 2 ^ 53 by positivity)
  have c : (5 : ℝ) / 2 ^ 53 = 5 * (1 / 2 ^ 53) := by ring
  rw [c]
  linarith

theorem fdir_error (h : DoubleArith A) {c1 c2 : V2} (hc : RepCentres c1 c2) (hf : 1 / 2 ^ 470 ≤ Spec.dist c1 c2) :
    |(fdir A c1 c2).1 - (towards c1 c2).1| ≤ 10 * (1 / 2 ^ 53) ∧ |(fdir A c1 c2).2 - (towards c1 c2).2| ≤ 10 * (1 / 2 ^ 53) := by
  have hL : 0 < Spec.dist c1 c2 := lt_of_lt_of_le (by positivity) hf
  have hN := fnorm_far h hc hf
  have e1 : |(fdiff A c1 c2).1 - (c1.1 - c2.1)| ≤ 1 / 2 ^ 53 * |c1.1 - c2.1| := by
    have := add_error h.nearest hc.x1 (rep_neg hc.x2)
    rwa [← sub_eq_add_neg] at this
  have e2 : |(fdiff A c1 c2).2 - (c1.2 - c2.2)| ≤ 1 / 2 ^ 53 * |c1.2 - c2.2| := by
    have := add_error h.nearest hc.y1 (rep_neg hc.y2)
    rwa [← sub_eq_add_neg] at this
  have q1 := quot_scalar (by positivity) (by norm_num) hL e1 hN (any_error h.nearest _)
  have q2 := quot_scalar (by positivity) (by norm_num) hL e2 hN (any_error h.nearest _)
  have ht : (1 : ℝ) / 2 ^ 1074 ≤ 1 / 2 ^ 53 := one_div_le_one_div_of_le (by positivity) (pow_le_pow_right₀ (by norm_num) (by norm_num))
  have l1 : |c1.1 - c2.1| / Spec.dist c1 c2 ≤ 1 := by rw [div_le_one hL]; exact (abs_le_len (c1 - c2)).1
  have l2 : |c1.2 - c2.2| / Spec.dist c1 c2 ≤ 1 := by rw [div_le_one hL]; exact (abs_le_len (c1 - c2)).2
  have t1 : (towards c1 c2).1 = (c1.1 - c2.1) / Spec.dist c1 c2 := by simp [towards]; ring
  have t2 : (towards c1 c2).2 = (c1.2 - c2.2) / Spec.dist c1 c2 := by simp [towards]; ring
  rw [t1, t2]
  generalize (1 : ℝ) / 2 ^ 1074 = t at *
  have hu : (0 : ℝ) ≤ 1 / 2 ^ 53 := by positivity
  constructor
  · refine q1.trans ?_
    have := mul_le_mul_of_nonneg_left l1 hu
    linarith
  · refine q2.trans ?_
    have := mul_le_mul_of_nonneg_left l2 hu
    linarith

theorem towards_len {c1 c2 : V2} (hL : 0 < Spec.dist c1 c2) : len (towards c1 c2) = 1 := by
  have e : len (towards c1 c2) ^ 2 = 1 := by
    have := len_sq (c1 - c2)
    rw [len_sq]
    simp only [Spec.inner, towards, Prod.smul_fst, Prod.smul_snd, smul_eq_mul] at this ⊢
    have hd : len (c1 - c2) = Spec.dist c1 c2 := rfl
    rw [hd] at this
    field_simp
    linarith
  nlinarith [len_nonneg (towards c1 c2)]

theorem rnd_under (h : DoubleArith A) {x : ℝ} (hx : |x| < 1 / 2 ^ 1075) : A.rnd x = 0 := by
  by_contra h0
  have h1 := (h.nearest x).2 0 rep_zero
  obtain ⟨z, hz⟩ := rep_lattice (h.nearest x).1
  have hp : (2 : ℝ) ^ (-1074 : ℤ) = 2 * (1 / 2 ^ 1075) := by
    rw [zpow_neg, ← one_div, show (1074 : ℤ) = ((1074 : ℕ) : ℤ) from rfl, zpow_natCast, pow_succ (2 : ℝ) 1074]
    have : ∀ X : ℝ, X ≠ 0 → 1 / X = 2 * (1 / (X * 2)) := fun X hX => by field_simp
    exact this _ (by positivity)
  have hz0 : z ≠ 0 := by rintro rfl; simp at hz; exact h0 hz
  have hz1 : (1 : ℝ) ≤ |(z : ℝ)| := by exact_mod_cast Int.one_le_abs hz0
  have h2 : |A.rnd x| ≤ 2 * |x| := by
    rw [zero_sub, abs_neg] at h1
    have := abs_add_le (A.rnd x - x) x
    rw [sub_add_cancel] at this
    linarith
  rw [hz, abs_mul, abs_of_pos (show (0 : ℝ) < 2 ^ (-1074 : ℤ) by positivity), hp] at h2
  have hpos : (0 : ℝ) < 1 / 2 ^ 1075 := by positivity
  generalize (1 : ℝ) / 2 ^ 1075 = e at *
  nlinarith

end LcpPhysics
