import Verif.Lemmas.Rounded
import Verif.Spec.RoundedWorld

/-! # Lemmas on circles in double precision -/

noncomputable section

namespace LcpPhysics
open Spec Rounded

variable {A : Arith}

/-! ## The length of a vector -/

theorem len_of_parts {v w : V2} {u : ℝ} (hu : 0 ≤ u) (h1 : |v.1| ≤ u * |w.1|) (h2 : |v.2| ≤ u * |w.2|) : len v ≤ u * len w := by
  have h0 := len_nonneg w
  apply abs_le_of_sq_le_sq' _ (by positivity) |>.2
  rw [mul_pow, len_sq, len_sq]
  simp only [Spec.inner]
  have k1 := pow_le_pow_left₀ (abs_nonneg _) h1 2
  have k2 := pow_le_pow_left₀ (abs_nonneg _) h2 2
  rw [mul_pow, sq_abs, sq_abs] at k1 k2
  nlinarith

theorem root_scalar {q L u t s : ℝ} (hq : 0 ≤ q) (hL : 0 ≤ L) (hu : 0 ≤ u) (hu1 : u ≤ 1 / 100) (hs : 0 ≤ s) (hst : 3 * t ≤ s ^ 2)
    (h : |q - L ^ 2| ≤ (2 * u + u ^ 2) * L ^ 2 + 3 * t) : |Real.sqrt q - L| ≤ 2 * u * L + s := by
  obtain ⟨h1, h2⟩ := abs_le.mp h
  have hr := Real.sqrt_nonneg q
  have hsq := Real.sq_sqrt hq
  set r := Real.sqrt q
  rw [abs_le]
  constructor
  · have : (1 - 2 * u) * L ≤ r + s := by
      apply abs_le_of_sq_le_sq' _ (by positivity) |>.2
      have : (1 - 2 * u) ^ 2 ≤ 1 - (2 * u + u ^ 2) := by nlinarith
      have := mul_le_mul_of_nonneg_right this (sq_nonneg L)
      rw [mul_pow]
      nlinarith [mul_nonneg hr hs]
    linarith
  · have : r ≤ (1 + u) * L + s := by
      apply abs_le_of_sq_le_sq' _ (by positivity) |>.2
      have : 0 ≤ (1 + u) * L * s := by positivity
      nlinarith
    nlinarith

theorem fnorm_scalar {u L L' r N s t : ℝ} (hu : 0 ≤ u) (hu1 : u ≤ 1 / 100) (hL : 0 ≤ L) (hL' : 0 ≤ L') (hr : 0 ≤ r) (hs : 0 ≤ s) (hts : t ≤ s / 2)
    (h1 : |L' - L| ≤ u * L) (h2 : |r - L'| ≤ 2 * u * L' + s) (h3 : |N - r| ≤ u * r + t) : |N - L| ≤ 5 * u * L + 2 * s := by
  have a1 := abs_le.mp h1
  have a2 := abs_le.mp h2
  have e1 : |N - L| ≤ |N - r| + |r - L'| + |L' - L| := by
    have := abs_sub_le N r L
    have := abs_sub_le r L' L
    linarith
  have b1 : u * L ≤ 1 / 100 * L := mul_le_mul_of_nonneg_right hu1 hL
  have b2 : L' ≤ 101 / 100 * L := by linarith
  have b3 : u * L' ≤ u * (101 / 100 * L) := mul_le_mul_of_nonneg_left b2 hu
  have b5 : u * L' ≤ 1 / 100 * L' := mul_le_mul_of_nonneg_right hu1 hL'
  have b4 : r ≤ 11 / 10 * L + s := by linarith
  have b6 : u * r ≤ u * (11 / 10 * L) + u * s := by nlinarith
  have b7 : u * s ≤ 1 / 100 * s := mul_le_mul_of_nonneg_right hu1 hs
  have b8 : 0 ≤ u * L := by positivity
  linarith

theorem fnorm_error (h : DoubleArith A) {x1 y1 x2 y2 : ℝ} (k1 : Rep x1) (k2 : Rep y1) (k3 : Rep x2) (k4 : Rep y2) :
    |fnorm A (A.rnd (x1 - x2), A.rnd (y1 - y2)) - len ((x1, y1) - (x2, y2))| ≤ 5 / 2 ^ 53 * len ((x1, y1) - (x2, y2)) + 2 / 2 ^ 536 := by
  have e1 : |A.rnd (x1 - x2) - (x1 - x2)| ≤ 1 / 2 ^ 53 * |x1 - x2| := by
    have := add_error h.nearest k1 (rep_neg k3)
    rwa [← sub_eq_add_neg] at this
  have e2 : |A.rnd (y1 - y2) - (y1 - y2)| ≤ 1 / 2 ^ 53 * |y1 - y2| := by
    have := add_error h.nearest k2 (rep_neg k4)
    rwa [← sub_eq_add_neg] at this
  set d : V2 := (x1, y1) - (x2, y2) with hd
  set a := A.rnd (x1 - x2)
  set b := A.rnd (y1 - y2)
  have hdiff : len ((a, b) - d) ≤ 1 / 2 ^ 53 * len d := len_of_parts (by positivity) e1 e2
  have e3 := dot_error h.nearest a b a b
  have hL2 : len ((a, b) : V2) ^ 2 = a * a + b * b := by rw [len_sq]; simp [Spec.inner]
  unfold fnorm
  simp only
  set q := A.rnd (A.rnd (a * a) + A.rnd (b * b)) with hq
  have q1 : 0 ≤ A.rnd (a * a) := by
    have := nearest_mono h.nearest (mul_self_nonneg a)
    rwa [nearest_zero h.nearest] at this
  have q2 : 0 ≤ A.rnd (b * b) := by
    have := nearest_mono h.nearest (mul_self_nonneg b)
    rwa [nearest_zero h.nearest] at this
  have q0 : 0 ≤ q := by
    have := nearest_mono h.nearest (add_nonneg q1 q2)
    rwa [nearest_zero h.nearest] at this
  have e4 := any_error h.nearest (Real.sqrt q)
  rw [abs_of_nonneg (Real.sqrt_nonneg q)] at e4
  rw [abs_of_nonneg (mul_self_nonneg a), abs_of_nonneg (mul_self_nonneg b), ← hL2] at e3
  have hl : |len ((a, b) : V2) - len d| ≤ 1 / 2 ^ 53 * len d := by
    refine le_trans ?_ hdiff
    rw [abs_le]
    constructor
    · have := len_add_le ((a, b) : V2) (d - (a, b))
      rw [add_sub_cancel] at this
      have e : len (d - (a, b)) = len ((a, b) - d) := by rw [← len_neg, neg_sub]
      linarith
    · have := len_add_le d ((a, b) - d)
      rw [add_sub_cancel] at this
      linarith
  have hu : (1 : ℝ) / 2 ^ 53 ≤ 1 / 100 := by norm_num
  have hu0 : (0 : ℝ) ≤ 1 / 2 ^ 53 := by positivity
  have hst : 3 * (1 / 2 ^ 1074) ≤ ((1 : ℝ) / 2 ^ 536) ^ 2 := by
    have : (2 : ℝ) ^ 1074 = (2 ^ 536) ^ 2 * 4 := by
      rw [← pow_mul, show (4 : ℝ) = 2 ^ 2 by norm_num, ← pow_add]
    rw [this]
    generalize (2 : ℝ) ^ 536 = X
    rw [div_pow, one_pow, ← div_div]
    have : (0 : ℝ) ≤ 1 / X ^ 2 := by positivity
    linarith
  have hts : (1 : ℝ) / 2 ^ 1074 ≤ 1 / 2 ^ 536 / 2 := by
    rw [div_div, ← pow_succ]
    exact one_div_le_one_div_of_le (by positivity) (pow_le_pow_right₀ (by norm_num) (by norm_num))
  have c1 : (2 : ℝ) / 2 ^ 53 + 1 / 2 ^ 106 = 2 * (1 / 2 ^ 53) + (1 / 2 ^ 53) ^ 2 := by norm_num
  have c2 : (3 : ℝ) / 2 ^ 1074 = 3 * (1 / 2 ^ 1074) := by ring
  have c3 : (5 : ℝ) / 2 ^ 53 = 5 * (1 / 2 ^ 53) := by norm_num
  have c4 : (2 : ℝ) / 2 ^ 536 = 2 * (1 / 2 ^ 536) := by ring
  rw [c1, c2] at e3
  rw [c3, c4]
  have hs0 : (0 : ℝ) ≤ 1 / 2 ^ 536 := by positivity
  generalize (1 : ℝ) / 2 ^ 53 = u at *
  generalize (1 : ℝ) / 2 ^ 1074 = t at *
  generalize (1 : ℝ) / 2 ^ 536 = s at *
  have r1 := root_scalar q0 (len_nonneg _) hu0 hu hs0 hst e3
  exact fnorm_scalar hu0 hu (len_nonneg _) (len_nonneg _) (Real.sqrt_nonneg q) hs0 hts hl r1 e4

theorem pen_scalar {u R R' L N P s : ℝ} (hu : 0 ≤ u) (hu1 : u ≤ 1 / 100) (hR : 0 ≤ R) (hL : 0 ≤ L) (hs : 0 ≤ s)
    (h1 : |R' - R| ≤ u * R) (h2 : |N - L| ≤ 5 * u * L + s) (h3 : |P - (R' - N)| ≤ u * |R' - N|) :
    |P - (R - L)| ≤ 7 * u * (R + L) + 2 * s := by
  have a1 := abs_le.mp h1
  have a2 := abs_le.mp h2
  have e1 : |P - (R - L)| ≤ |P - (R' - N)| + |R' - R| + |N - L| := by
    have : P - (R - L) = (P - (R' - N)) + (R' - R) - (N - L) := by ring
    rw [this]
    refine (abs_sub _ _).trans ?_
    have := abs_add_le (P - (R' - N)) (R' - R)
    linarith
  have b1 : u * R ≤ 1 / 100 * R := mul_le_mul_of_nonneg_right hu1 hR
  have b2 : u * L ≤ 1 / 100 * L := mul_le_mul_of_nonneg_right hu1 hL
  have b0 : 0 ≤ u * R := by positivity
  have b9 : 0 ≤ u * L := by positivity
  have b3 : |R' - N| ≤ 11 / 10 * R + 11 / 10 * L + s := by
    rw [abs_le]; constructor <;> linarith
  have b4 : u * |R' - N| ≤ u * (11 / 10 * R + 11 / 10 * L + s) := mul_le_mul_of_nonneg_left b3 hu
  have b5 : u * s ≤ 1 / 100 * s := mul_le_mul_of_nonneg_right hu1 hs
  nlinarith

/-- The computed penetration. -/
theorem circlePen_error (h : DoubleArith A) {r1 r2 : ℝ} {p1 p2 : V2} (hr1 : Rep r1) (hr2 : Rep r2) (hr : 0 ≤ r1 + r2)
    (k1 : Rep p1.1) (k2 : Rep p1.2) (k3 : Rep p2.1) (k4 : Rep p2.2) :
    |circlePen A r1 r2 p1 p2 - (r1 + r2 - Spec.dist p1 p2)| ≤ 7 / 2 ^ 53 * (r1 + r2 + Spec.dist p1 p2) + 1 / 2 ^ 530 := by
  have e1 := add_error h.nearest hr1 hr2
  rw [abs_of_nonneg hr] at e1
  have e2 := fnorm_error h k1 k2 k3 k4
  have e3 := add_error h.nearest (h.nearest (r1 + r2)).1 (rep_neg (h.nearest (Real.sqrt (A.rnd (A.rnd (A.rnd (p1.1 - p2.1) * A.rnd (p1.1 - p2.1)) +
    A.rnd (A.rnd (p1.2 - p2.2) * A.rnd (p1.2 - p2.2)))))).1)
  rw [← sub_eq_add_neg] at e3
  have e2' : |fnorm A (A.rnd (p1.1 - p2.1), A.rnd (p1.2 - p2.2)) - Spec.dist p1 p2| ≤ 5 * (1 / 2 ^ 53) * Spec.dist p1 p2 + 2 / 2 ^ 536 := by
    have : (5 : ℝ) * (1 / 2 ^ 53) = 5 / 2 ^ 53 := by norm_num
    rw [this]
    exact e2
  have := pen_scalar (by positivity) (by norm_num) hr (len_nonneg _) (by positivity) e1 e2' e3
  refine this.trans ?_
  have c1 : (7 : ℝ) * (1 / 2 ^ 53) = 7 / 2 ^ 53 := by norm_num
  have c2 : 2 * ((2 : ℝ) / 2 ^ 536) ≤ 1 / 2 ^ 530 := by
    have : (2 : ℝ) ^ 536 = 2 ^ 530 * 64 := by rw [show (536 : ℕ) = 530 + 6 from rfl, pow_add]; norm_num
    rw [this]
    have key : ∀ X : ℝ, 0 < X → 2 * (2 / (X * 64)) ≤ 1 / X := by
      intro X hX
      rw [← mul_div_assoc, div_le_div_iff₀ (by positivity) hX]
      linarith
    exact key _ (by positivity)
  rw [c1]
  exact add_le_add_right c2 _

/-! ## Small displacements are lost -/

/-- A displacement below a quarter of the spacing does not move a number. -/
theorem rnd_stall {rnd : ℝ → ℝ} (hr : Nearest rnd) {x d : ℝ} (hx : Rep x) (h : |d| ≤ 1 / 2 ^ 55 * |x|) : rnd (x + d) = x := by
  by_cases h0 : x = 0
  · subst h0
    rw [abs_zero, mul_zero] at h
    rw [abs_nonpos_iff.mp h, add_zero]
    exact nearest_zero hr
  have hpos : 0 < |x| := abs_pos.mpr h0
  set y := rnd (x + d) with hy
  have hyr : Rep y := (hr _).1
  have h1 : |y - (x + d)| ≤ |d| := by
    have := (hr (x + d)).2 x hx
    rwa [show x - (x + d) = -d by ring, abs_neg] at this
  have h2 : |y - x| ≤ 1 / 2 ^ 54 * |x| := by
    have e : y - x = (y - (x + d)) + d := by ring
    rw [e]
    have := abs_add_le (y - (x + d)) d
    have e2 : (1 : ℝ) / 2 ^ 54 * |x| = 1 / 2 ^ 55 * |x| + 1 / 2 ^ 55 * |x| := by ring
    linarith
  set e := Int.log 2 |x| with he
  have l1 : (2 : ℝ) ^ e ≤ |x| := by
    have := Int.zpow_log_le_self (b := 2) (by norm_num) hpos
    exact_mod_cast this
  have l2 : |x| < (2 : ℝ) ^ (e + 1) := by
    have := Int.lt_zpow_succ_log_self (b := 2) (by norm_num) |x|
    exact_mod_cast this
  have hp : (0 : ℝ) < 2 ^ e := by positivity
  have m1 : (2 : ℝ) ^ ((e - 53) + 52) ≤ |x| := by
    refine le_trans (zpow_le_zpow_right₀ (by norm_num) (by omega)) l1
  have m2 : (2 : ℝ) ^ ((e - 53) + 52) ≤ |y| := by
    have : (2 : ℝ) ^ ((e - 53) + 52) = 2 ^ e / 2 := by
      rw [show (e - 53) + 52 = e - 1 by ring, zpow_sub_one₀ (by norm_num)]; ring
    rw [this]
    have h3 := abs_sub_abs_le_abs_sub x y
    rw [abs_sub_comm] at h3
    have h4 : (1 : ℝ) / 2 ^ 54 * |x| ≤ 1 / 2 * |x| := mul_le_mul_of_nonneg_right (by norm_num) hpos.le
    linarith
  obtain ⟨a, ha⟩ := rep_multiple hx (e - 53) m1
  obtain ⟨b, hb⟩ := rep_multiple hyr (e - 53) m2
  have hq : (0 : ℝ) < 2 ^ (e - 53) := by positivity
  have h5 : |y - x| < (2 : ℝ) ^ (e - 53) := by
    refine lt_of_le_of_lt h2 ?_
    have e1 : (2 : ℝ) ^ (e - 53) = 1 / 2 ^ 54 * 2 ^ (e + 1) := by
      rw [show e - 53 = (e + 1) + (-54) by ring, zpow_add₀ (by norm_num)]
      norm_num
      ring
    rw [e1]
    exact mul_lt_mul_of_pos_left l2 (by positivity)
  have h6 : ((|b - a| : ℤ) : ℝ) < 1 := by
    have e1 : y - x = ((b - a : ℤ) : ℝ) * 2 ^ (e - 53) := by rw [ha, hb]; push_cast; ring
    rw [e1, abs_mul, abs_of_pos hq] at h5
    rw [Int.cast_abs]
    by_contra hc
    push Not at hc
    nlinarith
  have h7 : |b - a| < 1 := by exact_mod_cast h6
  have h8 := Int.abs_lt_one_iff.mp h7
  have h9 : b = a := by omega
  rw [hb, ha, h9]

/-- A coordinate that is moved by less than that. -/
theorem coordinate_stall {rnd : ℝ → ℝ} (hr : Nearest rnd) {x v d : ℝ} (hx : Rep x)
    (h : v = 0 ∨ (1 / 2 ^ 900 ≤ |x| ∧ |v| * d ≤ 1 / 2 ^ 56 * |x|)) (hd : 0 ≤ d) : rnd (x + rnd (v * d)) = x := by
  rcases h with rfl | ⟨h1, h2⟩
  · rw [zero_mul, nearest_zero hr, add_zero, nearest_id hr hx]
  · apply rnd_stall hr hx
    have e := any_error hr (v * d)
    rw [abs_mul, abs_of_nonneg hd] at e
    have h3 : |rnd (v * d)| ≤ |rnd (v * d) - v * d| + |v| * d := by
      have := abs_add_le (rnd (v * d) - v * d) (v * d)
      rw [sub_add_cancel, abs_mul v d, abs_of_nonneg hd] at this
      exact this
    have h4 : (1 : ℝ) / 2 ^ 53 * (|v| * d) ≤ 1 / 4 * (1 / 2 ^ 56 * |x|) := by
      have := mul_le_mul_of_nonneg_left h2 (by positivity : (0 : ℝ) ≤ 1 / 2 ^ 53)
      have h0 : 0 ≤ 1 / 2 ^ 56 * |x| := mul_nonneg (by norm_num) (abs_nonneg x)
      have := mul_le_mul_of_nonneg_right (by norm_num : (1 : ℝ) / 2 ^ 53 ≤ 1 / 4) h0
      linarith
    have h5 : (1 : ℝ) / 2 ^ 1074 ≤ 1 / 4 * (1 / 2 ^ 56 * |x|) := by
      have e1 : (1 : ℝ) / 2 ^ 1074 = 1 / 2 ^ 174 * (1 / 2 ^ 900) := by
        rw [one_div_mul_one_div, ← pow_add]
      rw [e1]
      have := mul_le_mul_of_nonneg_left h1 (by positivity : (0 : ℝ) ≤ 1 / 2 ^ 174)
      have e2 : (1 : ℝ) / 2 ^ 174 * |x| ≤ 1 / 4 * (1 / 2 ^ 56) * |x| := mul_le_mul_of_nonneg_right (by norm_num) (abs_nonneg _)
      linarith
    have e3 : (1 : ℝ) / 2 ^ 55 * |x| = 2 * (1 / 2 ^ 56 * |x|) := by ring
    have h0 : 0 ≤ 1 / 2 ^ 56 * |x| := mul_nonneg (by norm_num) (abs_nonneg x)
    linarith

/-- Halving the smallest number gives zero, with ties to even. -/
theorem rne_tiny : TinyToZero rne := by
  unfold TinyToZero
  have e : (1 : ℝ) / 2 ^ 1075 = 2 ^ (-1075 : ℤ) := by rw [zpow_neg, one_div]; norm_cast
  rw [e]
  have hl : Int.log 2 |(2 : ℝ) ^ (-1075 : ℤ)| = -1075 := by
    rw [abs_of_pos (by positivity)]
    exact_mod_cast Int.log_zpow (R := ℝ) (b := 2) (by norm_num) (-1075)
  unfold rne
  rw [if_neg (by positivity), hl]
  simp only
  rw [show max (-1075 - 52 : ℤ) (-1074) = -1074 by norm_num]
  have h2 : (2 : ℝ) ^ (-1075 : ℤ) / 2 ^ (-1074 : ℤ) = 1 / 2 := by
    rw [← zpow_sub₀ (by norm_num)]; norm_num
  rw [h2]
  have : roundEven (1 / 2) = 0 := by
    have hf : ⌊(1 : ℝ) / 2⌋ = 0 := by norm_num
    have hfr : Int.fract ((1 : ℝ) / 2) = 1 / 2 := by rw [Int.fract, hf]; norm_num
    unfold roundEven
    rw [if_pos hfr, hf, if_pos (by decide)]
  rw [this]
  simp

end LcpPhysics
