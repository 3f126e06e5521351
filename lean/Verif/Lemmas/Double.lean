import Verif.Spec.Double
import Mathlib.Algebra.Order.Field.Power

/-! # Facts about double precision numbers -/

noncomputable section

namespace LcpPhysics.Spec

theorem rep_zero : Rep 0 := ⟨0, 0, by simp, by norm_num, by norm_num⟩

theorem rep_neg {x : ℝ} (h : Rep x) : Rep (-x) := by
  obtain ⟨m, e, rfl, h1, h2⟩ := h
  exact ⟨-m, e, by push_cast; ring, by rwa [abs_neg], h2⟩

/-- `2^53` is a mantissa too, for the next exponent. -/
theorem rep_of_le (m e : ℤ) (h1 : |m| ≤ 2 ^ 53) (h2 : -1074 ≤ e) : Rep (m * (2 : ℝ) ^ e) := by
  rcases lt_or_eq_of_le h1 with h | h
  · exact ⟨m, e, rfl, h, h2⟩
  · refine ⟨m / 2, e + 1, ?_, ?_, by omega⟩
    · have hm : m = 2 * (m / 2) := by
        rcases abs_eq (by norm_num : (0 : ℤ) ≤ 2 ^ 53) |>.1 h with h | h <;> rw [h] <;> norm_num
      rw [zpow_add_one₀ (by norm_num)]
      conv_lhs => rw [hm]
      push_cast
      ring
    · rcases abs_eq (by norm_num : (0 : ℤ) ≤ 2 ^ 53) |>.1 h with h | h <;> rw [h] <;> norm_num

theorem rep_nat (n : ℕ) (h : n ≤ 2 ^ 53) (e : ℤ) (he : -1074 ≤ e) : Rep (n * (2 : ℝ) ^ e) := by
  have := rep_of_le n e (by rw [abs_of_nonneg (by positivity)]; exact_mod_cast h) he
  simpa using this

/-- A double precision number is a multiple of every power of two that is not larger than its size shifted by 53 bits. -/
theorem rep_multiple {y : ℝ} (h : Rep y) (e : ℤ) (he : (2 : ℝ) ^ (e + 52) ≤ |y|) : ∃ k : ℤ, y = k * (2 : ℝ) ^ e := by
  obtain ⟨m, e', rfl, h1, h2⟩ := h
  have hle : e ≤ e' := by
    by_contra hlt
    push Not at hlt
    have hm : |(m : ℝ)| < 2 ^ 53 := by exact_mod_cast h1
    rw [abs_mul, abs_of_pos (by positivity : (0 : ℝ) < 2 ^ e')] at he
    have h3 : (2 : ℝ) ^ e' ≤ 2 ^ (e - 1) := zpow_le_zpow_right₀ (by norm_num) (by omega)
    have h4 : |(m : ℝ)| * 2 ^ e' < 2 ^ 53 * 2 ^ (e - 1) := by
      calc |(m : ℝ)| * 2 ^ e' < 2 ^ 53 * 2 ^ e' := by
            exact mul_lt_mul_of_pos_right hm (by positivity)
        _ ≤ 2 ^ 53 * 2 ^ (e - 1) := by gcongr
    have h5 : (2 : ℝ) ^ 53 * 2 ^ (e - 1) = 2 ^ (e + 52) := by
      rw [← zpow_natCast, ← zpow_add₀ (by norm_num)]
      congr 1
      push_cast
      ring
    linarith
  obtain ⟨d, rfl⟩ := Int.le.dest hle
  refine ⟨m * 2 ^ d, ?_⟩
  rw [zpow_add₀ (by norm_num)]
  push_cast
  rw [zpow_natCast]
  ring

theorem roundEven_near (s : ℝ) (k : ℤ) : |(roundEven s : ℝ) - s| ≤ |(k : ℝ) - s| := by
  have hr := round_le s k
  unfold roundEven
  split_ifs with h1 h2
  · have : |s - round s| = 1 / 2 := by
      rw [abs_sub_round_eq_min, h1]
      norm_num
    rw [this, abs_sub_comm] at hr
    refine le_trans (le_of_eq ?_) hr
    rw [abs_sub_comm, Int.self_sub_floor, h1]
    norm_num
  · have : |s - round s| = 1 / 2 := by
      rw [abs_sub_round_eq_min, h1]
      norm_num
    rw [this, abs_sub_comm] at hr
    refine le_trans (le_of_eq ?_) hr
    have e : ((⌊s⌋ + 1 : ℤ) : ℝ) - s = 1 - Int.fract s := by
      push_cast
      rw [← Int.self_sub_floor]
      ring
    rw [e, h1]
    norm_num
  · rwa [abs_sub_comm, abs_sub_comm (k : ℝ)]

theorem roundEven_half (s : ℝ) : |(roundEven s : ℝ) - s| ≤ 1 / 2 := by
  refine (roundEven_near s (round s)).trans ?_
  rw [abs_sub_comm]
  exact abs_sub_round s

/-- `rne` rounds to nearest. -/
theorem rne_nearest : Nearest rne := by
  intro x
  unfold rne
  split_ifs with h0
  · subst h0
    exact ⟨rep_zero, fun y _ => by simp⟩
  · simp only
    have hx : 0 < |x| := abs_pos.2 h0
    set l := Int.log 2 |x| with hl
    have hlow : (2 : ℝ) ^ l ≤ |x| := by
      have := Int.zpow_log_le_self (b := 2) one_lt_two hx
      exact_mod_cast this
    have hup : |x| < (2 : ℝ) ^ (l + 1) := by
      have := Int.lt_zpow_succ_log_self (b := 2) one_lt_two |x|
      exact_mod_cast this
    set e := max (l - 52) (-1074) with he
    have hp : (0 : ℝ) < 2 ^ e := by positivity
    set s := x / (2 : ℝ) ^ e with hs
    have hxs : x = s * 2 ^ e := by rw [hs]; field_simp
    have hs1 : |s| < 2 ^ 53 := by
      rw [hs, abs_div, abs_of_pos hp, div_lt_iff₀ hp]
      refine hup.trans_le ?_
      rw [← zpow_natCast, ← zpow_add₀ (by norm_num)]
      exact zpow_le_zpow_right₀ (by norm_num) (by have := le_max_left (l - 52) (-1074); push_cast; omega)
    have hn := roundEven_near s
    have hb : |roundEven s| ≤ 2 ^ 53 := by
      have h1 := roundEven_half s
      have h2 : |(roundEven s : ℝ)| < 2 ^ 53 + 1 := by
        have := abs_sub_abs_le_abs_sub (roundEven s : ℝ) s
        linarith
      have h3 : |roundEven s| < 2 ^ 53 + 1 := by exact_mod_cast h2
      omega
    refine ⟨rep_of_le _ _ hb (le_max_right _ _), fun y hy => ?_⟩
    have hscale : ∀ z : ℝ, |z * 2 ^ e - x| = |z - s| * 2 ^ e := by
      intro z
      rw [hxs, ← sub_mul, abs_mul, abs_of_pos hp]
    rw [hscale]
    by_cases hbig : (2 : ℝ) ^ (e + 52) ≤ |y| ∨ e = -1074
    · have hk : ∃ k : ℤ, y = k * (2 : ℝ) ^ e := by
        rcases hbig with h | h
        · exact rep_multiple hy e h
        · obtain ⟨m, e', rfl, -, h2⟩ := hy
          obtain ⟨d, rfl⟩ := Int.le.dest (h ▸ h2)
          refine ⟨m * 2 ^ d, ?_⟩
          rw [zpow_add₀ (by norm_num)]
          push_cast
          rw [zpow_natCast]
          ring
      obtain ⟨k, rfl⟩ := hk
      rw [hscale]
      exact mul_le_mul_of_nonneg_right (hn k) hp.le
    · push Not at hbig
      obtain ⟨h1, h2⟩ := hbig
      have hel : e = l - 52 := by
        rcases max_choice (l - 52) (-1074) with h | h
        · exact h
        · exact absurd h h2
      have hs2 : 2 ^ 52 ≤ |s| := by
        rw [hs, abs_div, abs_of_pos hp, le_div_iff₀ hp]
        refine le_trans (le_of_eq ?_) hlow
        rw [← zpow_natCast, ← zpow_add₀ (by norm_num)]
        congr 1
        push_cast
        omega
      have hy2 : |y / 2 ^ e| < 2 ^ 52 := by
        rw [abs_div, abs_of_pos hp, div_lt_iff₀ hp]
        refine h1.trans_eq ?_
        rw [← zpow_natCast, ← zpow_add₀ (by norm_num)]
        congr 1
        push_cast
        ring
      have hyy : y = y / 2 ^ e * 2 ^ e := by field_simp
      rw [hyy, hscale]
      refine mul_le_mul_of_nonneg_right ?_ hp.le
      generalize y / 2 ^ e = z at hy2
      rw [abs_lt] at hy2
      rcases le_abs.1 hs2 with h | h
      · have := hn (2 ^ 52)
        push_cast at this
        refine this.trans ?_
        rw [abs_of_nonpos (by linarith), abs_of_neg (by linarith)]
        linarith
      · have := hn (-2 ^ 52)
        push_cast at this
        refine this.trans ?_
        rw [abs_of_nonneg (by linarith), abs_of_pos (by linarith)]
        linarith

variable {rnd : ℝ → ℝ} (hr : Nearest rnd)
include hr

theorem nearest_id {x : ℝ} (h : Rep x) : rnd x = x := by
  have := (hr x).2 x h
  simp only [sub_self, abs_zero] at this
  have := abs_nonpos_iff.1 this
  linarith

theorem nearest_mono {x y : ℝ} (h : x ≤ y) : rnd x ≤ rnd y := by
  rcases eq_or_lt_of_le h with rfl | h
  · exact le_rfl
  by_contra hc
  push Not at hc
  have h1 := (hr x).2 _ (hr y).1
  have h2 := (hr y).2 _ (hr x).1
  generalize rnd x = a at *
  generalize rnd y = b at *
  rcases abs_cases (a - x) with ⟨e1, _⟩ | ⟨e1, _⟩ <;> rcases abs_cases (b - x) with ⟨e2, _⟩ | ⟨e2, _⟩ <;>
    rcases abs_cases (b - y) with ⟨e3, _⟩ | ⟨e3, _⟩ <;> rcases abs_cases (a - y) with ⟨e4, _⟩ | ⟨e4, _⟩ <;>
    rw [e1, e2] at h1 <;> rw [e3, e4] at h2 <;> linarith

theorem nearest_zero : rnd 0 = 0 := nearest_id hr rep_zero

omit hr

/-- Near every multiple of the smallest number there is a double precision number. -/
theorem near_rep (x : ℝ) (hx : ∃ z : ℤ, x = z * (2 : ℝ) ^ (-1074 : ℤ)) : ∃ y, Rep y ∧ |y - x| ≤ 1 / 2 ^ 53 * |x| := by
  by_cases h0 : x = 0
  · exact ⟨0, rep_zero, by simp [h0]⟩
  have hpos : 0 < |x| := abs_pos.2 h0
  set l := Int.log 2 |x| with hl
  have hlow : (2 : ℝ) ^ l ≤ |x| := by
    have := Int.zpow_log_le_self (b := 2) one_lt_two hpos
    exact_mod_cast this
  have hup : |x| < (2 : ℝ) ^ (l + 1) := by
    have := Int.lt_zpow_succ_log_self (b := 2) one_lt_two |x|
    exact_mod_cast this
  by_cases he : l - 52 ≤ -1074
  · obtain ⟨z, rfl⟩ := hx
    refine ⟨_, rep_of_le z (-1074) ?_ le_rfl, by simp⟩
    have hp : (0 : ℝ) < 2 ^ (-1074 : ℤ) := by positivity
    rw [abs_mul, abs_of_pos hp] at hup
    have h2 : (2 : ℝ) ^ (l + 1) ≤ 2 ^ 53 * 2 ^ (-1074 : ℤ) := by
      rw [← zpow_natCast, ← zpow_add₀ (by norm_num)]
      exact zpow_le_zpow_right₀ (by norm_num) (by push_cast; omega)
    have h3 : |(z : ℝ)| < 2 ^ 53 := lt_of_mul_lt_mul_right (hup.trans_le h2) hp.le
    have h4 : |z| < 2 ^ 53 := by exact_mod_cast h3
    exact h4.le
  · push Not at he
    have hp : (0 : ℝ) < 2 ^ (l - 52) := by positivity
    set s := x / (2 : ℝ) ^ (l - 52) with hs
    have hxs : x = s * 2 ^ (l - 52) := by rw [hs]; field_simp
    have hs1 : |s| < 2 ^ 53 := by
      rw [hs, abs_div, abs_of_pos hp, div_lt_iff₀ hp]
      refine hup.trans_le (le_of_eq ?_)
      rw [← zpow_natCast, ← zpow_add₀ (by norm_num)]
      congr 1
      push_cast
      ring
    have hb : |roundEven s| ≤ 2 ^ 53 := by
      have h1 := roundEven_half s
      have h2 : |(roundEven s : ℝ)| < 2 ^ 53 + 1 := by
        have := abs_sub_abs_le_abs_sub (roundEven s : ℝ) s
        linarith
      have h3 : |roundEven s| < 2 ^ 53 + 1 := by exact_mod_cast h2
      omega
    refine ⟨_, rep_of_le (roundEven s) (l - 52) hb he.le, ?_⟩
    have h1 := roundEven_half s
    have e1 : (roundEven s : ℝ) * 2 ^ (l - 52) - x = (roundEven s - s) * 2 ^ (l - 52) := by
      conv_lhs => rw [hxs]
      ring
    rw [e1, abs_mul, abs_of_pos hp]
    have e2 : (2 : ℝ) ^ (l - 52) = 1 / 2 ^ 52 * 2 ^ l := by
      rw [zpow_sub₀ (by norm_num)]
      norm_num
      ring
    calc |(roundEven s : ℝ) - s| * 2 ^ (l - 52) ≤ 1 / 2 * 2 ^ (l - 52) := by gcongr
      _ = 1 / 2 ^ 53 * 2 ^ l := by rw [e2]; ring
      _ ≤ 1 / 2 ^ 53 * |x| := by gcongr

theorem rep_lattice {x : ℝ} (h : Rep x) : ∃ z : ℤ, x = z * (2 : ℝ) ^ (-1074 : ℤ) := by
  obtain ⟨m, e, rfl, -, h2⟩ := h
  obtain ⟨d, rfl⟩ := Int.le.dest h2
  refine ⟨m * 2 ^ d, ?_⟩
  rw [zpow_add₀ (by norm_num)]
  push_cast
  rw [zpow_natCast]
  ring

/-- The relative error of a sum. -/
theorem add_error (hr : Nearest rnd) {a b : ℝ} (ha : Rep a) (hb : Rep b) : |rnd (a + b) - (a + b)| ≤ 1 / 2 ^ 53 * |a + b| := by
  obtain ⟨z1, h1⟩ := rep_lattice ha
  obtain ⟨z2, h2⟩ := rep_lattice hb
  obtain ⟨y, hy, h⟩ := near_rep (a + b) ⟨z1 + z2, by rw [h1, h2]; push_cast; ring⟩
  exact ((hr _).2 y hy).trans h

/-- Sterbenz: the difference of two numbers that are not more than a factor of two apart is exact. -/
theorem rep_sub {x y : ℝ} (hx : Rep x) (hy : Rep y) (h1 : y ≤ 2 * x) (h2 : x ≤ y) : Rep (y - x) := by
  have hx0 : 0 ≤ x := by linarith
  have hy0 : 0 ≤ y := by linarith
  obtain ⟨m, e, rfl, hm, he⟩ := hx
  obtain ⟨n, f, rfl, hn, hf⟩ := hy
  rcases le_total e f with h | h
  · obtain ⟨d, rfl⟩ := Int.le.dest h
    have hp : (0 : ℝ) < 2 ^ e := by positivity
    have e1 : (n : ℝ) * 2 ^ (e + d) - m * 2 ^ e = ((n * 2 ^ d - m : ℤ) : ℝ) * 2 ^ e := by
      rw [zpow_add₀ (by norm_num), zpow_natCast]; push_cast; ring
    rw [e1]
    refine rep_of_le _ _ ?_ he
    have e2 : ((n * 2 ^ d - m : ℤ) : ℝ) * 2 ^ e ≤ m * 2 ^ e := by rw [← e1]; linarith
    have e3 : (0 : ℝ) * 2 ^ e ≤ ((n * 2 ^ d - m : ℤ) : ℝ) * 2 ^ e := by rw [← e1]; linarith
    have e4 : n * 2 ^ d - m ≤ m := by exact_mod_cast le_of_mul_le_mul_right e2 hp
    have e5 : 0 ≤ n * 2 ^ d - m := by exact_mod_cast le_of_mul_le_mul_right e3 hp
    rw [abs_of_nonneg e5]
    have := le_abs_self m
    omega
  · obtain ⟨d, rfl⟩ := Int.le.dest h
    have hp : (0 : ℝ) < 2 ^ f := by positivity
    have e1 : (n : ℝ) * 2 ^ f - m * 2 ^ (f + d) = ((n - m * 2 ^ d : ℤ) : ℝ) * 2 ^ f := by
      rw [zpow_add₀ (by norm_num), zpow_natCast]; push_cast; ring
    rw [e1]
    refine rep_of_le _ _ ?_ hf
    have e2 : ((n - m * 2 ^ d : ℤ) : ℝ) * 2 ^ f ≤ n * 2 ^ f := by rw [← e1]; linarith
    have e3 : (0 : ℝ) * 2 ^ f ≤ ((n - m * 2 ^ d : ℤ) : ℝ) * 2 ^ f := by rw [← e1]; linarith
    have e4 : n - m * 2 ^ d ≤ n := by exact_mod_cast le_of_mul_le_mul_right e2 hp
    have e5 : 0 ≤ n - m * 2 ^ d := by exact_mod_cast le_of_mul_le_mul_right e3 hp
    rw [abs_of_nonneg e5]
    have := le_abs_self n
    omega

end LcpPhysics.Spec
