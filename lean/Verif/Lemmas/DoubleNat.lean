import Verif.Lemmas.Double
import Mathlib.Data.Nat.Log

/-!
# Round to nearest even of multiples of 2^-57, in integers
-/

noncomputable section

namespace LcpPhysics.Spec

/-- The natural number rounded to 53 bits, ties to even. -/
def roundNat (s : ℕ) : ℕ :=
  let u := 2 ^ (Nat.log2 s - 52)
  if 2 * (s % u) < u ∨ (2 * (s % u) = u ∧ (s / u) % 2 = 0) then s / u * u else (s / u + 1) * u

theorem roundEven_div (s u : ℕ) (hu : 0 < u) : roundEven ((s : ℝ) / u) =
    if 2 * (s % u) < u ∨ (2 * (s % u) = u ∧ (s / u) % 2 = 0) then ((s / u : ℕ) : ℤ) else ((s / u : ℕ) : ℤ) + 1 := by
  have hu' : (0 : ℝ) < u := by exact_mod_cast hu
  have hs : (s : ℝ) = u * ((s / u : ℕ) : ℝ) + ((s % u : ℕ) : ℝ) := by exact_mod_cast (Nat.div_add_mod s u).symm
  have hr : ((s % u : ℕ) : ℝ) < u := by exact_mod_cast Nat.mod_lt s hu
  have hr0 : (0 : ℝ) ≤ ((s % u : ℕ) : ℝ) := Nat.cast_nonneg _
  set q := s / u
  set r := s % u
  have hx : (s : ℝ) / u = q + r / u := by rw [hs]; field_simp
  have hf : ⌊(s : ℝ) / u⌋ = (q : ℤ) := by
    rw [Int.floor_eq_iff, hx]
    push_cast
    constructor
    · have : (0 : ℝ) ≤ r / u := by positivity
      linarith
    · have : (r : ℝ) / u < 1 := by rw [div_lt_one hu']; exact hr
      linarith
  have hfr : Int.fract ((s : ℝ) / u) = r / u := by
    unfold Int.fract
    rw [hf, hx]
    push_cast
    ring
  unfold roundEven
  rw [hfr, hf]
  rcases lt_trichotomy (2 * r) u with h | h | h
  · have h' : 2 * (r : ℝ) < u := by exact_mod_cast h
    have h2 : (r : ℝ) / u < 1 / 2 := by rw [div_lt_div_iff₀ hu' (by norm_num)]; linarith
    rw [if_neg h2.ne, if_pos (Or.inl h), round_eq, Int.floor_eq_iff, hx]
    push_cast
    have : (0 : ℝ) ≤ r / u := by positivity
    constructor <;> linarith
  · have h' : 2 * (r : ℝ) = u := by exact_mod_cast h
    have h2 : (r : ℝ) / u = 1 / 2 := by rw [div_eq_div_iff hu'.ne' (by norm_num)]; linarith
    rw [if_pos h2]
    by_cases he : q % 2 = 0
    · rw [if_pos (Or.inr ⟨h, he⟩), if_pos (by rw [Int.even_iff]; omega)]
    · rw [if_neg (show ¬ Even (q : ℤ) by rw [Int.even_iff]; omega), if_neg (by omega)]
  · have h' : (u : ℝ) < 2 * r := by exact_mod_cast h
    have h2 : 1 / 2 < (r : ℝ) / u := by rw [div_lt_div_iff₀ (by norm_num) hu']; linarith
    have h3 : (r : ℝ) / u < 1 := by rw [div_lt_one hu']; exact hr
    rw [if_neg h2.ne', if_neg (by omega), round_eq, Int.floor_eq_iff, hx]
    push_cast
    constructor <;> linarith

theorem rne_nat (s : ℕ) : rne (s * (2 : ℝ) ^ (-57 : ℤ)) = roundNat s * (2 : ℝ) ^ (-57 : ℤ) := by
  by_cases h0 : s = 0
  · subst h0
    simp [roundNat, rne]
  by_cases hl : Nat.log2 s ≤ 52
  · have hrn : roundNat s = s := by
      unfold roundNat
      simp [Nat.sub_eq_zero_of_le hl, Nat.mod_one]
    rw [hrn]
    refine nearest_id rne_nearest (rep_nat s ?_ _ (by norm_num))
    have := (Nat.log2_lt h0).1 (show Nat.log2 s < 53 by omega)
    exact this.le
  · obtain ⟨k, hk⟩ : ∃ k, Nat.log2 s = k + 52 := ⟨Nat.log2 s - 52, by omega⟩
    have hlo : 2 ^ (k + 52) ≤ s := by rw [← hk]; exact Nat.log2_self_le h0
    have hhi : s < 2 ^ (k + 53) := (Nat.log2_lt h0).1 (by omega)
    have hpos : (0 : ℝ) < s * (2 : ℝ) ^ (-57 : ℤ) := by
      have : (0 : ℝ) < s := by exact_mod_cast Nat.pos_of_ne_zero h0
      positivity
    have hlog : Int.log 2 |(s : ℝ) * (2 : ℝ) ^ (-57 : ℤ)| = (k : ℤ) - 5 := by
      rw [abs_of_pos hpos]
      refine le_antisymm ?_ ?_
      · have : Int.log 2 ((s : ℝ) * (2 : ℝ) ^ (-57 : ℤ)) < (k : ℤ) - 4 := by
          rw [← Int.lt_zpow_iff_log_lt (by norm_num) hpos]
          have h1 : (s : ℝ) < 2 ^ (k + 53) := by exact_mod_cast hhi
          have : (((2 : ℕ) : ℝ)) ^ ((k : ℤ) - 4) = 2 ^ (k + 53) * (2 : ℝ) ^ (-57 : ℤ) := by
            rw [← zpow_natCast, ← zpow_add₀ (by norm_num)]
            push_cast
            congr 1
            ring
          rw [this]
          gcongr
        omega
      · rw [← Int.zpow_le_iff_le_log (by norm_num) hpos]
        have h1 : (2 : ℝ) ^ (k + 52) ≤ s := by exact_mod_cast hlo
        have : (((2 : ℕ) : ℝ)) ^ ((k : ℤ) - 5) = 2 ^ (k + 52) * (2 : ℝ) ^ (-57 : ℤ) := by
          rw [← zpow_natCast, ← zpow_add₀ (by norm_num)]
          push_cast
          congr 1
          ring
        rw [this]
        gcongr
    unfold rne
    rw [if_neg hpos.ne', hlog]
    have he : max ((k : ℤ) - 5 - 52) (-1074) = (k : ℤ) - 57 := by omega
    simp only [he]
    have hk2 : (2 : ℝ) ^ ((k : ℤ) - 57) = ((2 ^ k : ℕ) : ℝ) * (2 : ℝ) ^ (-57 : ℤ) := by
      rw [sub_eq_add_neg, zpow_add₀ (by norm_num)]
      push_cast
      rw [zpow_natCast]
    have hq : (s : ℝ) * (2 : ℝ) ^ (-57 : ℤ) / (2 : ℝ) ^ ((k : ℤ) - 57) = (s : ℝ) / ((2 ^ k : ℕ) : ℝ) := by
      rw [hk2]
      have : (2 : ℝ) ^ (-57 : ℤ) ≠ 0 := by positivity
      field_simp
    rw [hq, roundEven_div s (2 ^ k) (by positivity), hk2]
    have hrn : (roundNat s : ℝ) = ((if 2 * (s % 2 ^ k) < 2 ^ k ∨ (2 * (s % 2 ^ k) = 2 ^ k ∧ (s / 2 ^ k) % 2 = 0) then ((s / 2 ^ k : ℕ) : ℤ) else ((s / 2 ^ k : ℕ) : ℤ) + 1 : ℤ) : ℝ) * ((2 ^ k : ℕ) : ℝ) := by
      unfold roundNat
      simp only [hk, Nat.add_sub_cancel]
      generalize s / 2 ^ k = q
      split_ifs <;> push_cast <;> ring
    rw [hrn]
    ring

end LcpPhysics.Spec
