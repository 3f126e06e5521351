import Mathlib.Analysis.SpecialFunctions.Trigonometric.Bounds
import Mathlib.Topology.Order.MonotoneConvergence
import Mathlib.Analysis.SpecialFunctions.Pow.Real

/-! # Lemmas: the recursion for the angular velocity of a body on a pivot -/

noncomputable section

namespace LcpPhysics
open Filter Topology

/-- The factor by which the angular velocity changes in a step that turned the body by `δ`. -/
def spinFactor (κ δ : ℝ) : ℝ := 1 - κ * (1 - Real.cos δ)

theorem spinFactor_bounds {κ δ : ℝ} (h0 : 0 ≤ κ) (h1 : κ < 1) : -1 < spinFactor κ δ ∧ spinFactor κ δ ≤ 1 := by
  unfold spinFactor
  have a := Real.neg_one_le_cos δ
  have b := Real.cos_le_one δ
  constructor <;> nlinarith

theorem spinFactor_abs {κ δ : ℝ} (h0 : 0 ≤ κ) (h1 : κ < 1) : |spinFactor κ δ| ≤ 1 := by
  obtain ⟨a, b⟩ := spinFactor_bounds (δ := δ) h0 h1
  exact abs_le.2 ⟨a.le, b⟩

theorem spinFactor_one {κ δ : ℝ} (h0 : 0 < κ) (h1 : κ < 1) : |spinFactor κ δ| = 1 ↔ Real.cos δ = 1 := by
  obtain ⟨a, b⟩ := spinFactor_bounds (δ := δ) h0.le h1
  constructor
  · intro h
    rcases abs_eq (by norm_num : (0 : ℝ) ≤ 1) |>.1 h with h | h
    · unfold spinFactor at h
      have : κ * (1 - Real.cos δ) = 0 := by linarith
      rcases mul_eq_zero.1 this with h | h <;> linarith
    · linarith
  · intro h
    unfold spinFactor
    rw [h]; norm_num

/-- The angular velocity goes to zero. -/
theorem spin_stops {κ dt : ℝ} (h0 : 0 < κ) (h1 : κ < 1) (hdt : 0 < dt) {ω : ℕ → ℝ}
    (hrec : ∀ n, ω (n + 1) = ω n * spinFactor κ (ω n * dt)) (hs : |ω 0| * dt < 2 * Real.pi) : Tendsto ω atTop (𝓝 0) := by
  have hstep : ∀ n, |ω (n + 1)| = |ω n| * |spinFactor κ (|ω n| * dt)| := by
    intro n
    rw [hrec, abs_mul]
    congr 2
    unfold spinFactor
    rw [← Real.cos_abs (ω n * dt), abs_mul, abs_of_pos hdt]
  have hanti : Antitone fun n => |ω n| := by
    refine antitone_nat_of_succ_le fun n => ?_
    rw [hstep]
    exact mul_le_of_le_one_right (abs_nonneg _) (spinFactor_abs h0.le h1)
  have hlim := tendsto_atTop_ciInf hanti ⟨0, by rintro _ ⟨n, rfl⟩; exact abs_nonneg _⟩
  set L := ⨅ n, |ω n| with hL
  have hL0 : 0 ≤ L := ge_of_tendsto' hlim fun n => abs_nonneg _
  have hLle : L ≤ |ω 0| := hanti.le_of_tendsto hlim 0
  have hcont : Continuous fun x : ℝ => x * |spinFactor κ (x * dt)| := by
    unfold spinFactor
    fun_prop
  have h2 : Tendsto (fun n => |ω (n + 1)|) atTop (𝓝 (L * |spinFactor κ (L * dt)|)) := by
    have := (hcont.tendsto L).comp hlim
    refine this.congr fun n => ?_
    simp only [Function.comp]
    rw [hstep]
  have h3 := tendsto_nhds_unique h2 (hlim.comp (tendsto_add_atTop_nat 1))
  have hLz : L = 0 := by
    by_contra hne
    have : |spinFactor κ (L * dt)| = 1 := mul_left_cancel₀ hne (by rw [h3, mul_one])
    rw [spinFactor_one h0 h1] at this
    obtain ⟨k, hk⟩ := (Real.cos_eq_one_iff _).1 this
    have hpos : 0 < L * dt := mul_pos (lt_of_le_of_ne hL0 (Ne.symm hne)) hdt
    have hlt : L * dt < 2 * Real.pi := lt_of_le_of_lt (mul_le_mul_of_nonneg_right hLle hdt.le) hs
    have hpi := Real.pi_pos
    rw [← hk] at hpos hlt
    have k1 : 0 < k := by
      by_contra hk0
      have : (k : ℝ) ≤ 0 := by exact_mod_cast not_lt.1 hk0
      nlinarith
    have k2 : (1 : ℝ) ≤ k := by exact_mod_cast k1
    nlinarith
  rw [hLz] at hlim
  exact (tendsto_zero_iff_abs_tendsto_zero _).2 hlim

/-- How fast. -/
theorem spin_rate {κ dt : ℝ} (h0 : 0 < κ) (h1 : κ < 1) (hdt : 0 < dt) {ω : ℕ → ℝ} {N : ℕ}
    (hrec : ∀ n < N, ω (n + 1) = ω n * spinFactor κ (ω n * dt)) (hs : |ω 0| * dt ≤ Real.pi / 2) :
    ∀ n ≤ N, |ω n| ≤ |ω 0| ∧ 4 * κ * n * (ω n * dt) ^ 2 ≤ Real.pi ^ 2 := by
  intro n
  induction n with
  | zero => intro _; exact ⟨le_rfl, by simp; positivity⟩
  | succ n ih =>
    intro hn
    obtain ⟨i1, i2⟩ := ih (by omega)
    have hpi := Real.pi_pos
    set x := ω n * dt with hx
    have hxa : |x| ≤ Real.pi / 2 := by
      rw [hx, abs_mul, abs_of_pos hdt]
      exact le_trans (mul_le_mul_of_nonneg_right i1 hdt.le) hs
    have hcos : Real.cos x ≤ 1 - 2 / Real.pi ^ 2 * x ^ 2 := Real.cos_le_one_sub_mul_cos_sq (by linarith)
    have hcos0 : 0 ≤ Real.cos x := Real.cos_nonneg_of_mem_Icc ⟨(abs_le.1 hxa).1.trans' (by linarith), (abs_le.1 hxa).2⟩
    set c := κ * (1 - Real.cos x) with hc
    have hc1 : c ≤ 1 := by nlinarith
    have hc0 : 0 ≤ c := mul_nonneg h0.le (by linarith [Real.cos_le_one x])
    have hcl : 2 * κ * x ^ 2 ≤ Real.pi ^ 2 * c := by
      have h2 : 2 / Real.pi ^ 2 * x ^ 2 ≤ 1 - Real.cos x := by linarith
      have h3 : 2 * x ^ 2 ≤ Real.pi ^ 2 * (1 - Real.cos x) := by
        have := mul_le_mul_of_nonneg_left h2 (sq_nonneg Real.pi)
        field_simp at this
        linarith
      rw [hc]; nlinarith
    have hrec' : ω (n + 1) = ω n * (1 - c) := by rw [hrec n (by omega)]; rfl
    refine ⟨?_, ?_⟩
    · rw [hrec', abs_mul, abs_of_nonneg (by linarith : (0 : ℝ) ≤ 1 - c)]
      exact le_trans (mul_le_of_le_one_right (abs_nonneg _) (by linarith)) i1
    · have hy : ω (n + 1) * dt = x * (1 - c) := by rw [hrec', hx]; ring
      rw [hy]
      push_cast
      -- (1 + 2c)(1-c)² ≤ 1
      have hk : (1 - c) ^ 2 * (1 + 2 * c) ≤ 1 := by nlinarith [mul_nonneg (mul_nonneg hc0 hc0) (by linarith : (0 : ℝ) ≤ 3 - 2 * c)]
      have e1 : 4 * κ * (n + 1) * (x * (1 - c)) ^ 2 ≤ (1 - c) ^ 2 * (Real.pi ^ 2 + 2 * (Real.pi ^ 2 * c)) := by
        have : 4 * κ * (n + 1) * x ^ 2 ≤ Real.pi ^ 2 + 2 * (Real.pi ^ 2 * c) := by nlinarith
        calc 4 * κ * (n + 1) * (x * (1 - c)) ^ 2 = (1 - c) ^ 2 * (4 * κ * (n + 1) * x ^ 2) := by ring
          _ ≤ _ := mul_le_mul_of_nonneg_left this (sq_nonneg _)
      calc _ ≤ (1 - c) ^ 2 * (Real.pi ^ 2 + 2 * (Real.pi ^ 2 * c)) := e1
        _ = Real.pi ^ 2 * ((1 - c) ^ 2 * (1 + 2 * c)) := by ring
        _ ≤ Real.pi ^ 2 * 1 := mul_le_mul_of_nonneg_left hk (sq_nonneg _)
        _ = _ := mul_one _

end LcpPhysics
