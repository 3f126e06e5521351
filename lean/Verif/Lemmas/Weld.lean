import Mathlib.Topology.Order.MonotoneConvergence
import Mathlib.Analysis.SpecialFunctions.Pow.Real
import Mathlib.Order.Filter.AtTopBot.Archimedean

/-! # Lemmas: the recursion for the distance of two bodies fixed to each other -/

noncomputable section

namespace LcpPhysics
open Filter Topology

/-- One step: the square of the distance grows at least by a fixed amount in the square. -/
theorem weld_grow {I μ L d R0 R R' ω : ℝ} (hI : 0 < I) (hμ : 0 < μ) (hR0 : 0 < R0) (hR : R0 ≤ R) (hω : (I + μ * R) * ω = L)
    (hR' : R' = R * (1 + (ω * d) ^ 2)) : R0 ≤ R' ∧ R ^ 2 + 2 * (L / (I + μ * R0) * d * R0) ^ 2 ≤ R' ^ 2 := by
  have hRp : 0 < R := lt_of_lt_of_le hR0 hR
  have h1 : 0 < I + μ * R := by positivity
  have h0 : 0 < I + μ * R0 := by positivity
  have hω' : ω = L / (I + μ * R) := by rw [eq_div_iff h1.ne']; linarith
  refine ⟨?_, ?_⟩
  · rw [hR']; nlinarith [sq_nonneg (ω * d), mul_nonneg hRp.le (sq_nonneg (ω * d))]
  · have hmono : R0 / (I + μ * R0) ≤ R / (I + μ * R) := by
      rw [div_le_div_iff₀ h0 h1]; nlinarith
    have hsq : (R0 / (I + μ * R0)) ^ 2 ≤ (R / (I + μ * R)) ^ 2 :=
      pow_le_pow_left₀ (by positivity) hmono 2
    have e1 : (L / (I + μ * R0) * d * R0) ^ 2 = (L * d) ^ 2 * (R0 / (I + μ * R0)) ^ 2 := by ring
    have e2 : (ω * d) ^ 2 * R ^ 2 = (L * d) ^ 2 * (R / (I + μ * R)) ^ 2 := by rw [hω']; ring
    have h3 : (L / (I + μ * R0) * d * R0) ^ 2 ≤ (ω * d) ^ 2 * R ^ 2 := by
      rw [e1, e2]; exact mul_le_mul_of_nonneg_left hsq (sq_nonneg _)
    rw [hR']
    have : 0 ≤ R ^ 2 * ((ω * d) ^ 2) ^ 2 := by positivity
    nlinarith

/-- Many steps. -/
theorem weld_far {I μ L d : ℝ} (hI : 0 < I) (hμ : 0 < μ) {R ω : ℕ → ℝ} {N : ℕ} (hR0 : 0 < R 0)
    (hω : ∀ n < N, (I + μ * R n) * ω (n + 1) = L) (hR : ∀ n < N, R (n + 1) = R n * (1 + (ω (n + 1) * d) ^ 2)) :
    ∀ n ≤ N, R 0 ≤ R n ∧ R 0 ^ 2 * (1 + 2 * n * (L / (I + μ * R 0) * d) ^ 2) ≤ R n ^ 2 := by
  intro n
  induction n with
  | zero => intro _; simp
  | succ n ih =>
    intro hn
    obtain ⟨i1, i2⟩ := ih (by omega)
    obtain ⟨g1, g2⟩ := weld_grow hI hμ hR0 i1 (hω n (by omega)) (hR n (by omega))
    refine ⟨g1, ?_⟩
    push_cast
    nlinarith

theorem weld_limits {I μ L d : ℝ} (hI : 0 < I) (hμ : 0 < μ) (hL : L ≠ 0) (hd : 0 < d) {R ω : ℕ → ℝ} (hR0 : 0 < R 0)
    (hω : ∀ n, (I + μ * R n) * ω (n + 1) = L) (hR : ∀ n, R (n + 1) = R n * (1 + (ω (n + 1) * d) ^ 2)) :
    Tendsto R atTop atTop ∧ Tendsto ω atTop (𝓝 0) := by
  have hfar : ∀ n, R 0 ≤ R n ∧ R 0 ^ 2 * (1 + 2 * n * (L / (I + μ * R 0) * d) ^ 2) ≤ R n ^ 2 := fun n =>
    weld_far (N := n) hI hμ hR0 (fun n _ => hω n) (fun n _ => hR n) n le_rfl
  set c := (L / (I + μ * R 0) * d) ^ 2 with hc
  have hc0 : 0 < c := by
    have : L / (I + μ * R 0) * d ≠ 0 := by
      have : I + μ * R 0 ≠ 0 := by positivity
      positivity
    positivity
  have hsq : Tendsto (fun n => R n ^ 2) atTop atTop := by
    refine tendsto_atTop_mono (fun n => (hfar n).2) ?_
    have h1 : Tendsto (fun n : ℕ => (n : ℝ)) atTop atTop := tendsto_natCast_atTop_atTop
    have h2 : Tendsto (fun n : ℕ => R 0 ^ 2 + (R 0 ^ 2 * 2 * c) * (n : ℝ)) atTop atTop :=
      tendsto_atTop_add_const_left _ _ (h1.const_mul_atTop (by positivity))
    refine h2.congr fun n => ?_
    ring
  have hlim : Tendsto R atTop atTop := by
    rw [tendsto_atTop] at hsq ⊢
    intro b
    filter_upwards [hsq (max b 1 ^ 2)] with n hn
    have hb : 0 ≤ max b 1 := le_trans zero_le_one (le_max_right _ _)
    have hRn : 0 ≤ R n := by linarith [(hfar n).1]
    exact le_trans (le_max_left b 1) ((pow_le_pow_iff_left₀ hb hRn two_ne_zero).1 hn)
  refine ⟨hlim, ?_⟩
  have h1 : Tendsto (fun n => L / (I + μ * R n)) atTop (𝓝 0) :=
    Tendsto.div_atTop tendsto_const_nhds (tendsto_atTop_add_const_left _ _ (hlim.const_mul_atTop hμ))
  refine (tendsto_add_atTop_iff_nat (f := ω) 1).1 (h1.congr fun n => ?_)
  have : 0 < I + μ * R n := by
    have := (hfar n).1
    have : 0 < R n := by linarith
    positivity
  rw [div_eq_iff this.ne', ← hω n]; ring

end LcpPhysics
