import Verif.Spec.Pendulum
import Verif.Lemmas.Pivot
import Verif.Lemmas.Converge
import Verif.Lemmas.Hinge
import Mathlib.Analysis.ODE.ExistUnique

/-! # The recursion of a pendulum against the pendulum equation -/

noncomputable section

namespace LcpPhysics
open Spec

theorem one_sub_cos_le (x : ℝ) : 1 - Real.cos x ≤ x ^ 2 / 2 := by linarith [Real.one_sub_sq_div_two_le_cos (x := x)]

/-- Speeds of the pendulum equation. -/
theorem swing_speed {α : ℝ → ℝ} {T K : ℝ} {θ ω : ℝ → ℝ} (h : Swings α T θ ω) (hK : ∀ x, |α x| ≤ K) {t : ℝ} (h0 : 0 ≤ t) (hT : t ≤ T) :
    |ω t| ≤ |ω 0| + T * K := by
  have hK0 : 0 ≤ K := (abs_nonneg _).trans (hK 0)
  have := change_within h.speed le_rfl h0 hT (c := 0) (C := K) (fun r _ => by rw [sub_zero]; exact hK _)
  rw [mul_zero, sub_zero, sub_zero] at this
  have h2 : |ω t| ≤ |ω t - ω 0| + |ω 0| := by
    have := abs_add_le (ω t - ω 0) (ω 0)
    rwa [sub_add_cancel] at this
  have h3 : K * t ≤ T * K := by rw [mul_comm]; exact mul_le_mul_of_nonneg_right hT hK0
  linarith

/-- Sum of the errors of one step. -/
theorem swing_error_step {e d e' d' h L B K : ℝ} (hh : 0 ≤ h) (h1 : h ≤ 1) (hL : 0 ≤ L) (he : 0 ≤ e) (hd : 0 ≤ d) (hB : 0 ≤ B)
    (r1 : e' ≤ e + h * L * d + B * h ^ 2) (r2 : d' ≤ d + h * e' + K * h ^ 2) :
    e' + d' ≤ (1 + (1 + 2 * L) * h) * (e + d) + (2 * B + K) * h ^ 2 := by
  have a1 : (1 + h) * e' ≤ (1 + h) * (e + h * L * d + B * h ^ 2) := mul_le_mul_of_nonneg_left r1 (by linarith)
  have a2 : h * (h * L * d + B * h ^ 2) ≤ 1 * (h * L * d + B * h ^ 2) := mul_le_mul_of_nonneg_right h1 (by positivity)
  have a3 : 0 ≤ L * h * e := by positivity
  have a4 : 0 ≤ h * d := by positivity
  nlinarith

/-- The recursion stays within first order of the motion. -/
theorem swing_error {α : ℝ → ℝ} {T K L κ h : ℝ} {θ ω : ℝ → ℝ} (hs : Swings α T θ ω) (hK : ∀ x, |α x| ≤ K)
    (hL : ∀ x y, |α x - α y| ≤ L * |x - y|) (hL0 : 0 ≤ L) (h0 : 0 ≤ κ) (hκ : κ < 1) (hh : 0 ≤ h) (h1 : h ≤ 1) (ψ σ : ℕ → ℝ)
    (c : ℕ → ℝ) (hc : ∀ n, c n = 0 ∨ c n = κ)
    (hψ : ψ 0 = θ 0) (hσ : σ 0 = ω 0) (n : ℕ) (hn : n * h ≤ T)
    (rσ : ∀ q < n, σ (q + 1) = σ q * spinFactor (c q) (σ q * h) + h * α (ψ q)) (rψ : ∀ q < n, ψ (q + 1) = ψ q + h * σ (q + 1)) :
    let W := |ω 0| + T * K
    |σ n - ω (n * h)| + |ψ n - θ (n * h)| ≤ Real.exp ((1 + 2 * L) * T) * T * (2 * (L * W + W ^ 3) + K) * h := by
  intro W
  have hK0 : 0 ≤ K := (abs_nonneg _).trans (hK 0)
  have hT0 : 0 ≤ T := le_trans (by positivity) hn
  have hW0 : 0 ≤ W := by positivity
  have hcb : ∀ q, 0 ≤ c q ∧ c q < 1 := by
    intro q
    rcases hc q with e | e <;> rw [e]
    · exact ⟨le_rfl, one_pos⟩
    · exact ⟨h0, hκ⟩
  have hsW : ∀ q ≤ n, |σ q| ≤ |ω 0| + q * h * K := by
    intro q
    induction q with
    | zero => intro _; simp [hσ]
    | succ q ih =>
      intro hq
      rw [rσ q (by omega)]
      refine (abs_add_le _ _).trans ?_
      rw [abs_mul, abs_mul, abs_of_nonneg hh]
      have a1 := mul_le_of_le_one_right (abs_nonneg (σ q)) (spinFactor_abs (δ := σ q * h) (hcb q).1 (hcb q).2)
      have a2 := mul_le_mul_of_nonneg_left (hK (ψ q)) hh
      have := ih (by omega)
      push_cast
      linarith
  set Λ := 1 + 2 * L with hΛ
  set D := 2 * (L * W + W ^ 3) + K with hD
  have hD0 : 0 ≤ D := by positivity
  have key : ∀ q ≤ n, |σ q - ω (q * h)| + |ψ q - θ (q * h)| ≤ Real.exp (Λ * (q * h)) * (q * h) * D * h := by
    intro q
    induction q with
    | zero => intro _; simp [hσ, hψ]
    | succ q ih =>
      intro hq
      have ihq := ih (by omega)
      have e : ((q + 1 : ℕ) : ℝ) * h = q * h + h := by push_cast; ring
      have hq1 : ((q + 1 : ℕ) : ℝ) * h ≤ n * h := mul_le_mul_of_nonneg_right (by exact_mod_cast hq) hh
      have hqT := hq1.trans hn
      rw [e] at hqT ⊢
      have hq0 : 0 ≤ (q : ℝ) * h := by positivity
      set s := (q : ℝ) * h with hs'
      have hσW : |σ q| ≤ W := by
        refine (hsW q (by omega)).trans ?_
        have : s * K ≤ T * K := mul_le_mul_of_nonneg_right (by linarith) hK0
        simp only [W]; linarith
      have hwW : ∀ r ∈ Set.Icc s (s + h), |ω r| ≤ W := fun r hr => swing_speed hs hK (hq0.trans hr.1) (hr.2.trans hqT)
      have kθ : ∀ r ∈ Set.Icc s (s + h), |θ r - θ s| ≤ W * h := by
        intro r hr
        have := change_within hs.angle hq0 hr.1 (hr.2.trans hqT) (c := 0) (C := W)
          (fun x hx => by rw [sub_zero]; exact hwW x ⟨hx.1, hx.2.trans hr.2⟩)
        rw [mul_zero, sub_zero] at this
        exact this.trans (mul_le_mul_of_nonneg_left (by linarith [hr.2]) hW0)
      have k1 := change_within hs.speed hq0 (by linarith : s ≤ s + h) hqT (c := α (θ s)) (C := L * (W * h)) (fun r hr =>
        (hL _ _).trans (mul_le_mul_of_nonneg_left (kθ r hr) hL0))
      have k2 := change_within hs.angle hq0 (by linarith : s ≤ s + h) hqT (c := ω (s + h)) (C := K * h) (fun r hr => by
        have := change_within hs.speed (hq0.trans hr.1) hr.2 hqT (c := 0) (C := K) (fun x _ => by rw [sub_zero]; exact hK _)
        rw [mul_zero, sub_zero, abs_sub_comm] at this
        exact this.trans (mul_le_mul_of_nonneg_left (by linarith [hr.1]) hK0))
      rw [add_sub_cancel_left] at k1 k2
      have k3 : |σ q * (spinFactor (c q) (σ q * h) - 1)| ≤ W ^ 3 * h ^ 2 := by
        have e1 : spinFactor (c q) (σ q * h) - 1 = -(c q * (1 - Real.cos (σ q * h))) := by unfold spinFactor; ring
        have c0 : 0 ≤ 1 - Real.cos (σ q * h) := by linarith [Real.cos_le_one (σ q * h)]
        have c1 := one_sub_cos_le (σ q * h)
        rw [e1, abs_mul, abs_neg, abs_of_nonneg (mul_nonneg (hcb q).1 c0)]
        have c2 : c q * (1 - Real.cos (σ q * h)) ≤ 1 * ((σ q * h) ^ 2 / 2) :=
          mul_le_mul (hcb q).2.le c1 c0 zero_le_one
        have c3 : (σ q * h) ^ 2 / 2 ≤ W ^ 2 * h ^ 2 := by
          rw [mul_pow]
          have : σ q ^ 2 ≤ W ^ 2 := by rw [← sq_abs (σ q)]; exact pow_le_pow_left₀ (abs_nonneg _) hσW 2
          have := mul_le_mul_of_nonneg_right this (sq_nonneg h)
          have : 0 ≤ W ^ 2 * h ^ 2 := by positivity
          linarith
        calc |σ q| * (c q * (1 - Real.cos (σ q * h))) ≤ W * (W ^ 2 * h ^ 2) :=
              mul_le_mul hσW (by linarith) (mul_nonneg (hcb q).1 c0) hW0
          _ = W ^ 3 * h ^ 2 := by ring
      have r1 : |σ (q + 1) - ω (s + h)| ≤ |σ q - ω s| + h * L * |ψ q - θ s| + (L * W + W ^ 3) * h ^ 2 := by
        have e1 : σ (q + 1) - ω (s + h) = (σ q - ω s) + h * (α (ψ q) - α (θ s)) + σ q * (spinFactor (c q) (σ q * h) - 1) -
            (ω (s + h) - ω s - h * α (θ s)) := by rw [rσ q (by omega)]; ring
        rw [e1]
        refine (abs_sub _ _).trans ?_
        have b1 := abs_add_le (σ q - ω s + h * (α (ψ q) - α (θ s))) (σ q * (spinFactor (c q) (σ q * h) - 1))
        have b2 := abs_add_le (σ q - ω s) (h * (α (ψ q) - α (θ s)))
        have b3 : |h * (α (ψ q) - α (θ s))| ≤ h * (L * |ψ q - θ s|) := by
          rw [abs_mul, abs_of_nonneg hh]
          exact mul_le_mul_of_nonneg_left (hL _ _) hh
        nlinarith
      have r2 : |ψ (q + 1) - θ (s + h)| ≤ |ψ q - θ s| + h * |σ (q + 1) - ω (s + h)| + K * h ^ 2 := by
        have e1 : ψ (q + 1) - θ (s + h) = (ψ q - θ s) + h * (σ (q + 1) - ω (s + h)) - (θ (s + h) - θ s - h * ω (s + h)) := by
          rw [rψ q (by omega)]; ring
        rw [e1]
        refine (abs_sub _ _).trans ?_
        have b1 := abs_add_le (ψ q - θ s) (h * (σ (q + 1) - ω (s + h)))
        rw [abs_mul, abs_of_nonneg hh] at b1
        nlinarith
      have hB0 : 0 ≤ L * W + W ^ 3 := by positivity
      have st := swing_error_step hh h1 hL0 (abs_nonneg (σ q - ω s)) (abs_nonneg (ψ q - θ s)) hB0 r1 r2
      refine st.trans ?_
      have hexp : (1 + Λ * h) * Real.exp (Λ * s) ≤ Real.exp (Λ * (s + h)) := by
        rw [mul_add, Real.exp_add, mul_comm]
        exact mul_le_mul_of_nonneg_left (by linarith [Real.add_one_le_exp (Λ * h)]) (Real.exp_pos _).le
      have hge : 1 ≤ Real.exp (Λ * (s + h)) := Real.one_le_exp (by positivity)
      have m1 : (1 + Λ * h) * (|σ q - ω s| + |ψ q - θ s|) ≤ (1 + Λ * h) * (Real.exp (Λ * s) * s * D * h) :=
        mul_le_mul_of_nonneg_left ihq (by positivity)
      have m2 : (1 + Λ * h) * Real.exp (Λ * s) * (s * D * h) ≤ Real.exp (Λ * (s + h)) * (s * D * h) :=
        mul_le_mul_of_nonneg_right hexp (by positivity)
      have m3 : 1 * (D * h ^ 2) ≤ Real.exp (Λ * (s + h)) * (D * h ^ 2) := mul_le_mul_of_nonneg_right hge (by positivity)
      calc (1 + Λ * h) * (|σ q - ω s| + |ψ q - θ s|) + D * h ^ 2
          ≤ Real.exp (Λ * (s + h)) * (s * D * h) + Real.exp (Λ * (s + h)) * (D * h ^ 2) := by linarith
        _ = Real.exp (Λ * (s + h)) * (s + h) * D * h := by ring
  refine (key n le_rfl).trans ?_
  have x1 : Real.exp (Λ * (n * h)) ≤ Real.exp (Λ * T) := Real.exp_le_exp.2 (mul_le_mul_of_nonneg_left hn (by positivity))
  have x2 : Real.exp (Λ * (n * h)) * (n * h) ≤ Real.exp (Λ * T) * T := mul_le_mul x1 hn (by positivity) (Real.exp_pos _).le
  exact mul_le_mul_of_nonneg_right (mul_le_mul_of_nonneg_right x2 hD0) hh

/-- The pendulum equation has a solution for any span of time. -/
theorem swings_exist {α : ℝ → ℝ} {K L : ℝ} (hK : ∀ x, |α x| ≤ K) (hL : ∀ x y, |α x - α y| ≤ L * |x - y|) (hL0 : 0 ≤ L) (T : ℝ) (hT : 0 ≤ T)
    (ω0 : ℝ) : ∃ θ ω : ℝ → ℝ, Swings α T θ ω ∧ θ 0 = 0 ∧ ω 0 = ω0 := by
  have hK0 : 0 ≤ K := (abs_nonneg _).trans (hK 0)
  set W := |ω0| + T * K with hW
  have hW0 : 0 ≤ W := by positivity
  let clamp : ℝ → ℝ := fun x => max (-W) (min W x)
  have hcl : ∀ x, |clamp x| ≤ W := fun x => abs_le.2 ⟨le_max_left _ _, max_le (by linarith) (min_le_left _ _)⟩
  have hcid : ∀ x, |x| ≤ W → clamp x = x := fun x hx => by
    simp only [clamp]
    rw [min_eq_right (abs_le.1 hx).2, max_eq_right (abs_le.1 hx).1]
  have hclip : ∀ x y, |clamp x - clamp y| ≤ |x - y| := by
    intro x y
    have h1 := abs_max_sub_max_le_max (-W) (min W x) (-W) (min W y)
    have h2 := abs_min_sub_min_le_max W x W y
    rw [sub_self, abs_zero] at h1 h2
    rw [max_eq_right (abs_nonneg (min W x - min W y))] at h1
    rw [max_eq_right (abs_nonneg (x - y))] at h2
    exact h1.trans h2
  let f : ℝ → ℝ × ℝ → ℝ × ℝ := fun _ p => (clamp p.2, α p.1)
  let M : NNReal := ⟨W + K, by positivity⟩
  have hpl : IsPicardLindelof f (tmin := 0) (tmax := T) ⟨0, le_rfl, hT⟩ ((0, ω0) : ℝ × ℝ) (M * ⟨T, hT⟩) 0 M ⟨1 + L, by positivity⟩ := by
    refine ⟨fun t _ => ?_, fun x _ => continuousOn_const, fun t _ x _ => ?_, ?_⟩
    · refine LipschitzWith.lipschitzOnWith (LipschitzWith.of_dist_le_mul fun p q => ?_)
      rw [Prod.dist_eq, Real.dist_eq, Real.dist_eq]
      have hd1 : |p.1 - q.1| ≤ Dist.dist p q := by rw [Prod.dist_eq, ← Real.dist_eq]; exact le_max_left _ _
      have hd2 : |p.2 - q.2| ≤ Dist.dist p q := by rw [Prod.dist_eq, ← Real.dist_eq p.2]; exact le_max_right _ _
      have hd0 : 0 ≤ Dist.dist p q := dist_nonneg
      refine max_le ?_ ?_
      · refine ((hclip _ _).trans hd2).trans ?_
        show Dist.dist p q ≤ (1 + L) * Dist.dist p q
        nlinarith
      · refine (hL _ _).trans ?_
        show L * |p.1 - q.1| ≤ (1 + L) * Dist.dist p q
        nlinarith
    · rw [Prod.norm_def]
      refine max_le ?_ ?_
      · show |clamp x.2| ≤ W + K
        linarith [hcl x.2]
      · show |α x.1| ≤ W + K
        linarith [hK x.1]
    · have : max (T - 0) (0 - 0) = T := by rw [sub_zero, sub_zero]; exact max_eq_left hT
      show (W + K) * max (T - 0) (0 - 0) ≤ (W + K) * T - 0
      rw [this, sub_zero]
  obtain ⟨z, hz0, hz⟩ := hpl.exists_eq_forall_mem_Icc_hasDerivWithinAt₀
  have h1 : ∀ t ∈ Set.Icc 0 T, HasDerivWithinAt (fun t => (z t).1) (clamp (z t).2) (Set.Icc 0 T) t := fun t ht => (hz t ht).fst
  have h2 : ∀ t ∈ Set.Icc 0 T, HasDerivWithinAt (fun t => (z t).2) (α (z t).1) (Set.Icc 0 T) t := fun t ht => (hz t ht).snd
  have hz2 : (z 0).2 = ω0 := by rw [show z 0 = (0, ω0) from hz0]
  refine ⟨fun t => (z t).1, fun t => (z t).2, ⟨fun t ht => ?_, h2⟩, congrArg Prod.fst hz0, hz2⟩
  have := h1 t ht
  rwa [hcid] at this
  have := change_within h2 le_rfl ht.1 ht.2 (c := 0) (C := K) (fun r _ => by rw [sub_zero]; exact hK _)
  rw [mul_zero, sub_zero, sub_zero, hz2] at this
  have h3 : |(z t).2| ≤ |(z t).2 - ω0| + |ω0| := by
    have := abs_add_le ((z t).2 - ω0) ω0
    rwa [sub_add_cancel] at this
  have h4 : K * t ≤ T * K := by rw [mul_comm]; exact mul_le_mul_of_nonneg_right ht.2 hK0
  linarith

end LcpPhysics
