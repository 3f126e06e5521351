import Verif.Spec.HalfStab
import Verif.Lemmas.Pivot
import Mathlib.Topology.Order.MonotoneConvergence

/-! # Lemmas: size of the drift of a pivot -/

noncomputable section

namespace LcpPhysics
open Spec Filter Topology

theorem stabAngle_neg (κ δ : ℝ) : stabAngle κ (-δ) = -stabAngle κ δ := by
  simp [stabAngle]

theorem stabTurn_neg (κ lam δ : ℝ) : stabTurn κ lam (-δ) = -stabTurn κ lam δ := by
  simp only [stabTurn, stabAngle_neg]; ring

theorem stabDrift_neg (κ lam δ : ℝ) : stabDrift κ lam (-δ) = ((stabDrift κ lam δ).1, -(stabDrift κ lam δ).2) := by
  simp only [stabDrift, stabTurn_neg, stabAngle_neg, Real.cos_neg, Real.sin_neg]
  ext
  · simp
  · simp; ring

theorem sin_lower {x : ℝ} (h0 : 0 ≤ x) : x - x ^ 3 / 4 ≤ Real.sin x := by
  rcases h0.eq_or_lt with rfl | h
  · simp
  · have := (Real.sin_gt_sub_cube h).le
    have h3 : 0 ≤ x ^ 3 := by positivity
    linarith

theorem cos_upper {x : ℝ} (h0 : |x| ≤ 1) : Real.cos x ≤ 1 - x ^ 2 / 2 + x ^ 4 / 16 := by
  have := (abs_le.1 (Real.cos_bound h0)).2
  have e : |x| ^ 4 = x ^ 4 := by rw [show (4 : ℕ) = 2 * 2 from rfl, pow_mul, sq_abs, ← pow_mul]
  rw [e] at this
  have h4 : 0 ≤ x ^ 4 := by positivity
  linarith

/-- The two parts of the drift, for a step in the positive direction. -/
theorem stabDrift_pos {κ lam δ : ℝ} (hk0 : 0 ≤ κ) (hk1 : κ ≤ 1) (hl0 : 0 ≤ lam) (hl1 : lam ≤ 1) (h0 : 0 ≤ δ) (h1 : δ ≤ 1) :
    -(lam ^ 2 * δ ^ 6 / 8 + lam * δ ^ 4 / 4) ≤ (stabDrift κ lam δ).1 - (lam - 1 / 2) * δ ^ 2 ∧
    (stabDrift κ lam δ).1 - (lam - 1 / 2) * δ ^ 2 ≤ δ ^ 4 / 16 ∧
    -(δ ^ 3 / 4) ≤ (stabDrift κ lam δ).2 ∧ (stabDrift κ lam δ).2 ≤ lam * δ ^ 3 / 2 := by
  have hc1 : Real.cos δ ≤ 1 := Real.cos_le_one δ
  have hc2 : 1 - δ ^ 2 / 2 ≤ Real.cos δ := Real.one_sub_sq_div_two_le_cos
  set ε := κ * (1 - Real.cos δ) with hε
  have hε0 : 0 ≤ ε := mul_nonneg hk0 (by linarith)
  have hε1 : ε ≤ δ ^ 2 / 2 := by
    have : ε ≤ 1 * (1 - Real.cos δ) := mul_le_mul_of_nonneg_right hk1 (by linarith)
    linarith
  have hd2 : δ ^ 2 ≤ 1 := by nlinarith
  have hφ : stabTurn κ lam δ = δ * (1 - lam * ε) := by
    simp only [stabTurn, stabAngle, ← hε]; ring
  set φ := stabTurn κ lam δ with hφd
  have hle : 0 ≤ lam * ε := mul_nonneg hl0 hε0
  have hle1 : lam * ε ≤ 1 / 2 := by
    have : lam * ε ≤ 1 * ε := mul_le_mul_of_nonneg_right hl1 hε0
    linarith
  have hφ0 : 0 ≤ φ := by rw [hφ]; exact mul_nonneg h0 (by linarith)
  have hφ1 : φ ≤ δ := by rw [hφ]; nlinarith
  have c1 : 1 - φ ^ 2 / 2 ≤ Real.cos φ := Real.one_sub_sq_div_two_le_cos
  have c2 := cos_upper (x := φ) (by rw [abs_of_nonneg hφ0]; linarith)
  have s1 := Real.sin_le h0
  have s2 := sin_lower h0
  have t1 := Real.sin_le hφ0
  have t2 := sin_lower hφ0
  have p4 : φ ^ 4 ≤ δ ^ 4 := pow_le_pow_left₀ hφ0 hφ1 4
  have p3 : φ ^ 3 ≤ δ ^ 3 := pow_le_pow_left₀ hφ0 hφ1 3
  have hw0 : 0 ≤ lam * δ * (1 - ε) := mul_nonneg (mul_nonneg hl0 h0) (by linarith)
  have hw1 : lam * δ * (1 - ε) ≤ lam * δ := by
    have := mul_nonneg (mul_nonneg hl0 h0) hε0
    nlinarith
  have eX : (stabDrift κ lam δ).1 - (lam - 1 / 2) * δ ^ 2 = (Real.cos φ - 1 + φ ^ 2 / 2) - lam ^ 2 * δ ^ 2 * ε ^ 2 / 2 -
      lam * δ * (1 - ε) * (δ - Real.sin δ) := by
    simp only [stabDrift, ← hφd, stabAngle, ← hε]
    rw [hφ]; ring
  have eY : (stabDrift κ lam δ).2 = -(φ - Real.sin φ) + lam * δ * (1 - ε) * (1 - Real.cos δ) := by
    simp only [stabDrift, ← hφd, stabAngle, ← hε]
    rw [show Real.sin φ - (1 - lam) * δ - lam * (δ * (1 - ε)) * Real.cos δ =
      Real.sin φ - (δ * (1 - lam * ε)) + lam * δ * (1 - ε) * (1 - Real.cos δ) by ring, ← hφ]
    ring
  have q1 : 0 ≤ lam ^ 2 * δ ^ 2 * ε ^ 2 / 2 := by positivity
  have q2 : lam ^ 2 * δ ^ 2 * ε ^ 2 / 2 ≤ lam ^ 2 * δ ^ 6 / 8 := by
    have : ε ^ 2 ≤ (δ ^ 2 / 2) ^ 2 := pow_le_pow_left₀ hε0 hε1 2
    have := mul_le_mul_of_nonneg_left this (by positivity : 0 ≤ lam ^ 2 * δ ^ 2)
    nlinarith
  have q3 : 0 ≤ lam * δ * (1 - ε) * (δ - Real.sin δ) := mul_nonneg hw0 (by linarith)
  have q4 : lam * δ * (1 - ε) * (δ - Real.sin δ) ≤ lam * δ ^ 4 / 4 := by
    calc lam * δ * (1 - ε) * (δ - Real.sin δ) ≤ lam * δ * (δ ^ 3 / 4) :=
          mul_le_mul hw1 (by linarith) (by linarith) (mul_nonneg hl0 h0)
      _ = _ := by ring
  have q5 : 0 ≤ lam * δ * (1 - ε) * (1 - Real.cos δ) := mul_nonneg hw0 (by linarith)
  have q6 : lam * δ * (1 - ε) * (1 - Real.cos δ) ≤ lam * δ ^ 3 / 2 := by
    calc lam * δ * (1 - ε) * (1 - Real.cos δ) ≤ lam * δ * (δ ^ 2 / 2) :=
          mul_le_mul hw1 (by linarith) (by linarith) (mul_nonneg hl0 h0)
      _ = _ := by ring
  rw [eX, eY]
  refine ⟨by linarith, by linarith, by linarith, by linarith⟩

theorem abs_cases {P : ℝ → Prop} (δ : ℝ) (hneg : ∀ x, P x → P (-x)) (h : P |δ|) : P δ := by
  rcases abs_choice δ with e | e
  · rwa [e] at h
  · rw [e] at h
    have := hneg _ h
    rwa [neg_neg] at this

/-- The drift, up to terms of the third order, is `(lam - 1/2) δ²` along the arm. -/
theorem stabDrift_order {κ lam δ : ℝ} (hk0 : 0 ≤ κ) (hk1 : κ ≤ 1) (hl0 : 0 ≤ lam) (hl1 : lam ≤ 1) (h1 : |δ| ≤ 1) :
    |(stabDrift κ lam δ).1 - (lam - 1 / 2) * δ ^ 2| ≤ |δ| ^ 3 / 2 ∧ |(stabDrift κ lam δ).2| ≤ |δ| ^ 3 / 2 := by
  refine abs_cases (P := fun δ => |(stabDrift κ lam δ).1 - (lam - 1 / 2) * δ ^ 2| ≤ |δ| ^ 3 / 2 ∧
    |(stabDrift κ lam δ).2| ≤ |δ| ^ 3 / 2) δ (fun x hx => ?_) ?_
  · rw [stabDrift_neg, neg_sq, abs_neg, abs_neg]; exact hx
  · obtain ⟨a, b, c, d⟩ := stabDrift_pos hk0 hk1 hl0 hl1 (abs_nonneg δ) h1
    rw [abs_abs]
    have h0 := abs_nonneg δ
    generalize |δ| = x at *
    have h3 : 0 ≤ x ^ 3 := by positivity
    have h4 : x ^ 4 ≤ x ^ 3 := pow_le_pow_of_le_one h0 h1 (by norm_num)
    have h6 : x ^ 6 ≤ x ^ 3 := pow_le_pow_of_le_one h0 h1 (by norm_num)
    have l2 : lam ^ 2 ≤ 1 := by nlinarith
    have g6 : lam ^ 2 * x ^ 6 ≤ x ^ 3 := by
      calc lam ^ 2 * x ^ 6 ≤ 1 * x ^ 6 := mul_le_mul_of_nonneg_right l2 (by positivity)
        _ ≤ _ := by linarith
    have g4 : lam * x ^ 4 ≤ x ^ 3 := by
      calc lam * x ^ 4 ≤ 1 * x ^ 4 := mul_le_mul_of_nonneg_right hl1 (by positivity)
        _ ≤ _ := by linarith
    have g3 : lam * x ^ 3 ≤ x ^ 3 := by
      calc lam * x ^ 3 ≤ 1 * x ^ 3 := mul_le_mul_of_nonneg_right hl1 (by positivity)
        _ = _ := by ring
    exact ⟨abs_le.2 ⟨by linarith, by linarith⟩, abs_le.2 ⟨by linarith, by linarith⟩⟩

/-- With one half of the displacement the drift is of the third order. -/
theorem stabDrift_half {κ δ : ℝ} (hk0 : 0 ≤ κ) (hk1 : κ ≤ 1) (h1 : |δ| ≤ 1) :
    (stabDrift κ (1 / 2) δ).1 ^ 2 + (stabDrift κ (1 / 2) δ).2 ^ 2 ≤ (|δ| ^ 3 / 3) ^ 2 := by
  refine abs_cases (P := fun δ => (stabDrift κ (1 / 2) δ).1 ^ 2 + (stabDrift κ (1 / 2) δ).2 ^ 2 ≤ (|δ| ^ 3 / 3) ^ 2) δ (fun x hx => ?_) ?_
  · rw [stabDrift_neg, neg_sq, abs_neg]; exact hx
  · obtain ⟨a, b, c, d⟩ := stabDrift_pos (lam := 1 / 2) hk0 hk1 (by norm_num) (by norm_num) (abs_nonneg δ) h1
    rw [abs_abs]
    have h0 := abs_nonneg δ
    generalize |δ| = x at *
    have h3 : 0 ≤ x ^ 3 := by positivity
    have h4 : x ^ 4 ≤ x ^ 3 := pow_le_pow_of_le_one h0 h1 (by norm_num)
    have h6 : x ^ 6 ≤ x ^ 3 := pow_le_pow_of_le_one h0 h1 (by norm_num)
    have a' : |(stabDrift κ (1 / 2) x).1| ≤ 5 / 32 * x ^ 3 := abs_le.2 ⟨by linarith, by linarith⟩
    have c' : |(stabDrift κ (1 / 2) x).2| ≤ 1 / 4 * x ^ 3 := abs_le.2 ⟨by linarith, by linarith⟩
    have a2 := pow_le_pow_left₀ (abs_nonneg _) a' 2
    have c2 := pow_le_pow_left₀ (abs_nonneg _) c' 2
    rw [sq_abs] at a2 c2
    nlinarith [sq_nonneg (x ^ 3)]

/-- Any other part leaves a drift of the second order. -/
theorem stabDrift_limit {κ lam : ℝ} (hk0 : 0 ≤ κ) (hk1 : κ ≤ 1) (hl0 : 0 ≤ lam) (hl1 : lam ≤ 1) :
    Tendsto (fun δ => ((stabDrift κ lam δ).1 ^ 2 + (stabDrift κ lam δ).2 ^ 2) / δ ^ 4) (𝓝[≠] 0) (𝓝 ((lam - 1 / 2) ^ 2)) := by
  have hsmall : ∀ᶠ δ : ℝ in 𝓝[≠] 0, |δ| ≤ 1 ∧ δ ≠ 0 := by
    refine (Filter.Eventually.and ?_ self_mem_nhdsWithin)
    refine nhdsWithin_le_nhds ?_
    have : Tendsto (fun δ : ℝ => |δ|) (𝓝 0) (𝓝 0) := by simpa using (continuous_abs.tendsto (0 : ℝ))
    exact (this.eventually (gt_mem_nhds one_pos)).mono fun _ h => h.le
  have habs : Tendsto (fun δ : ℝ => |δ| / 2) (𝓝[≠] 0) (𝓝 0) := by
    have : Tendsto (fun δ : ℝ => |δ| / 2) (𝓝 0) (𝓝 (|0| / 2)) := ((continuous_abs.div_const 2).tendsto 0)
    simpa using this.mono_left nhdsWithin_le_nhds
  have key : ∀ {δ : ℝ} (_ : δ ≠ 0) {X : ℝ} (_ : |X| ≤ |δ| ^ 3 / 2), |X / δ ^ 2| ≤ |δ| / 2 := by
    intro δ hδ X hX
    have : 0 < δ ^ 2 := by positivity
    rw [abs_div, abs_of_pos this, div_le_iff₀ this]
    calc |X| ≤ |δ| ^ 3 / 2 := hX
      _ = |δ| / 2 * |δ| ^ 2 := by ring
      _ = _ := by rw [sq_abs]
  have hX : Tendsto (fun δ => (stabDrift κ lam δ).1 / δ ^ 2) (𝓝[≠] 0) (𝓝 (lam - 1 / 2)) := by
    rw [tendsto_iff_norm_sub_tendsto_zero]
    refine squeeze_zero' (Eventually.of_forall fun _ => norm_nonneg _) (hsmall.mono fun δ h => ?_) habs
    have := key h.2 (stabDrift_order hk0 hk1 hl0 hl1 h.1).1
    rw [Real.norm_eq_abs]
    convert this using 2
    rw [sub_div, mul_div_assoc, div_self (pow_ne_zero 2 h.2), mul_one]
  have hY : Tendsto (fun δ => (stabDrift κ lam δ).2 / δ ^ 2) (𝓝[≠] 0) (𝓝 0) := by
    rw [tendsto_zero_iff_norm_tendsto_zero]
    refine squeeze_zero' (Eventually.of_forall fun _ => norm_nonneg _) (hsmall.mono fun δ h => ?_) habs
    rw [Real.norm_eq_abs]
    exact key h.2 (stabDrift_order hk0 hk1 hl0 hl1 h.1).2
  have := (hX.pow 2).add (hY.pow 2)
  rw [zero_pow two_ne_zero, add_zero] at this
  refine this.congr' (hsmall.mono fun δ h => ?_)
  have : δ ^ 2 ≠ 0 := pow_ne_zero 2 h.2
  field_simp

theorem stabTurn_pos {κ x : ℝ} (h0 : 0 < κ) (h1 : κ < 1) (hx : 0 < x) : 0 < stabTurn κ (1 / 2) x ∧ stabTurn κ (1 / 2) x ≤ x := by
  have e : stabTurn κ (1 / 2) x = x * (1 - κ * (1 - Real.cos x) / 2) := by
    simp only [stabTurn, stabAngle]; ring
  have a := Real.neg_one_le_cos x
  have b := Real.cos_le_one x
  rw [e]
  have h2 : κ * (1 - Real.cos x) ≤ κ * 2 := mul_le_mul_of_nonneg_left (by linarith) h0.le
  have h3 : 0 ≤ κ * (1 - Real.cos x) := mul_nonneg h0.le (by linarith)
  exact ⟨mul_pos hx (by linarith), mul_le_of_le_one_right hx.le (by linarith)⟩

/-- The angular velocity goes to zero with the stabilisation too. -/
theorem stab_stops {κ dt : ℝ} (h0 : 0 < κ) (h1 : κ < 1) (hdt : 0 < dt) {ω : ℕ → ℝ}
    (hrec : ∀ n, ω (n + 1) = ω n * spinFactor κ (stabTurn κ (1 / 2) (ω n * dt))) (hs : |ω 0| * dt < 2 * Real.pi) :
    Tendsto ω atTop (𝓝 0) := by
  have heven : ∀ x, spinFactor κ (stabTurn κ (1 / 2) |x|) = spinFactor κ (stabTurn κ (1 / 2) x) := by
    intro x
    rcases abs_choice x with e | e
    · rw [e]
    · rw [e, stabTurn_neg]; unfold spinFactor; rw [Real.cos_neg]
  have hstep : ∀ n, |ω (n + 1)| = |ω n| * |spinFactor κ (stabTurn κ (1 / 2) (|ω n| * dt))| := by
    intro n
    rw [hrec, abs_mul, ← heven (ω n * dt), abs_mul (ω n) dt, abs_of_pos hdt]
  have hanti : Antitone fun n => |ω n| := by
    refine antitone_nat_of_succ_le fun n => ?_
    rw [hstep]
    exact mul_le_of_le_one_right (abs_nonneg _) (spinFactor_abs h0.le h1)
  have hlim := tendsto_atTop_ciInf hanti ⟨0, by rintro _ ⟨n, rfl⟩; exact abs_nonneg _⟩
  set L := ⨅ n, |ω n| with hL
  have hL0 : 0 ≤ L := ge_of_tendsto' hlim fun n => abs_nonneg _
  have hLle : L ≤ |ω 0| := hanti.le_of_tendsto hlim 0
  have hcont : Continuous fun x : ℝ => x * |spinFactor κ (stabTurn κ (1 / 2) (x * dt))| := by
    unfold spinFactor stabTurn stabAngle
    fun_prop
  have h2 : Tendsto (fun n => |ω (n + 1)|) atTop (𝓝 (L * |spinFactor κ (stabTurn κ (1 / 2) (L * dt))|)) := by
    have := (hcont.tendsto L).comp hlim
    refine this.congr fun n => ?_
    simp only [Function.comp]
    rw [hstep]
  have h3 := tendsto_nhds_unique h2 (hlim.comp (tendsto_add_atTop_nat 1))
  have hLz : L = 0 := by
    by_contra hne
    have : |spinFactor κ (stabTurn κ (1 / 2) (L * dt))| = 1 := mul_left_cancel₀ hne (by rw [h3, mul_one])
    rw [spinFactor_one h0 h1] at this
    have hpos : 0 < L * dt := mul_pos (lt_of_le_of_ne hL0 (Ne.symm hne)) hdt
    have hlt : L * dt < 2 * Real.pi := lt_of_le_of_lt (mul_le_mul_of_nonneg_right hLle hdt.le) hs
    obtain ⟨t1, t2⟩ := stabTurn_pos h0 h1 hpos
    have := (Real.cos_eq_one_iff_of_lt_of_lt (by linarith [Real.pi_pos]) (by linarith)).1 this
    linarith
  rw [hLz] at hlim
  exact (tendsto_zero_iff_abs_tendsto_zero _).2 hlim

end LcpPhysics
