import Verif.Props.Learn
import Verif.Props.BreakoutSimExamples
import Mathlib.Analysis.Calculus.Deriv.Add
import Mathlib.Analysis.Calculus.Deriv.Pow
import Mathlib.Analysis.Calculus.Deriv.Mul

/-!
# C118, continued: learning the paddle's speed
-/

noncomputable section

namespace LcpPhysics.Learn
open Spec Breakout

/-! ## The loss of one game -/

/-- The loss of a game in which ball and paddle touch nothing, the paddle on the screen moving by `a * (ux, uy)` per action. -/
theorem C118_game_loss {φ : Type} (lcp : LcpSolver) (hx : Exact lcp) (mi : ℕ)
    (collide : ℝ → φ → List Body → Except Err (φ × List Contact)) (fnd : φ) (fuel sub : ℕ) (paddle : BoxParams) (blocks : List BoxParams)
    (ball : BallParams) (hr : ball.rad ≠ 0) (hf : GameFinder blocks.length collide) (as : List ℝ) (ux uy vx vy L : ℝ)
    (hfree : ∀ w, make_world lcp mi collide fnd paddle blocks ball (0, 0) = .done w →
      FreeGame (breakoutEnv lcp mi collide) fuel sub vx vy as w)
    (h : gameLoss lcp mi collide fnd fuel sub paddle blocks ball as (straight paddle ux uy as) vx vy = .done L) :
    L = spread 0 as / (4 * (as.length + 1)) * ((vx - ux) ^ 2 + (vy - uy) ^ 2) := by
  unfold gameLoss at h
  rw [Run.bind_eq_done] at h
  obtain ⟨w, hw, h⟩ := h
  rw [Run.bind_eq_done] at h
  obtain ⟨l, hl, h⟩ := h
  injection h with h
  subst h
  have hs := C89_world_made lcp mi collide fnd paddle blocks ball (0, 0) hr hf w hw
  rw [C92_learned_states blocks (0, 0) lcp mi collide hf hx fuel sub vx vy as paddle ball w l hs (hfree w hw) hl]
  unfold mseLoss
  simp only [List.flatten_cons]
  rw [List.zipWith_append rfl, List.sum_append, straight_diff vx vy ux uy as 0 paddle paddle rfl rfl (by simp) (by simp),
    List.length_append, straight_length]
  simp [BoxParams.toList]
  ring

/-- C118: its derivatives: the gradient points away from the true speed, with the same factor for both components. -/
theorem C118_game_gradient {φ : Type} (lcp : LcpSolver) (hx : Exact lcp) (mi : ℕ)
    (collide : ℝ → φ → List Body → Except Err (φ × List Contact)) (fnd : φ) (fuel sub : ℕ) (paddle : BoxParams) (blocks : List BoxParams)
    (ball : BallParams) (hr : ball.rad ≠ 0) (hf : GameFinder blocks.length collide) (as : List ℝ) (ux uy vx vy : ℝ)
    (hfree : ∀ vx vy w, make_world lcp mi collide fnd paddle blocks ball (0, 0) = .done w →
      FreeGame (breakoutEnv lcp mi collide) fuel sub vx vy as w)
    (L : ℝ → ℝ → ℝ)
    (hL : ∀ vx vy, gameLoss lcp mi collide fnd fuel sub paddle blocks ball as (straight paddle ux uy as) vx vy = .done (L vx vy)) :
    HasDerivAt (fun x => L x vy) (2 * (spread 0 as / (4 * (as.length + 1))) * (vx - ux)) vx ∧
    HasDerivAt (fun y => L vx y) (2 * (spread 0 as / (4 * (as.length + 1))) * (vy - uy)) vy := by
  have e : ∀ vx vy, L vx vy = spread 0 as / (4 * (as.length + 1)) * ((vx - ux) ^ 2 + (vy - uy) ^ 2) := fun vx vy =>
    C118_game_loss lcp hx mi collide fnd fuel sub paddle blocks ball hr hf as ux uy vx vy _ (hfree vx vy) (hL vx vy)
  simp only [e]
  constructor
  · have := ((((hasDerivAt_id vx).sub_const ux).pow 2).add_const ((vy - uy) ^ 2)).const_mul (spread 0 as / (4 * (as.length + 1)))
    refine this.congr_deriv ?_
    simp only [id]
    ring
  · have := ((((hasDerivAt_id vy).sub_const uy).pow 2).const_add ((vx - ux) ^ 2)).const_mul (spread 0 as / (4 * (as.length + 1)))
    refine this.congr_deriv ?_
    simp only [id]
    ring

/-! ## The loop on such games -/

/-- One step with a gradient proportional to the error: the error shrinks by a factor, or changes sign and is then below ten times
the learning rate. -/
theorem error_step (lr : ℝ) (hlr : 0 < lr) (p : Param) (h : 0 ≤ p.sq) (c u : ℝ) (hc : 0 ≤ c) (G : ℝ) (hG : 0 ≤ G) (hq : p.sq ≤ G ^ 2)
    (hg : |2 * c * (p.val - u)| ≤ G) :
    (p.step lr (2 * c * (p.val - u))).sq ≤ G ^ 2 ∧
    |(p.step lr (2 * c * (p.val - u))).val - u| ≤ max (10 * lr) ((1 - lr * (2 * c) / (G + 1e-8)) * |p.val - u|) := by
  have hb := C118_step_bound lr hlr p h (2 * c * (p.val - u))
  set e := p.val - u with he
  have hgg : (2 * c * e) * (2 * c * e) ≤ G ^ 2 := by
    have := abs_mul_abs_self (2 * c * e)
    nlinarith [abs_nonneg (2 * c * e)]
  have hsq : 0.99 * p.sq + (1 - 0.99) * ((2 * c * e) * (2 * c * e)) ≤ G ^ 2 := by norm_num; linarith
  refine ⟨hsq, ?_⟩
  simp only [Param.step] at hb ⊢
  set r := √(0.99 * p.sq + (1 - 0.99) * (2 * c * e * (2 * c * e))) with hr
  have hr0 : 0 ≤ r := Real.sqrt_nonneg _
  have hrG : r ≤ G := Real.sqrt_le_iff.2 ⟨hG, hsq⟩
  have hp : 0 < r + 1e-8 := by norm_num; linarith
  have hGp : 0 < G + 1e-8 := by norm_num; linarith
  set θ := lr * (2 * c) / (r + 1e-8) with hθ
  have hθ0 : 0 ≤ θ := by positivity
  have hθ1 : lr * (2 * c) / (G + 1e-8) ≤ θ := by
    apply div_le_div_of_nonneg_left (by positivity) hp
    linarith
  have e1 : p.val - lr * (2 * c * e) / (r + 1e-8) - u = (1 - θ) * e := by rw [hθ, he]; ring
  have e2 : p.val - lr * (2 * c * e) / (r + 1e-8) - p.val = -(θ * e) := by rw [hθ]; ring
  rw [e1, abs_mul]
  rw [e2, abs_neg, abs_mul, abs_of_nonneg hθ0] at hb
  by_cases h1 : θ ≤ 1
  · rw [abs_of_nonneg (by linarith)]
    refine le_max_of_le_right (mul_le_mul_of_nonneg_right (by linarith) (abs_nonneg _))
  · push Not at h1
    rw [abs_of_neg (by linarith)]
    refine le_max_of_le_left ?_
    have := abs_nonneg e
    nlinarith

/-- The gradients of games without contacts: in game `i` the factor is `c i`. -/
def Parabolic (c : ℕ → ℝ) (ux uy : ℝ) (grad : ℕ → ℝ → ℝ → Option ℝ × Option ℝ) : Prop :=
  ∀ i vx vy, grad i vx vy = (some (2 * c i * (vx - ux)), some (2 * c i * (vy - uy)))

/-- C118: on games without contacts neither component of the speed ever gets farther from the truth than it was at the start, or
than 0.3 if it was nearer; and with `n` iterations done it is within 0.3 or has come nearer by a constant factor in each. `lo` and
`hi` bound the factors of the games, `E` the errors at the start. -/
theorem C118_learn_rate (play : ℕ → ℝ → ℝ → Run ℝ) (grad : ℕ → ℝ → ℝ → Option ℝ × Option ℝ) (c : ℕ → ℝ) (ux uy lo hi E : ℝ)
    (hgr : Parabolic c ux uy grad) (hlo : 0 ≤ lo) (hc : ∀ i, lo ≤ c i ∧ c i ≤ hi) (hE : 0.3 ≤ E) :
    ∀ (k i : ℕ) (s r : VelState) (e : ℝ), e ≤ E → 0.3 ≤ e → 0 ≤ s.vx.sq → 0 ≤ s.vy.sq → s.vx.sq ≤ (2 * hi * E) ^ 2 → s.vy.sq ≤ (2 * hi * E) ^ 2 →
      |s.vx.val - ux| ≤ e → |s.vy.val - uy| ≤ e → learn play grad k i s = .done r →
      ∃ n, n ≤ k ∧ r.vel_hist.length = s.vel_hist.length + n ∧
        |r.vx.val - ux| ≤ max 0.3 ((1 - 0.03 * (2 * lo) / (2 * hi * E + 1e-8)) ^ n * e) ∧
        |r.vy.val - uy| ≤ max 0.3 ((1 - 0.03 * (2 * lo) / (2 * hi * E + 1e-8)) ^ n * e) := by
  have hhi : 0 ≤ hi := hlo.trans ((hc 0).1.trans (hc 0).2)
  have hE0 : 0 < E := by norm_num at hE; linarith
  set ρ := 0.03 * (2 * lo) / (2 * hi * E + 1e-8) with hρ
  have hG : 0 ≤ 2 * hi * E := by positivity
  have hGp : 0 < 2 * hi * E + 1e-8 := by positivity
  have hρ0 : 0 ≤ ρ := by positivity
  have hρ1 : ρ ≤ 1 := by
    rw [hρ, div_le_one hGp]
    have : lo ≤ hi := (hc 0).1.trans (hc 0).2
    norm_num at hE ⊢
    nlinarith
  -- one component
  have one : ∀ (i : ℕ) (p : Param) (u e : ℝ), e ≤ E → 0.3 ≤ e → 0 ≤ p.sq → p.sq ≤ (2 * hi * E) ^ 2 → |p.val - u| ≤ e →
      0 ≤ (p.step 0.03 (2 * c i * (p.val - u))).sq ∧ (p.step 0.03 (2 * c i * (p.val - u))).sq ≤ (2 * hi * E) ^ 2 ∧
      |(p.step 0.03 (2 * c i * (p.val - u))).val - u| ≤ max 0.3 ((1 - ρ) * e) := by
    intro i p u e h1 h2 h3 h4 h5
    have hci : 0 ≤ c i := hlo.trans (hc i).1
    have hgb : |2 * c i * (p.val - u)| ≤ 2 * hi * E := by
      rw [abs_mul, abs_of_nonneg (by positivity : 0 ≤ 2 * c i)]
      have := (hc i).2
      have := abs_nonneg (p.val - u)
      apply mul_le_mul (by linarith) (by linarith) this (by positivity)
    obtain ⟨q1, q2⟩ := error_step 0.03 (by norm_num) p h3 (c i) u hci _ hG h4 hgb
    refine ⟨step_sq_nonneg _ _ h3 _, q1, q2.trans (max_le_max (by norm_num) ?_)⟩
    have : ρ ≤ 0.03 * (2 * c i) / (2 * hi * E + 1e-8) := by
      apply div_le_div_of_nonneg_right _ hGp.le
      have := (hc i).1
      norm_num
      linarith
    calc (1 - 0.03 * (2 * c i) / (2 * hi * E + 1e-8)) * |p.val - u| ≤ (1 - ρ) * |p.val - u| :=
          mul_le_mul_of_nonneg_right (by linarith) (abs_nonneg _)
      _ ≤ (1 - ρ) * e := mul_le_mul_of_nonneg_left h5 (by linarith)
  intro k
  induction k with
  | zero =>
    intro i s r e h1 h2 _ _ _ _ h3 h4 h
    unfold learn at h
    injection h with h
    subst h
    exact ⟨0, le_rfl, by simp, by simpa using Or.inr h3, by simpa using Or.inr h4⟩
  | succ k ih =>
    intro i s r e h1 h2 a1 a2 a3 a4 h3 h4 h
    unfold learn at h
    rw [Run.bind_eq_done] at h
    obtain ⟨loss, -, h⟩ := h
    rw [hgr i s.vx.val s.vy.val] at h
    simp only [Param.step?] at h
    obtain ⟨x1, x2, x3⟩ := one i s.vx ux e h1 h2 a1 a3 h3
    obtain ⟨y1, y2, y3⟩ := one i s.vy uy e h1 h2 a2 a4 h4
    split_ifs at h with hl
    · injection h with h
      subst h
      exact ⟨1, by omega, by simp, by simpa using x3, by simpa using y3⟩
    · have hle : (1 - ρ) * e ≤ e := by
        have : 0 ≤ e := by norm_num at h2; linarith
        nlinarith
      obtain ⟨n, n1, n2, n3, n4⟩ := ih (i + 1) _ r (max 0.3 ((1 - ρ) * e)) (max_le hE (hle.trans h1)) (le_max_left _ _) x1 y1 x2 y2 x3 y3 h
      have fin : max 0.3 ((1 - ρ) ^ n * max 0.3 ((1 - ρ) * e)) ≤ max 0.3 ((1 - ρ) ^ (n + 1) * e) := by
        have hp0 : 0 ≤ (1 - ρ) ^ n := pow_nonneg (by linarith) n
        have hp1 : (1 - ρ) ^ n ≤ 1 := pow_le_one₀ (by linarith) (by linarith)
        refine max_le (le_max_left _ _) ?_
        rw [mul_max_of_nonneg _ _ hp0]
        refine max_le (le_max_of_le_left (by norm_num; linarith)) (le_max_of_le_right ?_)
        rw [pow_succ, mul_assoc]
      refine ⟨n + 1, by omega, ?_, n3.trans fin, n4.trans fin⟩
      rw [n2]
      simp
      omega

/-- C118: so on games without contacts `infer_params` does not make a bad guess worse, or a good one worse than 0.3. -/
theorem C118_learned (play : ℕ → ℝ → ℝ → Run ℝ) (grad : ℕ → ℝ → ℝ → Option ℝ × Option ℝ) (c : ℕ → ℝ) (ux uy hi rx ry x y : ℝ)
    (hgr : Parabolic c ux uy grad) (hc : ∀ i, 0 ≤ c i ∧ c i ≤ hi) (h : infer_params play grad rx ry = .done (x, y)) :
    |x - ux| ≤ max 0.3 (max |rx - ux| |ry - uy|) ∧ |y - uy| ≤ max 0.3 (max |rx - ux| |ry - uy|) := by
  unfold infer_params at h
  rw [Run.bind_eq_done] at h
  obtain ⟨s, h1, h2⟩ := h
  injection h2 with h2
  simp only [Prod.mk.injEq] at h2
  obtain ⟨rfl, rfl⟩ := h2
  set E := max 0.3 (max |rx - ux| |ry - uy|) with hE
  obtain ⟨n, -, -, n3, n4⟩ := C118_learn_rate play grad c ux uy 0 hi E hgr le_rfl hc (le_max_left _ _) 1000 0 _ s E le_rfl (le_max_left _ _)
    (by simp [velStart]) (by simp [velStart]) (by simp only [velStart]; positivity) (by simp only [velStart]; positivity)
    (by simp only [velStart]; exact le_max_of_le_right (le_max_left _ _))
    (by simp only [velStart]; exact le_max_of_le_right (le_max_right _ _)) h1
  simp only [mul_zero, zero_div, sub_zero, one_pow, one_mul] at n3 n4
  have : max 0.3 E = E := max_eq_right (le_max_left _ _)
  rw [this] at n3 n4
  exact ⟨n3, n4⟩

/-- C118: a parameter that gets no gradient is left alone, and no component moves by 0.3 in one iteration: after `k` iterations it
is nearer than `0.3 · k` to where it started. -/
theorem C118_learn_reach (play : ℕ → ℝ → ℝ → Run ℝ) (grad : ℕ → ℝ → ℝ → Option ℝ × Option ℝ) : ∀ (k i : ℕ) (s r : VelState),
    0 ≤ s.vx.sq → 0 ≤ s.vy.sq → learn play grad k i s = .done r →
    |r.vx.val - s.vx.val| ≤ 0.3 * k ∧ |r.vy.val - s.vy.val| ≤ 0.3 * k ∧
      ((∀ i vx vy, (grad i vx vy).1 = none) → r.vx = s.vx) ∧ ((∀ i vx vy, (grad i vx vy).2 = none) → r.vy = s.vy)
  | 0, i, s, r, _, _, h => by
    unfold learn at h
    injection h with h
    subst h
    simp
  | k + 1, i, s, r, hx, hy, h => by
    unfold learn at h
    rw [Run.bind_eq_done] at h
    obtain ⟨loss, -, h⟩ := h
    have one : ∀ (p : Param) (g : Option ℝ), 0 ≤ p.sq → 0 ≤ (p.step? 0.03 g).sq ∧ |(p.step? 0.03 g).val - p.val| ≤ 0.3 ∧
        (g = none → p.step? 0.03 g = p) := by
      intro p g hp
      cases g with
      | none => exact ⟨hp, by norm_num [Param.step?], fun _ => rfl⟩
      | some g =>
        refine ⟨step_sq_nonneg _ _ hp _, ?_, fun h => by cases h⟩
        have := C118_step_bound 0.03 (by norm_num) p hp g
        simp only [Param.step?]
        norm_num at this ⊢
        linarith
    obtain ⟨x1, x2, x3⟩ := one s.vx (grad i s.vx.val s.vy.val).1 hx
    obtain ⟨y1, y2, y3⟩ := one s.vy (grad i s.vx.val s.vy.val).2 hy
    have hk : (0 : ℝ) ≤ k := Nat.cast_nonneg k
    simp only at h
    split_ifs at h with hl
    · injection h with h
      subst h
      push_cast
      refine ⟨?_, ?_, fun h => x3 (h _ _ _), fun h => y3 (h _ _ _)⟩
      · norm_num at x2 ⊢
        linarith
      · norm_num at y2 ⊢
        linarith
    · obtain ⟨q1, q2, q3, q4⟩ := C118_learn_reach play grad k (i + 1) _ r x1 y1 h
      push_cast
      refine ⟨?_, ?_, fun h => (q3 h).trans (x3 (h _ _ _)), fun h => (q4 h).trans (y3 (h _ _ _))⟩
      · have := abs_sub_le r.vx.val (s.vx.step? 0.03 (grad i s.vx.val s.vy.val).1).val s.vx.val
        simp only at q1
        norm_num at q1 x2 ⊢
        linarith
      · have := abs_sub_le r.vy.val (s.vy.step? 0.03 (grad i s.vx.val s.vy.val).2).val s.vy.val
        simp only at q2
        norm_num at q2 y2 ⊢
        linarith

end LcpPhysics.Learn
