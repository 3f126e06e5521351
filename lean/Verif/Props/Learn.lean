import Verif.Model.Learn
import Verif.Spec.Learn
import Verif.Props.InferenceRun
import Verif.Props.BreakoutSim

/-!
# C118: the learning loops of `inference.py` and `learn_params.py`
-/

noncomputable section

namespace LcpPhysics.Learn
open Spec

/-! ## One step of the optimiser -/

theorem step_sq_nonneg (lr : ℝ) (p : Param) (h : 0 ≤ p.sq) (g : ℝ) : 0 ≤ (p.step lr g).sq := by
  simp only [Param.step]
  nlinarith [mul_self_nonneg g]

/-- The root of the mean is at least a tenth of the gradient. -/
theorem root_lower (q g : ℝ) (h : 0 ≤ q) : |g| / 10 ≤ √(0.99 * q + (1 - 0.99) * (g * g)) := by
  apply Real.le_sqrt_of_sq_le
  rw [div_pow, sq_abs]
  nlinarith

/-- C118: no step is as long as ten times the learning rate, however large the gradient. -/
theorem C118_step_bound (lr : ℝ) (hlr : 0 < lr) (p : Param) (h : 0 ≤ p.sq) (g : ℝ) :
    |(p.step lr g).val - p.val| < 10 * lr := by
  have hr := root_lower p.sq g h
  simp only [Param.step]
  set r := √(0.99 * p.sq + (1 - 0.99) * (g * g))
  have hr0 : 0 < r + 1e-8 := by
    have := Real.sqrt_nonneg (0.99 * p.sq + (1 - 0.99) * (g * g))
    have : 0 ≤ r := this
    norm_num; linarith
  rw [show p.val - lr * g / (r + 1e-8) - p.val = -(lr * g / (r + 1e-8)) by ring, abs_neg, abs_div, abs_of_pos hr0, div_lt_iff₀ hr0,
    abs_mul, abs_of_pos hlr]
  have : |g| < 10 * (r + 1e-8) := by norm_num; linarith
  nlinarith

/-- C118: the step is taken against the gradient. -/
theorem C118_step_sign (lr : ℝ) (hlr : 0 < lr) (p : Param) (g : ℝ) :
    (0 < g → (p.step lr g).val < p.val) ∧ (g < 0 → p.val < (p.step lr g).val) ∧ (g = 0 → (p.step lr g).val = p.val) := by
  simp only [Param.step]
  set r := √(0.99 * p.sq + (1 - 0.99) * (g * g)) with hr
  have hr0 : 0 < r + 1e-8 := by
    have : 0 ≤ r := Real.sqrt_nonneg _
    norm_num; linarith
  refine ⟨fun hg => ?_, fun hg => ?_, fun hg => ?_⟩
  · have : 0 < lr * g / (r + 1e-8) := by positivity
    linarith
  · have : 0 < lr * (-g) / (r + 1e-8) := by have : 0 < -g := by linarith
                                            positivity
    rw [mul_neg, neg_div] at this
    linarith
  · subst hg
    simp

/-- C118: what the optimiser remembers after any gradients is their mean square with weights falling off, so the length of each
step is the latest gradient relative to the root of that mean. -/
theorem C118_memory (lr m : ℝ) (gs : List ℝ) : (gs.foldr (fun g p => Param.step lr p g) ⟨m, 0⟩).sq = meanSquare gs := by
  induction gs with
  | nil => simp [meanSquare]
  | cons g gs ih =>
    have e : meanSquare (g :: gs) = 0.99 * meanSquare gs + 0.01 * g ^ 2 := by
      unfold meanSquare
      rw [List.length_cons, List.range_succ_eq_map, List.map_cons, List.sum_cons, List.map_map, ← List.sum_map_mul_left]
      have : ((fun i => 0.01 * 0.99 ^ i * (g :: gs).getD i 0 ^ 2) ∘ Nat.succ : ℕ → ℝ) =
          fun i => 0.99 * (0.01 * 0.99 ^ i * gs.getD i 0 ^ 2) := by
        funext i
        simp only [Function.comp, Nat.succ_eq_add_one, List.getD_cons_succ, pow_succ]
        ring
      rw [this]
      simp
      ring
    show 0.99 * (gs.foldr (fun g p => Param.step lr p g) ⟨m, 0⟩).sq + (1 - 0.99) * (g * g) = _
    rw [ih, e]
    ring

/-- The root in the first step. -/
theorem first_root (g : ℝ) : √(0.99 * 0 + (1 - 0.99) * (g * g)) = |g| / 10 := by
  rw [show 0.99 * 0 + (1 - 0.99) * (g * g) = (|g| / 10) ^ 2 by rw [div_pow, sq_abs]; ring]
  exact Real.sqrt_sq (by positivity)

/-- C118: the first step is nearly ten times the learning rate long, whatever the gradient: it differs from that by less than
one part in five hundred as soon as the gradient is at least 5e-5. -/
theorem C118_first_step (lr : ℝ) (hlr : 0 < lr) (m g : ℝ) (hg : 5e-5 ≤ |g|) :
    9.98 * lr ≤ |((⟨m, 0⟩ : Param).step lr g).val - m| ∧ |((⟨m, 0⟩ : Param).step lr g).val - m| < 10 * lr := by
  refine ⟨?_, C118_step_bound lr hlr ⟨m, 0⟩ le_rfl g⟩
  simp only [Param.step, first_root]
  have h0 : 0 < |g| / 10 + 1e-8 := by positivity
  rw [show m - lr * g / (|g| / 10 + 1e-8) - m = -(lr * g / (|g| / 10 + 1e-8)) by ring, abs_neg, abs_div, abs_of_pos h0, le_div_iff₀ h0,
    abs_mul, abs_of_pos hlr, mul_comm 9.98 lr, mul_assoc]
  refine mul_le_mul_of_nonneg_left ?_ hlr.le
  norm_num at hg ⊢
  linarith

/-! ## The mass inference -/

/-- C118: in the first iteration the mass, drawn between 0 and 1, either becomes negative or jumps to about five, depending on the
sign of the gradient only. -/
theorem C118_first_mass (show' : ℝ → Run Unit) (sim : ℝ → Run ℝ) (grad : ℝ → ℝ) (rand : ℝ) (h0 : 0 ≤ rand) (h1 : rand < 1)
    (hg : 5e-5 ≤ |grad rand|) (s : MassState) (hs : train show' sim grad 1 (massStart rand) = .done s) :
    (0 < grad rand → -5 < s.mass.val ∧ s.mass.val < -3.98) ∧ (grad rand < 0 → 4.98 < s.mass.val ∧ s.mass.val < 6) := by
  have hv : s.mass = (⟨rand, 0⟩ : Param).step 0.5 (grad rand) := by
    unfold train at hs
    simp only [Run.bind_eq_done] at hs
    obtain ⟨-, -, loss, -, hs⟩ := hs
    split_ifs at hs
    · injection hs with hs
      subst hs
      rfl
    · unfold train at hs
      injection hs with hs
      subst hs
      rfl
  rw [hv]
  obtain ⟨k1, k2⟩ := C118_first_step 0.5 (by norm_num) rand (grad rand) hg
  obtain ⟨q1, q2, -⟩ := C118_step_sign 0.5 (by norm_num) ⟨rand, 0⟩ (grad rand)
  constructor
  · intro h
    have := q1 h
    rw [abs_of_neg (by simpa using this)] at k1 k2
    norm_num at k1 k2 ⊢
    constructor <;> linarith
  · intro h
    have := q2 h
    rw [abs_of_pos (by simpa using this)] at k1 k2
    norm_num at k1 k2 ⊢
    constructor <;> linarith

/-- C118: how far the mass can be after `k` iterations: less than five per iteration. -/
theorem C118_reach (show' : ℝ → Run Unit) (sim : ℝ → Run ℝ) (grad : ℝ → ℝ) : ∀ (k : ℕ) (s r : MassState), 0 ≤ s.mass.sq →
    train show' sim grad k s = .done r → 0 ≤ r.mass.sq ∧ |r.mass.val - s.mass.val| ≤ 5 * k ∧
      (0 < k → |r.mass.val - s.mass.val| < 5 * k)
  | 0, s, r, hs, h => by
    unfold train at h
    injection h with h
    subst h
    simp [hs]
  | k + 1, s, r, hs, h => by
    unfold train at h
    simp only [Run.bind_eq_done] at h
    obtain ⟨-, -, loss, -, h⟩ := h
    have hb := C118_step_bound 0.5 (by norm_num) s.mass hs (grad s.mass.val)
    have hq := step_sq_nonneg 0.5 s.mass hs (grad s.mass.val)
    have key : 0 ≤ r.mass.sq ∧ |r.mass.val - s.mass.val| < 5 * (k + 1) := by
      split_ifs at h with hl
      · injection h with h
        subst h
        refine ⟨hq, ?_⟩
        have : (0 : ℝ) ≤ k := Nat.cast_nonneg k
        simp only
        norm_num at hb
        linarith
      · obtain ⟨e1, e2, -⟩ := C118_reach show' sim grad k _ r (by exact hq) h
        refine ⟨e1, ?_⟩
        have := abs_sub_le r.mass.val (s.mass.step 0.5 (grad s.mass.val)).val s.mass.val
        simp only at e2
        norm_num at hb
        linarith
    push_cast
    exact ⟨key.1, key.2.le, fun _ => key.2⟩

/-- C118: so the true mass, 7, is out of reach of the first iteration. -/
theorem C118_not_at_once (show' : ℝ → Run Unit) (sim : ℝ → Run ℝ) (grad : ℝ → ℝ) (rand : ℝ) (h1 : rand < 1)
    (s : MassState) (hs : train show' sim grad 1 (massStart rand) = .done s) : s.mass.val < 6 := by
  have := (C118_reach show' sim grad 1 _ s (by simp [massStart]) hs).2.2 one_pos
  rw [abs_lt] at this
  simp only [massStart] at this
  push_cast at this
  linarith [this.2]

/-- C118: if the first two gradients ask for a larger mass and the second is no weaker than the first, the mass is carried beyond
the true one. -/
theorem C118_overshoot (rand g1 g2 : ℝ) (h0 : 0 ≤ rand) (hg1 : g1 ≤ -5e-5) (hg2 : g2 ≤ g1) :
    8.4 < (((⟨rand, 0⟩ : Param).step 0.5 g1).step 0.5 g2).val := by
  have hn1 : 5e-5 ≤ |g1| := by rw [abs_of_neg (by norm_num at hg1; linarith)]; linarith
  obtain ⟨k1, -⟩ := C118_first_step 0.5 (by norm_num) rand g1 hn1
  have hneg : g1 < 0 := by norm_num at hg1; linarith
  have := (C118_step_sign 0.5 (by norm_num) ⟨rand, 0⟩ g1).2.1 hneg
  rw [abs_of_pos (by simpa using this)] at k1
  set p := (⟨rand, 0⟩ : Param).step 0.5 g1 with hp
  have hq : p.sq = 0.01 * (g1 * g1) := by rw [hp]; simp only [Param.step]; ring
  have hroot : √(0.99 * p.sq + (1 - 0.99) * (g2 * g2)) ≤ 0.1411 * (-g2) := by
    apply Real.sqrt_le_iff.2
    refine ⟨by nlinarith, ?_⟩
    rw [hq]
    have : g1 * g1 ≤ g2 * g2 := by nlinarith
    norm_num at *
    nlinarith
  show 8.4 < p.val - 0.5 * g2 / (√(0.99 * p.sq + (1 - 0.99) * (g2 * g2)) + 1e-8)
  set r := √(0.99 * p.sq + (1 - 0.99) * (g2 * g2)) with hr
  have hr0 : 0 < r + 1e-8 := by
    have : 0 ≤ r := Real.sqrt_nonneg _
    norm_num; linarith
  have : 3.5 ≤ 0.5 * (-g2) / (r + 1e-8) := by
    rw [le_div_iff₀ hr0]
    norm_num at hg1 hroot ⊢
    linarith
  rw [mul_neg, neg_div] at this
  norm_num at k1 this ⊢
  linarith

/-- C118: where the gradient is zero the inference is over: the mass is not changed any more, and the loop ends with this iteration
or the next. -/
theorem C118_stalls (show' : ℝ → Run Unit) (sim : ℝ → Run ℝ) (grad : ℝ → ℝ) (s : MassState) (loss : ℝ) (h0 : show' s.mass.val = .done ())
    (h1 : sim s.mass.val = .done loss) (hg : grad s.mass.val = 0) (k : ℕ) :
    ∃ r, train show' sim grad (k + 2) s = .done r ∧ r.mass.val = s.mass.val ∧ r.loss_hist.length ≤ s.loss_hist.length + 1 := by
  have hsame : ∀ p : Param, (p.step 0.5 0).val = p.val := fun p => by simp [Param.step]
  unfold train
  simp only [h0, h1, hg, Run.bind_done]
  split_ifs with hl
  · exact ⟨_, rfl, hsame _, by simp⟩
  · unfold train
    simp only [hsame, h0, h1, hg, Run.bind_done]
    rw [if_pos (by norm_num)]
    exact ⟨_, rfl, by simp [hsame], by simp⟩

/-- C118: the histories belong together: every loss is that of the mass before it, and the next mass is less than five away. -/
theorem C118_histories (show' : ℝ → Run Unit) (sim : ℝ → Run ℝ) (grad : ℝ → ℝ) : ∀ (k : ℕ) (s r : MassState), 0 ≤ s.mass.sq →
    (∀ i < s.loss_hist.length, sim (s.mass_hist.getD i 0) = .done (s.loss_hist.getD i 0) ∧
      |s.mass_hist.getD (i + 1) 0 - s.mass_hist.getD i 0| < 5) →
    s.mass_hist.length = s.loss_hist.length + 1 → s.mass_hist.getD s.loss_hist.length 0 = s.mass.val →
    train show' sim grad k s = .done r →
    (∀ i < r.loss_hist.length, sim (r.mass_hist.getD i 0) = .done (r.loss_hist.getD i 0) ∧
      |r.mass_hist.getD (i + 1) 0 - r.mass_hist.getD i 0| < 5) ∧
      r.mass_hist.length = r.loss_hist.length + 1 ∧ r.loss_hist.length ≤ s.loss_hist.length + k
  | 0, s, r, _, h1, h2, h3, h => by
    unfold train at h
    injection h with h
    subst h
    exact ⟨h1, h2, le_rfl⟩
  | k + 1, s, r, hq, h1, h2, h3, h => by
    unfold train at h
    simp only [Run.bind_eq_done] at h
    obtain ⟨-, -, loss, hsim, h⟩ := h
    split_ifs at h with hl
    · injection h with h
      subst h
      exact ⟨h1, h2, by simp⟩
    · have := C118_histories show' sim grad k _ r (step_sq_nonneg 0.5 s.mass hq (grad s.mass.val)) ?_ ?_ ?_ h
      · refine ⟨this.1, this.2.1, this.2.2.trans ?_⟩
        simp
        omega
      · intro i hi
        simp only [List.length_append, List.length_cons, List.length_nil, zero_add] at hi
        rcases Nat.lt_succ_iff_lt_or_eq.1 hi with hi | hi
        · have := h1 i hi
          simp only [List.getD_eq_getElem?_getD] at this ⊢
          rw [List.getElem?_append_left (by omega), List.getElem?_append_left (by omega), List.getElem?_append_left (by omega)]
          exact this
        · subst hi
          simp only [List.getD_eq_getElem?_getD] at h3 ⊢
          rw [List.getElem?_append_left (by omega), h3, hsim, ← h2]
          refine ⟨by simp, ?_⟩
          have := C118_step_bound 0.5 (by norm_num) s.mass hq (grad s.mass.val)
          rw [show (10 : ℝ) * 0.5 = 5 by norm_num] at this
          simpa using this
      · simp [h2]
      · simp only [List.getD_eq_getElem?_getD, List.length_append, List.length_cons, List.length_nil, zero_add]
        rw [← h2]
        simp

/-- C118: what `main` reports. -/
theorem C118_report (show' : ℝ → Run Unit) (sim : ℝ → Run ℝ) (grad : ℝ → ℝ) (rand loss mass : ℝ) (lh mh : List ℝ)
    (h : infer_mass show' sim grad rand = .done (loss, mass, lh, mh)) :
    sim mass = .done loss ∧ mh.getD 0 0 = rand ∧ mh.length = lh.length + 1 ∧ lh.length ≤ 100 ∧
      (∀ i < lh.length, sim (mh.getD i 0) = .done (lh.getD i 0) ∧ |mh.getD (i + 1) 0 - mh.getD i 0| < 5) ∧ |mass - rand| < 500 := by
  unfold infer_mass at h
  rw [Run.bind_eq_done] at h
  obtain ⟨s, h1, h2⟩ := h
  rw [Run.bind_eq_done] at h2
  obtain ⟨l, h2, h3⟩ := h2
  injection h3 with h3
  simp only [Prod.mk.injEq] at h3
  obtain ⟨rfl, rfl, rfl, rfl⟩ := h3
  obtain ⟨a1, a2, a3⟩ := C118_histories show' sim grad 100 _ s (by simp [massStart]) (by simp [massStart]) (by simp [massStart]) (by simp [massStart]) h1
  have a4 := (C118_reach show' sim grad 100 _ s (by simp [massStart]) h1).2.2 (by norm_num)
  have first : ∀ (k : ℕ) (s r : MassState), s.mass_hist.getD 0 0 = rand → s.mass_hist ≠ [] → train show' sim grad k s = .done r →
      r.mass_hist.getD 0 0 = rand := by
    intro k
    induction k with
    | zero =>
      intro s r h _ h'
      unfold train at h'
      injection h' with h'
      subst h'
      exact h
    | succ k ih =>
      intro s r h hne h'
      unfold train at h'
      simp only [Run.bind_eq_done] at h'
      obtain ⟨-, -, loss, hsim, h'⟩ := h'
      split_ifs at h' with hl
      · injection h' with h'
        subst h'
        exact h
      · refine ih _ r ?_ (by simp) h'
        obtain ⟨a, l, e⟩ := List.exists_cons_of_ne_nil hne
        simpa [e] using h
  refine ⟨h2, first 100 _ s (by simp [massStart]) (by simp [massStart]) h1, a2, by simpa [massStart] using a3, a1, ?_⟩
  simp only [massStart] at a4
  norm_num at a4
  exact a4

theorem run_of_positions {σ φ : Type} (env : Env σ φ) (fuel : ℕ) (T : ℝ) : ∀ (n : ℕ) (w : World σ φ) (ps : List (List ℝ)),
    Inference.positionsLoop env fuel T n w = .done ps → ∃ w', runWorld env fuel T n w = .done w' := by
  intro n
  induction n with
  | zero =>
    intro w ps h
    unfold Inference.positionsLoop at h
    unfold runWorld
    split_ifs at h ⊢
    exact ⟨w, rfl⟩
  | succ n ih =>
    intro w ps h
    unfold Inference.positionsLoop at h
    unfold runWorld
    split_ifs at h ⊢
    · simp only [Run.bind_eq_done] at h
      obtain ⟨w1, h1, ps', h2, -⟩ := h
      obtain ⟨w', h3⟩ := ih w1 ps' h2
      exact ⟨w', by simp only [h1, Run.bind_done, h3]⟩
    · exact ⟨w, rfl⟩

section
variable (lcp : LcpSolver) (mi fuel n : ℕ) {φ : Type} (collide : ℝ → φ → List Body → Except Err (φ × List Contact)) (fnd : φ) (T : ℝ)

/-- C118: the run for the screen ends as the recorded run of the same mass does: it returns, fails with the same error, hangs or runs out
of time exactly when that does. -/
theorem C118_screen (m : ℝ) : massShow lcp mi fuel n collide fnd T m =
    (chainPositions lcp mi fuel n collide fnd T m).bind fun _ => .done () := by
  have key : ∀ (env : Env (Option Mat) φ) (n : ℕ) (w : World (Option Mat) φ), ((runWorld env fuel T n w).bind fun _ => Run.done ()) =
      (Inference.positionsLoop env fuel T n w).bind fun _ => .done () := by
    intro env n
    induction n with
    | zero =>
      intro w
      unfold runWorld Inference.positionsLoop
      split_ifs <;> rfl
    | succ n ih =>
      intro w
      unfold runWorld Inference.positionsLoop
      split_ifs
      · cases w.step env fuel 0 false with
        | done w1 =>
          simp only [Run.bind_done]
          rw [ih w1]
          cases Inference.positionsLoop env fuel T n w1 <;> rfl
        | _ => rfl
      · rfl
  unfold massShow chainPositions Inference.positions_run_world
  cases Inference.make_world lcp mi collide fnd 10 m with
  | done w =>
    simp only [Run.bind_done]
    rw [key]
    cases Inference.positionsLoop (Inference.chainEnv 10 m lcp mi collide) fuel T n w <;> rfl
  | _ => rfl

/-- If the positions can be recorded the run for the screen returns too. -/
theorem show_of_positions (m : ℝ) (ps : List (List ℝ)) (h : chainPositions lcp mi fuel n collide fnd T m = .done ps) :
    massShow lcp mi fuel n collide fnd T m = .done () := by
  unfold chainPositions at h
  unfold massShow
  rw [Run.bind_eq_done] at h
  obtain ⟨w, h1, h2⟩ := h
  unfold Inference.positions_run_world at h2
  rw [Run.bind_eq_done] at h2
  obtain ⟨ps', h2, -⟩ := h2
  obtain ⟨w', h3⟩ := run_of_positions _ _ _ _ _ _ h2
  simp only [h1, Run.bind_done, h3]

/-- C118: what `main` reports when it returns, for runs of any length `T` (10 in the program): the reported loss is the loss of the reported mass, every recorded loss is that of
the mass recorded before it, less than five from the next, and the true mass has loss zero. -/
theorem C118_main (grad : List (List ℝ) → ℝ → ℝ) (rand loss mass : ℝ) (lh mh : List ℝ)
    (h : mainFor lcp mi fuel n collide fnd T grad rand = .done (loss, mass, lh, mh)) :
    ∃ truth, chainPositions lcp mi fuel n collide fnd T 7 = .done truth ∧
      massLoss lcp mi fuel n collide fnd T truth 7 = .done 0 ∧
      massLoss lcp mi fuel n collide fnd T truth mass = .done loss ∧ mh.getD 0 0 = rand ∧ mh.length = lh.length + 1 ∧
      lh.length ≤ 100 ∧ (∀ i < lh.length, massLoss lcp mi fuel n collide fnd T truth (mh.getD i 0) = .done (lh.getD i 0) ∧
        |mh.getD (i + 1) 0 - mh.getD i 0| < 5) ∧
      |mass - rand| < 500 := by
  unfold mainFor at h
  rw [Run.bind_eq_done] at h
  obtain ⟨truth, ht, h⟩ := h
  obtain ⟨a1, a2, a3, a4, a5, a6⟩ := C118_report _ _ _ _ _ _ _ _ h
  refine ⟨truth, ht, ?_, a1, a2, a3, a4, a5, a6⟩
  unfold massLoss
  rw [ht]
  simp only [Run.bind_done]
  rw [loss_self]

end

/-- C118: had the runs been stopped before the projectile arrives, after 44 steps or earlier, `main` would have returned the mass
drawn at random, whatever it is, with loss zero: two iterations, a loss of zero and twice the same mass in the histories. -/
theorem C118_blind (cfuel : ℕ) (hcf : 66 ≤ cfuel) (pairs : List Body → List (ℕ × ℕ))
    (hp : ∀ bs, ∀ p ∈ pairs bs, p.1 < bs.length ∧ p.2 < bs.length ∧ p.1 ≠ p.2) (lcp : LcpSolver) (mi fuel : ℕ) (hf : 1 ≤ fuel)
    (fnd : Finder) (T : ℝ) (hT0 : 0 ≤ T) (hT : T ≤ 44 / 30) (n : ℕ) (hn : 44 ≤ n) (grad : List (List ℝ) → ℝ → ℝ)
    (hg : ∀ truth m D, HasDerivAt (fun m => match massLoss lcp mi fuel n
        (rejectNan (diffCollide cfuel (Inference.chainNc 10) pairs)) fnd T truth m with | .done l => l | _ => 0) D m → grad truth m = D)
    (rand : ℝ) (h0 : 0 < rand) :
    mainFor lcp mi fuel n (rejectNan (diffCollide cfuel (Inference.chainNc 10) pairs)) fnd T grad rand =
      .done (0, rand, [0], [rand, rand]) := by
  have hK : ⌈30 * T⌉₊ ≤ 44 := by
    apply Nat.ceil_le.2
    push_cast
    linarith
  have e1 : (⌈30 * T⌉₊ : ℝ) - 1 < 30 * T := by
    have := Nat.ceil_lt_add_one (show 0 ≤ 30 * T by positivity)
    linarith
  have e2 := Nat.le_ceil (30 * T)
  have hpos : ∀ m > 0, chainPositions lcp mi fuel n (rejectNan (diffCollide cfuel (Inference.chainNc 10) pairs)) fnd T m =
      .done ((List.range (⌈30 * T⌉₊ + 1)).map (chainRow 10)) := by
    intro m hm
    obtain ⟨w, a1, b1⟩ := C95_positions 10 (by norm_num) cfuel hcf pairs hp m hm lcp mi fuel hf fnd T _ hK e1 e2 n (by omega)
    unfold chainPositions
    rw [a1]
    exact b1
  set truth := (List.range (⌈30 * T⌉₊ + 1)).map (chainRow 10) with htr
  have hloss : ∀ m > 0, massLoss lcp mi fuel n (rejectNan (diffCollide cfuel (Inference.chainNc 10) pairs)) fnd T truth m = .done 0 := by
    intro m hm
    unfold massLoss
    rw [hpos m hm]
    simp only [Run.bind_done]
    rw [loss_self]
  have hshow : ∀ m > 0, massShow lcp mi fuel n (rejectNan (diffCollide cfuel (Inference.chainNc 10) pairs)) fnd T m = .done () :=
    fun m hm => show_of_positions _ _ _ _ _ _ _ m _ (hpos m hm)
  have hgrad : grad truth rand = 0 := by
    refine hg truth rand 0 ((hasDerivAt_const rand (0 : ℝ)).congr_of_eventuallyEq ?_)
    filter_upwards [lt_mem_nhds h0] with m hm
    rw [hloss m hm]
  unfold mainFor
  rw [hpos 7 (by norm_num)]
  simp only [Run.bind_done]
  have hsame : ∀ p : Param, (p.step 0.5 0).val = p.val := fun p => by simp [Param.step]
  unfold infer_mass train
  simp only [massStart, hshow rand h0, hloss rand h0, hgrad, Run.bind_done]
  rw [if_neg (by norm_num)]
  unfold train
  simp only [hsame, hshow rand h0, hloss rand h0, hgrad, Run.bind_done]
  rw [if_pos (by norm_num)]
  simp only [Run.bind_done, hsame, hloss rand h0]
  rfl

/-! ## Errors that do not go away -/

/-- C118: for a loss that is a parabola around `u`, the optimiser has a cycle: it jumps between the two points at distance half the
learning rate (corrected by the 1e-8) from the minimum, for ever. -/
theorem C118_cycle (lr c u e : ℝ) (hc : 0 < c) (he : e = lr / 2 - 1e-8 / (2 * c)) (he0 : 0 < e) :
    (⟨u + e, (2 * c * e) ^ 2⟩ : Param).step lr (2 * c * (u + e - u)) = ⟨u - e, (2 * c * e) ^ 2⟩ ∧
    (⟨u - e, (2 * c * e) ^ 2⟩ : Param).step lr (2 * c * (u - e - u)) = ⟨u + e, (2 * c * e) ^ 2⟩ := by
  have hr : √((2 * c * e) ^ 2) = 2 * c * e := Real.sqrt_sq (by positivity)
  have hden : 2 * c * e + 1e-8 = lr * c := by
    rw [he]
    field_simp
    ring
  have hlr : lr * c ≠ 0 := by rw [← hden]; positivity
  constructor
  · simp only [Param.step]
    rw [show u + e - u = e by ring,
      show 0.99 * (2 * c * e) ^ 2 + (1 - 0.99) * (2 * c * e * (2 * c * e)) = (2 * c * e) ^ 2 by ring, hr, hden]
    congr 1
    have : lr * (2 * c * e) / (lr * c) = 2 * e := by rw [div_eq_iff hlr]; ring
    rw [this]; ring
  · simp only [Param.step]
    rw [show u - e - u = -e by ring,
      show 0.99 * (2 * c * e) ^ 2 + (1 - 0.99) * (2 * c * -e * (2 * c * -e)) = (2 * c * e) ^ 2 by ring, hr, hden]
    congr 1
    have : lr * (2 * c * -e) / (lr * c) = -2 * e := by rw [div_eq_iff hlr]; ring
    rw [this]; ring

end LcpPhysics.Learn
