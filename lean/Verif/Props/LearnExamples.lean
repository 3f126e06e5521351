import Verif.Props.LearnParams

/-! # C118: a run of the learner that stops early, and examples -/

noncomputable section

namespace LcpPhysics.Learn
open Spec Breakout

/-- The games of C118_game_loss, all with the same factor `c`. -/
def parabola (c ux uy : ℝ) (_ : ℕ) (vx vy : ℝ) : Run ℝ := .done (c * ((vx - ux) ^ 2 + (vy - uy) ^ 2))

def parabolaGrad (c ux uy : ℝ) (_ : ℕ) (vx vy : ℝ) : Option ℝ × Option ℝ := (some (2 * c * (vx - ux)), some (2 * c * (vy - uy)))

theorem parabolaGrad_parabolic (c ux uy : ℝ) : Parabolic (fun _ => c) ux uy (parabolaGrad c ux uy) := fun _ _ _ => rfl

/-- One component in the early stop: the first step mirrors the error, the second leaves more than 0.06. -/
theorem early_component (c u e : ℝ) (hc : 1e-3 ≤ c) (he : e = 0.15 - 5e-8 / c) :
    ((⟨u + e, 0⟩ : Param).step 0.03 (2 * c * (u + e - u))).val = u - e ∧
    0.06 < (((⟨u + e, 0⟩ : Param).step 0.03 (2 * c * (u + e - u))).step 0.03 (2 * c * (u - e - u))).val - u := by
  have hc0 : 0 < c := by norm_num at hc; linarith
  have hce : c * e = 0.15 * c - 5e-8 := by rw [he]; field_simp
  have hce0 : 0 < c * e := by rw [hce]; norm_num at hc ⊢; linarith
  have he0 : 0 < e := (mul_pos_iff_of_pos_left hc0).1 hce0
  have h1 : ((⟨u + e, 0⟩ : Param).step 0.03 (2 * c * (u + e - u))) = ⟨u - e, 0.01 * (2 * c * e) ^ 2⟩ := by
    simp only [Param.step, first_root]
    rw [show u + e - u = e by ring, abs_of_pos (by positivity : 0 < 2 * c * e)]
    have hden : 2 * c * e / 10 + 1e-8 = 0.03 * c := by
      rw [show 2 * c * e / 10 = 0.2 * (c * e) by ring, hce]; ring
    congr 1
    · rw [hden]
      have : 0.03 * (2 * c * e) / (0.03 * c) = 2 * e := by
        rw [div_eq_iff (by positivity)]; ring
      rw [this]; ring
    · ring
  rw [h1]
  refine ⟨rfl, ?_⟩
  simp only [Param.step]
  rw [show u - e - u = -e by ring]
  set g := 2 * c * e with hg
  have hg0 : 0 < g := by positivity
  have hglow : 2e-4 ≤ g := by
    rw [hg, mul_assoc, hce]; norm_num at hc ⊢; linarith
  rw [show 2 * c * -e = -g by rw [hg]; ring]
  have hroot : √(0.99 * (0.01 * g ^ 2) + (1 - 0.99) * (-g * -g)) ≤ 0.1411 * g := by
    apply Real.sqrt_le_iff.2
    exact ⟨by positivity, by nlinarith [sq_nonneg g]⟩
  set r := √(0.99 * (0.01 * g ^ 2) + (1 - 0.99) * (-g * -g))
  have hr0 : 0 ≤ r := Real.sqrt_nonneg _
  have hp : 0 < r + 1e-8 := by positivity
  have : 0.21 < 0.03 * g / (r + 1e-8) := by
    rw [lt_div_iff₀ hp]
    norm_num at hroot hglow ⊢
    linarith
  rw [mul_neg, neg_div]
  have hesm : e ≤ 0.15 := by rw [he]; have : 0 ≤ 5e-8 / c := by positivity
                             linarith
  norm_num at this hesm ⊢
  linarith

/-- C118: `infer_params` compares the losses of consecutive iterations only.  Started at a certain distance from the truth (0.15 in
each component, up to 5e-8/c), on games without contacts with the same factor, it is carried to the mirror image, finds the same
loss, and stops after two iterations out of a thousand, with both components wrong by more than 0.06. -/
theorem C118_early_stop (c ux uy : ℝ) (hc : 1e-3 ≤ c) (hc2 : c ≤ 1e3) :
    ∃ x y, infer_params (parabola c ux uy) (parabolaGrad c ux uy) (ux + (0.15 - 5e-8 / c)) (uy + (0.15 - 5e-8 / c)) = .done (x, y) ∧
      0.06 < x - ux ∧ 0.06 < y - uy := by
  obtain ⟨e, he⟩ : ∃ e, e = 0.15 - 5e-8 / c := ⟨_, rfl⟩
  rw [← he]
  have hc0 : 0 < c := by norm_num at hc; linarith
  obtain ⟨a1, a2⟩ := early_component c ux e hc he
  obtain ⟨b1, b2⟩ := early_component c uy e hc he
  have hsmall : c * ((ux + e - ux) ^ 2 + (uy + e - uy) ^ 2) ≤ 45 := by
    have h1 : e ≤ 0.15 := by rw [he]; have : 0 ≤ 5e-8 / c := by positivity
                             linarith
    have h2 : 0 ≤ e := by
      rw [he, sub_nonneg, div_le_iff₀ hc0]; norm_num at hc ⊢; linarith
    have h3 : (ux + e - ux) ^ 2 + (uy + e - uy) ^ 2 ≤ 0.045 := by norm_num at h1 ⊢; nlinarith
    calc _ ≤ 1e3 * 0.045 := mul_le_mul hc2 h3 (by positivity) (by norm_num)
      _ = 45 := by norm_num
  unfold infer_params learn
  simp only [parabola, Run.bind_done, velStart, parabolaGrad, Param.step?, zero_add]
  rw [if_neg]
  swap
  · rw [abs_of_nonneg (by norm_num; linarith)]
    norm_num
    linarith
  unfold learn
  simp only [Run.bind_done, parabola, parabolaGrad, Param.step?, a1, b1]
  rw [if_pos]
  swap
  · rw [show c * ((ux + e - ux) ^ 2 + (uy + e - uy) ^ 2) - c * ((ux - e - ux) ^ 2 + (uy - e - uy) ^ 2) = 0 by ring]
    norm_num
  exact ⟨_, _, rfl, a2, b2⟩

/-! ## Examples -/

/-- The first two steps of the mass inference from mass 1/2 with gradients -2 and -3. -/
example : |((⟨1 / 2, 0⟩ : Param).step 0.5 (-2)).val - 1 / 2| < 5 ∧
    8.4 < (((⟨1 / 2, 0⟩ : Param).step 0.5 (-2)).step 0.5 (-3)).val := by
  have := C118_step_bound 0.5 (by norm_num) ⟨1 / 2, 0⟩ le_rfl (-2)
  norm_num at this ⊢
  refine ⟨this, ?_⟩
  have := C118_overshoot (1 / 2) (-2) (-3) (by norm_num) (by norm_num) (by norm_num)
  norm_num at this ⊢
  exact this

/-- The memory after the gradients 1 and then 2. -/
example : (([2, 1] : List ℝ).foldr (fun g p => Param.step 0.5 p g) ⟨1, 0⟩).sq = 0.0499 := by
  rw [C118_memory]
  norm_num [meanSquare, List.range_succ]

/-- A first iteration with gradient 1: the mass becomes negative. -/
example : ∃ s, train (fun _ => .done ()) (fun m => .done ((m - 7) ^ 2)) (fun _ => 1) 1 (massStart (1 / 2)) = .done s ∧
    s.mass.val < -3.98 := by
  have h : ∃ s, train (fun _ => .done ()) (fun m => .done ((m - 7) ^ 2)) (fun _ => 1) 1 (massStart (1 / 2)) = .done s := by
    unfold train
    simp only [Run.bind_done]
    split_ifs
    · exact ⟨_, rfl⟩
    · unfold train
      exact ⟨_, rfl⟩
  obtain ⟨s, hs⟩ := h
  exact ⟨s, hs, ((C118_first_mass _ _ _ (1 / 2) (by norm_num) (by norm_num) (by norm_num) s hs).1 one_pos).2⟩

/-- With a loss that does not depend on the mass the inference stops in its second iteration, however large the loss: the stop
rule says nothing about the loss. -/
example (L : ℝ) (hL2 : L ≤ 1e9) (rand : ℝ) : infer_mass (fun _ => .done ()) (fun _ => .done L) (fun _ => 0) rand =
    .done (L, rand, [L], [rand, rand]) := by
  have hsame : ∀ p : Param, (p.step 0.5 0).val = p.val := fun p => by simp [Param.step]
  have hfar : ¬ |(massStart rand).last - L| < 1e-3 := by
    simp only [massStart]
    rw [abs_of_nonneg (by norm_num at hL2 ⊢; linarith)]
    norm_num at hL2 ⊢
    linarith
  unfold infer_mass train
  simp only [Run.bind_done]
  rw [if_neg hfar]
  unfold train
  simp only [Run.bind_done]
  rw [if_pos (by norm_num)]
  simp [hsame, massStart]

/-- The report of that run satisfies C118_report, and C118_stalls applies to it. -/
example : (fun _ : ℝ => (Run.done 5 : Run ℝ)) 3 = .done 5 ∧
    ∃ r, train (fun _ => .done ()) (fun _ => .done 5) (fun _ => 0) 100 (massStart (1 / 3)) = .done r ∧ r.mass.val = 1 / 3 := by
  obtain ⟨r, h1, h2, -⟩ := C118_stalls (fun _ => .done ()) (fun _ => .done 5) (fun _ => 0) (massStart (1 / 3)) 5 rfl rfl rfl 98
  exact ⟨rfl, r, h1, h2⟩

/-- One second of the experiment: mass drawn 1/3, reported 1/3 with loss zero. -/
example (f : Finder) : ∃ grad, mainFor exactLcp 10 100 44 (rejectNan (diffCollide 66 (Inference.chainNc 10) allPairs)) f 1 grad (1 / 3) =
    .done (0, 1 / 3, [0], [1 / 3, 1 / 3]) := by
  refine ⟨fun truth m => deriv (fun m => match massLoss exactLcp 10 100 44
    (rejectNan (diffCollide 66 (Inference.chainNc 10) allPairs)) f 1 truth m with | .done l => l | _ => 0) m, ?_⟩
  exact C118_blind 66 le_rfl allPairs allPairs_ok exactLcp 10 100 (by norm_num) f 1 (by norm_num) (by norm_num) 44 le_rfl _
    (fun truth m D h => h.deriv) (1 / 3) (by norm_num)

/-- What C118_main says of that run. -/
example (f : Finder) : ∃ truth, chainPositions exactLcp 10 100 44 (rejectNan (diffCollide 66 (Inference.chainNc 10) allPairs)) f 1 7 =
    .done truth ∧ massLoss exactLcp 10 100 44 (rejectNan (diffCollide 66 (Inference.chainNc 10) allPairs)) f 1 truth (1 / 3) = .done 0 := by
  have h := C118_blind 66 le_rfl allPairs allPairs_ok exactLcp 10 100 (by norm_num) f 1 (by norm_num) (by norm_num) 44 le_rfl
    (fun truth m => deriv (fun m => match massLoss exactLcp 10 100 44
      (rejectNan (diffCollide 66 (Inference.chainNc 10) allPairs)) f 1 truth m with | .done l => l | _ => 0) m)
    (fun truth m D h => h.deriv) (1 / 3) (by norm_num)
  obtain ⟨truth, h1, -, h2, -⟩ := C118_main _ _ _ _ _ _ _ _ _ _ _ _ _ h
  exact ⟨truth, h1, h2⟩

/-- C118_screen on a run of one second. -/
example (f : Finder) : massShow exactLcp 10 100 44 (rejectNan (diffCollide 66 (Inference.chainNc 10) allPairs)) f 1 7 = .done () := by
  obtain ⟨w, h1, h2⟩ := C95_positions 10 (by norm_num) 66 le_rfl allPairs allPairs_ok 7 (by norm_num) exactLcp 10 100
    (by norm_num) f 1 30 (by norm_num) (by norm_num) (by norm_num) 44 (by norm_num)
  rw [C118_screen]
  unfold chainPositions
  rw [h1]
  simp only [Run.bind_done, h2]

/-- The cycle of the mass inference around 7 for the loss `(m - 7)²`. -/
example : (⟨7 + 0.249999995, (2 * 1 * 0.249999995) ^ 2⟩ : Param).step 0.5 (2 * 1 * (7 + 0.249999995 - 7)) =
    ⟨7 - 0.249999995, (2 * 1 * 0.249999995) ^ 2⟩ :=
  (C118_cycle 0.5 1 7 0.249999995 one_pos (by norm_num) (by norm_num)).1

/-- A game of three actions: the simulation guesses speed 3, the screen shows 4. -/
example : gameLoss exactLcp 10 touchFinder () 1 1 ⟨80, 191, 16, 4⟩ [topBlock] ⟨20, 100, 1⟩ [1, 0, -1]
    (straight ⟨80, 191, 16, 4⟩ 4 0 [1, 0, -1]) 3 0 = .done (1 / 8) := by
  obtain ⟨w, hw, ht, hs, -, -⟩ := touch_made ⟨80, 191, 16, 4⟩ ⟨20, 100, 1⟩ (0, 0) (by norm_num) (by simp)
  obtain ⟨hfree, l, hl⟩ := touch_learn 3 0 (0, 0) (by norm_num) [1, 0, -1] _ _ w hs ht (by norm_num)
  have h : ∃ L, gameLoss exactLcp 10 touchFinder () 1 1 ⟨80, 191, 16, 4⟩ [topBlock] ⟨20, 100, 1⟩ [1, 0, -1]
      (straight ⟨80, 191, 16, 4⟩ 4 0 [1, 0, -1]) 3 0 = .done L := by
    unfold gameLoss
    rw [hw]
    simp only [Run.bind_done]
    exact ⟨_, by rw [show learnStates (breakoutEnv exactLcp 10 touchFinder) 1 1 3 0 [1, 0, -1] w = .done l from hl]; rfl⟩
  obtain ⟨L, hL⟩ := h
  have := C118_game_loss exactLcp exactLcp_exact 10 touchFinder () 1 1 ⟨80, 191, 16, 4⟩ [topBlock] ⟨20, 100, 1⟩ (by simp)
    touchFinder_game [1, 0, -1] 4 0 3 0 L (fun w' hw' => by
      rw [hw] at hw'
      injection hw' with hw'
      subst hw'
      exact hfree) hL
  rw [hL, this]
  norm_num [spread]

/-- The gradient of that game's loss, at any guess. -/
example : ∃ L : ℝ → ℝ → ℝ, (∀ vx vy, gameLoss exactLcp 10 touchFinder () 1 1 ⟨80, 191, 16, 4⟩ [topBlock] ⟨20, 100, 1⟩ [1, 0, -1]
    (straight ⟨80, 191, 16, 4⟩ 4 0 [1, 0, -1]) vx vy = .done (L vx vy)) ∧ HasDerivAt (fun x => L x 0) (-1 / 4) 3 := by
  obtain ⟨w, hw, ht, hs, -, -⟩ := touch_made ⟨80, 191, 16, 4⟩ ⟨20, 100, 1⟩ (0, 0) (by norm_num) (by simp)
  have hall := fun vx vy : ℝ => touch_learn vx vy (0, 0) (by norm_num) [1, 0, -1] _ _ w hs ht (by norm_num)
  have h : ∀ vx vy, ∃ L, gameLoss exactLcp 10 touchFinder () 1 1 ⟨80, 191, 16, 4⟩ [topBlock] ⟨20, 100, 1⟩ [1, 0, -1]
      (straight ⟨80, 191, 16, 4⟩ 4 0 [1, 0, -1]) vx vy = .done L := by
    intro vx vy
    obtain ⟨-, l, hl⟩ := hall vx vy
    unfold gameLoss
    rw [hw]
    simp only [Run.bind_done]
    exact ⟨_, by rw [show learnStates (breakoutEnv exactLcp 10 touchFinder) 1 1 vx vy [1, 0, -1] w = .done l from hl]; rfl⟩
  choose L hL using h
  refine ⟨L, hL, ?_⟩
  have := (C118_game_gradient exactLcp exactLcp_exact 10 touchFinder () 1 1 ⟨80, 191, 16, 4⟩ [topBlock] ⟨20, 100, 1⟩ (by simp)
    touchFinder_game [1, 0, -1] 4 0 3 0 (fun vx vy w' hw' => by
      rw [hw] at hw'
      injection hw' with hw'
      subst hw'
      exact (hall vx vy).1) L hL).1
  refine this.congr_deriv ?_
  norm_num [spread]

/-- The learner started with errors 0.15 stays within 0.3 (C118_learned), and stops with errors above 0.06 (C118_early_stop). -/
example : ∃ x y, infer_params (parabola 1 4 0) (parabolaGrad 1 4 0) (4 + (0.15 - 5e-8 / 1)) (0 + (0.15 - 5e-8 / 1)) = .done (x, y) ∧
    0.06 < x - 4 ∧ |x - 4| ≤ 0.3 := by
  obtain ⟨x, y, h, h1, -⟩ := C118_early_stop 1 4 0 (by norm_num) (by norm_num)
  refine ⟨x, y, h, h1, ?_⟩
  have := (C118_learned _ _ (fun _ => 1) 4 0 1 _ _ x y (parabolaGrad_parabolic 1 4 0) (fun _ => by norm_num) h).1
  refine this.trans (max_le le_rfl ?_)
  norm_num [abs_le]

/-- Far from the truth every iteration brings a constant factor: five iterations from error 2 with equal games. -/
example (r : VelState) (h : learn (parabola 1 4 0) (parabolaGrad 1 4 0) 5 0 (velStart 2 0) = .done r) :
    |r.vx.val - 4| ≤ 2 ∧ |r.vx.val - 2| ≤ 1.5 := by
  constructor
  · obtain ⟨n, -, -, h1, -⟩ := C118_learn_rate _ _ (fun _ => 1) 4 0 1 1 2 (parabolaGrad_parabolic 1 4 0) (by norm_num) (fun _ => by norm_num)
      (by norm_num) 5 0 _ r 2 le_rfl (by norm_num) (by simp [velStart]) (by simp [velStart]) (by norm_num [velStart])
      (by norm_num [velStart]) (by norm_num [velStart]) (by norm_num [velStart]) h
    refine h1.trans (max_le (by norm_num) ?_)
    have : (1 - 0.03 * (2 * 1) / (2 * 1 * 2 + 1e-8) : ℝ) ^ n ≤ 1 := pow_le_one₀ (by norm_num) (by norm_num)
    linarith
  · have := (C118_learn_reach _ _ 5 0 _ r (by simp [velStart]) (by simp [velStart]) h).1
    norm_num [velStart] at this ⊢
    exact this

end LcpPhysics.Learn
