import Verif.Props.GameScreens

/-!
# C120: a game in which rewards are lost, and cases of the theorems on the game loop
-/

noncomputable section

namespace LcpPhysics.Breakout
open Spec

/-- A game in which the ball falls by one pixel with every step, every step is worth one point, and the seventh ends the episode. -/
def fallGame : Game ℕ where
  reset _ := 0
  step g _ := (g + 1, ⟨paint (somePicture (some (120 + min g 40, 80, 120 + min g 40 + 4, 82))), 1, decide (6 ≤ g), 5⟩)

theorem somePicture_is_clear (t : ℕ) (h1 : 57 < t) (h2 : t + 4 ≤ 189) : (somePicture (some (t, 80, t + 4, 82))).Clear := by
  refine fun t' l b r e => ⟨?_, ?_, somePicture_clear t t' l b r e⟩
  · simp only [somePicture, Option.some.injEq, Prod.mk.injEq] at e
    omega
  · simp only [somePicture, Option.some.injEq, Prod.mk.injEq] at e
    omega

theorem fallGame_screen (g : ℕ) (a : ℤ) : ∃ v, screenVector 161 (fallGame.step g a).2.screen = .done v := by
  have h : min g 40 ≤ 40 := min_le_right _ _
  unfold screenVector
  simp only [fallGame]
  rw [C88_reads_picture _ _ (paint_shows _ (somePicture_clear _)) (somePicture_possible _ (by omega)) (somePicture_is_clear _ (by omega) (by omega))]
  exact ⟨_, rfl⟩

/-- The game with a log has the same screens. -/
theorem logged_screen {γ : Type} {G : Game γ} {fuel : ℕ} (h : ∀ g a, ∃ v, screenVector fuel (G.step g a).2.screen = .done v) (g : γ × List (List Move)) (a : ℤ) :
    ∃ v, screenVector fuel ((logged G).step g a).2.screen = .done v := h g.1 a

/-- A controller that keeps its plan. -/
def keepPlan : V2 → List ℝ → List ℝ → V2 → Run (List ℝ) := fun _ _ a _ => .done a

theorem keepPlan_length (T : ℕ) : ∀ pv s a v a', a.length = T → keepPlan pv s a v = .done a' → a'.length = T := by
  intro pv s a v a' h e
  injection e with e
  rw [← e, h]

theorem keepPlan_done (T : ℕ) : ∀ pv s a v, a.length = T → ∃ a', keepPlan pv s a v = .done a' ∧ a'.length = T :=
  fun _ _ a _ h => ⟨a, rfl, h⟩

/-- The action of the plan, whatever it is: not "start game". -/
theorem get_action_ne_one (a threshold : ℝ) : get_action a threshold ≠ 1 := by
  intro h
  have := action_ne_one a threshold
  rw [h] at this
  norm_num at this

/-- A pass of the loop in the game. -/
theorem fallGame_pass (noise : ℕ → ℝ) (pv : V2) (st : PlayState (ℕ × List (List Move))) (g : ℕ) (a : ℤ) (hs : st.s = (fallGame.step g a).2.screen)
    (a0 : ℝ) (rest : List ℝ) (ha : st.a = a0 :: rest) (hl : st.cur_lives = 5) :
    ∃ s, pass (logged fallGame) 161 2 0.99 noise (keepPlan pv) st =
      .done (if 6 ≤ st.g.1 then .over ((logged fallGame).step st.g (get_action a0 0.99)).1 st.rew st.drawn
        else .next ⟨((logged fallGame).step st.g (get_action a0 0.99)).1, rest ++ [0.001 * noise st.drawn], s,
          (fallGame.step st.g.1 (get_action a0 0.99)).2.screen, st.rew + 1, 5, st.drawn + 1⟩) := by
  obtain ⟨s, h⟩ := fallGame_screen g a
  refine ⟨s, ?_⟩
  unfold pass
  rw [hs, h, ha, hl]
  simp only [Run.bind, keepPlan, reduceCtorEq, if_false]
  by_cases hg : 6 ≤ st.g.1
  · simp [logged, fallGame, hg]
  · simp [logged, fallGame, hg]

/-- An episode of the game: five starts, one move that counts and one that ends it. -/
theorem fallGame_play (noise : ℕ → ℝ) :
    ∃ g l, playBreakout (logged fallGame) 161 2 0.99 noise keepPlan (some (3.74, 0)) 1 (0, []) = .done (g, 1) ∧ g.2 = [l, []] ∧ earned l = 7 ∧
      earned (steered l) = 2 ∧ lastReward l = 1 := by
  choose v hv using fallGame_screen
  have hs : ∀ (g : ℕ × List (List Move)) (a : ℤ), screenVector 161 ((logged fallGame).step g a).2.screen = .done (v g.1 a) := fun g a => hv g.1 a
  unfold playBreakout
  simp only [episodes, opening, serve, hs, Run.bind, freshPlan, List.range_succ, List.range_zero, List.nil_append, List.map_append, List.map_cons, List.map_nil,
    List.cons_append]
  generalize hpv : (((3.74 : ℝ) * (-1 / 1 / 1), (0 : ℝ) * (-1 / 1 / 1)) : V2) = pv
  obtain ⟨N, hN⟩ : ∃ N, (10000000000 : ℕ) = N + 1 + 1 := ⟨9999999998, by norm_num⟩
  rw [hN, playOn]
  generalize hst : (PlayState.mk _ _ _ _ (0 : ℝ) (5 : ℤ) _ : PlayState (ℕ × List (List Move))) = st
  obtain ⟨s1, h1⟩ := fallGame_pass noise pv st 4 1 (by rw [← hst]; rfl) _ _ (by rw [← hst]) (by rw [← hst])
  rw [h1, if_neg (by rw [← hst]; simp [logged, fallGame])]
  simp only [Run.bind]
  rw [playOn]
  generalize hst2 : (PlayState.mk _ _ _ _ _ (5 : ℤ) _ : PlayState (ℕ × List (List Move))) = st2
  obtain ⟨s2, h2⟩ := fallGame_pass noise pv st2 st.g.1 (get_action (0.01 * noise (0 + 0)) 0.99) (by rw [← hst2]) _ _ (by rw [← hst2]; rfl) (by rw [← hst2])
  rw [h2, if_pos (by rw [← hst2, ← hst]; simp [logged, fallGame])]
  simp only [Run.bind]
  have n1 := get_action_ne_one (0.01 * noise (0 + 0)) 0.99
  have n2 := get_action_ne_one (0.01 * noise (0 + 1)) 0.99
  generalize get_action (0.01 * noise (0 + 0)) 0.99 = c1 at *
  generalize get_action (0.01 * noise (0 + 1)) 0.99 = c2 at *
  have hg : (((logged fallGame).step st2.g c2).1).2 = [[(1, (fallGame.step 0 1).2), (1, (fallGame.step 1 1).2), (1, (fallGame.step 2 1).2),
      (1, (fallGame.step 3 1).2), (1, (fallGame.step 4 1).2), (c1, (fallGame.step 5 c1).2), (c2, (fallGame.step 6 c2).2)], []] := by
    rw [← hst2, ← hst]
    rfl
  refine ⟨_, _, ?_, hg, ?_, ?_, ?_⟩
  · rw [if_neg (by norm_num), ← hst2, ← hst]
    norm_num
  · norm_num [earned, fallGame]
  · norm_num [earned, steered, fallGame, n1, n2]
  · simp [lastReward, fallGame, n2]

/-- C120: the average is not that of the points of the episodes: of seven points one is counted. -/
theorem C120_reward_lost : ¬ ∀ (mpc : V2 → List ℝ → List ℝ → V2 → Run (List ℝ)) (G : Game ℕ) (T : ℕ) (v : V2) (g' : ℕ × List (List Move)) (l : List Move)
    (avg : ℝ), playBreakout (logged G) 161 T 0.99 (fun _ => 1) mpc (some v) 1 (0, []) = .done (g', avg) → g'.2 = [l, []] →
      avg = earned l ∨ avg = earned (steered l) := by
  intro h
  obtain ⟨g, l, h1, h2, h3, h4, -⟩ := fallGame_play fun _ => 1
  rcases h keepPlan fallGame 2 _ g l 1 h1 h2 with h | h
  · rw [h3] at h; norm_num at h
  · rw [h4] at h; norm_num at h

/-- `C120_average` for the game: one episode, five starts, and of the two points of the other moves one is counted. -/
example : ∃ ls : List (List Move), ls.length = 1 ∧ (1 : ℝ) = (ls.map fun l => earned (steered l) - lastReward l).sum / (1 : ℕ) ∧
    ∀ l ∈ ls, ∃ d : ℕ, starts l = 5 * (1 + d) := by
  obtain ⟨g, l, h1, -⟩ := fallGame_play fun _ => 1
  obtain ⟨ls, -, h2, -, h3, h4⟩ := C120_average (A := fun _ => True) keepPlan (keepPlan_length 2) (fun _ _ _ _ _ _ _ => trivial) _ _ _ _ _ h1
  exact ⟨ls, h2, h3, fun l hl => (h4 l hl).2.2.imp fun d hd => hd.1⟩

/-- `C120_returns` for the game, with any threshold and any number of episodes. -/
example (threshold : ℝ) (n : ℕ) : ∃ r, playBreakout (logged fallGame) 161 2 threshold (fun _ => 1) keepPlan (some (3.74, 0)) (n + 1) (0, []) = .done r :=
  C120_returns keepPlan (logged_screen fallGame_screen) (keepPlan_done 2) (by norm_num) _ _ (by omega) _

/-- `C120_velocity`: in the first pass the controller is given the velocity between the fourth and the fifth screen, one pixel down. -/
example (noise : ℕ → ℝ) (pv : V2) : ∃ st t0 l0 e1 e2, InPlay (logged fallGame) 161 2 0.99 noise (keepPlan pv) st ∧ st.g.2 = (l0 ++ [e1, e2]) :: t0 ∧
    ∃ s1 s2, screenVector 161 e1.2.screen = .done s1 ∧ screenVector 161 e2.2.screen = .done s2 ∧ ballVel s2 s1 = (0, 1) := by
  obtain ⟨q, h1, -⟩ := serve_done (logged_screen fallGame_screen) ((logged fallGame).reset (0, []))
  have h2 : opening (logged fallGame) 161 2 noise (0, []) 0 = .done ⟨q.1, freshPlan noise 2 0, q.2.1, q.2.2, 0, 5, 0 + 2⟩ := by
    unfold opening
    rw [h1]
    rfl
  have h4 : q.1.2 = [[(1, (fallGame.step 0 1).2), (1, (fallGame.step 1 1).2), (1, (fallGame.step 2 1).2), (1, (fallGame.step 3 1).2), (1, (fallGame.step 4 1).2)]] := by
    unfold serve at h1
    obtain ⟨_, -, h1⟩ := run_bind_done h1
    injection h1 with h1
    rw [← h1]
    rfl
  refine ⟨_, [], [(1, (fallGame.step 0 1).2), (1, (fallGame.step 1 1).2), (1, (fallGame.step 2 1).2)], (1, (fallGame.step 3 1).2), (1, (fallGame.step 4 1).2), .start h2, h4, ?_⟩
  exact C120_measures _ _ _ _ (paint_shows _ (somePicture_clear 123)) (paint_shows _ (somePicture_clear 124)) (somePicture_possible 123 (by omega))
    (somePicture_possible 124 (by omega)) (somePicture_is_clear 123 (by omega) (by omega)) (somePicture_is_clear 124 (by omega) (by omega))
    123 80 127 82 124 80 128 82 rfl rfl 0 1 (by norm_num) (by norm_num) (by norm_num) (by norm_num)

/-- The picture without a ball. -/
theorem somePicture_none_possible : (somePicture none).Possible where
  paddle := by simp [somePicture]
  inside := (somePicture_possible 120 (by omega)).inside
  apart := (somePicture_possible 120 (by omega)).apart
  ball t' l b r h := by simp [somePicture] at h

/-- `C120_reappears`: the ball, on its way down, is taken to fly up. -/
example : ∃ s1 s2, screenVector 161 (paint (somePicture none)) = .done s1 ∧ screenVector 161 (paint (somePicture (some (120, 80, 124, 82)))) = .done s2 ∧
    (ballVel s2 s1).2 < -20000 ∧ ∀ lam centering n, mpcCost s2 (ballVel s2 s1).2 lam false centering n = costDiag s2.length lam := by
  have hn : ∀ t l b r, (somePicture none).ball ≠ some (t, l, b, r) := by
    intro t l b r h
    simp [somePicture] at h
  exact C120_reappears _ _ _ _ (paint_shows _ fun t l b r e => absurd e (hn t l b r)) (paint_shows _ (somePicture_clear 120)) somePicture_none_possible
    (somePicture_possible 120 (by omega)) (fun t l b r e => absurd e (hn t l b r)) (somePicture_is_clear 120 (by omega) (by omega)) 120 80 124 82 rfl rfl

/-- `C120_direction` with the velocity of the command line. -/
example : get_action (-1) 0.99 = 2 ∧ get_action 1 0.99 = 3 ∧ get_action 0.5 0.99 = 0 := by
  refine ⟨((C120_direction (-1) 3.74 (by norm_num) (by norm_num)).1).2 (by norm_num), ((C120_direction 1 3.74 (by norm_num) (by norm_num)).2).2 (by norm_num), ?_⟩
  exact (C68_get_action 0.5 0.99 (by norm_num)).2.2 (by norm_num [abs_of_pos])

/-- `C120_never_moves`: with a threshold of 1.01 not even a full action moves the paddle. -/
example : get_action 1 1.01 = 0 := C120_never_moves 1 (by norm_num) (by norm_num)

end LcpPhysics.Breakout
