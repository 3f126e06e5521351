import Verif.Spec.GameLoop
import Verif.Props.Breakout

/-!
# C120: the game loop
-/

noncomputable section

namespace LcpPhysics.Breakout
open Spec

variable {γ : Type} {G : Game γ} {fuel T : ℕ} {threshold : ℝ} {noise : ℕ → ℝ} {plan : List ℝ → List ℝ → V2 → Run (List ℝ)}

theorem run_bind_done {α β : Type} {x : Run α} {f : α → Run β} {b : β} (h : x.bind f = .done b) : ∃ a, x = .done a ∧ f a = .done b := by
  cases x with
  | running => simp [Run.bind] at h
  | raised e => simp [Run.bind] at h
  | done a => exact ⟨a, rfl, h⟩

theorem steered_append (a b : List Move) : steered (a ++ b) = steered a ++ steered b := by simp [steered]

theorem starts_append (a b : List Move) : starts (a ++ b) = starts a + starts b := by simp [starts]

theorem earned_append (a b : List Move) : earned (a ++ b) = earned a + earned b := by simp [earned]

/-- The five moves that start a game. -/
theorem serve_log {g : γ × List (List Move)} {q : (γ × List (List Move)) × List ℝ × Frame} (h : serve (logged G) fuel g = .done q) :
    ∃ e : Fin 5 → Move, (∀ i, (e i).1 = 1) ∧ q.1.2 = (g.2.headD [] ++ [e 0, e 1, e 2, e 3, e 4]) :: g.2.tail ∧
      screenVector fuel (e 3).2.screen = .done q.2.1 ∧ q.2.2 = (e 4).2.screen := by
  unfold serve at h
  obtain ⟨prev, h1, h2⟩ := run_bind_done h
  injection h2 with h2
  subst h2
  simp only [logged] at h1 ⊢
  refine ⟨![(1, (G.step g.1 1).2), (1, (G.step (G.step g.1 1).1 1).2), (1, (G.step (G.step (G.step g.1 1).1 1).1 1).2),
    (1, (G.step (G.step (G.step (G.step g.1 1).1 1).1 1).1 1).2), (1, (G.step (G.step (G.step (G.step (G.step g.1 1).1 1).1 1).1 1).1 1).2)],
    ?_, ?_, h1, rfl⟩
  · intro i
    fin_cases i <;> rfl
  · simp [note]

/-- What holds at the head of the loop: `t0` are the logs of the episodes before, `l` that of this one. -/
structure Inv (fuel T : ℕ) (A : ℤ → Prop) (t0 : List (List Move)) (st : PlayState (γ × List (List Move))) (l : List Move) : Prop where
  log : st.g.2 = l :: t0
  screens : ∃ l0 e1 e2, l = l0 ++ [e1, e2] ∧ screenVector fuel e1.2.screen = .done st.prev_s ∧ st.s = e2.2.screen
  rew : st.rew = earned (steered l)
  acts : ∀ m ∈ steered l, A m.1 ∧ m.2.stop = false
  plan : st.a.length = T
  lives : ∃ d : ℕ, starts l = 5 * (1 + d) ∧ st.cur_lives ≤ 5 - d ∧ (st.cur_lives = 5 ∨ ∃ m ∈ l, st.cur_lives = m.2.lives)

theorem opening_inv {A : ℤ → Prop} {g : γ × List (List Move)} {drawn : ℕ} {st : PlayState (γ × List (List Move))}
    (h : opening (logged G) fuel T noise g drawn = .done st) : ∃ l, Inv fuel T A g.2 st l := by
  unfold opening at h
  obtain ⟨q, h1, h2⟩ := run_bind_done h
  injection h2 with h2
  subst h2
  obtain ⟨e, h3, h4, h5, h6⟩ := serve_log h1
  have hs : steered [e 0, e 1, e 2, e 3, e 4] = [] := by simp [steered, h3]
  refine ⟨[e 0, e 1, e 2, e 3, e 4], ⟨by simpa [logged] using h4, ⟨[e 0, e 1, e 2], e 3, e 4, rfl, h5, h6⟩, ?_, ?_, ?_, ⟨0, ?_, by norm_num, Or.inl rfl⟩⟩⟩
  · rw [hs]; simp [earned]
  · rw [hs]; simp
  · simp [freshPlan]
  · simp [starts, h3]

/-- What one pass does. -/
theorem pass_inv {A : ℤ → Prop} (hA : ∀ s a v a0 r, plan s a v = .done (a0 :: r) → A (get_action a0 threshold)) (hA1 : ∀ a0, get_action a0 threshold ≠ 1)
    (hp : ∀ s a v a', a.length = T → plan s a v = .done a' → a'.length = T)
    {t0 : List (List Move)} {st : PlayState (γ × List (List Move))} {l : List Move} (hi : Inv fuel T A t0 st l) {p : Pass (γ × List (List Move))}
    (h : pass (logged G) fuel T threshold noise plan st = .done p) :
    (∀ st', p = .next st' → ∃ l', Inv fuel T A t0 st' l') ∧
    (∀ g rew drawn, p = .over g rew drawn → rew = st.rew ∧ ∃ m : Move, A m.1 ∧ m.1 ≠ 1 ∧ m.2.stop = true ∧ g.2 = (l ++ [m]) :: t0) := by
  unfold pass at h
  obtain ⟨s, hs, h⟩ := run_bind_done h
  obtain ⟨a, ha, h⟩ := run_bind_done h
  split_ifs at ha with hnil
  cases a with
  | nil => simp at h
  | cons a0 rest =>
    simp only at h
    have hlog := hi.log
    have hact := hA _ _ _ _ _ ha
    have hact1 := hA1 a0
    have hlen := hp _ _ _ _ hi.plan ha
    obtain ⟨l0, e1, e2, hl, hv, hse⟩ := hi.screens
    set m : Move := (get_action a0 threshold, (G.step st.g.1 (get_action a0 threshold)).2) with hm
    have hg : ((logged G).step st.g (get_action a0 threshold)).1.2 = (l ++ [m]) :: t0 := by
      simp [logged, note, hlog, hm]
    have hsm : steered [m] = [m] := by simp [steered, hm, hact1]
    have hst : starts [m] = 0 := by simp [starts, hm, hact1]
    by_cases hstop : ((logged G).step st.g (get_action a0 threshold)).2.stop
    · rw [if_pos hstop] at h
      injection h with h
      subst h
      refine ⟨fun st' e => by simp at e, fun g rew drawn e => ?_⟩
      injection e with e1 e2 e3
      subst e1 e2
      exact ⟨rfl, m, hact, hact1, hstop, hg⟩
    · rw [if_neg hstop] at h
      have hns : m.2.stop = false := by
        have : ¬ m.2.stop = true := hstop
        simpa using this
      have hrew : st.rew + m.2.reward = earned (steered (l ++ [m])) := by
        rw [steered_append, hsm, earned_append, ← hi.rew]
        simp [earned]
      have hacts : ∀ x ∈ steered (l ++ [m]), A x.1 ∧ x.2.stop = false := by
        intro x hx
        rw [steered_append, hsm, List.mem_append] at hx
        rcases hx with hx | hx
        · exact hi.acts x hx
        · rw [List.mem_singleton.1 hx]
          exact ⟨hact, hns⟩
      obtain ⟨d, d1, d2, d3⟩ := hi.lives
      split_ifs at h with hlives
      · obtain ⟨q, hq, h⟩ := run_bind_done h
        injection h with h
        subst h
        refine ⟨fun st' e => ?_, fun g rew drawn e => by simp at e⟩
        injection e with e
        subst e
        obtain ⟨e, h3, h4, h5, h6⟩ := serve_log hq
        rw [hg] at h4
        simp only [List.headD_cons, List.tail_cons] at h4
        have hs0 : steered [e 0, e 1, e 2, e 3, e 4] = [] := by simp [steered, h3]
        refine ⟨_, ⟨h4, ⟨l ++ [m] ++ [e 0, e 1, e 2], e 3, e 4, by simp, h5, h6⟩, ?_, ?_, ?_, ⟨d + 1, ?_, ?_, Or.inr ⟨m, by simp, rfl⟩⟩⟩⟩
        · rw [steered_append, hs0, List.append_nil]
          exact hrew
        · rw [steered_append, hs0, List.append_nil]
          exact hacts
        · simp [freshPlan]
        · rw [starts_append, starts_append, d1, hst]
          simp [starts, h3]
          ring
        · have : m.2.lives < st.cur_lives := hlives
          show m.2.lives ≤ _
          push_cast
          omega
      · injection h with h
        subst h
        refine ⟨fun st' e => ?_, fun g rew drawn e => by simp at e⟩
        injection e with e
        subst e
        refine ⟨l ++ [m], ⟨hg, ⟨l0 ++ [e1], e2, m, by rw [hl]; simp, by rw [← hse]; exact hs, rfl⟩, hrew, hacts, ?_, ⟨d, ?_, d2, ?_⟩⟩⟩
        · simp only [List.length_append, List.length_cons, List.length_nil] at hlen ⊢
          omega
        · rw [starts_append, d1, hst, add_zero]
        · rcases d3 with d3 | ⟨x, hx, d3⟩
          · exact Or.inl d3
          · exact Or.inr ⟨x, by simp [hx], d3⟩

theorem action_ne_one (a threshold : ℝ) : get_action a threshold ∈ ({0, 2, 3} : Set ℤ) := by
  unfold get_action
  split_ifs with h
  · rcases lt_trichotomy a 0 with h1 | h1 | h1
    · rw [Real.sign_of_neg h1]; norm_num
    · rw [h1, Real.sign_zero]
      right; left
      norm_num [Int.floor_eq_iff]
    · rw [Real.sign_of_pos h1]; norm_num
  · simp

/-- What is known of the log of an episode with score `rew`. -/
structure EpisodeLog (A : ℤ → Prop) (l : List Move) (rew : ℝ) : Prop where
  score : rew = earned (steered l) - lastReward l
  acts : ∀ m ∈ steered l, A m.1
  stops : ∀ m ∈ steered l.dropLast, m.2.stop = false
  starts : ∃ d : ℕ, starts l = 5 * (1 + d) ∧ ((∀ m ∈ l, 0 ≤ m.2.lives) → d ≤ 5)

theorem playOn_log {A : ℤ → Prop} (hA : ∀ s a v a0 r, plan s a v = .done (a0 :: r) → A (get_action a0 threshold))
    (hp : ∀ s a v a', a.length = T → plan s a v = .done a' → a'.length = T)
    {t0 : List (List Move)} : ∀ (n : ℕ) (st : PlayState (γ × List (List Move))) (l : List Move), Inv fuel T A t0 st l →
    ∀ g rew drawn, playOn (logged G) fuel T threshold noise plan n st = .done (g, rew, drawn) → ∃ l', g.2 = l' :: t0 ∧ EpisodeLog A l' rew := by
  have hA1 : ∀ a0, get_action a0 threshold ≠ 1 := fun a0 h => by
    have := action_ne_one a0 threshold
    rw [h] at this
    norm_num at this
  intro n
  induction n with
  | zero =>
    intro st l hi g rew drawn h
    unfold playOn at h
    injection h with h
    obtain ⟨rfl, rfl, rfl⟩ := h
    obtain ⟨l0, e1, e2, hl, -, -⟩ := hi.screens
    obtain ⟨d, d1, d2, d3⟩ := hi.lives
    refine ⟨l, hi.log, ⟨?_, fun m hm => (hi.acts m hm).1, fun m hm => ?_, d, d1, fun hpos => ?_⟩⟩
    · have : lastReward l = 0 := by
        have hlast : l.getLast? = some e2 := by rw [hl]; simp
        unfold lastReward
        rw [hlast]
        simp only
        split_ifs with hc
        · have : e2 ∈ steered l := by
            unfold steered
            rw [List.mem_filter]
            exact ⟨by rw [hl]; simp, by simpa using hc.1⟩
          have := (hi.acts _ this).2
          rw [this] at hc
          simp at hc
        · rfl
      rw [this, sub_zero, hi.rew]
    · refine (hi.acts m ?_).2
      unfold steered at hm ⊢
      rw [List.mem_filter] at hm ⊢
      exact ⟨List.mem_of_mem_dropLast hm.1, hm.2⟩
    · rcases d3 with d3 | ⟨m, hm, d3⟩
      · omega
      · have := hpos m hm
        omega
  | succ n ih =>
    intro st l hi g rew drawn h
    unfold playOn at h
    obtain ⟨p, h1, h2⟩ := run_bind_done h
    obtain ⟨k1, k2⟩ := pass_inv hA hA1 hp hi h1
    cases p with
    | next st' =>
      obtain ⟨l', hi'⟩ := k1 st' rfl
      exact ih st' l' hi' g rew drawn h2
    | over g' rew' drawn' =>
      simp only at h2
      injection h2 with h2
      obtain ⟨rfl, rfl, rfl⟩ := h2
      obtain ⟨e, m, m1, m2, m3, m4⟩ := k2 _ _ _ rfl
      have hsm : steered [m] = [m] := by simp [steered, m2]
      obtain ⟨d, d1, d2, d3⟩ := hi.lives
      refine ⟨l ++ [m], m4, ⟨?_, fun x hx => ?_, fun x hx => ?_, d, ?_, fun hpos => ?_⟩⟩
      · have : lastReward (l ++ [m]) = m.2.reward := by
          unfold lastReward
          simp [m2, m3]
        rw [this, steered_append, hsm, earned_append, e, hi.rew]
        simp [earned]
      · rw [steered_append, hsm, List.mem_append] at hx
        rcases hx with hx | hx
        · exact (hi.acts x hx).1
        · rw [List.mem_singleton.1 hx]; exact m1
      · rw [List.dropLast_concat] at hx
        exact (hi.acts x hx).2
      · rw [starts_append, d1]
        simp [starts, m2]
      · rcases d3 with d3 | ⟨x, hx, d3⟩
        · omega
        · have := hpos x (by simp [hx])
          omega

theorem episodes_log {A : ℤ → Prop} (hA : ∀ s a v a0 r, plan s a v = .done (a0 :: r) → A (get_action a0 threshold))
    (hp : ∀ s a v a', a.length = T → plan s a v = .done a' → a'.length = T) (maxSteps : ℕ) :
    ∀ (j : ℕ) (g g' : γ × List (List Move)) (drawn : ℕ) (rews : List ℝ),
      episodes (logged G) fuel T threshold noise plan maxSteps j g drawn = .done (g', rews) →
      ∃ ls : List (List Move), g'.2 = ls.reverse ++ g.2 ∧ List.Forall₂ (EpisodeLog A) ls rews ∧ ls.length = j := by
  intro j
  induction j with
  | zero =>
    intro g g' drawn rews h
    unfold episodes at h
    injection h with h
    obtain ⟨rfl, rfl⟩ := h
    exact ⟨[], rfl, .nil, rfl⟩
  | succ j ih =>
    intro g g' drawn rews h
    unfold episodes at h
    obtain ⟨st, h1, h⟩ := run_bind_done h
    obtain ⟨r, h2, h⟩ := run_bind_done h
    obtain ⟨q, h3, h⟩ := run_bind_done h
    injection h with h
    obtain ⟨rfl, rfl⟩ := h
    obtain ⟨l, hi⟩ := opening_inv (A := A) h1
    obtain ⟨l', e1, e2⟩ := playOn_log hA hp maxSteps st l hi r.1 r.2.1 r.2.2 h2
    obtain ⟨ls, i1, i2, i3⟩ := ih r.1 q.1 r.2.2 q.2 h3
    refine ⟨l' :: ls, ?_, .cons e2 i2, by simp [i3]⟩
    rw [i1, e1]
    simp

/-- C120: the average that `run_breakout` returns.  Every episode is scored with the rewards of the steered moves but the last, if
that ended it: rewards for "start game" moves and the reward of the final move are lost.  Every action sent is 1 (start game) or one
that `get_action` gives for a plan; no episode is steered on after its end; the game is started once and after each lost life, at
most six times. -/
theorem C120_average (mpc : V2 → List ℝ → List ℝ → V2 → Run (List ℝ)) (hp : ∀ pv s a v a', a.length = T → mpc pv s a v = .done a' → a'.length = T)
    (A : ℤ → Prop) (hA : ∀ pv s a v a0 r, mpc pv s a v = .done (a0 :: r) → A (get_action a0 threshold))
    (paddle_vel : Option V2) (n : ℕ) (g : γ) (g' : γ × List (List Move)) (avg : ℝ)
    (h : playBreakout (logged G) fuel T threshold noise mpc paddle_vel n (g, []) = .done (g', avg)) :
    ∃ ls : List (List Move), g'.2 = ls.reverse ++ [[]] ∧ ls.length = n ∧ n ≠ 0 ∧
      avg = (ls.map fun l => earned (steered l) - lastReward l).sum / n ∧
      ∀ l ∈ ls, (∀ m ∈ l, m.1 = 1 ∨ (A m.1 ∧ m.1 ∈ ({0, 2, 3} : Set ℤ))) ∧ (∀ m ∈ steered l.dropLast, m.2.stop = false) ∧
        ∃ d : ℕ, starts l = 5 * (1 + d) ∧ ((∀ m ∈ l, 0 ≤ m.2.lives) → d ≤ 5) := by
  unfold playBreakout at h
  cases paddle_vel with
  | none => simp at h
  | some v =>
    simp only at h
    obtain ⟨q, h1, h⟩ := run_bind_done h
    split_ifs at h with hn
    injection h with h
    obtain ⟨rfl, rfl⟩ := h
    obtain ⟨ls, i1, i2, i3⟩ := episodes_log (A := fun z => A z ∧ z ∈ ({0, 2, 3} : Set ℤ))
      (fun s a v a0 r h => ⟨hA _ s a v a0 r h, action_ne_one a0 threshold⟩) (hp _) _ n _ q.1 0 q.2 h1
    refine ⟨ls, by simpa [logged] using i1, i3, hn, ?_, fun l hl => ?_⟩
    · have : q.2 = ls.map fun l => earned (steered l) - lastReward l := by
        clear i1 i3 h1
        generalize q.2 = rews at i2
        induction i2 with
        | nil => rfl
        | cons a _ ih => simp [← ih, a.score]
      rw [this]
    · obtain ⟨r, hr⟩ : ∃ r, EpisodeLog (fun z => A z ∧ z ∈ ({0, 2, 3} : Set ℤ)) l r := by
        clear i1 i3 h1
        generalize q.2 = rews at i2
        induction i2 with
        | nil => simp at hl
        | cons a _ ih =>
          rcases List.mem_cons.1 hl with rfl | hl
          · exact ⟨_, a⟩
          · exact ih hl
      refine ⟨fun m hm => ?_, hr.stops, hr.starts⟩
      by_cases h1 : m.1 = 1
      · exact Or.inl h1
      · exact Or.inr (hr.acts m (by unfold steered; rw [List.mem_filter]; exact ⟨hm, by simpa using h1⟩))

/-- C120: a threshold above the bound of the plans (1) means the paddle never moves. -/
theorem C120_never_moves (a0 : ℝ) (h : |a0| ≤ 1) (ht : 1 < threshold) : get_action a0 threshold = 0 := by
  unfold get_action
  rw [if_neg (by linarith)]

/-- C120: the paddle moves to the side to which it moves in the simulation: with `PADDLE_VEL_ADJUST` the simulated velocity
`paddle_vel * a` is to the right exactly if the action is 2 (RIGHT), and to the left if it is 3 (LEFT). -/
theorem C120_direction (a0 v : ℝ) (hv : 0 < v) (ht : 0 < threshold) :
    (get_action a0 threshold = 2 ↔ |a0| ≥ threshold ∧ 0 < v * (-1 / 1 / 1) * a0) ∧
    (get_action a0 threshold = 3 ↔ |a0| ≥ threshold ∧ v * (-1 / 1 / 1) * a0 < 0) := by
  obtain ⟨c1, c2, c3⟩ := C68_get_action a0 threshold ht
  rw [show v * (-1 / 1 / 1) * a0 = -(v * a0) by ring]
  rcases lt_or_ge |a0| threshold with h | h
  · rw [c3 h]
    constructor <;> constructor <;> intro h' <;> first | (exfalso; linarith [h'.1]) | (norm_num at h')
  · rcases le_or_gt 0 a0 with h0 | h0
    · rw [abs_of_nonneg h0] at h ⊢
      rw [c1 h]
      have : 0 < v * a0 := by have : 0 < a0 := by linarith
                              positivity
      constructor <;> constructor <;> intro h'
      · norm_num at h'
      · exfalso; linarith [h'.2]
      · exact ⟨h, by linarith⟩
      · rfl
    · rw [abs_of_neg h0] at h ⊢
      rw [c2 (by linarith)]
      have : v * a0 < 0 := mul_neg_of_pos_of_neg hv h0
      constructor <;> constructor <;> intro h'
      · exact ⟨h, by linarith⟩
      · rfl
      · norm_num at h'
      · exfalso; linarith [h'.2]

/-- C120: of the paddle velocity the loop uses nothing but its opposite, which is given to the controller. -/
theorem C120_paddle_velocity (mpc : V2 → List ℝ → List ℝ → V2 → Run (List ℝ)) (v w : V2) (n : ℕ) (g : γ) :
    playBreakout G fuel T threshold noise mpc (some v) n g = playBreakout G fuel T threshold noise (fun _ => mpc (-v.1, -v.2)) (some w) n g := by
  unfold playBreakout
  norm_num

end LcpPhysics.Breakout
