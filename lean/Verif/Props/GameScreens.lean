import Verif.Props.GameLoop
import Verif.Props.Screen

/-!
# C120: the velocity of the ball that the controller is given, and when the loop returns
-/

noncomputable section

namespace LcpPhysics.Breakout
open Spec

variable {γ : Type} {G : Game γ} {fuel T : ℕ} {threshold : ℝ} {noise : ℕ → ℝ} {plan : List ℝ → List ℝ → V2 → Run (List ℝ)}

theorem to_vector_end (p : BoxParams) (bs : List BoxParams) (b : BallParams) : ∃ l : List ℝ, to_vector p bs b = l ++ [b.px, b.py, b.rad] :=
  ⟨_, rfl⟩

theorem to_vector_y (p : BoxParams) (bs : List BoxParams) (b : BallParams) :
    (to_vector p bs b).getD ((to_vector p bs b).length - 2) 0 = b.py := by
  obtain ⟨l, h⟩ := to_vector_end p bs b
  rw [h]
  simp [List.getD_eq_getElem?_getD]

theorem ballVel_to_vector (p1 p2 : BoxParams) (bs1 bs2 : List BoxParams) (b1 b2 : BallParams) :
    ballVel (to_vector p2 bs2 b2) (to_vector p1 bs1 b1) = (b2.px - b1.px, b2.py - b1.py) := by
  obtain ⟨l1, h1⟩ := to_vector_end p1 bs1 b1
  obtain ⟨l2, h2⟩ := to_vector_end p2 bs2 b2
  rw [h1, h2]
  unfold ballVel
  simp [List.getD_eq_getElem?_getD]

theorem inPlay_inv (hp : ∀ s a v a', a.length = T → plan s a v = .done a' → a'.length = T) {st : PlayState (γ × List (List Move))}
    (h : InPlay (logged G) fuel T threshold noise plan st) : ∃ t0 l, Inv fuel T (fun _ => True) t0 st l := by
  induction h with
  | start h =>
    obtain ⟨l, hi⟩ := opening_inv h
    exact ⟨_, l, hi⟩
  | step _ h' ih =>
    obtain ⟨t0, l, hi⟩ := ih
    have hA1 : ∀ a0, get_action a0 threshold ≠ 1 := fun a0 h => by
      have := action_ne_one a0 threshold
      rw [h] at this
      norm_num at this
    obtain ⟨l', hi'⟩ := (pass_inv (fun _ _ _ _ _ _ => trivial) hA1 hp hi h').1 _ rfl
    exact ⟨t0, l', hi'⟩

/-- C120: the controller is always called with the state read off the last screen, a plan of `T` actions, and the displacement of the
ball between the last two screens as its velocity. -/
theorem C120_velocity (hp : ∀ s a v a', a.length = T → plan s a v = .done a' → a'.length = T) {st : PlayState (γ × List (List Move))}
    (h : InPlay (logged G) fuel T threshold noise plan st) :
    st.a.length = T ∧ ∃ t0 l0 e1 e2, st.g.2 = (l0 ++ [e1, e2]) :: t0 ∧
      ∀ p1 bs1 b1 p2 bs2 b2, extract_params fuel e1.2.screen = .done (p1, bs1, b1) → extract_params fuel e2.2.screen = .done (p2, bs2, b2) →
        pass (logged G) fuel T threshold noise plan st =
        pass (logged G) fuel T threshold noise (fun _ _ _ => plan (to_vector p2 bs2 b2) st.a (b2.px - b1.px, b2.py - b1.py)) st := by
  obtain ⟨t0, l, hi⟩ := inPlay_inv hp h
  obtain ⟨l0, e1, e2, hl, hv, hs⟩ := hi.screens
  refine ⟨hi.plan, t0, l0, e1, e2, by rw [hi.log, hl], fun p1 bs1 b1 p2 bs2 b2 h1 h2 => ?_⟩
  unfold screenVector at hv
  rw [h1] at hv
  simp only [Run.bind] at hv
  injection hv with hv
  have h3 : screenVector fuel st.s = .done (to_vector p2 bs2 b2) := by
    unfold screenVector
    rw [hs, h2]
    rfl
  unfold pass
  rw [h3, ← hv]
  simp only [Run.bind, ballVel_to_vector]

/-- C120: on two screens that show pictures of the game with the ball clear of everything else, the second displaced by `(dx, dy)`
pixels, this is `(dx, dy)`. -/
theorem C120_measures (f1 f2 : Frame) (P1 P2 : Picture) (h1 : Shows f1 P1) (h2 : Shows f2 P2) (q1 : P1.Possible) (q2 : P2.Possible)
    (c1 : P1.Clear) (c2 : P2.Clear) (t1 l1 b1 r1 t2 l2 b2 r2 : ℕ) (e1 : P1.ball = some (t1, l1, b1, r1)) (e2 : P2.ball = some (t2, l2, b2, r2))
    (dx dy : ℝ) (hl : (l2 : ℝ) = l1 + dx) (hr : (r2 : ℝ) = r1 + dx) (ht : (t2 : ℝ) = t1 + dy) (hb : (b2 : ℝ) = b1 + dy) :
    ∃ s1 s2, screenVector 161 f1 = .done s1 ∧ screenVector 161 f2 = .done s2 ∧ ballVel s2 s1 = (dx, dy) := by
  refine ⟨_, _, by unfold screenVector; rw [C88_reads_picture f1 P1 h1 q1 c1]; rfl, by unfold screenVector; rw [C88_reads_picture f2 P2 h2 q2 c2]; rfl, ?_⟩
  simp only [e1, e2, ballVel_to_vector, hl, hr, ht, hb]
  ext <;> simp <;> ring

/-- C120: when the ball comes back after a screen without it, its velocity is taken to be upwards and more than 20000, wherever it
moves; the cost of the controller then does not look at the paddle or the ball. -/
theorem C120_reappears (f1 f2 : Frame) (P1 P2 : Picture) (h1 : Shows f1 P1) (h2 : Shows f2 P2) (q1 : P1.Possible) (q2 : P2.Possible)
    (c1 : P1.Clear) (c2 : P2.Clear) (t l b r : ℕ) (e1 : P1.ball = none) (e2 : P2.ball = some (t, l, b, r)) :
    ∃ s1 s2, screenVector 161 f1 = .done s1 ∧ screenVector 161 f2 = .done s2 ∧ (ballVel s2 s1).2 < -20000 ∧
      ∀ lam centering n, mpcCost s2 (ballVel s2 s1).2 lam false centering n = costDiag s2.length lam := by
  have hb := q2.ball t l b r e2
  have hb' : ((b : ℝ) + t) / 2 < 210 := by
    have h3 : (b : ℝ) < 210 := by exact_mod_cast hb.2.1
    have h4 : (t : ℝ) < 210 := by exact_mod_cast (by omega : t < 210)
    linarith
  have hneg : ((b : ℝ) + t) / 2 - 21000 < -20000 := by linarith
  refine ⟨_, _, by unfold screenVector; rw [C88_reads_picture f1 P1 h1 q1 c1]; rfl, by unfold screenVector; rw [C88_reads_picture f2 P2 h2 q2 c2]; rfl, ?_, ?_⟩
  · simp only [e1, e2, ballVel_to_vector]
    exact hneg
  · intro lam centering n
    simp only [e1, e2, ballVel_to_vector]
    unfold mpcCost
    rw [if_neg (by linarith)]
    rw [if_neg]
    · simp
    · rintro ⟨-, h⟩
      revert h
      rw [imp_false, not_lt]
      rw [to_vector_y]
      linarith

/-! ## When it returns -/

theorem serve_done (hs : ∀ g a, ∃ v, screenVector fuel (G.step g a).2.screen = .done v) (g : γ) :
    ∃ q, serve G fuel g = .done q ∧ ∃ g a, q.2.2 = (G.step g a).2.screen := by
  unfold serve
  obtain ⟨v, hv⟩ := hs (G.step (G.step (G.step g 1).1 1).1 1).1 1
  simp only [hv, Run.bind]
  exact ⟨_, rfl, _, _, rfl⟩

theorem pass_done (hs : ∀ g a, ∃ v, screenVector fuel (G.step g a).2.screen = .done v)
    (hp : ∀ s a v, a.length = T → ∃ a', plan s a v = .done a' ∧ a'.length = T) (hT : T ≠ 0) (st : PlayState γ) (hsc : ∃ g a, st.s = (G.step g a).2.screen)
    (ha : st.a.length = T) : ∃ p, pass G fuel T threshold noise plan st = .done p ∧
      ∀ st', p = .next st' → st'.a.length = T ∧ ∃ g a, st'.s = (G.step g a).2.screen := by
  obtain ⟨g, a, hg⟩ := hsc
  obtain ⟨v, hv⟩ := hs g a
  have hnil : st.a ≠ [] := by
    intro h
    rw [h] at ha
    exact hT ha.symm
  unfold pass
  rw [hg, hv]
  simp only [Run.bind]
  obtain ⟨a', h1, h2⟩ := hp v st.a (ballVel v st.prev_s) ha
  rw [if_neg hnil, h1]
  cases a' with
  | nil => exact absurd h2.symm hT
  | cons a0 rest =>
    simp only
    split_ifs with c1 c2
    · exact ⟨_, rfl, fun st' h => by simp at h⟩
    · obtain ⟨q, hq, hq'⟩ := serve_done hs (G.step st.g (get_action a0 threshold)).1
      rw [hq]
      refine ⟨_, rfl, fun st' h => ?_⟩
      injection h with h
      subst h
      exact ⟨by simp [freshPlan], hq'⟩
    · refine ⟨_, rfl, fun st' h => ?_⟩
      injection h with h
      subst h
      refine ⟨?_, _, _, rfl⟩
      simp only [List.length_append, List.length_cons, List.length_nil] at h2 ⊢
      omega

/-- C120: if every screen can be read and the controller always returns a plan of `T > 0` actions, `run_breakout` returns. -/
theorem C120_returns (mpc : V2 → List ℝ → List ℝ → V2 → Run (List ℝ)) (hs : ∀ g a, ∃ v, screenVector fuel (G.step g a).2.screen = .done v)
    (hp : ∀ pv s a v, a.length = T → ∃ a', mpc pv s a v = .done a' ∧ a'.length = T) (hT : T ≠ 0) (v : V2) (n : ℕ) (hn : n ≠ 0) (g : γ) :
    ∃ r, playBreakout G fuel T threshold noise mpc (some v) n g = .done r := by
  have one : ∀ (plan : List ℝ → List ℝ → V2 → Run (List ℝ)), (∀ s a v, a.length = T → ∃ a', plan s a v = .done a' ∧ a'.length = T) →
      ∀ (k : ℕ) (st : PlayState γ), st.a.length = T → (∃ g a, st.s = (G.step g a).2.screen) →
        ∃ r, playOn G fuel T threshold noise plan k st = .done r := by
    intro plan hp k
    induction k with
    | zero => exact fun st _ _ => ⟨_, rfl⟩
    | succ k ih =>
      intro st ha hsc
      obtain ⟨p, h1, h2⟩ := pass_done (threshold := threshold) (noise := noise) hs hp hT st hsc ha
      unfold playOn
      rw [h1]
      simp only [Run.bind]
      cases p with
      | over g rew drawn => exact ⟨_, rfl⟩
      | next st' =>
        obtain ⟨i1, i2⟩ := h2 st' rfl
        exact ih st' i1 i2
  have all : ∀ (plan : List ℝ → List ℝ → V2 → Run (List ℝ)), (∀ s a v, a.length = T → ∃ a', plan s a v = .done a' ∧ a'.length = T) →
      ∀ (N j : ℕ) (g : γ) (drawn : ℕ), ∃ r, episodes G fuel T threshold noise plan N j g drawn = .done r := by
    intro plan hp N j
    induction j with
    | zero => exact fun g drawn => ⟨_, rfl⟩
    | succ j ih =>
      intro g drawn
      unfold episodes opening
      obtain ⟨q, hq, hq'⟩ := serve_done hs (G.reset g)
      rw [hq]
      simp only [Run.bind]
      obtain ⟨r, hr⟩ := one plan hp N ⟨q.1, freshPlan noise T drawn, q.2.1, q.2.2, 0, 5, drawn + T⟩ (by simp [freshPlan]) hq'
      obtain ⟨r2, hr2⟩ := ih r.1 r.2.2
      rw [hr]
      simp only [hr2]
      exact ⟨_, rfl⟩
  unfold playBreakout
  obtain ⟨r, hr⟩ := all (mpc (v.1 * (-1 / 1 / 1), v.2 * (-1 / 1 / 1))) (hp _) 10000000000 n (G.reset g) 0
  simp only [hr, Run.bind, if_neg hn]
  exact ⟨_, rfl⟩

/-- C120: it returns nothing without the velocities of the paddle (the default), without a step to plan, or without an episode. -/
theorem C120_errors (mpc : V2 → List ℝ → List ℝ → V2 → Run (List ℝ)) (v : V2) (n : ℕ) (g : γ) (r : γ × ℝ) :
    playBreakout G fuel T threshold noise mpc none n g = .raised (.raised "TypeError") ∧
    playBreakout G fuel T threshold noise mpc (some v) 0 g = .raised (.raised "ZeroDivisionError") ∧
    playBreakout G fuel 0 threshold noise mpc (some v) (n + 1) g ≠ .done r := by
  refine ⟨rfl, rfl, fun h => ?_⟩
  unfold playBreakout at h
  simp only at h
  obtain ⟨q, h1, -⟩ := run_bind_done h
  unfold episodes at h1
  obtain ⟨st, h2, h1⟩ := run_bind_done h1
  obtain ⟨p, h3, -⟩ := run_bind_done h1
  unfold opening at h2
  obtain ⟨q', -, h2⟩ := run_bind_done h2
  injection h2 with h2
  subst h2
  rw [show (10000000000 : ℕ) = 9999999999 + 1 from rfl] at h3
  unfold playOn at h3
  obtain ⟨p', h4, -⟩ := run_bind_done h3
  unfold pass at h4
  obtain ⟨s, -, h4⟩ := run_bind_done h4
  obtain ⟨a, h5, -⟩ := run_bind_done h4
  simp [freshPlan] at h5

end LcpPhysics.Breakout
