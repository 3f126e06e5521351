import Verif.Props.BreakoutSim
import Verif.Props.GameEngine

/-!
# A concrete game for C89, C90 and C92

The contact search of this game finds the ball at the left wall exactly when the ball's centre is at `x = 9`, and nothing
else.
-/

noncomputable section

namespace LcpPhysics
open Spec Breakout

open Classical in
/-- The contacts found. -/
def touchList (bs : List Body) : List Contact :=
  if bs.length = 8 ∧ (bodyAt bs 0).p.x = 9 then [wallHit] else []

/-- The contact search. -/
def touchFinder : ℝ → Unit → List Body → Except Err (Unit × List Contact) := fun _ _ bs => .ok ((), touchList bs)

theorem touch_mem {bs : List Body} {c : Contact} (h : c ∈ touchList bs) : c = wallHit ∧ bs.length = 8 := by
  unfold touchList at h
  split_ifs at h with hc
  · exact ⟨by simpa using h, hc.1⟩
  · cases h

theorem touchFinder_game : GameFinder 1 touchFinder := by
  have hm : ∀ eps f bs f' cs, touchFinder eps f bs = .ok (f', cs) → ∀ d ∈ cs, d = wallHit ∧ bs.length = 8 := by
    intro eps f bs f' cs hh d hd
    unfold touchFinder at hh
    injection hh with hh
    injection hh with h1 h2
    subst h2
    exact touch_mem hd
  refine ⟨?_, ?_, ?_⟩
  · intro eps f bs f' cs hh d hd
    obtain ⟨rfl, hl⟩ := hm _ _ _ _ _ hh d hd
    simp [wallHit, hl]
  · intro eps f bs f' cs hh d hd
    obtain ⟨rfl, hl⟩ := hm _ _ _ _ _ hh d hd
    simp [wallHit, Spec.det]
  · intro eps f bs f' cs hh d hd
    obtain ⟨rfl, hl⟩ := hm _ _ _ _ _ hh d hd
    simp [wallHit, NoTouch, Spec.inner]

/-- The world of the game. -/
abbrev touchEnv : Env (Option Mat) Unit := breakoutEnv exactLcp 10 touchFinder

/-- What holds in all worlds of this game. -/
structure TouchWorld (w : World (Option Mat) Unit) : Prop where
  inv : GameInv 1 w
  reg : Regular w
  dt : w.dt = 1
  tol : 0 ≤ w.tol
  found : w.contacts = touchList w.bodies

/-- A turn of this game takes a single sub-step. -/
theorem touch_turn (w : World (Option Mat) Unit) (h : TouchWorld w) (a vx vy : ℝ) :
    ∃ w1, step_breakout touchEnv 1 1 w a vx vy = .done w1 ∧ TouchWorld w1 ∧
      (w.set_v fun k => if k = 4 then a * vx else if k = 5 then a * vy else w.v k).step_dt touchEnv 1 1 = .done w1 ∧
      (w.contacts = [] → FreeTurn touchEnv 1 a vx vy w) := by
  set v1 : Vec := fun k => if k = 4 then a * vx else if k = 5 then a * vy else w.v k with hv1
  have hother : ∀ k, k / 3 ≠ 1 → v1 k = w.v k := by
    intro k hk
    have h4 : k ≠ 4 := by rintro rfl; exact hk rfl
    have h5 : k ≠ 5 := by rintro rfl; exact hk rfl
    simp [hv1, h4, h5]
  have hg := game_set_v h.inv v1 hother
  have hr := regular_set_v h.reg v1
  have hcs : (w.set_v v1).contacts = touchList w.bodies := h.found
  have hsolve : ∃ r, touchEnv.solve_dynamics (w.set_v v1) 1 = .ok r := by
    by_cases hc : (w.set_v v1).contacts = []
    · exact C93_free_engine_returns exactLcp 10 touchFinder _ hr hc 1
    · refine C76_engine_returns 10 _ hg hc ?_ 1
      intro c hc
      rw [hcs] at hc
      rw [(touch_mem hc).1]
      simp [wallHit]
  obtain ⟨⟨e, v⟩, hs⟩ := hsolve
  have hstep := step_first touchEnv 0 (w.set_v v1) hg.inv.good 1 hg.noPost e v hs () _ rfl (by
    intro c hc
    rw [(touch_mem hc).1]
    exact h.tol)
  rw [Nat.zero_add] at hstep
  generalize hw1 : ({ ((({ w.set_v v1 with eng := e } : World (Option Mat) Unit).set_v v).accepted 1 0 () (touchList
    ((({ w.set_v v1 with eng := e } : World (Option Mat) Unit).set_v v).bodies.map fun b => b.move 1))) with
      t := (w.set_v v1).t + 1 } : World (Option Mat) Unit) = w1 at hstep
  have ht : w1.t = w.t + 1 := by rw [← hw1]; rfl
  have hup : Function.update (Function.update w.v (1 * 3 + 1) (vx * a)) (1 * 3 + 2) (vy * a) = v1 := by
    funext k
    simp only [hv1, Function.update_apply]
    by_cases h5 : k = 5
    · simp [h5, mul_comm]
    · by_cases h4 : k = 4 <;> simp [h4, h5, mul_comm]
  have hd : w.t + w.dt - (w.set_v v1).t = 1 := by
    rw [h.dt]
    show w.t + 1 - w.t = 1
    ring
  refine ⟨w1, ?_, ?_, hstep, ?_⟩
  · unfold step_breakout World.step
    simp only [if_true]
    rw [hup]
    unfold fixedLoop
    rw [if_pos (show (w.set_v v1).t < (w.set_v v1).t + (w.set_v v1).dt by
      have : (w.set_v v1).dt = 1 := h.dt
      rw [this]; linarith)]
    simp only
    rw [show (w.set_v v1).t + (w.set_v v1).dt - (w.set_v v1).t = 1 from hd, hstep]
    simp only [Run.bind]
    unfold fixedLoop
    rw [if_neg]
    rw [ht]
    have e1 : (w.set_v v1).t = w.t := rfl
    have e2 : (w.set_v v1).dt = 1 := h.dt
    rw [e1, e2]
    exact lt_irrefl _
  · have hst := step_dt_statics hr.inv.good hstep
    obtain ⟨b1, b2⟩ := bodies_congr hst hr.pos hr.smooth
    refine ⟨game_step touchFinder_game exactLcp_exact hg hstep,
      ⟨step_inv touchFinder_game.ok hr.inv hstep, tree_congr hst hr.tree, b1, b2⟩, ?_, ?_, ?_⟩
    · rw [(step_dt_params hr.inv.good hstep).1]; exact h.dt
    · rw [← hw1]; exact h.tol
    · rw [← hw1]; rfl
  · intro hnil x hx hlt
    rcases Relation.ReflTransGen.cases_head hx with rfl | ⟨y, ⟨-, hy⟩, hxy⟩
    · have : (w.set_v v1).contacts = [] := hnil
      rw [this]
      exact ⟨fun _ h => absurd h List.not_mem_nil, fun _ h => absurd h List.not_mem_nil⟩
    · rw [hd, hstep] at hy
      injection hy with hy
      subst hy
      rcases Relation.ReflTransGen.cases_head hxy with rfl | ⟨z, ⟨hz, -⟩, -⟩
      · rw [ht, h.dt] at hlt
        exact absurd hlt (lt_irrefl _)
      · rw [ht, h.dt] at hz
        exact absurd hz (lt_irrefl _)

/-- `make_world` of this game. -/
theorem touch_made (paddle : BoxParams) (ball : BallParams) (vel : V2) (hp : 0 < paddle.w * paddle.h)
    (hr : ball.rad ≠ 0) :
    ∃ w, make_world exactLcp 10 touchFinder () paddle [topBlock] ball vel = .done w ∧ TouchWorld w ∧
      Shot paddle [topBlock] ball vel w ∧ (ball.px ≠ 9 → w.contacts = []) ∧ (ball.px = 9 → w.contacts = [wallHit]) := by
  obtain ⟨w, hw, hcs, -, -, heps, htol, hb, -⟩ := C76_make_world_returns exactLcp 10 touchFinder () paddle
    [topBlock] ball vel hp topBlock_good () _ rfl (by
      intro c hc
      rw [(touch_mem hc).1]
      norm_num [wallHit])
  have hs := C89_world_made _ _ _ _ _ [topBlock] _ _ hr touchFinder_game w hw
  have hx : (bodyAt w.bodies 0).p.x = ball.px := congrArg BallParams.px hs.atBall
  refine ⟨w, hw, ⟨hs.inv, C93_made_regular _ _ _ _ _ [topBlock] _ _ w hr touchFinder_game hw, hs.dt, ?_, ?_⟩, hs, ?_, ?_⟩
  · rw [htol]; norm_num
  · rw [hcs, hb]
  · intro hne
    rw [hcs, ← hb]
    unfold touchList
    rw [if_neg]
    rintro ⟨-, h⟩
    exact hne (hx ▸ h)
  · intro he
    rw [hcs, ← hb]
    unfold touchList
    rw [if_pos ⟨hs.inv.len, hx.trans he⟩]

/-- The simulated step returns. -/
theorem touch_simulate (w : World (Option Mat) Unit) (h : TouchWorld w) (a vx vy : ℝ) :
    ∃ w1 w' sn, step_breakout touchEnv 1 1 w a vx vy = .done w1 ∧ TouchWorld w1 ∧
      simulate_breakout touchEnv 1 1 w a vx vy = .done (w', sn) := by
  obtain ⟨w1, h1, h2, -⟩ := touch_turn w h a vx vy
  exact ⟨w1, _, _, h1, h2, (C89_simulate _ _ _ _ _ _ _ _ _).2 ⟨w1, h1, by rw [h2.inv.len]; omega, rfl, rfl⟩⟩

/-- C89, C90_free_step: the ball flies from `(20, 100)` by `(3, 2)` while the paddle is told to go right by 4. -/
example : ∃ w w' sn, make_world exactLcp 10 touchFinder () ⟨80, 191, 16, 4⟩ [topBlock] ⟨20, 100, 1⟩ (3, 2) = .done w ∧
    simulate_breakout touchEnv 1 1 w 1 4 0 = .done (w', sn) ∧ w'.t = 1 ∧
    sn = [84, 191, 16, 4, 16, 60, 16, 6, 23, 102, 1] := by
  obtain ⟨w, hw, ht, hs, hn, -⟩ := touch_made ⟨80, 191, 16, 4⟩ ⟨20, 100, 1⟩ (3, 2) (by norm_num) (by simp)
  obtain ⟨w1, w', sn, h1, h2, h3⟩ := touch_simulate w ht 1 4 0
  have hfree := (touch_turn w ht 1 4 0).choose_spec.2.2.2 (hn (by norm_num))
  have e := C90_free_step _ [topBlock] _ _ _ _ _ touchFinder_game exactLcp_exact _ _ w w' _ _ _ sn hs hfree h3
  have e2 := C89_simulated_state _ [topBlock] _ _ _ _ _ touchFinder_game exactLcp_exact _ _ w w' _ _ _ sn hs h3
  have h0 : w.t = 0 := (C76_constructed _ _ _ _ _ [topBlock] _ _ w (by simp) touchFinder_game hw).2.1
  refine ⟨w, w', sn, hw, h3, by rw [e2.1, h0]; norm_num, ?_⟩
  rw [e.1]
  simp [to_vector, shiftBox, shiftBall, BoxParams.toList, topBlock]
  norm_num

/-- C90_bounce_forgotten: the ball at the left wall, flying towards it with velocity `(-2, 1)`, is reflected; two steps
later it is at `x = 13`, but the controller predicts `x = 9`, because in its second step the ball flies left again. -/
example : ∃ w0 w1 w2 x2, make_world exactLcp 10 touchFinder () ⟨80, 191, 16, 4⟩ [topBlock] ⟨9, 100, 1⟩ (-2, 1) = .done w0 ∧
    step_breakout touchEnv 1 1 w0 0 4 0 = .done w1 ∧ step_breakout touchEnv 1 1 w1 0 4 0 = .done w2 ∧
    predict exactLcp 10 touchFinder 1 1 (-2, 1) 4 0 [((), 0), ((), 0)]
      (to_vector ⟨80, 191, 16, 4⟩ [topBlock] ⟨9, 100, 1⟩) = .done x2 ∧
    ballOf (bodyAt w2.bodies 0) = ⟨13, 102, 1⟩ ∧ ∃ P, x2 = to_vector P [topBlock] ⟨9, 102, 1⟩ := by
  obtain ⟨w0, hw, ht, hs, -, hc⟩ := touch_made ⟨80, 191, 16, 4⟩ ⟨9, 100, 1⟩ (-2, 1) (by norm_num) (by simp)
  have hc := hc rfl
  obtain ⟨w1, h1, ht1, hst, -⟩ := touch_turn w0 ht 0 4 0
  set w0' := w0.set_v fun k => if k = 4 then (0 : ℝ) * 4 else if k = 5 then (0 : ℝ) * 0 else w0.v k with hw0'
  have hg0 : GameInv 1 w0' := game_set_v hs.inv _ (by
    intro k hk
    have h4 : k ≠ 4 := by rintro rfl; exact hk rfl
    have h5 : k ≠ 5 := by rintro rfl; exact hk rfl
    simp [h4, h5])
  have hc0 : w0'.contacts = [wallHit] := hc
  have hm := C76_mirror _ _ _ exactLcp_exact w0' w1 hg0 1 1 hst 0 (by simp [hc0])
    (by simp [hc0, wallHit, BallPaddle])
    (by
      intro q hq h0
      rw [hc0] at hq
      simp at hq
      omega)
  have hm := hm.1 (by simp [hc0, wallHit])
  have v1 : w0'.v 1 = -2 := congrArg V3.x hs.flies
  have v2 : w0'.v 2 = 1 := congrArg V3.y hs.flies
  simp only [hc0, List.getElem_cons_zero, wallHit, v1, v2] at hm
  have hx1 : w1.v 1 = 2 := by rw [hm.1]; norm_num
  have hx2 : w1.v 2 = 1 := by rw [hm.2]; norm_num
  have hpose := game_pose hg0 hst 0 (by omega)
  have hp0 : (bodyAt w0'.bodies 0).p = (bodyAt w0.bodies 0).p := bodyAt_of_map (set_v_poses w0 _) 0
  have hb0 : (bodyAt w0.bodies 0).p.x = 9 ∧ (bodyAt w0.bodies 0).p.y = 100 :=
    ⟨congrArg BallParams.px hs.atBall, congrArg BallParams.py hs.atBall⟩
  have hrad := (shot_step (blocks := [topBlock]) touchFinder_game exactLcp_exact hs h1).2.2.2.2.2.2.1
  have hbl := (shot_step (blocks := [topBlock]) touchFinder_game exactLcp_exact hs h1).2.2.2.1
  have htime : w1.t - w0'.t = 1 := by
    have h' := (shot_step (blocks := [topBlock]) touchFinder_game exactLcp_exact hs h1).2.2.1
    have : w0'.t = w0.t := rfl
    rw [this, h']; ring
  have hball : ballOf (bodyAt w1.bodies 0) = ⟨11, 101, 1⟩ := by
    have hp : (bodyAt w1.bodies 0).p.x = 11 ∧ (bodyAt w1.bodies 0).p.y = 101 := by
      rw [hpose, hp0]
      simp only [V3.add_x, V3.add_y, V3.smul_x, V3.smul_y, twist, hb0, htime]
      simp only [mul_zero, zero_add, hx1, hx2]
      norm_num
    simp only [ballOf, Body.pos, V3.xy, hp] at hrad ⊢
    rw [hrad]
  have hc1 : w1.contacts = [] := by
    rw [ht1.found]
    unfold touchList
    rw [if_neg]
    rintro ⟨-, h⟩
    have := congrArg BallParams.px hball
    have h' : (bodyAt w1.bodies 0).p.x = 11 := this
    rw [h'] at h
    norm_num at h
  obtain ⟨w2, h2, ht2, -, hfree⟩ := touch_turn w1 ht1 0 4 0
  have hfree := hfree hc1
  obtain ⟨w1a, w1', sn, h1a, -, hsim⟩ := touch_simulate w0 ht 0 4 0
  have hpd := (shot_step (blocks := [topBlock]) touchFinder_game exactLcp_exact hs h1).2.2.2.2
  obtain ⟨wp, hwp, htp, hsp, hnp, -⟩ := touch_made (boxOf (bodyAt w1.bodies 1)) (ballOf (bodyAt w1.bodies 0)) (-2, 1)
    (by rw [hpd.1, hpd.2.1]; norm_num) (by rw [hball]; norm_num)
  have hnp := hnp (by rw [hball]; norm_num)
  obtain ⟨wq, wq', sq, -, -, hsq⟩ := touch_simulate wp htp 0 4 0
  have hsn : sn = to_vector (boxOf (bodyAt w1.bodies 1)) [topBlock] (ballOf (bodyAt w1.bodies 0)) := by
    obtain ⟨w1b, h1b, -, hsn, -⟩ := (C89_simulate _ _ _ _ _ _ _ _ _).1 hsim
    rw [h1] at h1b
    injection h1b with h1b
    subst h1b
    rw [hsn, hbl]
  have hpred : predict exactLcp 10 touchFinder 1 1 (-2, 1) 4 0 [((), 0), ((), 0)]
      (to_vector ⟨80, 191, 16, 4⟩ [topBlock] ⟨9, 100, 1⟩) = .done sq := by
    simp only [predict]
    rw [dynamics_eq _ _ _ _ _ _ _ _ _ _ [topBlock] _ (by simp), hw]
    simp only [Run.bind]
    rw [hsim]
    simp only
    rw [hsn, dynamics_eq _ _ _ _ _ _ _ _ _ _ [topBlock] _ (by simp), hwp]
    simp only [Run.bind]
    rw [hsq]
  obtain ⟨P, e1, e2⟩ := C90_bounce_forgotten exactLcp 10 touchFinder () () 1 1 (-2, 1) 4 0 _ [topBlock] _ (by simp) (by simp)
    touchFinder_game exactLcp_exact 0 0 w0 w1 w2 sq hw h1 h2 hfree hpred (by
      intro w hw'
      rw [hwp] at hw'
      injection hw' with hw'
      subst hw'
      exact (touch_turn wp htp 0 4 0).choose_spec.2.2.2 hnp)
  refine ⟨w0, w1, w2, sq, hw, h1, h2, hpred, ?_, P, ?_⟩
  · rw [e2, hball, hx1, hx2]
    norm_num [shiftBall]
  · rw [e1, hball]
    norm_num [shiftBall]

/-- One predicted step from a state in which nothing is touched. -/
theorem touch_dynamics (paddle : BoxParams) (ball : BallParams) (vel : V2) (hp : 0 < paddle.w * paddle.h)
    (hr : ball.rad ≠ 0) (hx : ball.px ≠ 9) (u pvx pvy : ℝ) :
    (∃ x, dynamics exactLcp 10 touchFinder () 1 1 vel pvx pvy (to_vector paddle [topBlock] ball) u = .done x) ∧
    ∀ w, make_world exactLcp 10 touchFinder () paddle [topBlock] ball vel = .done w →
      FreeTurn touchEnv 1 u pvx pvy w := by
  obtain ⟨w, hw, ht, hs, hn, -⟩ := touch_made paddle ball vel hp hr
  obtain ⟨w1, w', sn, -, -, h3⟩ := touch_simulate w ht u pvx pvy
  refine ⟨⟨sn, ?_⟩, ?_⟩
  · rw [dynamics_eq _ _ _ _ _ _ _ _ _ _ [topBlock] _ (by simp), hw]
    simp only [Run.bind]
    rw [h3]
  · intro w2 hw2
    rw [hw] at hw2
    injection hw2 with hw2
    subst hw2
    exact (touch_turn w ht u pvx pvy).choose_spec.2.2.2 (hn hx)

/-- C90_prediction: two steps, the paddle first right and then left by half as much. -/
example : predict exactLcp 10 touchFinder 1 1 (3, 2) 4 0 [((), 1), ((), -1 / 2)]
    (to_vector ⟨80, 191, 16, 4⟩ [topBlock] ⟨20, 100, 1⟩) = .done [82, 191, 16, 4, 16, 60, 16, 6, 26, 104, 1] := by
  obtain ⟨⟨x1, h1⟩, f1⟩ := touch_dynamics ⟨80, 191, 16, 4⟩ ⟨20, 100, 1⟩ (3, 2) (by norm_num) (by simp) (by norm_num) 1 4 0
  have e1 := (C90_dynamics _ _ _ _ _ _ _ _ _ _ [topBlock] _ (by simp) (by simp) touchFinder_game exactLcp_exact _ _ h1).2 f1
  subst e1
  obtain ⟨⟨x2, h2⟩, f2⟩ := touch_dynamics (shiftBox ⟨80, 191, 16, 4⟩ (1 * 4) (1 * 0))
    (shiftBall ⟨20, 100, 1⟩ (3, 2).1 (3, 2).2) (3, 2) (by norm_num [shiftBox]) (by norm_num [shiftBall])
    (by norm_num [shiftBall]) (-1 / 2) 4 0
  have hp : predict exactLcp 10 touchFinder 1 1 (3, 2) 4 0 [((), 1), ((), -1 / 2)]
      (to_vector ⟨80, 191, 16, 4⟩ [topBlock] ⟨20, 100, 1⟩) = .done x2 := by
    simp only [predict, Run.bind_eq_done]
    exact ⟨_, h1, _, h2, rfl⟩
  have e := C90_prediction exactLcp 10 touchFinder 1 1 (3, 2) 4 0 [topBlock] (by simp) touchFinder_game exactLcp_exact
    [((), 1), ((), -1 / 2)] ⟨80, 191, 16, 4⟩ ⟨20, 100, 1⟩ x2 (by simp) ⟨f1, f2, trivial⟩ hp
  rw [hp, e]
  simp [to_vector, shiftBox, shiftBall, BoxParams.toList, topBlock]
  norm_num

/-- The learner's simulated states of this game. -/
theorem touch_learn (vx vy : ℝ) (vel : V2) (hv : 0 ≤ vel.1) : ∀ (as : List ℝ) (paddle : BoxParams) (ball : BallParams) (w : World (Option Mat) Unit),
    Shot paddle [topBlock] ball vel w → TouchWorld w → 9 < ball.px →
    FreeGame touchEnv 1 1 vx vy as w ∧ ∃ l, learnStates touchEnv 1 1 vx vy as w = .done l := by
  intro as
  induction as with
  | nil => intro _ _ _ _ _ _; exact ⟨trivial, _, rfl⟩
  | cons a as ih =>
    intro paddle ball w hs ht hx
    have hnil : w.contacts = [] := by
      rw [ht.found]
      unfold touchList
      rw [if_neg]
      rintro ⟨-, h⟩
      have h' : (bodyAt w.bodies 0).p.x = ball.px := congrArg BallParams.px hs.atBall
      rw [h'] at h
      exact hx.ne' h
    have hfree := (touch_turn w ht a vx vy).choose_spec.2.2.2 hnil
    obtain ⟨w1, w', sn, h1, ht1, h3⟩ := touch_simulate w ht a vx vy
    have hsh := (C90_free_step _ [topBlock] _ _ _ _ _ touchFinder_game exactLcp_exact _ _ w w' _ _ _ sn hs hfree h3).2
    have e : w' = w1 := by
      obtain ⟨w2, h2, h4, h5⟩ := C89_only_paddle_angle _ [topBlock] _ _ _ _ _ touchFinder_game exactLcp_exact _ _ w w' _ _ _ sn hs h3
      rw [h1] at h2
      injection h2 with h2
      subst h2
      refine h5 ?_
      have := ((shot_step (blocks := [topBlock]) touchFinder_game exactLcp_exact hs h1).2.2.2.2.2.2.2.2 hfree).flat 1 (by simp)
      exact this
    have := ih _ _ w' hsh (e ▸ ht1) (by simp only [shiftBall]; linarith)
    refine ⟨⟨hfree, ?_⟩, ?_⟩
    · intro w2 sn2 h2
      rw [h3] at h2
      injection h2 with h2
      injection h2 with h2 h2'
      subst h2
      exact this.1
    · obtain ⟨l, hl⟩ := this.2
      refine ⟨sn.take 4 :: l, ?_⟩
      simp only [learnStates]
      rw [h3]
      simp only [Run.bind]
      rw [hl]

/-- C92_learned_states: three actions. -/
example : ∃ w, make_world exactLcp 10 touchFinder () ⟨80, 191, 16, 4⟩ [topBlock] ⟨20, 100, 1⟩ (3, 2) = .done w ∧
    learnStates touchEnv 1 1 4 0 [1, 0, -1] w = .done [[84, 191, 16, 4], [84, 191, 16, 4], [80, 191, 16, 4]] := by
  obtain ⟨w, hw, ht, hs, -, -⟩ := touch_made ⟨80, 191, 16, 4⟩ ⟨20, 100, 1⟩ (3, 2) (by norm_num) (by simp)
  obtain ⟨hfree, l, hl⟩ := touch_learn 4 0 (3, 2) (by norm_num) [1, 0, -1] _ _ w hs ht (by norm_num)
  have e := C92_learned_states [topBlock] (3, 2) exactLcp 10 touchFinder touchFinder_game exactLcp_exact 1 1 4 0 _ _ _ w l hs hfree hl
  refine ⟨w, hw, ?_⟩
  rw [hl, e]
  simp [straight, shiftBox, BoxParams.toList]
  norm_num

/-- C92_loss: the paddle's true speed is 4, the guess 3; the learner's loss is positive, and zero only for the truth. -/
example : mseLoss (straight ⟨80, 191, 16, 4⟩ 4 0 [1, 0, -1]) (straight ⟨80, 191, 16, 4⟩ 3 0 [1, 0, -1]) = 1 / 6 := by
  rw [(C92_loss _ _ _ _ _ _).1]
  norm_num [spread]

/-- C91_cost: the ball falls (velocity 2) from 50 above the paddle and is 60 to its left. -/
example : quadForm (11 + 1) (mpcCost (to_vector ⟨80, 191, 16, 4⟩ [topBlock] ⟨20, 141, 1⟩) 2 (1 / 10) false false 3)
    (fun i => (to_vector ⟨80, 191, 16, 4⟩ [topBlock] ⟨20, 141, 1⟩ ++ [(2 : ℝ)]).getD i 0) = 3600 + 4 / 10 := by
  have hl : (to_vector ⟨80, 191, 16, 4⟩ [topBlock] ⟨20, 141, 1⟩).length = 11 := by simp [to_vector, BoxParams.toList]
  have := C91_cost ⟨80, 191, 16, 4⟩ [topBlock] ⟨20, 141, 1⟩ 2 (1 / 10) false false 3 1 ⟨80, 191, 16, 4⟩ [topBlock]
    ⟨20, 141, 1⟩ [2] rfl rfl
  rw [hl] at this
  rw [this]
  have ht : Tracks 191 141 2 false 3 := by
    norm_num [Tracks, pyInt]
  simp only [ht]
  norm_num

end LcpPhysics
