import Verif.Model.BreakoutSim

/-!
# Model of the game loop, `run_breakout` of `experiments/breakout/run_breakout.py`

The gym environment is a parameter: a state and what `reset` and `step` do to it.  The controller `mpc` is a parameter as well (its cost
is in `Model/BreakoutSim`, its solver is the package `mpc`).  Random numbers are a sequence.  Printing, rendering and recording are left
out, and so is `KeyboardInterrupt`.
-/

noncomputable section

namespace LcpPhysics.Breakout

/-- What `env.step` returns: the screen, the reward, whether the episode is over and `info['ale.lives']`. -/
structure Reply where
  screen : Frame
  reward : ℝ
  stop : Bool
  lives : ℤ

/-- A gym environment with states `γ`. -/
structure Game (γ : Type) where
  reset : γ → γ
  step : γ → ℤ → γ × Reply

/-- run_breakout.py:190, 197, 202, 233: `to_vector(*extract_params(screen))`. -/
def screenVector (fuel : ℕ) (fr : Frame) : Run (List ℝ) :=
  (extract_params fuel fr).bind fun p => .done (to_vector p.1 p.2.1 p.2.2)

/-- run_breakout.py:187-191, 230-234: five times the action "start game"; the state vector of the fourth screen and the fifth
screen. -/
def serve {γ : Type} (G : Game γ) (fuel : ℕ) (g : γ) : Run (γ × List ℝ × Frame) :=
  let g := (G.step g 1).1
  let g := (G.step g 1).1
  let g := (G.step g 1).1
  let r := G.step g 1
  (screenVector fuel r.2.screen).bind fun prev_s =>
    let r := G.step r.1 1
    .done (r.1, prev_s, r.2.screen)

/-- The variables of the loop: the environment, `a`, `prev_s`, `s`, `rew`, `cur_lives` and the number of random numbers drawn. -/
structure PlayState (γ : Type) where
  g : γ
  a : List ℝ
  prev_s : List ℝ
  s : Frame
  rew : ℝ
  cur_lives : ℤ
  drawn : ℕ

/-- run_breakout.py:184, 229: a new plan of `T` small random actions. -/
def freshPlan (noise : ℕ → ℝ) (T drawn : ℕ) : List ℝ := (List.range T).map fun i => 0.01 * noise (drawn + i)

/-- run_breakout.py:203: `(s[-3:-1] - prev_s[-3:-1]) / DT`, `DT = 1`. -/
def ballVel (s prev_s : List ℝ) : V2 :=
  ((s.getD (s.length - 3) 0 - prev_s.getD (prev_s.length - 3) 0) / 1, (s.getD (s.length - 2) 0 - prev_s.getD (prev_s.length - 2) 0) / 1)

/-- The outcome of one pass of the loop. -/
inductive Pass (γ : Type) where
  | over (g : γ) (rew : ℝ) (drawn : ℕ)
  | next (st : PlayState γ)

/-- run_breakout.py:197-234: one pass of the loop; `plan s a ball_vel` is what `mpc` returns, which raises if there is no `a[0]`
(line 75, and line 158 for an empty plan). -/
def pass {γ : Type} (G : Game γ) (fuel T : ℕ) (threshold : ℝ) (noise : ℕ → ℝ) (plan : List ℝ → List ℝ → V2 → Run (List ℝ))
    (st : PlayState γ) : Run (Pass γ) :=
  (screenVector fuel st.s).bind fun s =>
    (if st.a = [] then .raised (.raised "IndexError") else plan s st.a (ballVel s st.prev_s)).bind fun a =>
      match a with
      | [] => .raised (.raised "IndexError")
      | a0 :: rest =>
        let r := G.step st.g (get_action a0 threshold)
        if r.2.stop then .done (.over r.1 st.rew st.drawn)
        else
          let rew := st.rew + r.2.reward
          let a := rest ++ [0.001 * noise st.drawn]
          let drawn := st.drawn + 1
          if r.2.lives < st.cur_lives then
            let a := freshPlan noise T drawn
            (serve G fuel r.1).bind fun q => .done (.next ⟨q.1, a, q.2.1, q.2.2, rew, r.2.lives, drawn + T⟩)
          else .done (.next ⟨r.1, a, s, r.2.screen, rew, st.cur_lives, drawn⟩)

/-- run_breakout.py:195-236: the loop with `n` passes left. -/
def playOn {γ : Type} (G : Game γ) (fuel T : ℕ) (threshold : ℝ) (noise : ℕ → ℝ) (plan : List ℝ → List ℝ → V2 → Run (List ℝ)) :
    ℕ → PlayState γ → Run (γ × ℝ × ℕ)
  | 0, st => .done (st.g, st.rew, st.drawn)
  | n + 1, st => (pass G fuel T threshold noise plan st).bind fun p =>
      match p with
      | .over g rew drawn => .done (g, rew, drawn)
      | .next st => playOn G fuel T threshold noise plan n st

/-- run_breakout.py:184-194: the state before the loop, in environment `g` and with `drawn` random numbers used. -/
def opening {γ : Type} (G : Game γ) (fuel T : ℕ) (noise : ℕ → ℝ) (g : γ) (drawn : ℕ) : Run (PlayState γ) :=
  (serve G fuel (G.reset g)).bind fun q => .done ⟨q.1, freshPlan noise T drawn, q.2.1, q.2.2, 0, 5, drawn + T⟩

/-- run_breakout.py:183-239: `j` more episodes of at most `maxSteps` passes; the list `rews`. -/
def episodes {γ : Type} (G : Game γ) (fuel T : ℕ) (threshold : ℝ) (noise : ℕ → ℝ) (plan : List ℝ → List ℝ → V2 → Run (List ℝ))
    (maxSteps : ℕ) : ℕ → γ → ℕ → Run (γ × List ℝ)
  | 0, g, _ => .done (g, [])
  | j + 1, g, drawn => (opening G fuel T noise g drawn).bind fun st =>
      (playOn G fuel T threshold noise plan maxSteps st).bind fun r =>
        (episodes G fuel T threshold noise plan maxSteps j r.1 r.2.2).bind fun q => .done (q.1, r.2.1 :: q.2)

/-- run_breakout.py:167-245 `run_breakout`; `mpc` is called with the velocities of the paddle times `PADDLE_VEL_ADJUST = -1`
(line 170).  Returned with the environment at the end. -/
def playBreakout {γ : Type} (G : Game γ) (fuel T : ℕ) (threshold : ℝ) (noise : ℕ → ℝ)
    (mpc : V2 → List ℝ → List ℝ → V2 → Run (List ℝ)) (paddle_vel : Option V2) (num_episodes : ℕ) (g : γ) : Run (γ × ℝ) :=
  match paddle_vel with
  | none => .raised (.raised "TypeError")
  | some v =>
    (episodes G fuel T threshold noise (mpc (v.1 * (-1 / 1 / 1), v.2 * (-1 / 1 / 1))) 10000000000 num_episodes (G.reset g) 0).bind fun q =>
      if num_episodes = 0 then .raised (.raised "ZeroDivisionError")
      else .done (q.1, q.2.sum / num_episodes)

end LcpPhysics.Breakout
