import Verif.Model.BreakoutWorld

/-!
# Model of `experiments/breakout/run_breakout.py`: one simulated step and the cost of the controller

The MPC solver itself (package `mpc`) is not modelled.
-/

noncomputable section

namespace LcpPhysics.Breakout

variable {σ φ : Type}

/-- The attribute `dims` of a `Rect`. -/
def bodyDims (b : Body) : V2 :=
  match b.shape with
  | .rect d _ => d
  | _ => 0

/-- run_breakout.py:31, 32: `torch.cat([b.pos, b.dims])`. -/
def boxState (b : Body) : List ℝ := [b.pos.1, b.pos.2, (bodyDims b).1, (bodyDims b).2]

/-- run_breakout.py:30: `torch.cat([ball.pos, ball.rad.view(1)])`. -/
def ballState (b : Body) : List ℝ := [b.pos.1, b.pos.2, b.rad]

/-- run_breakout.py:37-38, 42-43: `p` and `dims` are overwritten; vertices and geometry are left alone.  (The attributes
`pos` and `rot` keep the old tensors until the next `set_p`; the position written is equal to the old one, and `rot` is
read only by `set_p` and for drawing.) -/
def putBox (b : Body) (q : List ℝ × List ℝ) : Body :=
  { b with
    p := ⟨0, q.1.getD 0 0, q.1.getD 1 0⟩
    shape := match b.shape with
      | .rect _ vs => .rect (q.2.getD 0 0, q.2.getD 1 0) vs
      | s => s }

/-- run_breakout.py:39-40. -/
def putBall (b : Body) (q : List ℝ × ℝ) : Body :=
  { b with
    p := ⟨0, q.1.getD 0 0, q.1.getD 1 0⟩
    shape := match b.shape with
      | .circle _ => .circle q.2
      | s => s }

/-- run_breakout.py:36-43 on the list of bodies (0 ball, 1 paddle, 7.. blocks). -/
def writeBack (bs : List Body) (q : (List ℝ × List ℝ) × List (List ℝ × List ℝ) × (List ℝ × ℝ)) : List Body :=
  bs.mapIdx fun i b =>
    if i = 0 then putBall b q.2.2
    else if i = 1 then putBox b q.1
    else if 7 ≤ i then
      match q.2.1[i - 7]? with
      | some r => putBox b r
      | none => b
    else b

/-- run_breakout.py:27-44 `simulate_breakout`: the world after it and the state vector it returns.  Concatenating no
blocks raises. -/
def simulate_breakout (env : Env σ φ) (fuel sub : ℕ) (w : World σ φ) (a vx vy : ℝ) : Run (World σ φ × List ℝ) :=
  (step_breakout env fuel sub w a vx vy).bind fun w =>
    let blocks := w.bodies.drop 7
    if blocks.isEmpty then .raised (.raised "RuntimeError: torch.cat of no tensors")
    else
      let sn := boxState (bodyAt w.bodies 1) ++ blocks.flatMap boxState ++ ballState (bodyAt w.bodies 0)
      match from_vector sn with
      | none => .raised (.raised "IndexError")
      | some q => .done ({ w with bodies := writeBack w.bodies q }, sn)

/-- run_breakout.py:82-90: parameters of a rectangle as `make_world` gets them. -/
def toBox (q : List ℝ × List ℝ) : BoxParams := ⟨q.1.getD 0 0, q.1.getD 1 0, q.2.getD 0 0, q.2.getD 1 0⟩

/-- The same for the ball. -/
def toBall (q : List ℝ × ℝ) : BallParams := ⟨q.1.getD 0 0, q.1.getD 1 0, q.2⟩

open Classical in
/-- run_breakout.py:82-90 `BreakoutDynamics.forward` (one state): a new world is built from the state vector, always with
the velocity `vel` the ball had when the controller was called, and simulated for one step.  Vectors whose pieces are too
short for a position or dimensions raise. -/
def dynamics (lcp : LcpSolver) (mi : ℕ) (collide : ℝ → φ → List Body → Except Err (φ × List Contact)) (fnd : φ)
    (fuel sub : ℕ) (vel : V2) (pvx pvy : ℝ) (x : List ℝ) (u : ℝ) : Run (List ℝ) :=
  match from_vector x with
  | none => .raised (.raised "IndexError")
  | some q =>
    if (∀ r ∈ q.1 :: q.2.1, r.1.length = 2 ∧ r.2.length = 2) ∧ q.2.2.1.length = 2 then
      (make_world lcp mi collide fnd (toBox q.1) (q.2.1.map toBox) (toBall q.2.2) vel).bind fun w =>
        (simulate_breakout (breakoutEnv lcp mi collide) fuel sub w u pvx pvy).bind fun r => .done r.2
    else .raised (.raised "RuntimeError: wrong number of values")

/-- The states the controller predicts for a list of actions (`fnd`: random stream of the contact search, new for every
world). -/
def predict (lcp : LcpSolver) (mi : ℕ) (collide : ℝ → φ → List Body → Except Err (φ × List Contact))
    (fuel sub : ℕ) (vel : V2) (pvx pvy : ℝ) : List (φ × ℝ) → List ℝ → Run (List ℝ)
  | [], x => .done x
  | (f, u) :: us, x =>
    (dynamics lcp mi collide f fuel sub vel pvx pvy x u).bind (predict lcp mi collide fuel sub vel pvx pvy us)

/-- learn_params.py:56-64: the simulated part of the loop; the world goes on from step to step, and only the paddle's
four numbers of each state are kept. -/
def learnStates (env : Env σ φ) (fuel sub : ℕ) (vx vy : ℝ) : List ℝ → World σ φ → Run (List (List ℝ))
  | [], _ => .done []
  | a :: as, w => (simulate_breakout env fuel sub w a vx vy).bind fun r =>
      (learnStates env fuel sub vx vy as r.1).bind fun l => .done (r.2.take 4 :: l)

/-- learn_params.py:70-72: `MSELoss` of two lists of states of equal shape. -/
def mseLoss (s t : List (List ℝ)) : ℝ :=
  ((List.zipWith (fun a b => (a - b) ^ 2) s.flatten t.flatten).sum) / s.flatten.length

/-! ## The cost of `mpc` -/

/-- `Q[a, b] = x`. -/
def setEntry (Q : ℕ → ℕ → ℝ) (a b : ℕ) (x : ℝ) : ℕ → ℕ → ℝ := fun i j => if i = a ∧ j = b then x else Q i j

/-- run_breakout.py:105-107: zeros for the state, `lambda_a` for the actions, on the diagonal. -/
def costDiag (ns : ℕ) (lam : ℝ) : ℕ → ℕ → ℝ := fun i j => if i = j then (if i < ns then 0 else lam) else 0

/-- run_breakout.py:115-118, 121-124: the four entries of the tracking cost. -/
def costTrack (ns : ℕ) (Q : ℕ → ℕ → ℝ) : ℕ → ℕ → ℝ :=
  let Q := setEntry Q (ns - 3) (ns - 3) 1
  let Q := setEntry Q (ns - 3) 0 (-1)
  let Q := setEntry Q 0 0 1
  setEntry Q 0 (ns - 3) (-1)

open Classical in
/-- run_breakout.py:101-124: the matrix `Q[t]` for state `s1` (`DT = 1`). -/
def mpcCost (s1 : List ℝ) (ball_vel_y lam : ℝ) (vert_cost centering : Bool) (t : ℕ) : ℕ → ℕ → ℝ :=
  let ns := s1.length
  let Q := costDiag ns lam
  let Q := if vert_cost then setEntry Q (ns - 2) (ns - 2) 10 else Q
  let ball_pos_y := s1.getD (ns - 2) 0
  let paddle_pos_y := s1.getD 1 0
  if ball_vel_y > 0 then
    let frames_to_paddle := (paddle_pos_y - ball_pos_y) / ball_vel_y / 1
    if pyInt frames_to_paddle + 1 ≥ t then costTrack ns Q else Q
  else if centering = true ∧ ball_pos_y > 1000 then costTrack ns Q else Q

end LcpPhysics.Breakout
