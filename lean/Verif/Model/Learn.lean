import Verif.Model.Inference
import Verif.Model.BreakoutSim
import Mathlib.Analysis.SpecialFunctions.Pow.Real

/-!
# Model of the two learning loops, `experiments/inference.py` and `experiments/breakout/learn_params.py`

Both use `torch.optim.RMSprop` with its defaults (`alpha = 0.99`, `eps = 1e-8`, no momentum, no weight decay, not centred), which is
not part of the repository: its update is modelled from its documentation.  Drawing, printing and plotting are left out.  Random
numbers are parameters, gradients are what `backward` leaves in `grad`.
-/

noncomputable section

namespace LcpPhysics.Learn

/-- A parameter with the running mean of its squared gradients. -/
structure Param where
  val : ℝ
  sq : ℝ := 0

/-- inference.py:44, 63; learn_params.py:30, 73: one `RMSprop` step of a parameter. -/
def Param.step (lr : ℝ) (p : Param) (g : ℝ) : Param :=
  let sq := 0.99 * p.sq + (1 - 0.99) * (g * g)
  ⟨p.val - lr * g / (√sq + 1e-8), sq⟩

/-- The same if there may be no gradient (`grad is None`): the parameter is skipped. -/
def Param.step? (lr : ℝ) (p : Param) : Option ℝ → Param
  | none => p
  | some g => p.step lr g

/-! ## inference.py -/

/-- The variables of the loop: `next_mass`, `last_loss`, `loss_hist`, `mass_hist`. -/
structure MassState where
  mass : Param
  last : ℝ
  loss_hist : List ℝ
  mass_hist : List ℝ

open Classical in
/-- inference.py:48-76, `k` iterations left; `sim` makes a world, runs it and compares with the ground truth, `grad` is what
`backward` leaves in `next_mass.grad`.  The run of lines 49-51 for the screen is another run with the same mass, whose positions
are not looked at. -/
def train (show' : ℝ → Run Unit) (sim : ℝ → Run ℝ) (grad : ℝ → ℝ) : ℕ → MassState → Run MassState
  | 0, s => .done s
  | k + 1, s => (show' s.mass.val).bind fun _ => (sim s.mass.val).bind fun loss =>
      let mass := s.mass.step 0.5 (grad s.mass.val)
      if |s.last - loss| < 1e-3 then .done { s with mass := mass }
      else train show' sim grad k ⟨mass, loss, s.loss_hist ++ [loss], s.mass_hist ++ [mass.val]⟩

/-- inference.py:40-47: the variables before the loop, `rand` being the random mass. -/
def massStart (rand : ℝ) : MassState := ⟨⟨rand, 0⟩, 1e10, [], [rand]⟩

/-- inference.py:37-86: the loop and the final run; returned are `Final loss`, `Final mass` and the two histories. -/
def infer_mass (show' : ℝ → Run Unit) (sim : ℝ → Run ℝ) (grad : ℝ → ℝ) (rand : ℝ) : Run (ℝ × ℝ × List ℝ × List ℝ) :=
  (train show' sim grad 100 (massStart rand)).bind fun s =>
    (sim s.mass.val).bind fun loss => .done (loss, s.mass.val, s.loss_hist, s.mass_hist)

/-- inference.py:29-33, 53-54, 78-80: the positions of a run of the chain with a given mass.  Every run starts from the same state
`fnd` of the random generator. -/
def chainPositions {φ : Type} (lcp : LcpSolver) (mi fuel n : ℕ) (collide : ℝ → φ → List Body → Except Err (φ × List Contact)) (fnd : φ)
    (run_time mass : ℝ) : Run (List (List ℝ)) :=
  (Inference.make_world lcp mi collide fnd 10 mass).bind fun w =>
    Inference.positions_run_world (Inference.chainEnv 10 mass lcp mi collide) fuel run_time n w

/-- inference.py:53-60: the loss of a mass. -/
def massLoss {φ : Type} (lcp : LcpSolver) (mi fuel n : ℕ) (collide : ℝ → φ → List Body → Except Err (φ × List Contact)) (fnd : φ)
    (run_time : ℝ) (truth : List (List ℝ)) (mass : ℝ) : Run ℝ :=
  (chainPositions lcp mi fuel n collide fnd run_time mass).bind fun ps => Inference.chainLoss ps truth

/-- inference.py:50-51: the run for the screen. -/
def massShow {φ : Type} (lcp : LcpSolver) (mi fuel n : ℕ) (collide : ℝ → φ → List Body → Except Err (φ × List Contact)) (fnd : φ)
    (run_time mass : ℝ) : Run Unit :=
  (Inference.make_world lcp mi collide fnd 10 mass).bind fun w =>
    (runWorld (Inference.chainEnv 10 mass lcp mi collide) fuel run_time n w).bind fun _ => .done ()

/-- inference.py:26-86 `main` with the duration of the runs as a parameter: the ground truth is a run with mass
`TOTAL_MASS = 7`. -/
def mainFor {φ : Type} (lcp : LcpSolver) (mi fuel n : ℕ) (collide : ℝ → φ → List Body → Except Err (φ × List Contact)) (fnd : φ)
    (run_time : ℝ) (grad : List (List ℝ) → ℝ → ℝ) (rand : ℝ) : Run (ℝ × ℝ × List ℝ × List ℝ) :=
  (chainPositions lcp mi fuel n collide fnd run_time 7).bind fun truth =>
    infer_mass (massShow lcp mi fuel n collide fnd run_time) (massLoss lcp mi fuel n collide fnd run_time truth) (grad truth) rand

/-- inference.py:26-86 `main`; all runs last 10 (lines 33, 51, 54, 80). -/
def main {φ : Type} (lcp : LcpSolver) (mi fuel n : ℕ) (collide : ℝ → φ → List Body → Except Err (φ × List Contact)) (fnd : φ)
    (grad : List (List ℝ) → ℝ → ℝ) (rand : ℝ) : Run (ℝ × ℝ × List ℝ × List ℝ) :=
  mainFor lcp mi fuel n collide fnd 10 grad rand

/-! ## learn_params.py -/

/-- The variables of the loop: `infered_params`, `last_loss`, `loss_hist`, `paddle_vel_hist`. -/
structure VelState where
  vx : Param
  vy : Param
  last : ℝ
  loss_hist : List ℝ
  vel_hist : List (ℝ × ℝ)

open Classical in
/-- learn_params.py:36-91, `k` iterations left, `i` the number of the present one; `play i` plays game `i` on the screen and in the
simulation and returns the loss, `grad i` is what `backward` leaves. -/
def learn (play : ℕ → ℝ → ℝ → Run ℝ) (grad : ℕ → ℝ → ℝ → Option ℝ × Option ℝ) : ℕ → ℕ → VelState → Run VelState
  | 0, _, s => .done s
  | k + 1, i, s => (play i s.vx.val s.vy.val).bind fun loss =>
      let g := grad i s.vx.val s.vy.val
      let vx := s.vx.step? 0.03 g.1
      let vy := s.vy.step? 0.03 g.2
      let vel_hist := s.vel_hist ++ [(vx.val, vy.val)]
      if |s.last - loss| < 1e-15 then .done { s with vx := vx, vy := vy, vel_hist := vel_hist }
      else learn play grad k (i + 1) ⟨vx, vy, loss, s.loss_hist ++ [loss], vel_hist⟩

/-- learn_params.py:22-35. -/
def velStart (rx ry : ℝ) : VelState := ⟨⟨rx, 0⟩, ⟨ry, 0⟩, 1e10, [], []⟩

/-- learn_params.py:14-99 `infer_params`. -/
def infer_params (play : ℕ → ℝ → ℝ → Run ℝ) (grad : ℕ → ℝ → ℝ → Option ℝ × Option ℝ) (rx ry : ℝ) : Run (ℝ × ℝ) :=
  (learn play grad 1000 0 (velStart rx ry)).bind fun s => .done (s.vx.val, s.vy.val)

/-- learn_params.py:39-69 for one game (`mini_batch = 1`): `first` is the paddle's part of the first screen, `screens` those after
each of the actions `as`; the simulated world is made from the first screen with a ball at rest. -/
def gameLoss {φ : Type} (lcp : LcpSolver) (mi : ℕ) (collide : ℝ → φ → List Body → Except Err (φ × List Contact)) (fnd : φ) (fuel sub : ℕ)
    (paddle : Breakout.BoxParams) (blocks : List Breakout.BoxParams) (ball : Breakout.BallParams) (as : List ℝ)
    (screens : List (List ℝ)) (vx vy : ℝ) : Run ℝ :=
  (Breakout.make_world lcp mi collide fnd paddle blocks ball (0, 0)).bind fun w =>
    (Breakout.learnStates (Breakout.breakoutEnv lcp mi collide) fuel sub vx vy as w).bind fun l =>
      .done (Breakout.mseLoss (paddle.toList :: l) (paddle.toList :: screens))

end LcpPhysics.Learn
