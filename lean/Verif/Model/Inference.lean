import Verif.Model.Engine
import Verif.Model.Contacts

/-!
# Model of `experiments/inference.py`: a chain of rectangles hit by a projectile

The mass is a real number and `num_links` at least one (`mass / 0` is not a number).  Drawing is left out.  Forces are
handles: link `i` has gravity object `i`, the projectile's impulse is object `num_links`.
-/

noncomputable section

namespace LcpPhysics.Inference

/-- inference.py:104-105, 109-112: link `i` (both branches of the conditional are the same). -/
def linkBody (num_links : ℕ) (mass : ℝ) (i : ℕ) : Except Err Body :=
  mkRect (.two (300, 50 + 50 * i)) (20, 60) { mass := mass / num_links }

/-- inference.py:105-114: the first `k` links. -/
def linkBodies (num_links : ℕ) (mass : ℝ) : ℕ → Except Err (List Body)
  | 0 => .ok []
  | k + 1 => (linkBodies num_links mass k).bind fun bs => (linkBody num_links mass k).bind fun b => .ok (bs ++ [b])

/-- inference.py:120-121: the projectile, at the height of the last body. -/
def projectile (bs : List Body) : Body :=
  mkCircle (.two (50, (bodyAt bs (bs.length - 1)).pos.2)) 20 { restitution := 1 }

/-- inference.py:100-122: the bodies. -/
def chainBodies (num_links : ℕ) (mass : ℝ) : Except Err (List Body) :=
  (linkBodies num_links mass num_links).bind fun bs => .ok (bs ++ [projectile bs])

/-- inference.py:107, 115: the joint of link `i`: to the world for the first, to the link before for the others. -/
def chainJoint (bs : List Body) (i : ℕ) : Joint :=
  if i = 0 then mkJoint bs 0 none (300, 30) else mkJoint bs i (some (i - 1)) (300, 25 + 50 * i)

/-- inference.py:101-115: the joints. -/
def chainJoints (num_links : ℕ) (bs : List Body) : List Joint := (List.range num_links).map (chainJoint bs)

/-- inference.py:116: neighbouring links do not touch. -/
def chainNc (num_links : ℕ) : ℕ → List ℕ :=
  ((List.range num_links).drop 1).foldl (fun nc i => addNoContact nc i (i - 1)) fun _ => []

/-- inference.py:113, 123-124 with `forces = [hor_impulse]` (inference.py:27): gravity on all links but the first, the
impulse on the projectile (whose mass is the default 1). -/
def chainForces (num_links : ℕ) (mass : ℝ) : ForceHeap :=
  (((List.range num_links).drop 1).foldl (fun H i => H.add_force i (mass / num_links) i)
    (⟨fun h => if h = num_links then .external hor_impulse (500 * 3) else .gravity 100 none, fun _ => []⟩ : ForceHeap)).add_force
      num_links 1 num_links

/-- The engine of the world, with the defaults of utils.py:9-40. -/
def chainEnv {φ : Type} (num_links : ℕ) (mass : ℝ) (lcp : LcpSolver) (mi : ℕ)
    (collide : ℝ → φ → List Body → Except Err (φ × List Contact)) : Env (Option Mat) φ :=
  pdipmEnv 2 (chainForces num_links mass) lcp mi collide

/-- inference.py:99-127 `make_world`. -/
def make_world {φ : Type} (lcp : LcpSolver) (mi : ℕ)
    (collide : ℝ → φ → List Body → Except Err (φ × List Contact)) (fnd : φ) (num_links : ℕ) (mass : ℝ) :
    Run (World (Option Mat) φ) :=
  match chainBodies num_links mass with
  | .error e => .raised e
  | .ok bs => mkWorld (chainEnv num_links mass lcp mi collide) none fnd bs (chainJoints num_links bs)
      (1 / 30) (1 / 10) (1 / 1000000) true true

/-- inference.py:132, 146: `torch.cat([b.p for b in world.bodies])`. -/
def poseRow {σ φ : Type} (w : World σ φ) : List ℝ := w.bodies.flatMap fun b => [b.p.r, b.p.x, b.p.y]

open Classical in
/-- inference.py:144-146: the loop of `positions_run_world`; `n` bounds the number of steps. -/
def positionsLoop {σ φ : Type} (env : Env σ φ) (fuel : ℕ) (run_time : ℝ) : ℕ → World σ φ → Run (List (List ℝ))
  | n, w =>
    if w.t < run_time then
      match n with
      | 0 => .running
      | n + 1 => (w.step env fuel 0 false).bind fun w =>
          (positionsLoop env fuel run_time n w).bind fun ps => .done (poseRow w :: ps)
    else .done []

/-- inference.py:130-172 `positions_run_world` without a screen. -/
def positions_run_world {σ φ : Type} (env : Env σ φ) (fuel : ℕ) (run_time : ℝ) (n : ℕ) (w : World σ φ) :
    Run (List (List ℝ)) :=
  (positionsLoop env fuel run_time n w).bind fun ps => .done (poseRow w :: ps)

/-- The mean of the squared differences, `MSELoss` of inference.py:60.  Tensors of different lengths raise (a length of one, which
would be broadcast, does not occur: a row has three entries per body); the mean of nothing is left 0 instead of NaN. -/
def mse (xs ys : List ℝ) : Run ℝ :=
  if xs.length = ys.length then .done (((List.zipWith (fun a b => (a - b) ^ 2) xs ys).sum) / xs.length)
  else .raised (.raised "RuntimeError")

/-- inference.py:55-60: both lists of rows are concatenated and cut to the length of the shorter, then compared. -/
def chainLoss (positions ground_truth : List (List ℝ)) : Run ℝ :=
  let positions := positions.flatten
  let ground_truth := ground_truth.flatten
  let positions := positions.take ground_truth.length
  let clipped := ground_truth.take positions.length
  mse positions clipped

end LcpPhysics.Inference
