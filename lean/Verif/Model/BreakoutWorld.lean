import Verif.Model.Breakout
import Verif.Model.Contacts
import Verif.Model.Engine

/-!
# Model of `experiments/breakout/encoder.py`: the simulated world

Bodies: 0 ball, 1 paddle, 2 left wall, 3 right wall, 4 roof, 5 left stopper, 6 right stopper, 7.. blocks.
No forces are attached.  Drawing is not modelled.
-/

noncomputable section

namespace LcpPhysics.Breakout

/-- encoder.py:154-156: the ball. -/
def ballBody (ball : BallParams) (vel : V2) : Body :=
  mkCircle (.two (ball.px, ball.py)) ball.rad { vel := .two vel, mass := 1, restitution := 1, fric_coeff := 0 }

/-- A `Rect` of the world with restitution `e` and no friction (encoder.py:161-162, 171-173, 176-178 etc.). -/
def boxBody (e : ℝ) (b : BoxParams) : Except Err Body :=
  mkRect (.two (b.px, b.py)) (b.w, b.h) { restitution := e, fric_coeff := 0 }

open Classical in
/-- Python's `int` of a float. -/
def pyInt (x : ℝ) : ℤ := if 0 ≤ x then ⌊x⌋ else ⌈x⌉

/-- encoder.py:213: the row of a block. -/
def blockLevel (b : BoxParams) : ℤ := pyInt ((b.py - b.h / 2 - 57) / 6)

open Classical in
/-- encoder.py:211-217: one block; `BLOCK_COLORS[level]` raises if the index is out of range. -/
def blockBody (b : BoxParams) : Except Err Body :=
  if -6 ≤ blockLevel b ∧ blockLevel b < 6 then boxBody 1 b else .error (.raised "IndexError")

/-- The blocks one after the other. -/
def blockBodies : List BoxParams → Except Err (List Body)
  | [] => .ok []
  | b :: bs => (blockBody b).bind fun x => (blockBodies bs).bind fun xs => .ok (x :: xs)

/-- encoder.py:171-173. -/
def leftWall : BoxParams := ⟨8 / 2, 189 / 2, 8, 189⟩
/-- encoder.py:177-179. -/
def rightWall : BoxParams := ⟨160 - 8 / 2, (189 + 6) / 2, 8, 189 + 6⟩
/-- encoder.py:183-185. -/
def roof : BoxParams := ⟨160 / 2, 31 / 2, 160 - 2 * 8, 31⟩
/-- encoder.py:193-195. -/
def leftStopper : BoxParams := ⟨8 / 2, 189 + 6 / 2, 8, 6⟩
/-- encoder.py:201-203. -/
def rightStopper : BoxParams := ⟨160 + 8 / 2, 189 + 6 / 2, 8, 6⟩

/-- encoder.py:148-225: the list `bodies` of `make_world`. -/
def breakoutBodies (paddle : BoxParams) (blocks : List BoxParams) (ball : BallParams) (vel : V2) :
    Except Err (List Body) :=
  (boxBody 1 paddle).bind fun p =>
  (boxBody 1 leftWall).bind fun lw =>
  (boxBody 1 rightWall).bind fun rw =>
  (boxBody 1 roof).bind fun ro =>
  (boxBody (-1) leftStopper).bind fun ls =>
  (boxBody (-1) rightStopper).bind fun rs =>
  (blockBodies blocks).bind fun bl =>
    .ok ([ballBody ball vel, p, lw, rw, ro, ls, rs] ++ bl)

/-- encoder.py:174, 180, 189, 196, 204, 221: a `TotalConstraint` on everything but ball and paddle. -/
def breakoutJoints (bs : List Body) : List Joint :=
  (List.range (bs.length - 2)).map fun i => mkTotal bs (i + 2)

/-- The calls of `add_no_contact` in order: encoder.py:175, 181, 186-188, 198-199, 206-207 and, for each block,
222-225. -/
def noContactCalls (blocks : ℕ) : List (ℕ × ℕ) :=
  [(2, 1), (1, 3), (4, 1), (4, 2), (4, 3), (5, 2), (5, 0), (6, 3), (6, 0)] ++
  (List.range blocks).flatMap fun k => [(7 + k, 2), (7 + k, 3)] ++ (List.range k).map fun j => (7 + k, 7 + j)

/-- The exclusion sets after these calls. -/
def breakoutNc (blocks : ℕ) : ℕ → List ℕ :=
  (noContactCalls blocks).foldl (fun nc p => addNoContact nc p.1 p.2) fun _ => []

/-- No forces are attached to any body. -/
def breakoutForces : ForceHeap := ⟨fun _ => .external (fun _ => 0) 0, fun _ => []⟩

/-- The engine and contact search of the world (two friction directions, the default).  The contact search is left
open; for the library's one it is `diffCollide` with the exclusion sets `breakoutNc`. -/
def breakoutEnv {φ : Type} (lcp : LcpSolver) (mi : ℕ)
    (collide : ℝ → φ → List Body → Except Err (φ × List Contact)) : Env (Option Mat) φ :=
  pdipmEnv 2 breakoutForces lcp mi collide

/-- encoder.py:148-227 `make_world` (`DT = 1`, the defaults of utils.py:16-20 for the rest). -/
def make_world {φ : Type} (lcp : LcpSolver) (mi : ℕ)
    (collide : ℝ → φ → List Body → Except Err (φ × List Contact)) (fnd : φ)
    (paddle : BoxParams) (blocks : List BoxParams) (ball : BallParams) (vel : V2) :
    Run (World (Option Mat) φ) :=
  match breakoutBodies paddle blocks ball vel with
  | .error e => .raised e
  | .ok bs => mkWorld (breakoutEnv lcp mi collide) none fnd bs (breakoutJoints bs)
      1 (1 / 10) (1 / 1000000) false true

variable {σ φ : Type}

/-- encoder.py:299-307 `step_breakout` with `paddle_idx = 1`. -/
def step_breakout (env : Env σ φ) (fuel sub : ℕ) (w : World σ φ) (action vx vy : ℝ) : Run (World σ φ) :=
  let v := w.v
  let v : Vec := Function.update v (1 * 3 + 1) (vx * action)
  let v : Vec := Function.update v (1 * 3 + 2) (vy * action)
  (w.set_v v).step env fuel sub true

open Classical in
/-- encoder.py:244-257: the loop of `run_breakout` without a screen; `n` bounds the number of steps. -/
def run_breakout (env : Env σ φ) (fuel sub : ℕ) (paddle_vel run_time : ℝ) :
    ℕ → List ℝ → World σ φ → Run (World σ φ)
  | n, actions, w =>
    if w.t < run_time then
      match n with
      | 0 => .running
      | n + 1 =>
        let r : ℝ × List ℝ := match actions with
          | [] => (-(1 / 10), [])
          | a :: as => (a, as)
        ((w.set_v (Function.update w.v (1 * 3 + 1) (paddle_vel * r.1))).step env fuel sub true).bind fun w =>
          run_breakout env fuel sub paddle_vel run_time n r.2 w
    else .done w

end LcpPhysics.Breakout
