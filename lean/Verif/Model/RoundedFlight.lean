import Verif.Model.RoundedWorld
import Verif.Model.Engine

/-!
# The engine in floating point, for bodies without contacts and constraints

The matrix `world.M()` is then diagonal (world.py:58-61, bodies.py:41-45).  Its products with vectors have one summand that is not zero
in each row, and adding zeros is exact.  Its inverse is taken to have the rounded reciprocals on the diagonal, as elimination gives it.
-/

noncomputable section

namespace LcpPhysics.Rounded

/-- engines.py:33, 43-49: a row of `u = M v + dt f` and of `inv u`, for a diagonal entry `m`. -/
def fvel (A : Arith) (m v dt f : ℝ) : ℝ := A.rnd (A.rnd (1 / m) * A.rnd (A.rnd (m * v) + A.rnd (dt * f)))

/-- The three rows of a body. -/
def fvel3 (A : Arith) (m I : ℝ) (v : V3) (dt : ℝ) (f : V3) : V3 := ⟨fvel A I v.r dt f.r, fvel A m v.x dt f.x, fvel A m v.y dt f.y⟩

/-- engines.py:26-49, 77: the answer of the engine, given the forces (world.py:136-137). -/
def freeAnswer (A : Arith) (bs : List Body) (fl : List V3) (dt : ℝ) : Vec :=
  cat3 (List.zipWith (fun b f => fvel3 A b.mass b.ang_inertia b.v dt f) bs fl)

/-- The velocities of a body after `n` calls of the engine with steps of length `h`, when `f j` is the force during step `j`. -/
def freeVel (A : Arith) (h m I : ℝ) (f : ℕ → V3) (v : V3) : ℕ → V3
  | 0 => v
  | n + 1 => fvel3 A m I (freeVel A h m I f v n) h (f n)

/-- Its poses (bodies.py:80-82): every step moves with the velocity at its end. -/
def freePose (A : Arith) (h m I : ℝ) (f : ℕ → V3) (p v : V3) : ℕ → V3
  | 0 => p
  | n + 1 => moved A (freePose A h m I f p v n) (freeVel A h m I f v (n + 1)) h

/-- Calls of `step` in a strict world of circles (world.py:83-122, `RoundedWorld.lean`) with the engine; `fs j` are the forces during
step `j`. -/
def freeRun (A : Arith) (S : WorldSetup) (fuel : ℕ) (fs : ℕ → List V3) : ℕ → Circles → Run Circles
  | 0, w => .done w
  | n + 1, w => (freeRun A S fuel fs n w).bind fun w => strictStep A S fuel w (freeAnswer A w.bodies (fs n) S.dt)

end LcpPhysics.Rounded
