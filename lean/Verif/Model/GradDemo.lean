import Verif.Model.Demos

/-!
# Model of `demos/grad_demo.py`

A ball is pushed so that it hits a second ball, which should come to a target.  The push is improved by gradient descent.  Drawing
and printing are left out, except for the distance printed last.
-/

noncomputable section

namespace LcpPhysics.GradDemo
open Demos

open Classical in
/-- demos/grad_demo.py:25, 40 `learned_force`: the closure looks `initial_force` up when it is called. -/
def learned_force (F : V3) (t : ℝ) : V3 := if t < 0.1 then F else ZEROS

/-- demos/grad_demo.py:86-104 `make_world` with `TIME` (line 15) and `DT` (line 16, the default); the world does not
post-stabilize (utils.py:39).  Body 0 is the target, 1 the ball that is pushed, 2 the ball to be brought to the target. -/
def scene (F : V3) : Demo where
  items := [.circle (.two (500, 300)) 30 {}, .circle (.two (250, 210)) 30 {}, .circle (.two (400, 250)) 30 {}]
  joints := fun _ => []
  nc := addNoContact (addNoContact (fun _ => []) 1 0) 2 0
  forces := withForces [.external (learned_force F) 100] [(1, 0)]
  post_stab := false
  run_time := 7

/-- demos/grad_demo.py:49, 77: `(target.pos - c.pos).norm()`. -/
def distOf {φ : Type} (w : World (Option Mat) φ) : ℝ := nrm ((bodyAt w.bodies 0).pos - (bodyAt w.bodies 2).pos)

/-- demos/grad_demo.py:42-49: make the world, run it, measure. -/
def simulate {φ : Type} (lcp : LcpSolver) (mi fuel n : ℕ) (collide : ℝ → φ → List Body → Except Err (φ × List Contact)) (fnd : φ)
    (F : V3) : Run ℝ :=
  ((scene F).play lcp mi fuel n collide fnd).bind fun w => .done (distOf w)

/-- The variables of the loop: `initial_force`, `learning_rate`, `last_dist`, `dist_hist`, and `dist`, which keeps referring to the
bodies of the last world of the loop. -/
structure State where
  force : V3
  rate : ℝ
  last : ℝ
  hist : List ℝ
  dist : Option ℝ

open Classical in
/-- demos/grad_demo.py:39-68, `k` iterations left; `sim` runs the simulation and `grad` is what `backward` leaves in
`initial_force.grad`. -/
def descend (sim : V3 → Run ℝ) (grad : V3 → V3) : ℕ → State → Run State
  | 0, s => .done s
  | k + 1, s => (sim s.force).bind fun dist =>
      let force := s.force - s.rate • grad s.force
      let rate := s.rate * 0.9
      if |s.last - dist| < 1e-5 then .done { s with force := force, rate := rate, dist := some dist }
      else descend sim grad k ⟨force, rate, dist, s.hist ++ [dist], some dist⟩

/-- demos/grad_demo.py:20-22. -/
def initial_force : V3 := ⟨0, 3, 0⟩

/-- demos/grad_demo.py:34-38. -/
def start : State := ⟨initial_force, 0.001, 1e10, [], none⟩

/-- demos/grad_demo.py:19-83 `grad_demo`: a first run, the loop, a last run; the distance printed at the end (lines 77-78) is taken
between the bodies bound in the loop.  Returned: that distance, the learned force and the history. -/
def grad_demo (sim : V3 → Run ℝ) (grad : V3 → V3) : Run (Option ℝ × V3 × List ℝ) :=
  (sim initial_force).bind fun _ => (descend sim grad 100 start).bind fun s =>
    (sim s.force).bind fun _ => .done (s.dist, s.force, s.hist)

end LcpPhysics.GradDemo
