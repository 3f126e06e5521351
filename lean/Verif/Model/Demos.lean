import Verif.Model.Engine
import Verif.Model.Contacts
import Verif.Model.BodyOps

/-!
# Model of the scenes in `demos/demo.py`, `demos/fixed_joint_demo.py` and `tests/test_demos.py`

Each scene is a straight-line program that makes bodies, constraints and forces and then a world.  It is written down as the list
of the objects in the order of their creation; bodies are named by their position in `bodies`, force objects by their number.
Drawing and recording are left out.  All bodies have the default mass 1.
-/

noncomputable section

namespace LcpPhysics.Demos

/-- One body: a constructor call, or (`turned`) a rectangle whose angular velocity is set to `w`, that is moved by one unit of time
and stopped, as in tests/test_demos.py:106-109, 113-116. -/
inductive Item where
  | circle (pos : Arg) (rad : ℝ) (a : Params)
  | rect (pos : Arg) (dims : V2) (a : Params)
  | turned (pos : Arg) (dims : V2) (a : Params) (w : ℝ)

/-- The constructor calls (bodies.py:117-132, 254-276); the assignments to `v[0]` keep the other components. -/
def Item.build : Item → Except Err Body
  | .circle pos rad a => .ok (mkCircle pos rad a)
  | .rect pos dims a => mkRect pos dims a
  | .turned pos dims a w => (mkRect pos dims a).bind fun b =>
      .ok (((b.op (.setV { b.v with r := w })).op (.move 1)).op (.setV { b.v with r := 0 }))

/-- All bodies, in order. -/
def buildAll : List Item → Except Err (List Body)
  | [] => .ok []
  | i :: is => i.build.bind fun b => (buildAll is).bind fun bs => .ok (b :: bs)

/-- A scene. -/
structure Demo where
  items : List Item
  joints : List Body → List Joint
  nc : ℕ → List ℕ
  forces : ForceHeap
  post_stab : Bool
  run_time : ℝ

/-- The calls `bodies[i].add_force(forces[h])`, in order, for bodies of mass 1 (bodies.py:108-110). -/
def withForces (objs : List Force) (calls : List (ℕ × ℕ)) : ForceHeap :=
  calls.foldl (fun H c => H.add_force c.1 1 c.2) ⟨fun h => objs.getD h (.gravity 0 none), fun _ => []⟩

/-- `World(bodies, joints, dt=DT, post_stab=...)` with the defaults of utils.py:9-40 and world.py:19-23. -/
def Demo.start {φ : Type} (d : Demo) (lcp : LcpSolver) (mi : ℕ)
    (collide : ℝ → φ → List Body → Except Err (φ × List Contact)) (fnd : φ) : Run (World (Option Mat) φ) :=
  match buildAll d.items with
  | .error e => .raised e
  | .ok bs => mkWorld (pdipmEnv 2 d.forces lcp mi collide) none fnd bs (d.joints bs) (1 / 30) (1 / 10) (1 / 1000000)
      d.post_stab true

/-- `run_world(world, run_time=...)` without a screen (world.py:246-267). -/
def Demo.play {φ : Type} (d : Demo) (lcp : LcpSolver) (mi fuel n : ℕ)
    (collide : ℝ → φ → List Body → Except Err (φ × List Contact)) (fnd : φ) : Run (World (Option Mat) φ) :=
  (d.start lcp mi collide fnd).bind fun w => runWorld (pdipmEnv 2 d.forces lcp mi collide) fuel d.run_time n w

/-- demos/demo.py:55, 84, 148 and tests/test_demos.py:171: the circle called `clock`. -/
def clock : Item := .circle (.two (975, 575)) 20 { vel := .three ⟨1, 0, 0⟩ }

/-- demos/demo.py:20-49: the four pairs of balls. -/
def debugBalls : List Item :=
  [.circle (.two (150, 150)) 20 {}, .circle (.two (150, 230)) 20 {}, .circle (.two (300, 150)) 20 {},
   .circle (.two (301, 230)) 20 {}, .circle (.two (225, 300)) 20 {}, .circle (.two (215, 380)) 20 {},
   .circle (.two (375, 300)) 20 {}, .circle (.two (375, 380)) 20 {}]

/-- demos/demo.py:25, 35: one ball turns about a point, one is fixed. -/
def debugJoints (bs : List Body) : List Joint := [mkJoint bs 1 none (140, 220), mkTotal bs 3]

/-- demos/demo.py:16-59 `debug_demo`. -/
def debug_demo : Demo where
  items := debugBalls ++ [.rect (.two (300, 500)) (40, 40) { vel := .three ⟨-1, 0, 0⟩ }, clock]
  joints := debugJoints
  nc := fun _ => []
  forces := withForces [.external vert_impulse 500, .gravity 100 none, .gravity 100 none, .external vert_impulse 500,
    .gravity (-100) none] [(0, 0), (2, 1), (4, 2), (6, 3), (8, 4)]
  post_stab := true
  run_time := 10

/-- demos/demo.py:68, 73: the links. -/
def chainLinks (e : ℝ) : List Item := (List.range 10).map fun i : ℕ => .rect (.two (300, 50 + 50 * i)) (20, 60) { restitution := e }

/-- demos/demo.py:70-75: the first link is held at its centre, the others at the end of the link before. -/
def chainPins (bs : List Body) : List Joint :=
  mkAxis .xc bs 0 :: mkAxis .yc bs 0 ::
    ((List.range 10).drop 1).map fun i => mkJoint bs i (some (i - 1)) (300, 25 + 50 * i)

/-- demos/demo.py:76: neighbouring links do not touch. -/
def chainApart : ℕ → List ℕ := ((List.range 10).drop 1).foldl (fun nc i => addNoContact nc i (i - 1)) fun _ => []

/-- demos/demo.py:62-90 `chain_demo`. -/
def chain_demo : Demo where
  items := chainLinks 0.9 ++ [.circle (.two (50, 500)) 20 { restitution := 0.9 }, clock]
  joints := chainPins
  nc := chainApart
  forces := withForces (List.replicate 9 (.gravity 100 none) ++ [.external hor_impulse 2000])
    (((List.range 10).drop 1).map (fun i => (i, i - 1)) ++ [(10, 9)])
  post_stab := true
  run_time := 40

/-- demos/demo.py:93-114 `slide_demo`. -/
def slide_demo : Demo where
  items := [.rect (.three ⟨Real.pi / 32, 500, 300⟩) (900, 10) { restitution := 0.5, fric_coeff := 0.15 },
    .rect (.two (100, 100)) (60, 60) { restitution := 0.5, fric_coeff := 0.15 }]
  joints := fun bs => [mkTotal bs 0]
  nc := fun _ => []
  forces := withForces [.gravity 100 none] [(1, 0)]
  post_stab := false
  run_time := 20

open Classical in
/-- demos/demo.py:124-128, tests/test_demos.py:147-151. -/
def timed_force (t : ℝ) : V3 := if 1 < t ∧ t < 2 then RIGHT else ZEROS

/-- demos/demo.py:130-149: a plank on two wheels with a ball on it. -/
def fricItems (e : ℝ) : List Item :=
  [.rect (.two (400, 400)) (900, 10) { restitution := e, fric_coeff := 1 },
   .circle (.two (200, 364)) 30 { restitution := e, fric_coeff := 1 },
   .circle (.two (50, 436)) 30 { restitution := e, fric_coeff := 1 },
   .circle (.two (800, 436)) 30 { restitution := e, fric_coeff := 1 }, clock]

/-- demos/demo.py:141-146: the axes of the wheels. -/
def fricJoints (bs : List Body) : List Joint := [mkAxis .xc bs 2, mkAxis .yc bs 2, mkAxis .xc bs 3, mkAxis .yc bs 3]

/-- demos/demo.py:117-154 `fric_demo`. -/
def fric_demo : Demo where
  items := fricItems 0.1
  joints := fricJoints
  nc := fun _ => []
  forces := withForces [.external timed_force 100, .gravity 100 none, .gravity 100 none] [(0, 0), (0, 1), (1, 2)]
  post_stab := true
  run_time := 10

/-- demos/fixed_joint_demo.py:17-43 `fixed_joint_demo`. -/
def fixed_joint_demo : Demo where
  items := [.rect (.two (120, 100)) (60, 60) { restitution := 0.5, fric_coeff := 0.15 },
    .rect (.two (160, 100)) (60, 60) { restitution := 0.5, fric_coeff := 0.15 },
    .rect (.three ⟨Real.pi / 32, 500, 500⟩) (900, 10) { restitution := 0.5, fric_coeff := 0.15 }]
  joints := fun bs => [mkFixedJoint bs 0 1, mkTotal bs 2]
  nc := addNoContact (fun _ => []) 1 0
  forces := withForces [.gravity 100 none, .gravity 100 none] [(0, 0), (1, 1)]
  post_stab := false
  run_time := 20

/-- tests/test_demos.py:28-74 `testDemo`; the second rectangle is not in the list of bodies. -/
def testDemo : Demo where
  items := debugBalls ++ [.rect (.two (300, 500)) (40, 40) { vel := .three ⟨-1, 0, 0⟩ }]
  joints := debugJoints
  nc := fun _ => []
  forces := withForces [.external vert_impulse 500, .external down_force 100, .external down_force 100,
    .external vert_impulse 500, .external down_force (-100)] [(0, 0), (2, 1), (4, 2), (6, 3), (8, 4)]
  post_stab := false
  run_time := 10

/-- tests/test_demos.py:76-100 `testChain`: only the last link is pulled. -/
def testChain : Demo where
  items := chainLinks 0.5 ++ [.circle (.two (50, 500)) 20 { restitution := 1 }]
  joints := chainPins
  nc := chainApart
  forces := withForces [.external down_force 100, .external hor_impulse 1000] [(9, 0), (10, 1)]
  post_stab := false
  run_time := 20

/-- tests/test_demos.py:102-137 `testSlide`. -/
def testSlide : Demo where
  items := [.turned (.two (500, 300)) (900, 10) {} (Real.pi / 32), .turned (.two (100, 100)) (60, 60) {} (-Real.pi / 8 * 0)]
  joints := fun bs => [mkTotal bs 0]
  nc := fun _ => []
  forces := withForces [.external down_force 100] [(1, 0)]
  post_stab := false
  run_time := 20

/-- tests/test_demos.py:139-177 `testFric`. -/
def testFric : Demo where
  items := fricItems 0.75
  joints := fricJoints
  nc := fun _ => []
  forces := withForces [.external timed_force 100, .external down_force 100, .external down_force 100]
    [(0, 0), (0, 1), (1, 2)]
  post_stab := false
  run_time := 10

end LcpPhysics.Demos
