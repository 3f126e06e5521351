import Verif.Model.Demos

/-!
# Model of the scenes in `tests/test_hull.py`

As in `Model/Demos.lean`; the bodies are hulls.  Drawing and recording are left out.
-/

noncomputable section

namespace LcpPhysics.HullTests
open LcpPhysics.Demos

/-- bodies.py:211-214, 278-283 `rotate_verts` called from outside: the vertices are turned, the pose is not. -/
def rotate_verts (b : Body) (t : ℝ) : Body :=
  match b.shape with
  | .circle _ => b
  | .hull vs => { b with shape := .hull (hullRotate t vs) }
  | .rect d vs => { b with shape := .rect d (rectRotate t vs) }

/-- tests/test_hull.py:31-32, 41-42, 46-47: a square of side 20 turned by 45 degrees and displaced by (10, 10). -/
def tilted : List V2 :=
  [(Real.sqrt 2 * 10 + 10, 0 + 10), (0 + 10, Real.sqrt 2 * 10 + 10), (Real.sqrt 2 * -10 + 10, 0 + 10),
   (0 + 10, Real.sqrt 2 * -10 + 10)]

/-- tests/test_hull.py:46-55: the hulls of `testRender`, with their reference points. -/
def renderHulls : List (V2 × List V2) :=
  [((700, 200), tilted), ((300, 200), [(60, 0), (60, 60), (0, 60)]), ((700, 400), [(60, 0), (60, 60), (0, 0)]),
   ((300, 420), [(60, 0), (0, 60), (0, 0)]), ((500, 300), [(50, 0), (30, 60), (-30, 30), (-60, -30), (0, -60)])]

/-- Hulls with default parameters, in order. -/
def makeHulls : List (V2 × List V2) → Except Err (List Body)
  | [] => .ok []
  | h :: hs => (mkHull h.1 h.2 {}).bind fun b => (makeHulls hs).bind fun bs => .ok (b :: bs)

/-- tests/test_hull.py:49-50, 53-54, 56-57: the pushes; every force object belongs to one body. -/
def renderForces : ForceHeap :=
  withForces [.external hor_impulse 1000, .external rot_impulse 1000, .external hor_impulse 1000, .external rot_impulse 1000,
    .external hor_impulse 1000, .external rot_impulse 1000] [(1, 0), (1, 1), (3, 2), (3, 3), (4, 4), (4, 5)]

/-- tests/test_hull.py:63 `World([p1, p2, p3, p4, p5])` of `testRender`, with the defaults of utils.py:9-40 and world.py:19-23. -/
def testRender {φ : Type} (lcp : LcpSolver) (mi : ℕ) (collide : ℝ → φ → List Body → Except Err (φ × List Contact)) (fnd : φ) :
    Run (World (Option Mat) φ) :=
  match makeHulls renderHulls with
  | .error e => .raised e
  | .ok bs => mkWorld (pdipmEnv 2 renderForces lcp mi collide) none fnd bs [] (1 / 30) (1 / 10) (1 / 1000000) false true

/-- tests/test_hull.py:75: the slope before it is turned. -/
def plank : List V2 := [(450, 5), (-450, 5), (-450, -5), (450, -5)]

/-- tests/test_hull.py:88: the hexagon. -/
def hexagon : List V2 := [(50, 0), (30, 50), (-30, 30), (-50, -30), (0, -50), (30, -30)]

/-- tests/test_hull.py:69-70. -/
def slideParams : Params := { restitution := 0.5, fric_coeff := 0.2 }

/-- tests/test_hull.py:72-90: the bodies of `testSlide`; the pentagon of lines 85-86 is made and thrown away. -/
def slideBodies : Except Err (List Body) :=
  clock.build.bind fun c =>
  (mkHull (500, 300) plank slideParams).bind fun p1 =>
  (mkHull (100, 100) [(50, 0), (30, 50), (-30, 30), (-50, -30), (0, -50)] slideParams).bind fun _ =>
  (mkHull (100, 100) hexagon slideParams).bind fun p2 =>
  .ok [c, rotate_verts p1 (Real.pi / 32), p2]

/-- tests/test_hull.py:91. -/
def hullForces : ForceHeap := withForces [.external down_force 100] [(2, 0)]

/-- tests/test_hull.py:66-96 `testSlide`. -/
def testSlideHull {φ : Type} (lcp : LcpSolver) (mi : ℕ) (collide : ℝ → φ → List Body → Except Err (φ × List Contact)) (fnd : φ) :
    Run (World (Option Mat) φ) :=
  match slideBodies with
  | .error e => .raised e
  | .ok bs => mkWorld (pdipmEnv 2 hullForces lcp mi collide) none fnd bs [mkTotal bs 1] (1 / 30) (1 / 10) (1 / 1000000) false true

end LcpPhysics.HullTests
