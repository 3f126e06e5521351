import Verif.Model.RoundedWorld
import Verif.Model.Joints

/-!
# Constraints in floating point

Every operation of the constructors, of `move` and of `update_pos` is followed by a rounding, as in `Verif.Model.RoundedBody`.  Which
attempted steps are kept is decided outside: a call of `step_dt` is given the number of attempts that are undone, so that the contacts,
the engine and the tolerances may be anything; post-stabilization is off.
-/

noncomputable section

namespace LcpPhysics.Rounded

/-- utils.py:85-90 `polar_to_cart`. -/
def toCart (A : Arith) (r theta : ℝ) : V2 := (A.rnd (A.fcos theta * r), A.rnd (A.fsin theta * r))

/-- A rounded sum and difference of two vectors. -/
def addV (A : Arith) (a b : V2) : V2 := (A.rnd (a.1 + b.1), A.rnd (a.2 + b.2))

def subV (A : Arith) (a b : V2) : V2 := (A.rnd (a.1 - b.1), A.rnd (a.2 - b.2))

open Classical in
/-- utils.py:75-82 `cart_to_polar` with `positive=True`; `fatan` is `torch.atan2(y, x)` and `tau` is `2 * math.pi`. -/
def toPolar (A : Arith) (fatan : ℝ → ℝ → ℝ) (tau : ℝ) (v : V2) : ℝ × ℝ :=
  let theta := fatan v.2 v.1
  (fnorm A v, if theta < 0 then A.rnd (theta + tau) else theta)

/-- constraints.py:16-27 `Joint.__init__`. -/
def newJoint (A : Arith) (fatan : ℝ → ℝ → ℝ) (tau : ℝ) (bs : List Body) (i1 : ℕ) (i2 : Option ℕ) (pos : V2) : Joint :=
  let pos1 := subV A pos (bodyAt bs i1).pos
  let pol := toPolar A fatan tau pos1
  let pos2 := match i2 with
    | none => 0
    | some k => subV A pos (bodyAt bs k).pos
  { kind := .revolute, i1 := i1, i2 := i2, pos := pos, pos1 := pos1, pos2 := pos2,
    r1 := pol.1, rot1 := pol.2, rot2 := (toPolar A fatan tau pos2).2 }

/-- `update_pos` of each class: constraints.py:44-49, 82-87, 113-115, 140-142, 167-169, 198-200. -/
def jointUpdate (A : Arith) (bs : List Body) (j : Joint) : Joint :=
  match j.kind with
  | .revolute =>
    let pos1 := toCart A j.r1 j.rot1
    let pos := addV A (bodyAt bs j.i1).pos pos1
    let pos2 := match j.i2 with
      | none => j.pos2
      | some k => subV A pos (bodyAt bs k).pos
    { j with pos1 := pos1, pos := pos, pos2 := pos2 }
  | .fixed =>
    let pos := (bodyAt bs j.i1).pos
    let pos1 := subV A pos (bodyAt bs j.i1).pos
    let pos2 := match j.i2 with
      | none => j.pos2
      | some k => subV A pos (bodyAt bs k).pos
    { j with pos1 := pos1, pos := pos, pos2 := pos2 }
  | .yc | .xc | .rotc => { j with pos := (bodyAt bs j.i1).pos, rot1 := (bodyAt bs j.i1).p.r }
  | .total =>
    let pos1 := toCart A j.r1 j.rot1
    { j with pos1 := pos1, pos := addV A (bodyAt bs j.i1).pos pos1 }

/-- `move` of each class: constraints.py:38-42, 79-80, 110-111, 137-138, 164-165, 194-196. -/
def jointMove (A : Arith) (bs : List Body) (dt : ℝ) (j : Joint) : Joint :=
  match j.kind with
  | .revolute =>
    let rot1 := A.rnd (j.rot1 + A.rnd ((bodyAt bs j.i1).v.r * dt))
    let rot2 := match j.i2 with
      | none => j.rot2
      | some k => A.rnd (j.rot2 + A.rnd ((bodyAt bs k).v.r * dt))
    jointUpdate A bs { j with rot1 := rot1, rot2 := rot2 }
  | .fixed | .yc | .xc | .rotc => jointUpdate A bs j
  | .total => jointUpdate A bs { j with rot1 := A.rnd (j.rot1 + A.rnd ((bodyAt bs j.i1).v.r * dt)) }

/-- Bodies and constraints. -/
structure Jointed where
  bodies : List Body
  joints : List Joint

/-- world.py:90-93: bodies move, then the constraints. -/
def moveAll (A : Arith) (dt : ℝ) (w : Jointed) : Jointed :=
  let bs := w.bodies.map fun b => move A b dt
  ⟨bs, w.joints.map (jointMove A bs dt)⟩

/-- world.py:104-107: poses and `rot1` are set back. -/
def putBack (A : Arith) (start_p : Vec) (rots : List ℝ) (w : Jointed) : Jointed :=
  let bs := setPs A w.bodies start_p
  ⟨bs, (w.joints.zip rots).map fun jc => jointUpdate A bs { jc.1 with rot1 := jc.2 }⟩

/-- world.py:88-107: the `while True` loop, with `k` attempts that are undone. -/
def attempts (A : Arith) (start_p : Vec) (rots : List ℝ) : ℕ → Jointed → ℝ → Jointed
  | 0, w, dt => moveAll A dt w
  | k + 1, w, dt => attempts A start_p rots k (putBack A start_p rots (moveAll A dt w)) (A.rnd (dt / 2))

/-- A call of `step_dt`: the length, the velocities the engine answers, the number of attempts that are undone. -/
structure Call where
  dt : ℝ
  v : Vec
  undone : ℕ

/-- world.py:83-107 `step_dt`. -/
def stepJ (A : Arith) (w : Jointed) (c : Call) : Jointed :=
  attempts A (cat3 (w.bodies.map Body.p)) (w.joints.map Joint.rot1) c.undone ⟨setVs w.bodies c.v, w.joints⟩ c.dt

/-- Several calls. -/
def runJ (A : Arith) (w : Jointed) (cs : List Call) : Jointed := cs.foldl (stepJ A) w

end LcpPhysics.Rounded
