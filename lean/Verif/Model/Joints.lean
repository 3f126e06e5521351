import Verif.Model.Bodies

/-!
# Model of `lcp_physics/physics/constraints.py`

A constraint object refers to its bodies; here by their index in the world's body list
(world.py:50-52 looks the index up).  Attributes that a class does not have (`pos1`, `r1` of the
X/Y/Rot constraints, `pos2`, `rot2` without second body) exist in the record but are never read.
-/

noncomputable section

namespace LcpPhysics

/-- The six constraint classes. -/
inductive JKind where
  | revolute | fixed | yc | xc | rotc | total
deriving DecidableEq

/-- A constraint object. -/
structure Joint where
  kind : JKind
  i1 : ℕ
  i2 : Option ℕ
  pos : V2
  pos1 : V2
  pos2 : V2
  r1 : ℝ
  rot1 : ℝ
  rot2 : ℝ

instance : Inhabited Body :=
  ⟨{ p := 0, v := 0, mass := 0, ang_inertia := 0, restitution := 0, fric_coeff := 0, eps := 0,
     shape := .circle 0, geom := { kind := .sphere 0, pos := 0, quat := none } }⟩

/-- The body a constraint refers to; worlds are only built with valid indices (world.py:50-51). -/
def bodyAt (bs : List Body) (i : ℕ) : Body := bs.getD i default

/-- constraints.py:18, 60, 100, 127, 154, 182. -/
def JKind.num_constraints : JKind → ℕ
  | .revolute => 2
  | .fixed => 3
  | .yc => 1
  | .xc => 1
  | .rotc => 1
  | .total => 3

/-- constraints.py:17, 59, 99, 126, 153, 181. -/
def JKind.static : JKind → Bool
  | .revolute => false
  | .fixed => false
  | .yc => true
  | .xc => true
  | .rotc => true
  | .total => true

/-- constraints.py:16-27 `Joint.__init__`. -/
def mkJoint (bs : List Body) (i1 : ℕ) (i2 : Option ℕ) (pos : V2) : Joint :=
  let pos1 := pos - (bodyAt bs i1).pos
  let pol := cart_to_polar pos1
  let pos2 := match i2 with
    | none => 0
    | some k => pos - (bodyAt bs k).pos
  { kind := .revolute, i1 := i1, i2 := i2, pos := pos, pos1 := pos1, pos2 := pos2,
    r1 := pol.1, rot1 := pol.2, rot2 := (cart_to_polar pos2).2 }

/-- constraints.py:58-68 `FixedJoint.__init__`. -/
def mkFixedJoint (bs : List Body) (i1 i2 : ℕ) : Joint :=
  let pos := (bodyAt bs i1).pos
  { kind := .fixed, i1 := i1, i2 := some i2, pos := pos, pos1 := pos - (bodyAt bs i1).pos,
    pos2 := pos - (bodyAt bs i2).pos, r1 := 0, rot1 := 0,
    rot2 := (bodyAt bs i2).p.r - (bodyAt bs i1).p.r }

/-- constraints.py:98-104, 125-131, 152-158: `YConstraint`, `XConstraint`, `RotConstraint`. -/
def mkAxis (kind : JKind) (bs : List Body) (i1 : ℕ) : Joint :=
  { kind := kind, i1 := i1, i2 := none, pos := (bodyAt bs i1).pos, pos1 := 0, pos2 := 0, r1 := 0,
    rot1 := (bodyAt bs i1).p.r, rot2 := 0 }

/-- constraints.py:179-188 `TotalConstraint.__init__`. -/
def mkTotal (bs : List Body) (i1 : ℕ) : Joint :=
  let pos := (bodyAt bs i1).pos
  let pos1 := pos - (bodyAt bs i1).pos
  let pol := cart_to_polar pos1
  { kind := .total, i1 := i1, i2 := none, pos := pos, pos1 := pos1, pos2 := 0, r1 := pol.1,
    rot1 := pol.2, rot2 := 0 }

/-- `update_pos` of each class: constraints.py:44-49, 82-87, 113-115, 140-142, 167-169, 198-200. -/
def Joint.update_pos (j : Joint) (bs : List Body) : Joint :=
  match j.kind with
  | .revolute =>
    let pos1 := polar_to_cart j.r1 j.rot1
    let pos := (bodyAt bs j.i1).pos + pos1
    let pos2 := match j.i2 with
      | none => j.pos2
      | some k => pos - (bodyAt bs k).pos
    { j with pos1 := pos1, pos := pos, pos2 := pos2 }
  | .fixed =>
    let pos := (bodyAt bs j.i1).pos
    let pos1 := pos - (bodyAt bs j.i1).pos
    let pos2 := match j.i2 with
      | none => j.pos2
      | some k => pos - (bodyAt bs k).pos
    { j with pos1 := pos1, pos := pos, pos2 := pos2 }
  | .yc | .xc | .rotc => { j with pos := (bodyAt bs j.i1).pos, rot1 := (bodyAt bs j.i1).p.r }
  | .total =>
    let pos1 := polar_to_cart j.r1 j.rot1
    { j with pos1 := pos1, pos := (bodyAt bs j.i1).pos + pos1 }

/-- `move` of each class: constraints.py:38-42, 79-80, 110-111, 137-138, 164-165, 194-196. -/
def Joint.move (j : Joint) (bs : List Body) (dt : ℝ) : Joint :=
  match j.kind with
  | .revolute =>
    let rot1 := j.rot1 + (bodyAt bs j.i1).v.r * dt
    let rot2 := match j.i2 with
      | none => j.rot2
      | some k => j.rot2 + (bodyAt bs k).v.r * dt
    ({ j with rot1 := rot1, rot2 := rot2 }).update_pos bs
  | .fixed | .yc | .xc | .rotc => j.update_pos bs
  | .total => ({ j with rot1 := j.rot1 + (bodyAt bs j.i1).v.r * dt }).update_pos bs

end LcpPhysics
