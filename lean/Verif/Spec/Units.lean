import Verif.Spec.PostStab
import Verif.Spec.Plane
import Verif.Model.Contacts

/-! # Specification: the same scene measured in other units of length and time -/

noncomputable section

namespace LcpPhysics.Spec

/-- A change of units: the factors of the numbers that measure lengths and times. -/
structure Units where
  len : ℝ
  time : ℝ
  len_pos : 0 < len
  time_pos : 0 < time

/-- Angle and position. -/
def Units.pose (U : Units) (p : V3) : V3 := ⟨p.r, U.len * p.x, U.len * p.y⟩

/-- Angular and linear velocity. -/
def Units.vel (U : Units) (u : V3) : V3 := ⟨u.r / U.time, U.len * u.x / U.time, U.len * u.y / U.time⟩

/-- Torque and force; masses keep their unit. -/
def Units.force (U : Units) (f : V3) : V3 :=
  ⟨U.len ^ 2 * f.r / U.time ^ 2, U.len * f.x / U.time ^ 2, U.len * f.y / U.time ^ 2⟩

/-- Angular and linear impulse. -/
def Units.impulse (U : Units) (f : V3) : V3 :=
  ⟨U.len ^ 2 * f.r / U.time, U.len * f.x / U.time, U.len * f.y / U.time⟩

/-- Radius, vertices and side lengths. -/
def Units.shape (U : Units) : Shape → Shape
  | .circle r => .circle (U.len * r)
  | .hull vs => .hull (vs.map fun v => U.len • v)
  | .rect d vs => .rect (U.len • d) (vs.map fun v => U.len • v)

/-- The broad-phase geometry. -/
def Units.geom (U : Units) (g : Geom) : Geom where
  kind := match g.kind with
    | .sphere r => .sphere (U.len * r)
    | .box l => .box (U.len • l)
  pos := U.len • g.pos
  quat := g.quat

/-- A body. -/
def Units.body (U : Units) (b : Body) : Body :=
  { b with
    p := U.pose b.p
    v := U.vel b.v
    ang_inertia := U.len ^ 2 * b.ang_inertia
    eps := U.len * b.eps
    shape := U.shape b.shape
    geom := U.geom b.geom }

/-- A constraint. -/
def Units.joint (U : Units) (j : Joint) : Joint :=
  { j with pos := U.len • j.pos, pos1 := U.len • j.pos1, pos2 := U.len • j.pos2, r1 := U.len * j.r1 }

/-- A contact. -/
def Units.contact (U : Units) (c : Contact) : Contact :=
  { c with p1 := U.len • c.p1, p2 := U.len • c.p2, pen := U.len * c.pen }

/-- Positions and velocities as arguments of the constructors. -/
def Units.poseArg (U : Units) : Arg → Arg
  | .two p => .two (U.len • p)
  | .three q => .three (U.pose q)

def Units.velArg (U : Units) : Arg → Arg
  | .two p => .two ((U.len / U.time) • p)
  | .three q => .three (U.vel q)

/-- The optional arguments of the constructors. -/
def Units.params (U : Units) (a : Params) : Params :=
  { a with vel := U.velArg a.vel, eps := U.len * a.eps }

/-- The two worlds are the same scene, the second measured in the other units. -/
structure SameIn {σ σ' φ : Type} (U : Units) (w : World σ φ) (w' : World σ' φ) : Prop where
  t : w'.t = U.time * w.t
  dt : w'.dt = U.time * w.dt
  eps : w'.eps = U.len * w.eps
  tol : w'.tol = U.len * w.tol
  post_stab : w'.post_stab = w.post_stab
  strict : w'.strict_no_pen = w.strict_no_pen
  bodies : w'.bodies = w.bodies.map U.body
  joints : w'.joints = w.joints.map U.joint
  contacts : w'.contacts = w.contacts.map U.contact
  v : ∀ i < w.bodies.length, twist w'.v i = U.vel (twist w.v i)
  fnd : w'.fnd = w.fnd

/-- The body has its reference point within its outline: in every direction some vertex is not behind it. -/
def Centred (vs : List V2) : Prop := ∀ d : V2, ∃ v ∈ vs, 0 ≤ inner v d

/-- A body whose points are within `R` of its reference point, which lies within its outline if it has vertices. -/
structure Fits (R : ℝ) (b : Body) : Prop where
  verts : ∀ v ∈ b.verts, len v ≤ R
  rad : b.rad ≤ R
  centred : b.isCircle = false → Centred b.verts

end LcpPhysics.Spec
