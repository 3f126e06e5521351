import Verif.Spec.PostStab
import Verif.Spec.Plane

/-! # Specification: the same scene seen from another inertial frame -/

noncomputable section

namespace LcpPhysics.Spec

/-- A change of inertial frame: turn by an angle, shift, and a constant relative velocity. -/
structure Frame where
  turn : ℝ
  shift : ℝ × ℝ
  boost : ℝ × ℝ

/-- Where a point is seen at time `t`. -/
def Frame.point (F : Frame) (t : ℝ) (x : ℝ × ℝ) : ℝ × ℝ := rot F.turn x + F.shift + t • F.boost

/-- The quaternion `q` followed by the turn about the z axis: the product with
`cos (θ/2) + sin (θ/2) k`. -/
def turnQuat (th : ℝ) (q : ℝ × ℝ × ℝ × ℝ) : ℝ × ℝ × ℝ × ℝ :=
  let c := Real.cos (th / 2)
  let s := Real.sin (th / 2)
  (c * q.1 - s * q.2.2.2, c * q.2.1 - s * q.2.2.1, c * q.2.2.1 + s * q.2.1, c * q.2.2.2 + s * q.1)

open Classical in
/-- How the orientation of a geometry is seen (no quaternion set means the identity). -/
def Frame.quat (F : Frame) (q : Option (ℝ × ℝ × ℝ × ℝ)) : Option (ℝ × ℝ × ℝ × ℝ) :=
  if F.turn = 0 then q else some (turnQuat F.turn (q.getD (1, 0, 0, 0)))

/-- Vertices relative to the centre only turn. -/
def Frame.shape (F : Frame) : Shape → Shape
  | .circle r => .circle r
  | .hull vs => .hull (vs.map (rot F.turn))
  | .rect d vs => .rect d (vs.map (rot F.turn))

/-- A velocity (angular, linear) as seen from the frame. -/
def Frame.vel (F : Frame) (u : V3) : V3 :=
  ⟨u.r, (rot F.turn u.xy + F.boost).1, (rot F.turn u.xy + F.boost).2⟩

/-- A force (torque, force), impulse or small displacement as seen from the frame. -/
def Frame.force (F : Frame) (f : V3) : V3 := ⟨f.r, (rot F.turn f.xy).1, (rot F.turn f.xy).2⟩

/-- A pose (angle, position) as seen from the frame. -/
def Frame.pose (F : Frame) (t : ℝ) (p : V3) : V3 := ⟨p.r + F.turn, (F.point t p.xy).1, (F.point t p.xy).2⟩

/-- A body as seen from the frame at time `t`. -/
def Frame.body (F : Frame) (t : ℝ) (b : Body) : Body :=
  { b with
    p := F.pose t b.p
    v := F.vel b.v
    shape := F.shape b.shape
    geom := { b.geom with pos := F.point t b.geom.pos, quat := F.quat b.geom.quat } }

/-- A contact as seen from the frame: normal and lever arms turn, the depth stays. -/
def Frame.contact (F : Frame) (c : Contact) : Contact :=
  { c with normal := rot F.turn c.normal, p1 := rot F.turn c.p1, p2 := rot F.turn c.p2 }

/-- The two worlds are the same scene, the second seen from the frame at the time of the clock. -/
structure SeenFrom {σ σ' φ φ' : Type} (F : Frame) (w : World σ φ) (w' : World σ' φ') : Prop where
  t : w'.t = w.t
  dt : w'.dt = w.dt
  eps : w'.eps = w.eps
  tol : w'.tol = w.tol
  post_stab : w'.post_stab = w.post_stab
  strict : w'.strict_no_pen = w.strict_no_pen
  bodies : w'.bodies = w.bodies.map (F.body w.t)
  contacts : w'.contacts = w.contacts.map F.contact
  v : ∀ i < w.bodies.length, twist w'.v i = F.vel (twist w.v i)

/-- A pure shift. -/
def Frame.translation (c : ℝ × ℝ) : Frame := ⟨0, c, 0⟩

/-- The whole world moved by `c`: bodies and the absolute anchor points of the constraints. -/
def shiftWorld {σ φ : Type} (c : ℝ × ℝ) (w : World σ φ) : World σ φ :=
  { w with
    bodies := w.bodies.map ((Frame.translation c).body w.t)
    joints := w.joints.map fun j => { j with pos := j.pos + c } }

/-- The outcome of a run with the returned value transformed. -/
def Outcome.map {α β : Type} (g : α → β) : Run α → Run β
  | .running => .running
  | .raised e => .raised e
  | .done a => .done (g a)

end LcpPhysics.Spec
