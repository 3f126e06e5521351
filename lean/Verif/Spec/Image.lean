import Mathlib.Logic.Equiv.Defs
import Verif.Spec.Lockstep

/-!
# Specification: the bodies listed in another order, and the mirror image of a scene

`m = 1`: the same scene; `m = -1`: the scene seen in a mirror that exchanges left and right.
-/

noncomputable section

namespace LcpPhysics.Spec

/-- Image of a point or direction. -/
def mirV (m : ℝ) (a : V2) : V2 := (m * a.1, a.2)

/-- Image of a pose, velocity or force: the sense of rotation changes with the first coordinate. -/
def mirT (m : ℝ) (a : V3) : V3 := ⟨m * a.r, m * a.x, a.y⟩

/-- Image of a contact; body `i` is body `p i` of the image. -/
def imageContact (m : ℝ) (p : Equiv.Perm ℕ) (c : Contact) : Contact :=
  { c with normal := mirV m c.normal, p1 := mirV m c.p1, p2 := mirV m c.p2, i1 := p c.i1, i2 := p c.i2 }

/-- `b'` is the image of the circle `b`. -/
structure BodyImage (m : ℝ) (b b' : Body) : Prop where
  p : b'.p = mirT m b.p
  v : b'.v = mirT m b.v
  mass : b'.mass = b.mass
  ang_inertia : b'.ang_inertia = b.ang_inertia
  restitution : b'.restitution = b.restitution
  fric_coeff : b'.fric_coeff = b.fric_coeff
  shape : ∃ r, b.shape = .circle r ∧ b'.shape = .circle r

/-- `j'` is the image of the constraint `j`.  The angles themselves are not compared, only the anchor they
describe. -/
structure JointImage (m : ℝ) (p : Equiv.Perm ℕ) (j j' : Joint) : Prop where
  kind : j'.kind = j.kind
  i1 : j'.i1 = p j.i1
  i2 : j'.i2 = j.i2.map p
  pos : j'.pos = mirV m j.pos
  pos1 : j'.pos1 = mirV m j.pos1
  pos2 : j'.pos2 = mirV m j.pos2
  anchor : j'.kind = .revolute ∨ j'.kind = .total →
    polar_to_cart j'.r1 j'.rot1 = mirV m (polar_to_cart j.r1 j.rot1)

/-- The list `bs'` shows the image of every body of `bs`, body `i` at place `p i`. -/
def BodiesImage (m : ℝ) (p : Equiv.Perm ℕ) (bs bs' : List Body) : Prop :=
  bs'.length = bs.length ∧ ∀ i < bs.length, BodyImage m (bodyAt bs i) (bodyAt bs' (p i))

/-- The same constraints up to the image, in any order and multiplicity. -/
def JointsImage (m : ℝ) (p : Equiv.Perm ℕ) (js js' : List Joint) : Prop :=
  (∀ j ∈ js, ∃ j' ∈ js', JointImage m p j j') ∧ ∀ j' ∈ js', ∃ j ∈ js, JointImage m p j j'

/-- The same contacts up to the image, in any order and multiplicity, seen from either body. -/
def ContactsImage (m : ℝ) (p : Equiv.Perm ℕ) (cs cs' : List Contact) : Prop :=
  SameContacts (cs.map (imageContact m p)) cs'

/-- The velocities `v'` are the image of `v`. -/
def VelImage (m : ℝ) (p : Equiv.Perm ℕ) (n : ℕ) (v v' : Vec) : Prop :=
  ∀ i < n, twist v' (p i) = mirT m (twist v i)

/-- `w'` shows the image of `w`. -/
structure WorldImage {σ σ' φ φ' : Type} (m : ℝ) (p : Equiv.Perm ℕ) (w : World σ φ) (w' : World σ' φ') : Prop where
  t : w'.t = w.t
  dt : w'.dt = w.dt
  eps : w'.eps = w.eps
  tol : w'.tol = w.tol
  post_stab : w'.post_stab = w.post_stab
  strict : w'.strict_no_pen = w.strict_no_pen
  bodies : BodiesImage m p w.bodies w'.bodies
  joints : JointsImage m p w.joints w'.joints
  v : VelImage m p w.bodies.length w.v w'.v
  contacts : ContactsImage m p w.contacts w'.contacts

end LcpPhysics.Spec
