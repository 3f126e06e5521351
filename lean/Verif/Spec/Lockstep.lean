import Verif.Spec.PostStab

/-! # Specification: the same scene described differently -/

noncomputable section

namespace LcpPhysics.Spec

/-- The same contact seen from the other body. -/
def flipped (c : Contact) : Contact :=
  { c with normal := -c.normal, p1 := c.p2, p2 := c.p1, i1 := c.i2, i2 := c.i1 }

/-- The same contacts, in any order, any number of times, seen from either body. -/
def SameContacts (cs cs' : List Contact) : Prop :=
  (∀ c ∈ cs, c ∈ cs' ∨ flipped c ∈ cs') ∧ ∀ c ∈ cs', c ∈ cs ∨ flipped c ∈ cs

/-- A body with mass and moment of inertia multiplied by `s`. -/
def scaleMass (s : ℝ) (b : Body) : Body := { b with mass := s * b.mass, ang_inertia := s * b.ang_inertia }

/-- The two worlds show the same motion: same clock, parameters, poses, velocities, constraints and
contacts; all masses and inertias of the second are `s` times those of the first. -/
structure Twin {σ σ' φ φ' : Type} (s : ℝ) (w : World σ φ) (w' : World σ' φ') : Prop where
  t : w'.t = w.t
  dt : w'.dt = w.dt
  eps : w'.eps = w.eps
  tol : w'.tol = w.tol
  post_stab : w'.post_stab = w.post_stab
  strict : w'.strict_no_pen = w.strict_no_pen
  bodies : w'.bodies = w.bodies.map (scaleMass s)
  joints : w'.joints = w.joints
  v : ∀ k < 3 * w.bodies.length, w'.v k = w.v k
  contacts : SameContacts w.contacts w'.contacts

end LcpPhysics.Spec
