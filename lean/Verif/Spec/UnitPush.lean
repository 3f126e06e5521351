import Verif.Spec.PostStab

/-! # Specification vocabulary: the answer of a mechanism to a unit impulse at a contact -/

noncomputable section

namespace LcpPhysics.Spec
open LcpPhysics

/-- `u` is the velocity that a unit impulse along the normal of the contact `c` gives the bodies, with the
impulses `l` at the joints: by virtual power, against every test velocity `t`. -/
structure UnitPush (bs : List Body) (js : List Joint) (c : Contact) (u l : Vec) : Prop where
  dynamics : ∀ t : Vec, momentumPower bs t u = jointPower js l t + normalVel c t
  joints : ∀ x ∈ jointVels js u, x = 0

end LcpPhysics.Spec
