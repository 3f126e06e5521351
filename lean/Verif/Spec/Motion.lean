import Verif.Model.World

/-! # Specification vocabulary: velocities of material points -/

noncomputable section

namespace LcpPhysics.Spec

/-- Velocity of the material point at offset `off` from the centre of a body with angular and linear
velocity `u`. -/
def pointVel (u : V3) (off : V2) : V2 := (u.x - u.r * off.2, u.y + u.r * off.1)

/-- The velocity of body `i` in a stacked velocity vector. -/
def twist (v : Vec) (i : ℕ) : V3 := ⟨v (3 * i), v (3 * i + 1), v (3 * i + 2)⟩

/-- Relative velocity at a contact: material point of the first body minus that of the second. -/
def contactVel (c : Contact) (v : Vec) : V2 :=
  pointVel (twist v c.i1) c.p1 - pointVel (twist v c.i2) c.p2

/-- The tangent: the normal turned by a quarter turn (`y` points down on the screen, so this is the
left-hand side there). -/
def tangent (n : V2) : V2 := (n.2, -n.1)

end LcpPhysics.Spec
