import Verif.Spec.Lockstep

/-!
# Specification: the same contacts up to the order of the two bodies of each
-/

noncomputable section

namespace LcpPhysics.Spec

/-- The same contact, seen from either body. -/
def Reseen (c c' : Contact) : Prop := c' = c ∨ c' = flipped c

/-- The same pair of bodies in either order. -/
def Reordered (p q : ℕ × ℕ) : Prop := q = p ∨ q = (p.2, p.1)

end LcpPhysics.Spec
