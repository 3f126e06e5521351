import Verif.Model.OdeContacts
import Verif.Spec.CircleWorld

/-! # Specification: what ODE documents for two spheres -/

noncomputable section

namespace LcpPhysics.Spec

/-- `ode.collide` on two spheres in the plane `z = 0`: no contact if they are apart; otherwise one contact whose
normal points from the second to the first centre (along the `x` axis if the centres coincide), whose depth is
the overlap, and whose point lies on the line through the centres, half way between the two surfaces. -/
structure SphereCollision (c1 c2 : ℝ × ℝ) (r1 r2 : ℝ) (i1 i2 : ℕ) (cs : List OdeContact) : Prop where
  apart : r1 + r2 < dist c1 c2 → cs = []
  touching : 0 < dist c1 c2 → dist c1 c2 ≤ r1 + r2 → ∃ n : ℝ × ℝ, dist c1 c2 • n = c1 - c2 ∧
    let m := c1 + ((r2 - r1 - dist c1 c2) / 2) • n
    cs = [{ point := (m.1, m.2, 0), normal := (n.1, n.2, 0), depth := r1 + r2 - dist c1 c2, i1 := i1, i2 := i2 }]
  concentric : dist c1 c2 = 0 → 0 ≤ r1 + r2 →
    cs = [{ point := (c1.1, c1.2, 0), normal := (1, 0, 0), depth := r1 + r2, i1 := i1, i2 := i2 }]

/-- `ode.collide` follows the documentation on the spheres of a world. -/
def CollidesSpheres (bs : List Body) (collide : ℕ → ℕ → List OdeContact) : Prop :=
  ∀ i < bs.length, ∀ j < bs.length, ∀ r1 r2, (bodyAt bs i).geom.kind = .sphere r1 →
    (bodyAt bs j).geom.kind = .sphere r2 →
    SphereCollision (bodyAt bs i).geom.pos (bodyAt bs j).geom.pos r1 r2 i j (collide i j)

end LcpPhysics.Spec
