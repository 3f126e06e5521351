import Verif.Spec.RoundedWorld

/-! # The contact of two discs -/

noncomputable section

namespace LcpPhysics.Spec

/-- The direction from the centre of the second disc to that of the first. -/
def towards (c1 c2 : ℝ × ℝ) : ℝ × ℝ := (1 / dist c1 c2) • (c1 - c2)

/-- The middle between the point of the first disc farthest towards the second and that of the second farthest towards the first. -/
def middle (r1 r2 : ℝ) (c1 c2 : ℝ × ℝ) : ℝ × ℝ :=
  (1 / 2 : ℝ) • ((c1 - r1 • towards c1 c2) + (c2 + r2 • towards c1 c2))

/-- Two centres of double precision. -/
structure RepCentres (c1 c2 : ℝ × ℝ) : Prop where
  x1 : Rep c1.1
  y1 : Rep c1.2
  x2 : Rep c2.1
  y2 : Rep c2.2

/-- Two radii of double precision. -/
structure RepRadii (r1 r2 : ℝ) : Prop where
  rep1 : Rep r1
  rep2 : Rep r2
  nonneg1 : 0 ≤ r1
  nonneg2 : 0 ≤ r2

end LcpPhysics.Spec
