import Verif.Spec.BroadPhase
import Verif.Spec.Convex
import Mathlib.Topology.Constructions.SumProd

/-! # Specification: how far two plane bodies reach into each other -/

noncomputable section

namespace LcpPhysics.Spec

/-- The sets reach into each other by at most `t`: after some displacement of the first, not longer than
`t`, their interiors are disjoint. -/
def OverlapAtMost (t : ℝ) (A B : Set (ℝ × ℝ)) : Prop :=
  ∃ u, len u ≤ t ∧ ∀ x ∈ interior A, x + u ∉ interior B

/-- A circle of radius more than `t`. -/
def DiscBody (t : ℝ) (b : Body) : Prop :=
  ∃ pos rad a ops, t < rad ∧ b = (mkCircle pos rad a).run ops

/-- A strictly convex hull, as constructed and then moved about. -/
def ConvexBody (b : Body) : Prop :=
  ∃ ref vs a b0 ops, mkHull ref vs a = .ok b0 ∧ ConvexPolygon vs ∧ NoThreeCollinear vs ∧ b = b0.run ops

/-- A rectangle, as constructed and then moved about; its diagonal is below half of the `1e10` that the
library takes for infinity. -/
def BoxBody (b : Body) : Prop :=
  ∃ pos dims a b0 ops, mkRect pos dims a = .ok b0 ∧ 0 < dims.1 ∧ 0 < dims.2 ∧ len dims < 10 ^ 10 / 2 ∧
    b = b0.run ops

/-- The pairs of bodies whose contacts measure their overlap: all but two hulls that are not both
rectangles. -/
def Measured (t : ℝ) (b1 b2 : Body) : Prop :=
  (DiscBody t b1 ∧ (DiscBody t b2 ∨ ConvexBody b2 ∨ BoxBody b2)) ∨
    ((DiscBody t b1 ∨ ConvexBody b1 ∨ BoxBody b1) ∧ DiscBody t b2) ∨ (BoxBody b1 ∧ BoxBody b2)

end LcpPhysics.Spec
