import Verif.Model.Bodies
import Verif.Spec.Plane

/-! # Specification vocabulary: totals over the bodies of a scene

Sums over the bodies themselves (their own poses and velocities), not over the stacked world vector. -/

noncomputable section

namespace LcpPhysics.Spec

def totalMass (bs : List Body) : ℝ := (bs.map fun b => b.mass).sum

/-- `Σ m q`: the centre of mass times the total mass. -/
def massMoment (bs : List Body) : V2 := (bs.map fun b => b.mass • b.pos).sum

/-- `Σ m q̇`. -/
def totalMomentum (bs : List Body) : V2 := (bs.map fun b => b.mass • b.v.xy).sum

/-- Spin plus orbital angular momentum about the origin. -/
def totalAngular (bs : List Body) : ℝ :=
  (bs.map fun b => b.ang_inertia * b.v.r + b.mass * det b.pos b.v.xy).sum

/-- `Σ (I ω² + m |q̇|²) / 2`. -/
def totalKinetic (bs : List Body) : ℝ :=
  (bs.map fun b => (b.ang_inertia * b.v.r ^ 2 + b.mass * (b.v.x ^ 2 + b.v.y ^ 2)) / 2).sum

end LcpPhysics.Spec
