import Verif.Spec.Pivot
import Mathlib.Analysis.Calculus.Deriv.Basic

/-! # Specification: the pendulum equation -/

noncomputable section

namespace LcpPhysics.Spec

/-- Angular acceleration of a body of mass `m` and moment of inertia `I` about its centre that can turn about a fixed point, at the
offset `A` from the centre at the start, under the constant force `f` (torque, and force at the centre), when it has turned by `θ`. -/
def pivotAccel (m I : ℝ) (A : V2) (f : V3) (θ : ℝ) : ℝ :=
  (f.r + (rot θ A).2 * f.x - (rot θ A).1 * f.y) / (I + m * (A.1 ^ 2 + A.2 ^ 2))

/-- `θ` and `ω` are angle and angular velocity of a motion with the angular acceleration `α`, on the span of time `T`. -/
structure Swings (α : ℝ → ℝ) (T : ℝ) (θ ω : ℝ → ℝ) : Prop where
  angle : ∀ t ∈ Set.Icc 0 T, HasDerivWithinAt θ (ω t) (Set.Icc 0 T) t
  speed : ∀ t ∈ Set.Icc 0 T, HasDerivWithinAt ω (α (θ t)) (Set.Icc 0 T) t

end LcpPhysics.Spec
