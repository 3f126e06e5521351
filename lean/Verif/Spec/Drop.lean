import Verif.Spec.Bounce
import Mathlib.Analysis.Real.Sqrt

/-! # Specification: a ball that bounces off a level floor under its weight -/

noncomputable section

namespace LcpPhysics.Spec

/-- What the method conserves in free fall, per unit of mass, at the height `g` and the downward speed `u`: kinetic and potential energy,
and `γ h u / 2` besides. -/
def hopEnergy (γ h g u : ℝ) : ℝ := u ^ 2 / 2 + γ * g + γ * h * u / 2

/-- The greatest speed with which a ball of the energy `M` comes down to the height `eps`. -/
def dropSpeed (γ h eps M : ℝ) : ℝ := γ * h / 2 + √((γ * h) ^ 2 / 4 + 2 * (M - γ * eps))

/-- Downward speed of the ball (body 0). -/
def downSpeed {σ φ : Type} (w : World σ φ) : ℝ := (twist w.v 0).y

end LcpPhysics.Spec
