import Verif.Spec.Impact
import Mathlib.Analysis.SpecialFunctions.Trigonometric.Bounds

/-! # Specification: how far a pivot moves when a part of the stabilisation's displacement is applied -/

noncomputable section

namespace LcpPhysics.Spec

/-- The angle per step of the velocity that the stabilisation asks for, after a step that turned the body by `δ`; `κ` is the
share of the mass away from the pivot in the moment of inertia about it. -/
def stabAngle (κ δ : ℝ) : ℝ := δ * (1 - κ * (1 - Real.cos δ))

/-- The angle turned in a step when the part `lam` of the displacement is applied. -/
def stabTurn (κ lam δ : ℝ) : ℝ := δ + lam * (stabAngle κ δ - δ)

/-- How far the pivot moves in a step when the part `lam` of the displacement is applied, along the arm and across it, for an
arm of length one. -/
def stabDrift (κ lam δ : ℝ) : V2 :=
  (Real.cos (stabTurn κ lam δ) - 1 + lam * stabAngle κ δ * Real.sin δ,
   Real.sin (stabTurn κ lam δ) - (1 - lam) * δ - lam * stabAngle κ δ * Real.cos δ)

end LcpPhysics.Spec
