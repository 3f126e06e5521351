import Verif.Spec.Rounded
import Verif.Spec.Flight
import Verif.Spec.Converge

/-! # Specification: free flight in double precision -/

noncomputable section

namespace LcpPhysics.Spec

/-- All components are at most `d` in size. -/
def Below (d : ℝ) (a : V3) : Prop := |a.r| ≤ d ∧ |a.x| ≤ d ∧ |a.y| ≤ d

/-- The change of the velocities in a step of length `h` under the force `f`. -/
def kick (h m I : ℝ) (f : V3) : V3 := ⟨h * f.r / I, h * f.x / m, h * f.y / m⟩

/-- Bound for the error of a velocity in one step, for a body with inertias of at least `i`, velocities below `B` and changes of velocity
below `G`. -/
def velError (i B G : ℝ) : ℝ := 5 / 2 ^ 53 * (B + G) + (4 / i + 1) * (1 / 2 ^ 1074)

/-- The same for a pose, when coordinates are below `P`. -/
def poseError (h B P : ℝ) : ℝ := 1 / 2 ^ 53 * (P + 3 * (B * h)) + 2 * (1 / 2 ^ 1074)

/-- Inertias that are neither too small nor too large. -/
def Moderate (i m : ℝ) : Prop := i ≤ m ∧ m ≤ 2 ^ 1000

end LcpPhysics.Spec
