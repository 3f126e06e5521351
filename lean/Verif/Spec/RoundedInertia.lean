import Verif.Spec.Rounded

/-! # Specification: moments of inertia in double precision -/

noncomputable section

namespace LcpPhysics.Spec

/-- `x` is `y` up to a relative error of `d`. -/
def RelWithin (d x y : ℝ) : Prop := |x - y| ≤ d * y

/-- Numbers for which products of a few of them neither overflow nor underflow. -/
def UsualSize (x : ℝ) : Prop := 1 / 2 ^ 200 ≤ x ∧ x ≤ 2 ^ 200

/-- A disc of the given mass and radius. -/
def discMoment (rad mass : ℝ) : ℝ := mass * rad ^ 2 / 2

/-- A rectangle with the given sides. -/
def boxMoment (a b mass : ℝ) : ℝ := mass * (a ^ 2 + b ^ 2) / 12

end LcpPhysics.Spec
