import Mathlib.Analysis.Real.Sqrt
import Mathlib.Analysis.SpecialFunctions.Trigonometric.Basic
import Mathlib.Analysis.Convex.Hull

/-!
# Specification vocabulary: plane geometry, independent of the model
-/

noncomputable section

namespace LcpPhysics.Spec

/-- Inner product of the plane. -/
def inner (a b : ℝ × ℝ) : ℝ := a.1 * b.1 + a.2 * b.2

/-- Signed area (determinant) of two vectors. -/
def det (a b : ℝ × ℝ) : ℝ := a.1 * b.2 - a.2 * b.1

/-- Euclidean length. -/
def len (a : ℝ × ℝ) : ℝ := Real.sqrt (a.1 ^ 2 + a.2 ^ 2)

/-- Euclidean distance. -/
def dist (a b : ℝ × ℝ) : ℝ := len (a - b)

/-- Counter-clockwise rotation by the angle `t` about the origin. -/
def rot (t : ℝ) (a : ℝ × ℝ) : ℝ × ℝ :=
  (Real.cos t * a.1 - Real.sin t * a.2, Real.sin t * a.1 + Real.cos t * a.2)

/-- The solid polygon spanned by a list of points. -/
def solid (vs : List (ℝ × ℝ)) : Set (ℝ × ℝ) := convexHull ℝ {p | p ∈ vs}

/-- `q` is a nearest point of the set `S` to `p`. -/
def IsNearest (S : Set (ℝ × ℝ)) (p q : ℝ × ℝ) : Prop := q ∈ S ∧ ∀ w ∈ S, dist p q ≤ dist p w

/-- Action of a unit quaternion `(w, x, y, z)` on the plane `z = 0` (upper-left block of the usual
rotation matrix of a quaternion). -/
def quatAct (q : ℝ × ℝ × ℝ × ℝ) (v : ℝ × ℝ) : ℝ × ℝ :=
  let w := q.1; let x := q.2.1; let y := q.2.2.1; let z := q.2.2.2
  ((w ^ 2 + x ^ 2 - y ^ 2 - z ^ 2) * v.1 + 2 * (x * y - w * z) * v.2,
   2 * (x * y + w * z) * v.1 + (w ^ 2 - x ^ 2 + y ^ 2 - z ^ 2) * v.2)

/-- The region (in the body frame) of an ODE box with the given side lengths. -/
def boxRegion (l : ℝ × ℝ) : Set (ℝ × ℝ) := {v | |v.1| ≤ l.1 / 2 ∧ |v.2| ≤ l.2 / 2}

end LcpPhysics.Spec
