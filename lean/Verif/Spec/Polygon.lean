import Verif.Spec.Plane
import Mathlib.Algebra.BigOperators.Group.Finset.Basic

/-! # Specification vocabulary: polygons given as cyclic vertex lists -/

noncomputable section

open scoped BigOperators

namespace LcpPhysics.Spec

/-- Sum of `f a b` over the directed edges `a → b` of the closed polygon `vs`. -/
def edgeSum {M : Type*} [AddCommMonoid M] (vs : List (ℝ × ℝ)) (f : ℝ × ℝ → ℝ × ℝ → M) : M :=
  ∑ i ∈ Finset.range vs.length, f (vs.getD i 0) (vs.getD ((i + 1) % vs.length) 0)

/-- Twice the signed (shoelace) area: positive for counter-clockwise polygons (y axis up). -/
def area2 (vs : List (ℝ × ℝ)) : ℝ := edgeSum vs det

/-- Signed-area-weighted mean of the centroids of the triangles `q v_i v_{i+1}`: the area centroid
of the polygon, decomposed as a fan from `q`. -/
def fanCentroid (q : ℝ × ℝ) (vs : List (ℝ × ℝ)) : ℝ × ℝ :=
  (1 / edgeSum vs fun a b => det (a - q) (b - q) / 2) •
    edgeSum vs fun a b => (det (a - q) (b - q) / 2) • ((1 / 3 : ℝ) • (q + a + b))

end LcpPhysics.Spec
