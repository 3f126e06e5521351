import Verif.Spec.Overlap

/-! # Specification: overlap of at least some depth -/

noncomputable section

namespace LcpPhysics.Spec

/-- The sets still meet after every displacement of the first that is shorter than `t`. -/
def OverlapAtLeast (t : ℝ) (A B : Set (ℝ × ℝ)) : Prop := ∀ u, len u < t → ∃ x ∈ A, x + u ∈ B

end LcpPhysics.Spec
