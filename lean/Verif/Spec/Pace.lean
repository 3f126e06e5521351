import Verif.Spec.Hinge

/-! # Specification: how fast the clock of a simulation runs -/

noncomputable section

namespace LcpPhysics.Spec

/-- What a step is certain to advance by when the discs are not faster than `V` and have to come nearer by `δ` before a
step is refused. -/
def pace (dt δ V : ℝ) : ℝ := min dt (δ / (4 * V))

/-- What `N` steps are certain to advance by when the greatest speed is `V` at first and grows by at most `a` in a step. -/
def headway (dt δ V a : ℝ) (N : ℕ) : ℝ := ∑ k ∈ Finset.range N, pace dt δ (V + (k + 1) * a)

end LcpPhysics.Spec
