import Mathlib.Analysis.SpecialFunctions.Pow.Real

/-! # What the optimiser remembers: the running mean of squared gradients, in closed form -/

noncomputable section

namespace LcpPhysics.Spec

/-- The mean square of a list of gradients, latest first, with weights falling off by a factor 0.99. -/
def meanSquare (gs : List ℝ) : ℝ := ((List.range gs.length).map fun i => 0.01 * 0.99 ^ i * gs.getD i 0 ^ 2).sum

end LcpPhysics.Spec
