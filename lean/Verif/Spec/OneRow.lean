import Verif.Model.Pdipm

/-! # Specification vocabulary: problems with a single inequality -/

noncomputable section

namespace LcpPhysics.Spec
open LcpPhysics Matrix

variable {nz neq : ℕ}

/-- What a problem with a single inequality needs to be solved by hand: the point `x₀` (with the multipliers
`y₀`) it would have without the inequality, and the displacement `u` (with the multipliers `v`) that a unit
multiplier of the inequality causes. -/
structure OneRow (P : Lcp nz 1 neq) (x₀ : Fin nz → ℝ) (y₀ : Fin neq → ℝ) (u : Fin nz → ℝ) (v : Fin neq → ℝ) :
    Prop where
  symm : P.Qᵀ = P.Q
  free : P.Q *ᵥ x₀ + P.p + P.Aᵀ *ᵥ y₀ = 0
  free_eq : P.A *ᵥ x₀ = P.b
  push : P.Q *ᵥ u + P.Aᵀ *ᵥ v = P.G 0
  push_eq : P.A *ᵥ u = 0

/-- By how much a unit multiplier opens the inequality. -/
def compliance (P : Lcp nz 1 neq) (u : Fin nz → ℝ) : ℝ := P.G 0 ⬝ᵥ u + P.F 0 0

/-- The slack of the inequality at the point without it; negative when the inequality has to act. -/
def freeSlack (P : Lcp nz 1 neq) (x₀ : Fin nz → ℝ) : ℝ := P.h 0 - P.G 0 ⬝ᵥ x₀

end LcpPhysics.Spec
