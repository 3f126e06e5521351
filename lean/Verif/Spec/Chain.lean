import Verif.Model.World

/-! # Specification: the chain of the inference experiment before it is hit -/

noncomputable section

namespace LcpPhysics.Spec
variable {σ φ : Type}

/-- The world after `k` calls of `step` with variable step length. -/
def afterSteps (env : Env σ φ) (fuel : ℕ) : ℕ → World σ φ → Run (World σ φ)
  | 0, w => .done w
  | k + 1, w => (w.step env fuel 0 false).bind fun w => afterSteps env fuel k w

/-- Where the projectile is after `k` steps, as long as it has hit nothing: pushed for a tenth of a second. -/
def ballAt : ℕ → ℝ
  | 0 => 50
  | 1 => 50 + 50 / 30
  | k + 2 => 45 + 5 * ((k + 2 : ℕ) : ℝ)

/-- The positions of `n` links hanging straight down and of the projectile after `k` steps. -/
def chainRow (n k : ℕ) : List ℝ :=
  (List.range n).flatMap (fun i : ℕ => ([0, 300, 50 + 50 * (i : ℝ)] : List ℝ)) ++ [0, ballAt k, 50 + 50 * ((n - 1 : ℕ) : ℝ)]

end LcpPhysics.Spec
