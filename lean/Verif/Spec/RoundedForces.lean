import Verif.Model.Forces
import Verif.Spec.Rounded

/-! # Specification: forces in double precision -/

noncomputable section

namespace LcpPhysics.Spec

/-- The force an object stands for, on a body of mass `M`: the multiple of its function's value, or the weight. -/
def idealForce (M t : ℝ) : Force → V3
  | .external f m => ⟨m * (f t).r, m * (f t).x, m * (f t).y⟩
  | .gravity g _ => ⟨0, 0, M * g⟩

/-- Bound for the error of a sum of `n` rounded terms whose sizes add up to `W`. -/
def sumError (n : ℕ) (W : ℝ) : ℝ := ((1 + 1 / 2 ^ 53) ^ (n + 1) - 1) * W + (1 + 1 / 2 ^ 53) ^ n * (n * (1 / 2 ^ 1074))

end LcpPhysics.Spec
