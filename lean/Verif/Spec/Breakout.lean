import Mathlib.Data.List.Basic
import Mathlib.Order.Basic

/-! # Specification vocabulary: runs of a colour in a row of pixels -/

namespace LcpPhysics.Spec

/-- `[l, r)` is a maximal run of colour `c` in the row `p` of width `W`. -/
structure IsRun (W : ℕ) (p : ℕ → ℕ) (c l r : ℕ) : Prop where
  lt : l < r
  le : r ≤ W
  color : ∀ j, l ≤ j → j < r → p j = c
  left : l = 0 ∨ p (l - 1) ≠ c
  right : r = W ∨ p r ≠ c

end LcpPhysics.Spec
