import Verif.Model.Refine

/-! # Specification vocabulary: residuals of the regularised KKT system -/

noncomputable section

namespace LcpPhysics.Spec
open Matrix

variable {nz nineq neq : ℕ}

/-- The residuals of the KKT system at `v` with right hand side `-r`: `δ` is added to the diagonal of
`Q` and `D`, `eps` to that of `F` and of the zero block of the equalities. -/
def kktRes (M : RegKkt nz nineq neq) (eps δ : ℝ) (v r : Iter nz nineq neq) : Iter nz nineq neq :=
  { x := fun i => (M.Q *ᵥ v.x) i + δ * v.x i + (M.Gᵀ *ᵥ v.z) i + (M.Aᵀ *ᵥ v.y) i + r.x i
    s := fun i => (M.D *ᵥ v.s) i + δ * v.s i + v.z i + r.s i
    z := fun i => (M.G *ᵥ v.x) i + v.s i - (M.F *ᵥ v.z) i - eps * v.z i + r.z i
    y := fun i => (M.A *ᵥ v.x) i - eps * v.y i + r.y i }

/-- All four residuals vanish. -/
def IsZero (r : Iter nz nineq neq) : Prop := r.x = 0 ∧ r.s = 0 ∧ r.z = 0 ∧ r.y = 0

/-- Sum of the squares of all entries. -/
def sizeSq (r : Iter nz nineq neq) : ℝ := ∑ i, r.x i ^ 2 + ∑ i, r.s i ^ 2 + ∑ i, r.z i ^ 2 + ∑ i, r.y i ^ 2

/-- `Q` and `D` are at least `lam` times the identity and `F` is monotone. -/
structure Coercive (M : RegKkt nz nineq neq) (lam : ℝ) : Prop where
  Q : ∀ v, lam * ∑ i, v i ^ 2 ≤ v ⬝ᵥ (M.Q *ᵥ v)
  D : ∀ v, lam * ∑ i, v i ^ 2 ≤ v ⬝ᵥ (M.D *ᵥ v)
  F : ∀ v, 0 ≤ v ⬝ᵥ (M.F *ᵥ v)

end LcpPhysics.Spec
