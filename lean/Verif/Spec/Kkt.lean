import Mathlib.LinearAlgebra.Matrix.NonsingularInverse
import Mathlib.LinearAlgebra.Matrix.SchurComplement
import Mathlib.Data.Real.Basic

/-! # Specification vocabulary: Newton systems of the interior point method -/

noncomputable section

namespace LcpPhysics.Spec
open Matrix

variable {nz nineq neq : ℕ}

/-- The Newton (KKT) system for a step `dx, ds, dz, dy` with `d = z / s`. -/
structure NewtonStep (Q : Matrix (Fin nz) (Fin nz) ℝ) (G : Matrix (Fin nineq) (Fin nz) ℝ)
    (A : Matrix (Fin neq) (Fin nz) ℝ) (F : Matrix (Fin nineq) (Fin nineq) ℝ) (d : Fin nineq → ℝ)
    (rx : Fin nz → ℝ) (rs rz : Fin nineq → ℝ) (ry : Fin neq → ℝ)
    (dx : Fin nz → ℝ) (ds dz : Fin nineq → ℝ) (dy : Fin neq → ℝ) : Prop where
  dual : Q *ᵥ dx + Gᵀ *ᵥ dz + Aᵀ *ᵥ dy = -rx
  compl : ∀ i, d i * ds i + dz i = -rs i
  ineq : G *ᵥ dx + ds - F *ᵥ dz = -rz
  eq : A *ᵥ dx = -ry

/-- The matrix of the system after `dx` and `ds` have been eliminated. -/
def schur (Q : Matrix (Fin nz) (Fin nz) ℝ) (G : Matrix (Fin nineq) (Fin nz) ℝ)
    (A : Matrix (Fin neq) (Fin nz) ℝ) (F : Matrix (Fin nineq) (Fin nineq) ℝ) (d : Fin nineq → ℝ) :
    Matrix (Fin neq ⊕ Fin nineq) (Fin neq ⊕ Fin nineq) ℝ :=
  fromBlocks (A * Q⁻¹ * Aᵀ) (A * Q⁻¹ * Gᵀ) (G * Q⁻¹ * Aᵀ) (G * Q⁻¹ * Gᵀ + F + diagonal fun i => 1 / d i)

/-- A block matrix with consecutively numbered rows and columns. -/
def flatBlocks (M : Matrix (Fin neq ⊕ Fin nineq) (Fin neq ⊕ Fin nineq) ℝ) :
    Matrix (Fin (neq + nineq)) (Fin (neq + nineq)) ℝ :=
  M.submatrix finSumFinEquiv.symm finSumFinEquiv.symm

end LcpPhysics.Spec
