import Verif.Model.Engine

/-! # Specification: mixed linear complementarity problems -/

noncomputable section

namespace LcpPhysics.Spec

/-- `torch.matmul(A.t(), z)` for `A` with `m` rows. -/
def tmv (A : Mat) (m : ℕ) (z : Vec) : Vec := fun k => ∑ i ∈ Finset.range m, A i k * z i

/-- `(x, s, z, y)` solves the mixed LCP the solver is written for. -/
structure IsMlcp (nz neq nineq : ℕ) (Q : Mat) (p : Vec) (G : Mat) (h : Vec) (A : Mat) (b : Vec)
    (F : Mat) (x s z y : Vec) : Prop where
  stat : ∀ k < nz, mv Q nz x k + p k + tmv G nineq z k + tmv A neq y k = 0
  ineq : ∀ i < nineq, mv G nz x i + s i = h i + mv F nineq z i
  eq : ∀ i < neq, mv A nz x i = b i
  s_nonneg : ∀ i < nineq, 0 ≤ s i
  z_nonneg : ∀ i < nineq, 0 ≤ z i
  compl : ∀ i < nineq, s i * z i = 0

/-- A solver that only ever returns exact solutions. -/
def Exact (lcp : LcpSolver) : Prop :=
  ∀ mi nz neq nineq Q p G h A b F x, lcp mi nz neq nineq Q p G h A b F = .ok x →
    ∃ s z y, IsMlcp nz neq nineq Q p G h A b F x s z y

end LcpPhysics.Spec
