import Verif.Model.Pdipm

/-! # Specification vocabulary: runs of the interior point method -/

noncomputable section

namespace LcpPhysics.Spec
open LcpPhysics

variable {B nz nineq neq : ℕ}

/-- The batch of iterates `its 0, …, its n`, with the stored factorisations `Ss`: each iterate is
factorised, and each but the last is followed by the iterate the solver moves to. -/
structure SolverRun [NeZero B] [NeZero nineq] (c : Setup B nz nineq neq) (S : Fin B → PackedLU (neq + nineq))
    (it : Fin B → Iter nz nineq neq) (n : ℕ) (its : ℕ → Fin B → Iter nz nineq neq)
    (Ss : ℕ → Fin B → PackedLU (neq + nineq)) : Prop where
  start : its 0 = it
  startS : Ss 0 = S
  factor : ∀ j ≤ n, ∀ b, factor_kkt c.f (Ss j b) (c.R b) (fun i => (its j b).z i / (its j b).s i) = some (Ss (j + 1) b)
  step : ∀ j < n, pdStep c.P c.Q_LU (Ss (j + 1)) (its j) = some (its (j + 1))

open Classical in
/-- How many of the iterates up to `n` have passed since one set a new record in some row of the batch; `res j b`
is the residual of iterate `j` in row `b`. -/
def stale (res : ℕ → Fin B → ℝ) : ℕ → ℕ
  | 0 => 0
  | n + 1 => if ∃ b, ∀ i ≤ n, res (n + 1) b < res i b then 0 else stale res n + 1

/-- The reasons for which the method is content to stop at iterate `n`: `lim` iterates without a record, every row
has been below `eps`, or the duality gaps have exploded. -/
def StopsAt (lim : ℕ) (eps : ℝ) (res gap : ℕ → Fin B → ℝ) (n : ℕ) : Prop :=
  stale res n = lim ∨ (∀ b, ∃ i ≤ n, res i b < eps) ∨ ∀ b, gap n b > 10 ^ 100

/-- One batch element of the stored best iterate. -/
def bestRow (w : Best B nz nineq neq) (b : Fin B) : Iter nz nineq neq :=
  { x := w.x b, s := w.s b, z := w.z b, y := w.y b }

/-- The mixed linear complementarity problem, up to an error of `ε` in every equation. -/
structure ApproxSolution (Q : Matrix (Fin nz) (Fin nz) ℝ) (p : Fin nz → ℝ) (G : Matrix (Fin nineq) (Fin nz) ℝ)
    (h : Fin nineq → ℝ) (A : Matrix (Fin neq) (Fin nz) ℝ) (b : Fin neq → ℝ) (F : Matrix (Fin nineq) (Fin nineq) ℝ)
    (ε : ℝ) (x : Fin nz → ℝ) (s z : Fin nineq → ℝ) (y : Fin neq → ℝ) : Prop where
  stat : ∀ k, |∑ j, Q k j * x j + p k + ∑ i, G i k * z i + ∑ i, A i k * y i| ≤ ε
  ineq : ∀ i, |∑ j, G i j * x j + s i - h i - ∑ j, F i j * z j| ≤ ε
  eq : ∀ i, |∑ j, A i j * x j - b i| ≤ ε
  s_nonneg : ∀ i, 0 ≤ s i
  z_nonneg : ∀ i, 0 ≤ z i
  compl : ∀ i, s i * z i ≤ ε

end LcpPhysics.Spec
