import Mathlib.LinearAlgebra.Matrix.NonsingularInverse
import Mathlib.Data.Real.Basic

/-!
# Contract of the external LU routines

`btrifact` / `btrisolve` are LAPACK `getrf` / `getrs`.  They are not part of the program; they are
described here by LAPACK's documentation.  Factorisation is an oracle with a contract, the
triangular solves are the exact solves.
-/

noncomputable section

namespace LcpPhysics

/-- What `btrifact` returns for one batch element: the packed factors, and the pivots counted from
one: row `k` was exchanged with row `piv k - 1`. -/
structure PackedLU (n : ℕ) where
  data : Matrix (Fin n) (Fin n) ℝ
  piv : Fin n → ℕ

/-- The unit lower triangular factor stored in packed form. -/
def unitLower {n : ℕ} (D : Matrix (Fin n) (Fin n) ℝ) : Matrix (Fin n) (Fin n) ℝ :=
  Matrix.of fun i j => if j < i then D i j else if i = j then 1 else 0

/-- The upper triangular factor stored in packed form. -/
def upperTri {n : ℕ} (D : Matrix (Fin n) (Fin n) ℝ) : Matrix (Fin n) (Fin n) ℝ :=
  Matrix.of fun i j => if i ≤ j then D i j else 0

/-- Exchange entry `k` with entry `p - 1` of a sequence of rows (nothing if out of range, which
LAPACK never asks for). -/
def rowSwap {n : ℕ} {α : Type} (v : Fin n → α) (k : Fin n) (p : ℕ) : Fin n → α :=
  if h : p - 1 < n then v ∘ Equiv.swap k ⟨p - 1, h⟩ else v

/-- LAPACK `laswp`: the row exchanges, first to last. -/
def laswp {n : ℕ} {α : Type} (piv : Fin n → ℕ) (v : Fin n → α) : Fin n → α :=
  (List.finRange n).foldl (fun w k => rowSwap w k (piv k)) v

/-- The row exchanges on a matrix. -/
def laswpM {n m : ℕ} (piv : Fin n → ℕ) (B : Matrix (Fin n) (Fin m) ℝ) : Matrix (Fin n) (Fin m) ℝ :=
  Matrix.of (laswp piv fun i j => B i j)

/-- LAPACK `getrs` on a vector: exchange the rows, then solve with the two triangular factors. -/
def btrisolveV {n : ℕ} (lu : PackedLU n) (v : Fin n → ℝ) : Fin n → ℝ :=
  Matrix.mulVec (upperTri lu.data)⁻¹ (Matrix.mulVec (unitLower lu.data)⁻¹ (laswp lu.piv v))

/-- LAPACK `getrs` on several right-hand sides (the columns of `B`). -/
def btrisolve {n m : ℕ} (lu : PackedLU n) (B : Matrix (Fin n) (Fin m) ℝ) : Matrix (Fin n) (Fin m) ℝ :=
  (upperTri lu.data)⁻¹ * ((unitLower lu.data)⁻¹ * laswpM lu.piv B)

/-- A factorisation routine; `none` when it raises. -/
abbrev Btrifact := (n : ℕ) → Matrix (Fin n) (Fin n) ℝ → Option (PackedLU n)

/-- The factors describe `A`: after the row exchanges `A` is `L U`, `U` has no zero on its diagonal
and the pivots are in LAPACK's range. -/
structure Factors {n : ℕ} (A : Matrix (Fin n) (Fin n) ℝ) (lu : PackedLU n) : Prop where
  eq : laswpM lu.piv A = unitLower lu.data * upperTri lu.data
  diag : ∀ i, lu.data i i ≠ 0
  range : ∀ k : Fin n, k < lu.piv k ∧ lu.piv k ≤ n

/-- Contract of `getrf` in exact arithmetic: what it returns are factors of the input, and it only
raises (zero pivot) on singular input. -/
structure BtrifactOk (f : Btrifact) : Prop where
  sound : ∀ n A lu, f n A = some lu → Factors A lu
  complete : ∀ n A, f n A = none → A.det = 0

end LcpPhysics
