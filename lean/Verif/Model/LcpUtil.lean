import Verif.Model.Lapack

/-! # Model of `lcp_physics/lcp/util.py`: unpacking LU factors, masked updates -/

noncomputable section

namespace LcpPhysics

/-- util.py:75-77: `U = where(I_U, LU_data, 0)`, `I_U` the upper triangle with diagonal. -/
def unpackU {n : ℕ} (D : Matrix (Fin n) (Fin n) ℝ) : Matrix (Fin n) (Fin n) ℝ :=
  Matrix.of fun i j => if i ≤ j then D i j else 0

/-- util.py:78-79: `L = where(I_U, 0, LU_data)` with the diagonal filled with ones. -/
def unpackL {n : ℕ} (D : Matrix (Fin n) (Fin n) ℝ) : Matrix (Fin n) (Fin n) ℝ :=
  let L : Matrix (Fin n) (Fin n) ℝ := Matrix.of fun i j => if i ≤ j then 0 else D i j
  Matrix.of fun i j => if i = j then 1 else L i j

/-- util.py:88-89: one exchange in `final_order` (`j` is the pivot minus one; an index past the end
would raise in the code and is ignored here, LAPACK's pivots are in range). -/
def orderSwap {n : ℕ} (order : Fin n → Fin n) (k : Fin n) (p : ℕ) : Fin n → Fin n :=
  if h : p - 1 < n then
    let j : Fin n := ⟨p - 1, h⟩
    fun i => if i = k then order j else if i = j then order k else order i
  else order

/-- util.py:87-89: `final_order` of one batch element. -/
def finalOrder {n : ℕ} (piv : Fin n → ℕ) : Fin n → Fin n :=
  (List.finRange n).foldl (fun o k => orderSwap o k (piv k)) id

/-- util.py:83-91: `P[i] = P[i][final_order]` on the identity, then transposed. -/
def unpackP {n : ℕ} (piv : Fin n → ℕ) : Matrix (Fin n) (Fin n) ℝ :=
  (Matrix.of fun i => (1 : Matrix (Fin n) (Fin n) ℝ) (finalOrder piv i)).transpose

/-- `x[mask]`: the selected entries in order (flattened tensors). -/
def maskedSelect {α : Type} : List Bool → List α → List α
  | true :: m, a :: l => a :: maskedSelect m l
  | false :: m, _ :: l => maskedSelect m l
  | _, _ => []

/-- `dst.masked_scatter_(mask, src)`: the positions where the mask is set receive the entries of
the source in order; running out of source entries raises (`none`). -/
def maskedScatter {α : Type} : List Bool → List α → List α → Option (List α)
  | true :: m, _ :: dst, s :: src => (maskedScatter m dst src).map (s :: ·)
  | true :: _, _ :: _, [] => none
  | false :: m, d :: dst, src => (maskedScatter m dst src).map (d :: ·)
  | [], dst, _ => some dst
  | _, [], _ => some []

/-- Row-major flattening of a two-dimensional tensor. -/
def flatten {α : Type} {B n : ℕ} (x : Fin B → Fin n → α) : List α :=
  (List.finRange B).flatMap fun b => (List.finRange n).map fun i => x b i

/-- util.py:18-19 `bger`, one batch element. -/
def bger {n m : ℕ} (x : Fin n → ℝ) (y : Fin m → ℝ) : Matrix (Fin n) (Fin m) ℝ :=
  Matrix.of fun i j => x i * y j

end LcpPhysics
