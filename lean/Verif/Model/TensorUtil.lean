import Verif.Model.Pdipm

/-!
# Model of the shape utilities in `lcp_physics/lcp/util.py`

A tensor is its shape with a function from index lists.  Entries at indices outside of the shape are
meaningless.
-/

noncomputable section

namespace LcpPhysics

/-- A torch tensor of any rank. -/
structure Tensor where
  shape : List ℕ
  val : List ℕ → ℝ

/-- `x.dim()`, `x.ndimension()`. -/
def Tensor.dim (x : Tensor) : ℕ := x.shape.length

/-- `x.unsqueeze(d)`, raises if `d` exceeds the rank. -/
def Tensor.unsqueeze (x : Tensor) (d : ℕ) : Except Err Tensor :=
  if d ≤ x.dim then .ok { shape := x.shape.insertIdx d 1, val := fun i => x.val (i.eraseIdx d) }
  else .error (.raised "RuntimeError: Dimension out of range")

/-- `x.bmm(y)`: both of rank three with matching sizes. -/
def Tensor.bmm (x y : Tensor) : Except Err Tensor :=
  match x.shape, y.shape with
  | [b, n, k], [b', k', m] =>
    if b = b' ∧ k = k' then
      .ok { shape := [b, n, m]
            val := fun i => ∑ t ∈ Finset.range k,
              x.val [i.getD 0 0, i.getD 1 0, t] * y.val [i.getD 0 0, t, i.getD 2 0] }
    else .error (.raised "RuntimeError: sizes do not match")
  | _, _ => .error (.raised "RuntimeError: expected 3D tensor")

/-- `x.expand(sizes)` with as many sizes as dimensions: dimensions of size one are repeated. -/
def Tensor.expand (x : Tensor) (sizes : List ℕ) : Except Err Tensor :=
  if x.shape.length = sizes.length ∧ ∀ p ∈ x.shape.zip sizes, p.1 = 1 ∨ p.1 = p.2 then
    .ok { shape := sizes, val := fun i => x.val (List.zipWith (fun s k => if s = 1 then 0 else k) x.shape i) }
  else .error (.raised "RuntimeError: The expanded size of the tensor must match the existing size")

/-- util.py:18-19 `bger`. -/
def bgerT (x y : Tensor) : Except Err Tensor := do
  let x ← x.unsqueeze 2
  let y ← y.unsqueeze 1
  x.bmm y

/-- util.py:22-38 `get_sizes`: `(nineq, nz, neq, nBatch)`.  A rank that no branch handles leaves a local
variable unassigned and raises at the `return`. -/
def get_sizes (G : Tensor) (A : Option Tensor) : Except Err (ℕ × ℕ × Option ℕ × ℕ) := do
  let (nineq, nz, nBatch) ← match G.shape with
    | [nineq, nz] => .ok (nineq, nz, 1)
    | [nBatch, nineq, nz] => .ok (nineq, nz, nBatch)
    | _ => .error (.raised "UnboundLocalError")
  let neq ← match A with
    | none => .ok none
    | some A => match A.shape with
      | [] => .ok (some 0)
      | [_] => .ok (some 0)
      | [neq, _] => .ok (some neq)
      | [_, neq, _] => .ok (some neq)
      | _ => .error (.raised "UnboundLocalError")
  return (nineq, nz, neq, nBatch)

/-- Whether a tensor of one shape can be assigned to a selection of another shape (broadcasting). -/
def broadcastable (value target : List ℕ) : Bool :=
  value.length ≤ target.length ∧
    ∀ p ∈ value.reverse.zip target.reverse, p.1 = 1 ∨ p.1 = p.2

/-- `x.squeeze().size()`. -/
def squeezeShape (s : List ℕ) : List ℕ := s.filter (· ≠ 1)

/-- util.py:41-46 `bdiag`, flattened row-major.  `D[I]` has `nBatch * sz` elements and receives
`d.squeeze()`, whose elements are those of `d` in order; the value must have a shape that can be
broadcast (its size one dimensions are gone, so it can only be of rank one with `nBatch * sz` elements,
or a scalar for one single element). -/
def bdiag {nBatch sz : ℕ} (d : Fin nBatch → Fin sz → ℝ) : Except Err (List ℝ) :=
  if broadcastable (squeezeShape [nBatch, sz]) [nBatch * sz] then
    match scatterDiag d with
    | some D => .ok D
    | none => .error (.raised "RuntimeError: shape mismatch")
  else .error (.raised "RuntimeError: shape mismatch")

/-- util.py:49-55 `expandParam`. -/
def expandParam (X : Tensor) (nBatch nDim : ℕ) : Except Err (Tensor × Bool) :=
  if X.dim = 0 ∨ X.dim = nDim then .ok (X, false)
  else if (X.dim : ℤ) = nDim - 1 then do
    let Y ← X.unsqueeze 0
    let Y ← Y.expand (nBatch :: X.shape)
    return (Y, true)
  else .error (.raised "RuntimeError: Unexpected number of dimensions.")

/-- util.py:58-64, the loop over the parameters with their batched ranks. -/
def batchSizeLoop : List (Tensor × ℕ) → ℕ
  | [] => 1
  | (param, dim) :: l => if param.dim = dim then param.shape.getD 0 0 else batchSizeLoop l

/-- util.py:58-64 `extract_batch_size`. -/
def extract_batch_size (Q p G h A b : Tensor) : ℕ :=
  batchSizeLoop ([Q, p, G, h, A, b].zip [3, 2, 3, 2, 3, 2])

end LcpPhysics
