import Mathlib.Data.Real.Basic
import Mathlib.Algebra.BigOperators.Fin

/-!
# Model of `LCPFunction.numerical_backward` (`lcp_physics/lcp/lcp.py:66-151`)

`fn` is the solver as a function of the flattened input that is varied, with a flattened result.  Only the
differencing is modelled, for an input that requires a gradient; the import of `collections.Iterable`
(lcp.py:71), which newer Pythons reject, is not.

`orig = flat_tensor[i]` (lcp.py:127) indexes a tensor, which yields a view: `orig` denotes the cell, not the
number that was in it.  The model therefore keeps the cell index and reads the memory when `orig` is used.
-/

noncomputable section

namespace LcpPhysics

/-- The memory of the varied tensor. -/
abbrev Mem (n : ℕ) := Fin n → ℝ

/-- lcp.py:128, 130, 132: `flat_tensor[i] = a`. -/
def Mem.write {n : ℕ} (m : Mem n) (i : Fin n) (a : ℝ) : Mem n := Function.update m i a

/-- lcp.py:127: `orig = flat_tensor[i]`, a view of cell `i`; `read` is its value in a given memory. -/
structure CellView (n : ℕ) where
  cell : Fin n

def CellView.read {n : ℕ} (v : CellView n) (m : Mem n) : ℝ := m v.cell

/-- lcp.py:127-135: the row `d_tensor[i]` and the memory afterwards. -/
def numRow {n m : ℕ} (fn : Mem n → Fin m → ℝ) (eps : ℝ) (x : Mem n) (i : Fin n) : (Fin m → ℝ) × Mem n :=
  let orig : CellView n := ⟨i⟩
  let x := x.write i (orig.read x - eps)
  let outa := fn x
  let x := x.write i (orig.read x + eps)
  let outb := fn x
  let x := x.write i (orig.read x)
  (fun k => (outb k + -1 * outa k) / (2 * eps), x)

/-- lcp.py:126-135: the loop over the given entries; `acc` collects the rows. -/
def numLoop {n m : ℕ} (fn : Mem n → Fin m → ℝ) (eps : ℝ) :
    List (Fin n) → Mem n → (Fin n → Fin m → ℝ) → (Fin n → Fin m → ℝ) × Mem n
  | [], x, acc => (acc, x)
  | i :: is, x, acc =>
    let r := numRow fn eps x i
    numLoop fn eps is r.2 (Function.update acc i r.1)

/-- lcp.py:107-137 `get_numerical_jacobian`: starts from zeros (lcp.py:77). -/
def numJacobian {n m : ℕ} (fn : Mem n → Fin m → ℝ) (eps : ℝ) (x : Mem n) : (Fin n → Fin m → ℝ) × Mem n :=
  numLoop fn eps (List.finRange n) x fun _ _ => 0

/-- lcp.py:147: `jacobian.matmul(dl_dzhat.t())`. -/
def numBackward {n m : ℕ} (fn : Mem n → Fin m → ℝ) (eps : ℝ) (x : Mem n) (dl : Fin m → ℝ) : Fin n → ℝ :=
  fun i => ∑ k, (numJacobian fn eps x).1 i k * dl k

end LcpPhysics
