import Verif.Model.LcpUtil
import Mathlib.LinearAlgebra.Matrix.Block

/-! # Lemmas on packed LU factors -/

noncomputable section

namespace LcpPhysics
open Matrix

variable {n m : ℕ}

/-- One exchange as a permutation. -/
def swapPerm (k : Fin n) (p : ℕ) : Equiv.Perm (Fin n) :=
  if h : p - 1 < n then Equiv.swap k ⟨p - 1, h⟩ else 1

/-- All exchanges as a permutation. -/
def pivPerm (piv : Fin n → ℕ) : Equiv.Perm (Fin n) :=
  ((List.finRange n).map fun k => swapPerm k (piv k)).prod

theorem rowSwap_eq {α : Type} (v : Fin n → α) (k : Fin n) (p : ℕ) : rowSwap v k p = v ∘ swapPerm k p := by
  unfold rowSwap swapPerm
  split_ifs <;> rfl

theorem orderSwap_eq (v : Fin n → Fin n) (k : Fin n) (p : ℕ) : orderSwap v k p = v ∘ swapPerm k p := by
  unfold orderSwap swapPerm
  split_ifs with h
  · funext i
    simp only [Function.comp, Equiv.swap_apply_def]
    split_ifs <;> rfl
  · rfl

theorem foldl_comp {α : Type} (g : Fin n → Equiv.Perm (Fin n)) : ∀ (l : List (Fin n)) (v : Fin n → α),
    l.foldl (fun w k => w ∘ g k) v = v ∘ (l.map g).prod
  | [], v => rfl
  | k :: l, v => by
    rw [List.foldl_cons, foldl_comp g l, List.map_cons, List.prod_cons]; rfl

theorem laswp_eq {α : Type} (piv : Fin n → ℕ) (v : Fin n → α) : laswp piv v = v ∘ pivPerm piv := by
  unfold laswp pivPerm
  simp only [rowSwap_eq]
  exact foldl_comp (fun k => swapPerm k (piv k)) _ v

theorem laswpM_eq (piv : Fin n → ℕ) (B : Matrix (Fin n) (Fin m) ℝ) :
    laswpM piv B = B.submatrix (pivPerm piv) id := by
  unfold laswpM
  rw [laswp_eq]; rfl

theorem finalOrder_eq (piv : Fin n → ℕ) : finalOrder piv = pivPerm piv := by
  unfold finalOrder pivPerm
  simp only [orderSwap_eq]
  exact foldl_comp (fun k => swapPerm k (piv k)) _ id

theorem unpackP_apply (piv : Fin n → ℕ) (i j : Fin n) :
    unpackP piv i j = if pivPerm piv j = i then 1 else 0 := by
  simp [unpackP, finalOrder_eq, Matrix.one_apply]

theorem unpackP_transpose_mulVec (piv : Fin n → ℕ) (v : Fin n → ℝ) : (unpackP piv)ᵀ *ᵥ v = laswp piv v := by
  funext i
  simp [Matrix.mulVec, dotProduct, unpackP_apply, laswp_eq]

theorem unpackP_transpose_mul (piv : Fin n → ℕ) (B : Matrix (Fin n) (Fin m) ℝ) :
    (unpackP piv)ᵀ * B = laswpM piv B := by
  ext i j
  simp [Matrix.mul_apply, unpackP_apply, laswpM_eq]

theorem unpackP_mul_transpose (piv : Fin n → ℕ) : unpackP piv * (unpackP piv)ᵀ = 1 := by
  have h : (unpackP piv)ᵀ * unpackP piv = 1 := by
    rw [unpackP_transpose_mul, laswpM_eq]
    ext i j
    simp [unpackP_apply, Matrix.one_apply, eq_comm]
  exact mul_eq_one_comm.1 h

theorem unpackP_transpose_mul_self (piv : Fin n → ℕ) : (unpackP piv)ᵀ * unpackP piv = 1 :=
  mul_eq_one_comm.1 (unpackP_mul_transpose piv)

theorem unpackU_eq (D : Matrix (Fin n) (Fin n) ℝ) : unpackU D = upperTri D := rfl

theorem unpackL_eq (D : Matrix (Fin n) (Fin n) ℝ) : unpackL D = unitLower D := by
  ext i j
  simp only [unpackL, unitLower, Matrix.of_apply]
  rcases lt_trichotomy i j with h | h | h
  · simp [h.ne, h.le, not_lt.2 h.le]
  · simp [h]
  · simp [h.ne', not_le.2 h, h]

theorem unitLower_det (D : Matrix (Fin n) (Fin n) ℝ) : (unitLower D).det = 1 := by
  rw [Matrix.det_of_isLowerTriangular]
  · simp [unitLower]
  · intro i j h
    have h : i < j := h
    simp [unitLower, not_lt.2 h.le, h.ne]

theorem upperTri_det (D : Matrix (Fin n) (Fin n) ℝ) : (upperTri D).det = ∏ i, D i i := by
  rw [Matrix.det_of_isUpperTriangular]
  · simp [upperTri]
  · intro i j h
    have h : j < i := h
    simp [upperTri, not_le.2 h]

theorem unitLower_inv (D : Matrix (Fin n) (Fin n) ℝ) : (unitLower D)⁻¹ * unitLower D = 1 :=
  Matrix.nonsing_inv_mul _ (by rw [unitLower_det]; exact isUnit_one)

theorem upperTri_inv {D : Matrix (Fin n) (Fin n) ℝ} (h : ∀ i, D i i ≠ 0) : (upperTri D)⁻¹ * upperTri D = 1 :=
  Matrix.nonsing_inv_mul _ (by
    rw [upperTri_det]; exact (Finset.prod_ne_zero_iff.2 fun i _ => h i).isUnit)

/-- `P L U = A` in terms of the unpacked factors. -/
theorem Factors.plu {A : Matrix (Fin n) (Fin n) ℝ} {lu : PackedLU n} (h : Factors A lu) :
    unpackP lu.piv * unpackL lu.data * unpackU lu.data = A := by
  rw [unpackL_eq, unpackU_eq, mul_assoc, ← h.eq, ← unpackP_transpose_mul, ← mul_assoc, unpackP_mul_transpose,
    one_mul]

/-- A matrix factorised as `P L U` with the right diagonal and pivots. -/
theorem Factors.of_plu {A : Matrix (Fin n) (Fin n) ℝ} {lu : PackedLU n}
    (h : unpackP lu.piv * unpackL lu.data * unpackU lu.data = A) (hd : ∀ i, lu.data i i ≠ 0)
    (hr : ∀ k : Fin n, k < lu.piv k ∧ lu.piv k ≤ n) : Factors A lu := by
  refine ⟨?_, hd, hr⟩
  rw [← unpackP_transpose_mul, ← h, unpackL_eq, unpackU_eq, mul_assoc, ← mul_assoc, unpackP_transpose_mul_self,
    one_mul]

theorem Factors.btrisolve_mul {A : Matrix (Fin n) (Fin n) ℝ} {lu : PackedLU n} (h : Factors A lu)
    (X : Matrix (Fin n) (Fin m) ℝ) : btrisolve lu (A * X) = X := by
  unfold btrisolve
  rw [← unpackP_transpose_mul, ← Matrix.mul_assoc (unpackP lu.piv)ᵀ, unpackP_transpose_mul, h.eq,
    Matrix.mul_assoc (unitLower lu.data), ← Matrix.mul_assoc (unitLower lu.data)⁻¹, unitLower_inv, Matrix.one_mul,
    ← Matrix.mul_assoc, upperTri_inv h.diag, Matrix.one_mul]

theorem Factors.det_ne {A : Matrix (Fin n) (Fin n) ℝ} {lu : PackedLU n} (h : Factors A lu) : A.det ≠ 0 := by
  have h1 : btrisolve lu (A * 1) = 1 := h.btrisolve_mul 1
  intro h0
  have e := h.plu
  have hd : (unpackP lu.piv).det * (upperTri lu.data).det = 0 := by
    rw [← h0, ← e, Matrix.det_mul, Matrix.det_mul, unpackL_eq, unitLower_det, mul_one, unpackU_eq]
  rw [upperTri_det] at hd
  have hP : (unpackP lu.piv).det ≠ 0 := by
    intro hz
    have := congrArg Matrix.det (unpackP_mul_transpose lu.piv)
    rw [Matrix.det_mul, hz, zero_mul, Matrix.det_one] at this
    exact zero_ne_one this
  exact (mul_ne_zero hP (Finset.prod_ne_zero_iff.2 fun i _ => h.diag i)) hd

/-- `btrisolve` multiplies by the inverse. -/
theorem Factors.btrisolve_eq {A : Matrix (Fin n) (Fin n) ℝ} {lu : PackedLU n} (h : Factors A lu)
    (X : Matrix (Fin n) (Fin m) ℝ) : btrisolve lu X = A⁻¹ * X := by
  have := h.btrisolve_mul (A⁻¹ * X)
  rwa [← Matrix.mul_assoc, Matrix.mul_nonsing_inv _ h.det_ne.isUnit, Matrix.one_mul] at this

theorem btrisolveV_eq_btrisolve (lu : PackedLU n) (v : Fin n → ℝ) :
    btrisolveV lu v = fun i => btrisolve lu (Matrix.of fun i (_ : Fin 1) => v i) i 0 := by
  have hl : laswpM lu.piv (Matrix.of fun i (_ : Fin 1) => v i) = Matrix.of fun i _ => laswp lu.piv v i := by
    rw [laswpM_eq, laswp_eq]; rfl
  unfold btrisolveV btrisolve
  rw [hl]
  funext i
  simp [Matrix.mul_apply, Matrix.mulVec, dotProduct]

theorem Factors.btrisolveV_eq {A : Matrix (Fin n) (Fin n) ℝ} {lu : PackedLU n} (h : Factors A lu)
    (v : Fin n → ℝ) : btrisolveV lu v = A⁻¹ *ᵥ v := by
  rw [btrisolveV_eq_btrisolve, h.btrisolve_eq]
  funext i
  simp [Matrix.mul_apply, Matrix.mulVec, dotProduct]

end LcpPhysics
