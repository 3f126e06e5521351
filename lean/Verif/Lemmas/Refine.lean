import Verif.Spec.Refine
import Verif.Lemmas.Lu
import Mathlib.LinearAlgebra.Matrix.ToLinearEquiv
import Mathlib.Algebra.Order.BigOperators.Ring.Finset
import Mathlib.Tactic.LinearCombination
import Mathlib.Tactic.Linarith
import Mathlib.Tactic.FieldSimp
import Mathlib.Tactic.Positivity

/-! # Helper lemmas: regularised KKT solves -/

noncomputable section

namespace LcpPhysics
open Matrix Spec

variable {nz nineq neq a b : ℕ}

theorem catBlocks_mulVec (A : Matrix (Fin a) (Fin a) ℝ) (B : Matrix (Fin a) (Fin b) ℝ) (C : Matrix (Fin b) (Fin a) ℝ)
    (D : Matrix (Fin b) (Fin b) ℝ) (v : Fin (a + b) → ℝ) :
    catBlocks A B C D *ᵥ v = Fin.addCases (A *ᵥ (fun i => v (Fin.castAdd b i)) + B *ᵥ (fun i => v (Fin.natAdd a i)))
      (C *ᵥ (fun i => v (Fin.castAdd b i)) + D *ᵥ (fun i => v (Fin.natAdd a i))) := by
  funext i
  induction i using Fin.addCases <;> simp [catBlocks, Matrix.mulVec, dotProduct, Fin.sum_univ_add]

theorem blockA_mulVec (G : Matrix (Fin nineq) (Fin nz) ℝ) (A : Matrix (Fin neq) (Fin nz) ℝ) (v : Fin (nz + nineq) → ℝ) :
    blockA G A *ᵥ v = Fin.addCases (G *ᵥ (fun i => v (Fin.castAdd nineq i)) + fun i => v (Fin.natAdd nz i))
      (A *ᵥ fun i => v (Fin.castAdd nineq i)) := by
  funext i
  induction i using Fin.addCases <;>
    simp [blockA, Matrix.mulVec, dotProduct, Fin.sum_univ_add, Matrix.one_apply]

theorem blockA_transpose_mulVec (G : Matrix (Fin nineq) (Fin nz) ℝ) (A : Matrix (Fin neq) (Fin nz) ℝ)
    (w : Fin (nineq + neq) → ℝ) :
    (blockA G A)ᵀ *ᵥ w = Fin.addCases (Gᵀ *ᵥ (fun i => w (Fin.castAdd neq i)) + Aᵀ *ᵥ (fun i => w (Fin.natAdd nineq i)))
      (fun i => w (Fin.castAdd neq i)) := by
  funext i
  induction i using Fin.addCases <;>
    simp [blockA, Matrix.mulVec, dotProduct, Fin.sum_univ_add, Matrix.one_apply]

/-- The elimination solves the block system. -/
theorem saddle_solve {n m : ℕ} {H : Matrix (Fin n) (Fin n) ℝ} {A : Matrix (Fin m) (Fin n) ℝ} {S : Matrix (Fin m) (Fin m) ℝ}
    {HLU : PackedLU n} {SLU : PackedLU m} (hH : Factors H HLU) (hS : Factors (A * btrisolve HLU Aᵀ + S) SLU)
    (g : Fin n → ℝ) (h : Fin m → ℝ) :
    let w := -btrisolveV SLU (btrisolveV HLU g ᵥ* Aᵀ - h)
    let v := btrisolveV HLU (-g - w ᵥ* A)
    H *ᵥ v + Aᵀ *ᵥ w = -g ∧ A *ᵥ v - S *ᵥ w = -h := by
  intro w v
  have iH : H * H⁻¹ = 1 := Matrix.mul_nonsing_inv _ hH.det_ne.isUnit
  have iS := Matrix.mul_nonsing_inv _ hS.det_ne.isUnit
  have ev : v = H⁻¹ *ᵥ (-g - Aᵀ *ᵥ w) := by
    simp only [v]; rw [hH.btrisolveV_eq, Matrix.mulVec_transpose]
  have ew : (A * btrisolve HLU Aᵀ + S) *ᵥ w = -(A *ᵥ (H⁻¹ *ᵥ g) - h) := by
    simp only [w]
    rw [hS.btrisolveV_eq, Matrix.mulVec_neg, Matrix.mulVec_mulVec, iS, Matrix.one_mulVec, hH.btrisolveV_eq,
      Matrix.vecMul_transpose]
  rw [hH.btrisolve_eq] at ew
  constructor
  · rw [ev, Matrix.mulVec_mulVec, iH, Matrix.one_mulVec]; abel
  · have e2 : A *ᵥ v = -(A *ᵥ (H⁻¹ *ᵥ g)) - (A * (H⁻¹ * Aᵀ)) *ᵥ w := by
      rw [ev, Matrix.mulVec_sub, Matrix.mulVec_sub, Matrix.mulVec_neg, Matrix.mulVec_neg, ← Matrix.mulVec_mulVec,
        ← Matrix.mulVec_mulVec]
    rw [Matrix.add_mulVec] at ew
    rw [e2]
    have := eq_sub_of_add_eq ew
    rw [this]; abel

/-- `factor_solve_kkt_reg` solves the regularised system. -/
theorem RegKkt.solve_spec {f : Btrifact} (hf : BtrifactOk f) {M : RegKkt nz nineq neq} {eps : ℝ}
    {r v : Iter nz nineq neq} (h : M.solve f eps r = some v) : IsZero (kktRes M eps eps v r) := by
  unfold RegKkt.solve factor_solve_kkt_reg factorSolveBlocks at h
  simp only [Option.bind_eq_some_iff, Option.map_eq_some_iff] at h
  obtain ⟨HLU, hH, SLU, hS, rfl⟩ := h
  have key := saddle_solve (hf.sound _ _ _ hH) (hf.sound _ _ _ hS) (Fin.addCases r.x r.s) (Fin.addCases r.z r.y)
  simp only at key
  generalize hw : -btrisolveV SLU (btrisolveV HLU (Fin.addCases r.x r.s) ᵥ* (blockA M.G M.A)ᵀ - Fin.addCases r.z r.y) = w at key ⊢
  generalize hv : btrisolveV HLU (-Fin.addCases r.x r.s - w ᵥ* blockA M.G M.A) = v at key ⊢
  obtain ⟨k1, k2⟩ := key
  rw [blockH, catBlocks_mulVec, blockA_transpose_mulVec] at k1
  rw [blockA_mulVec, regC, Matrix.neg_mulVec, Matrix.sub_mulVec, catBlocks_mulVec] at k2
  refine ⟨?_, ?_, ?_, ?_⟩
  · funext i
    have := congrFun k1 (Fin.castAdd nineq i)
    simp [Matrix.add_mulVec, Matrix.smul_mulVec] at this
    simp only [kktRes, Pi.zero_apply]
    linarith
  · funext i
    have := congrFun k1 (Fin.natAdd nz i)
    simp [Matrix.add_mulVec, Matrix.smul_mulVec] at this
    simp only [kktRes, Pi.zero_apply]
    linarith
  · funext i
    have := congrFun k2 (Fin.castAdd neq i)
    simp [Matrix.neg_mulVec, Matrix.smul_mulVec] at this
    simp only [kktRes, Pi.zero_apply]
    linarith
  · funext i
    have := congrFun k2 (Fin.natAdd nineq i)
    simp [Matrix.neg_mulVec, Matrix.smul_mulVec] at this
    simp only [kktRes, Pi.zero_apply]
    linarith

/-- The residuals the code computes. -/
theorem RegKkt.resid_eq (M : RegKkt nz nineq neq) (eps : ℝ) (v r : Iter nz nineq neq) :
    M.resid eps v r = kktRes M eps 0 v r := by
  have hF : (regC (neq := neq) eps M.F).submatrix (Fin.castAdd neq) (Fin.castAdd neq) = -eps • 1 - M.F := by
    ext i j
    simp [regC, catBlocks, Matrix.one_apply]
  unfold RegKkt.resid
  rw [hF]
  ext i <;> simp [kktRes, kkt_resid_reg, Matrix.sub_mulVec, Matrix.neg_mulVec, Matrix.smul_mulVec] <;> ring

/-- Energy estimate for a correction. -/
theorem energy {M : RegKkt nz nineq neq} {lam eps : ℝ} (hM : Coercive M lam) (he : 0 ≤ eps) {v r : Iter nz nineq neq}
    (h : IsZero (kktRes M eps eps v r)) (hz : r.z = 0) (hy : r.y = 0) :
    (lam + eps) * (∑ i, v.x i ^ 2 + ∑ i, v.s i ^ 2) ≤ -(v.x ⬝ᵥ r.x + v.s ⬝ᵥ r.s) := by
  obtain ⟨h1, h2, h3, h4⟩ := h
  have e1 : v.x ⬝ᵥ (M.Q *ᵥ v.x) + eps * ∑ i, v.x i ^ 2 + v.x ⬝ᵥ (M.Gᵀ *ᵥ v.z) + v.x ⬝ᵥ (M.Aᵀ *ᵥ v.y) + v.x ⬝ᵥ r.x = 0 := by
    have : v.x ⬝ᵥ (kktRes M eps eps v r).x = 0 := by rw [h1, dotProduct_zero]
    rw [← this]
    simp only [kktRes, dotProduct, mul_add, Finset.sum_add_distrib, Finset.mul_sum]
    congr 4
    exact Finset.sum_congr rfl fun i _ => by ring
  have e2 : v.s ⬝ᵥ (M.D *ᵥ v.s) + eps * ∑ i, v.s i ^ 2 + v.s ⬝ᵥ v.z + v.s ⬝ᵥ r.s = 0 := by
    have : v.s ⬝ᵥ (kktRes M eps eps v r).s = 0 := by rw [h2, dotProduct_zero]
    rw [← this]
    simp only [kktRes, dotProduct, mul_add, Finset.sum_add_distrib, Finset.mul_sum]
    congr 3
    exact Finset.sum_congr rfl fun i _ => by ring
  have e3 : v.z ⬝ᵥ (M.G *ᵥ v.x) + v.z ⬝ᵥ v.s - v.z ⬝ᵥ (M.F *ᵥ v.z) - eps * ∑ i, v.z i ^ 2 = 0 := by
    have : v.z ⬝ᵥ (kktRes M eps eps v r).z = 0 := by rw [h3, dotProduct_zero]
    rw [← this]
    simp only [kktRes, dotProduct, mul_add, mul_sub, Finset.sum_add_distrib, Finset.sum_sub_distrib, Finset.mul_sum, hz,
      Pi.zero_apply, mul_zero, Finset.sum_const_zero, add_zero]
    congr 1
    exact Finset.sum_congr rfl fun i _ => by ring
  have e4 : v.y ⬝ᵥ (M.A *ᵥ v.x) - eps * ∑ i, v.y i ^ 2 = 0 := by
    have : v.y ⬝ᵥ (kktRes M eps eps v r).y = 0 := by rw [h4, dotProduct_zero]
    rw [← this]
    simp only [kktRes, dotProduct, mul_add, mul_sub, Finset.sum_add_distrib, Finset.sum_sub_distrib, Finset.mul_sum, hy,
      Pi.zero_apply, mul_zero, Finset.sum_const_zero, add_zero]
    congr 1
    exact Finset.sum_congr rfl fun i _ => by ring
  have t1 : v.x ⬝ᵥ (M.Gᵀ *ᵥ v.z) = v.z ⬝ᵥ (M.G *ᵥ v.x) := by
    rw [Matrix.dotProduct_mulVec, Matrix.vecMul_transpose, dotProduct_comm]
  have t2 : v.x ⬝ᵥ (M.Aᵀ *ᵥ v.y) = v.y ⬝ᵥ (M.A *ᵥ v.x) := by
    rw [Matrix.dotProduct_mulVec, Matrix.vecMul_transpose, dotProduct_comm]
  have t3 : v.s ⬝ᵥ v.z = v.z ⬝ᵥ v.s := dotProduct_comm _ _
  have q := hM.Q v.x
  have d := hM.D v.s
  have ff := hM.F v.z
  have z2 : 0 ≤ eps * ∑ i, v.z i ^ 2 := mul_nonneg he (Finset.sum_nonneg fun i _ => sq_nonneg _)
  have y2 : 0 ≤ eps * ∑ i, v.y i ^ 2 := mul_nonneg he (Finset.sum_nonneg fun i _ => sq_nonneg _)
  rw [t1, t2] at e1
  rw [t3] at e2
  linarith

/-- Cauchy-Schwarz for a pair of vectors. -/
theorem pair_cauchy (u u' : Fin a → ℝ) (w w' : Fin b → ℝ) :
    (∑ i, u i * u' i + ∑ i, w i * w' i) ^ 2 ≤ (∑ i, u i ^ 2 + ∑ i, w i ^ 2) * (∑ i, u' i ^ 2 + ∑ i, w' i ^ 2) := by
  have := Finset.sum_mul_sq_le_sq_mul_sq Finset.univ (Sum.elim u w) (Sum.elim u' w')
  simpa [Fintype.sum_sum_type] using this

end LcpPhysics
