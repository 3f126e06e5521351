import Verif.Spec.Backward
import Verif.Spec.Kkt
import Mathlib.Analysis.Calculus.Deriv.Add
import Mathlib.Analysis.Calculus.Deriv.Mul
import Mathlib.Tactic.LinearCombination

/-! # Helper lemmas for the backward pass -/

noncomputable section

namespace LcpPhysics
open Matrix Spec

variable {nz nineq neq : ℕ}

theorem hasDerivAt_dot {n : ℕ} {f g : ℝ → Fin n → ℝ} {f' g' : Fin n → ℝ} (hf : ∀ i, HasDerivAt (fun t => f t i) (f' i) 0)
    (hg : ∀ i, HasDerivAt (fun t => g t i) (g' i) 0) :
    HasDerivAt (fun t => ∑ i, f t i * g t i) (∑ i, (f' i * g 0 i + f 0 i * g' i)) 0 :=
  HasDerivAt.fun_sum fun i _ => (hf i).mul (hg i)

theorem deriv_zero_of_const {f : ℝ → ℝ} {f' c : ℝ} (h : HasDerivAt f f' 0) (hc : ∀ t, f t = c) : f' = 0 := by
  have : f = fun _ => c := funext hc
  rw [this] at h
  exact h.unique (hasDerivAt_const _ _)

/-- Differentiating the optimality conditions gives a Newton system. -/
theorem solutionCurve_newton {P : ℝ → Lcp nz nineq neq} {v : ℝ → Iter nz nineq neq} {dP : Lcp nz nineq neq}
    {dv : Iter nz nineq neq} (h : SolutionCurve P v dP dv) (hs : ∀ i, (v 0).s i ≠ 0) :
    NewtonStep (P 0).Q (P 0).G (P 0).A (P 0).F (fun i => (v 0).z i / (v 0).s i)
      (dP.Q *ᵥ (v 0).x + dP.p + dP.Gᵀ *ᵥ (v 0).z + dP.Aᵀ *ᵥ (v 0).y) 0
      (dP.G *ᵥ (v 0).x - dP.h - dP.F *ᵥ (v 0).z) (dP.A *ᵥ (v 0).x - dP.b) dv.x dv.s dv.z dv.y := by
  refine ⟨?_, fun i => ?_, ?_, ?_⟩
  · funext k
    have e := deriv_zero_of_const ((((hasDerivAt_dot (h.dQ k) h.dx).add (h.dp k)).add
      (hasDerivAt_dot (fun i => h.dG i k) h.dz)).add (hasDerivAt_dot (fun i => h.dA i k) h.dy)) (fun t => h.stat t k)
    simp only [Finset.sum_add_distrib] at e
    simp only [Pi.add_apply, Pi.neg_apply, Matrix.mulVec, dotProduct, Matrix.transpose_apply]
    linarith
  · have e := deriv_zero_of_const ((h.ds i).mul (h.dz i)) (fun t => h.compl t i)
    have := hs i
    simp only [Pi.zero_apply, neg_zero]
    field_simp
    linarith
  · funext i
    have e := deriv_zero_of_const ((((hasDerivAt_dot (h.dG i) h.dx).add (h.ds i)).sub (h.dh i)).sub
      (hasDerivAt_dot (h.dF i) h.dz)) (fun t => h.ineq t i)
    simp only [Finset.sum_add_distrib] at e
    simp only [Pi.add_apply, Pi.sub_apply, Pi.neg_apply, Matrix.mulVec, dotProduct]
    linarith
  · funext i
    have e := deriv_zero_of_const ((hasDerivAt_dot (h.dA i) h.dx).sub (h.db i)) (fun t => h.eq t i)
    simp only [Finset.sum_add_distrib] at e
    simp only [Pi.sub_apply, Pi.neg_apply, Matrix.mulVec, dotProduct]
    linarith

theorem bger_pair {n m : ℕ} (x : Fin n → ℝ) (y : Fin m → ℝ) (M : Matrix (Fin n) (Fin m) ℝ) :
    ∑ i, ∑ j, bger x y i j * M i j = x ⬝ᵥ (M *ᵥ y) := by
  simp only [bger, Matrix.of_apply, dotProduct, Matrix.mulVec, Finset.mul_sum]
  refine Finset.sum_congr rfl fun i _ => Finset.sum_congr rfl fun j _ => by ring

/-- Adjoint identity between two Newton systems: the error term is the asymmetry of `F`. -/
theorem newton_adjoint {Q : Matrix (Fin nz) (Fin nz) ℝ} {G : Matrix (Fin nineq) (Fin nz) ℝ}
    {A : Matrix (Fin neq) (Fin nz) ℝ} {F : Matrix (Fin nineq) (Fin nineq) ℝ} {d : Fin nineq → ℝ}
    (hQ : Qᵀ = Q) {rx dl : Fin nz → ℝ} {rz : Fin nineq → ℝ} {ry : Fin neq → ℝ} {w v : Iter nz nineq neq}
    (hw : NewtonStep Q G A F d dl 0 0 0 w.x w.s w.z w.y) (hv : NewtonStep Q G A F d rx 0 rz ry v.x v.s v.z v.y) :
    dl ⬝ᵥ v.x = w.x ⬝ᵥ rx + w.z ⬝ᵥ rz + w.y ⬝ᵥ ry + w.z ⬝ᵥ ((Fᵀ - F) *ᵥ v.z) := by
  have e0 : dl = -(Q *ᵥ w.x + Gᵀ *ᵥ w.z + Aᵀ *ᵥ w.y) := by rw [hw.dual, neg_neg]
  have a1 : (Q *ᵥ w.x) ⬝ᵥ v.x = w.x ⬝ᵥ (Q *ᵥ v.x) := by
    rw [Matrix.dotProduct_mulVec, ← Matrix.mulVec_transpose, hQ]
  have a2 : (Gᵀ *ᵥ w.z) ⬝ᵥ v.x = w.z ⬝ᵥ (G *ᵥ v.x) := by rw [Matrix.dotProduct_mulVec, Matrix.mulVec_transpose]
  have a3 : (Aᵀ *ᵥ w.y) ⬝ᵥ v.x = w.y ⬝ᵥ (A *ᵥ v.x) := by rw [Matrix.dotProduct_mulVec, Matrix.mulVec_transpose]
  have b1 : Q *ᵥ v.x = -rx - Gᵀ *ᵥ v.z - Aᵀ *ᵥ v.y := by rw [← hv.dual]; abel
  have b2 : G *ᵥ v.x = -rz - v.s + F *ᵥ v.z := by rw [← hv.ineq]; abel
  have b3 : A *ᵥ v.x = -ry := hv.eq
  have c1 : w.x ⬝ᵥ (Gᵀ *ᵥ v.z) = (F *ᵥ w.z - w.s) ⬝ᵥ v.z := by
    have : G *ᵥ w.x = F *ᵥ w.z - w.s := by
      have := hw.ineq
      rw [neg_zero] at this
      rw [← sub_eq_zero, ← this]; abel
    rw [Matrix.dotProduct_mulVec, Matrix.vecMul_transpose, this]
  have c2 : w.x ⬝ᵥ (Aᵀ *ᵥ v.y) = 0 := by
    rw [Matrix.dotProduct_mulVec, Matrix.vecMul_transpose, hw.eq, neg_zero, zero_dotProduct]
  have c3 : w.s ⬝ᵥ v.z = w.z ⬝ᵥ v.s := by
    simp only [dotProduct]
    refine Finset.sum_congr rfl fun i _ => ?_
    have h1 := hw.compl i
    have h2 := hv.compl i
    simp only [Pi.zero_apply, neg_zero] at h1 h2
    have e1 : w.z i = -(d i * w.s i) := by linarith
    have e2 : v.z i = -(d i * v.s i) := by linarith
    rw [e1, e2]; ring
  have c4 : w.z ⬝ᵥ (Fᵀ *ᵥ v.z) = (F *ᵥ w.z) ⬝ᵥ v.z := by
    rw [Matrix.dotProduct_mulVec, Matrix.vecMul_transpose]
  rw [e0, neg_dotProduct, add_dotProduct, add_dotProduct, a1, a2, a3, b1, b2, b3]
  simp only [dotProduct_sub, dotProduct_add, dotProduct_neg, Matrix.sub_mulVec]
  rw [c1, c2, c4, sub_dotProduct, c3]
  ring

theorem dot_transpose_mulVec {n m : ℕ} (x : Fin m → ℝ) (M : Matrix (Fin n) (Fin m) ℝ) (y : Fin n → ℝ) :
    x ⬝ᵥ (Mᵀ *ᵥ y) = y ⬝ᵥ (M *ᵥ x) := by
  rw [Matrix.dotProduct_mulVec, Matrix.vecMul_transpose, dotProduct_comm]

end LcpPhysics
