import Verif.Lemmas.Backward
import Verif.Props.Kkt
import Mathlib.Analysis.Calculus.Deriv.Add
import Mathlib.Analysis.Calculus.Deriv.Mul
import Mathlib.Analysis.Calculus.Deriv.Comp
import Mathlib.Analysis.Calculus.Deriv.Prod
import Mathlib.Analysis.SpecialFunctions.ExpDeriv
import Mathlib.Tactic.LinearCombination

/-! # C53: the backward pass -/

noncomputable section

namespace LcpPhysics
open Matrix Spec

variable {nz nineq neq : ℕ}

/-- C53, any `F`: the derivative of a loss along a family of solutions is the inner product with the
returned gradients plus a term that vanishes for symmetric `F`. -/
theorem C53_backward_defect (f : Btrifact) (hf : BtrifactOk f) (P : ℝ → Lcp nz nineq neq) (v : ℝ → Iter nz nineq neq)
    (dP : Lcp nz nineq neq) (dv : Iter nz nineq neq) (hc : SolutionCurve P v dP dv) (hs : ∀ i, 0 < (v 0).s i)
    (hz : ∀ i, 0 < (v 0).z i) (hQ : (P 0).Qᵀ = (P 0).Q) (hdQ : dP.Qᵀ = dP.Q) (K : Kkt nz nineq neq)
    (hK : pre_factor_kkt f (P 0).Q (P 0).G (P 0).F (P 0).A = .ok K) (ds : List (Fin nineq → ℝ))
    (loss : (Fin nz → ℝ) → ℝ) (L : (Fin nz → ℝ) →L[ℝ] ℝ) (hL : HasFDerivAt loss L (v 0).x) (g : Grads nz nineq neq)
    (hg : lcpBackward f (P 0) K (factorHistory f K.R K.S_LU ds) (v 0) (fun k => L (Pi.single k 1)) = some g) :
    HasDerivAt (fun t => loss (v t).x) (gradPair g dP - g.dh ⬝ᵥ (((P 0).Fᵀ - (P 0).F) *ᵥ dv.z)) 0 := by
  have hd : ∀ i, (v 0).z i / (v 0).s i ≠ 0 := fun i => (div_pos (hz i) (hs i)).ne'
  obtain ⟨S', hS', rfl⟩ := Option.map_eq_some_iff.1 hg
  set dl : Fin nz → ℝ := fun k => L (Pi.single k 1) with hdl
  have hw := C44_factor_and_solve f hf _ _ _ _ hQ K hK ds _ hd S' hS' dl 0 0 0
  set w := solve_kkt K.Q_LU (fun i => (v 0).z i / (v 0).s i) (P 0).G (P 0).A S' dl 0 0 0 with hwdef
  simp only at hw
  have hv := solutionCurve_newton hc (fun i => (hs i).ne')
  have key := newton_adjoint hQ hw hv
  have hx : HasDerivAt (fun t => (v t).x) dv.x 0 := hasDerivAt_pi.2 hc.dx
  have hcomp : HasDerivAt (fun t => loss (v t).x) (L dv.x) 0 := hL.comp_hasDerivAt (0 : ℝ) hx
  have hLx : L dv.x = dl ⬝ᵥ dv.x := by
    have : dv.x = ∑ k, dv.x k • (Pi.single k 1 : Fin nz → ℝ) := by
      funext j
      simp [Finset.sum_apply, Pi.single_apply]
    conv_lhs => rw [this]
    rw [map_sum]
    simp only [map_smul, smul_eq_mul, dotProduct, hdl]
    exact Finset.sum_congr rfl fun k _ => mul_comm _ _
  rw [hLx, key] at hcomp
  convert hcomp using 1
  have hsymm : (v 0).x ⬝ᵥ (dP.Q *ᵥ w.x) = w.x ⬝ᵥ (dP.Q *ᵥ (v 0).x) := by
    rw [← dot_transpose_mulVec, hdQ]
  unfold gradPair
  simp only [Matrix.add_apply, Matrix.neg_apply, Matrix.smul_apply, Pi.neg_apply, add_mul, neg_mul, mul_add,
    Finset.sum_add_distrib, Finset.sum_neg_distrib, smul_eq_mul, mul_assoc, ← Finset.mul_sum]
  simp only [bger_pair, hsymm]
  simp only [dotProduct_add, dotProduct_sub, dot_transpose_mulVec, neg_dotProduct]
  simp only [dotProduct]
  ring

/-- C53: for symmetric `F` the backward pass returns the gradient of the loss. -/
theorem C53_backward_symmetric (f : Btrifact) (hf : BtrifactOk f) (P : ℝ → Lcp nz nineq neq) (v : ℝ → Iter nz nineq neq)
    (dP : Lcp nz nineq neq) (dv : Iter nz nineq neq) (hc : SolutionCurve P v dP dv) (hs : ∀ i, 0 < (v 0).s i)
    (hz : ∀ i, 0 < (v 0).z i) (hQ : (P 0).Qᵀ = (P 0).Q) (hdQ : dP.Qᵀ = dP.Q) (hF : (P 0).Fᵀ = (P 0).F)
    (K : Kkt nz nineq neq) (hK : pre_factor_kkt f (P 0).Q (P 0).G (P 0).F (P 0).A = .ok K)
    (ds : List (Fin nineq → ℝ)) (loss : (Fin nz → ℝ) → ℝ) (L : (Fin nz → ℝ) →L[ℝ] ℝ)
    (hL : HasFDerivAt loss L (v 0).x) (g : Grads nz nineq neq)
    (hg : lcpBackward f (P 0) K (factorHistory f K.R K.S_LU ds) (v 0) (fun k => L (Pi.single k 1)) = some g) :
    HasDerivAt (fun t => loss (v t).x) (gradPair g dP) 0 := by
  have := C53_backward_defect f hf P v dP dv hc hs hz hQ hdQ K hK ds loss L hL g hg
  rwa [hF, sub_self, Matrix.zero_mulVec, dotProduct_zero, sub_zero] at this

/-! ## A family with a skew-symmetric `F` -/

/-- `min x²/2` with two constraints, `F = [[0, c], [-c, 0]]`, and right hand sides such that the
multipliers move as `(exp t, 1)`. -/
def skewProb (c t : ℝ) : Lcp 1 2 0 :=
  { Q := 1, p := 0, G := !![1; 1], A := 0, b := 0, F := !![0, c; -c, 0]
    h := ![-(Real.exp t + 1) + Real.exp (-t) - c, -(Real.exp t + 1) + 1 + c * Real.exp t] }

/-- Its solutions with `s z = 1`. -/
def skewSol (t : ℝ) : Iter 1 2 0 :=
  { x := fun _ => -(Real.exp t + 1), s := ![Real.exp (-t), 1], z := ![Real.exp t, 1], y := 0 }

/-- The derivative of the problem data. -/
def skewDir (c : ℝ) : Lcp 1 2 0 := { Q := 0, p := 0, G := 0, A := 0, b := 0, F := 0, h := ![-2, c - 1] }

/-- The derivative of the solutions. -/
def skewVel : Iter 1 2 0 := { x := fun _ => -1, s := ![-1, 0], z := ![1, 0], y := 0 }

theorem skew_curve (c : ℝ) : SolutionCurve (skewProb c) skewSol (skewDir c) skewVel := by
  have he : HasDerivAt Real.exp 1 0 := by simpa using Real.hasDerivAt_exp 0
  have hn : HasDerivAt (fun t : ℝ => Real.exp (-t)) (-1) 0 := by
    simpa using (hasDerivAt_neg (0 : ℝ)).exp
  constructor
  · intro t k; fin_cases k; simp [skewProb, skewSol, Fin.sum_univ_two]
  · intro t i; fin_cases i <;> simp [skewProb, skewSol, Fin.sum_univ_two]
  · intro t i; exact i.elim0
  · intro t i; fin_cases i <;> simp [skewSol, ← Real.exp_add]
  · intro i j; exact hasDerivAt_const _ _
  · intro i; exact hasDerivAt_const _ _
  · intro i j; exact hasDerivAt_const _ _
  · intro i
    fin_cases i
    · have := (((he.add_const 1).neg).add hn).sub_const c
      have e := this.congr_deriv (by norm_num : _ = (-2:ℝ))
      exact e
    · have := (((he.add_const 1).neg).add_const 1).add (he.const_mul c)
      have e := this.congr_deriv (by ring : _ = c - 1)
      exact e
  · intro i; exact i.elim0
  · intro i; exact i.elim0
  · intro i j; exact hasDerivAt_const _ _
  · intro i; exact (he.add_const 1).neg
  · intro i
    fin_cases i
    · exact hn
    · exact hasDerivAt_const _ _
  · intro i
    fin_cases i
    · exact he
    · exact hasDerivAt_const _ _
  · intro i; exact i.elim0

/-- The backward pass succeeds on this family and the gradient of `x` in the direction of
the family is not `-1` in general. -/
theorem skew_backward (f : Btrifact) (hf : BtrifactOk f) (c : ℝ) :
    ∃ K g, pre_factor_kkt f (skewProb c 0).Q (skewProb c 0).G (skewProb c 0).F (skewProb c 0).A = .ok K ∧
      lcpBackward f (skewProb c 0) K K.S_LU (skewSol 0) (fun _ => 1) = some g ∧
      gradPair g (skewDir c) = (c - 1) * (c + 3) / (c ^ 2 + 3) := by
  obtain ⟨K, hK, hfac⟩ := C45_monotone_never_raises f hf (skewProb c 0).Q (skewProb c 0).G (skewProb c 0).F (skewProb c 0).A
    (by simp [skewProb]) (by
      intro v hv
      have : v 0 ≠ 0 := fun h => hv (by funext i; fin_cases i; exact h)
      simp [skewProb, Matrix.one_mulVec, dotProduct]
      exact this) (by intro w _; funext i; exact i.elim0) (by
      intro w
      simp [skewProb, Matrix.mulVec, dotProduct, Fin.sum_univ_two]
      apply le_of_eq; ring)
  obtain ⟨S', hS'⟩ := hfac [] (fun i => (skewSol 0).z i / (skewSol 0).s i) (by
    intro i; fin_cases i <;> simp [skewSol])
  have hw := C44_factor_and_solve f hf _ _ _ _ (by simp [skewProb]) K hK [] _ (by
    intro i; fin_cases i <;> simp [skewSol]) S' hS' (fun _ => 1) 0 0 0
  simp only [factorHistory, List.foldl_nil] at hS' hw
  refine ⟨K, _, hK, by rw [lcpBackward, hS']; rfl, ?_⟩
  set w := solve_kkt K.Q_LU (fun i => (skewSol 0).z i / (skewSol 0).s i) (skewProb c 0).G (skewProb c 0).A S' (fun _ => 1) 0 0 0
  have h1 := congrFun hw.dual 0
  have h2 := hw.compl 0
  have h3 := hw.compl 1
  have h4 := congrFun hw.ineq 0
  have h5 := congrFun hw.ineq 1
  simp [skewProb, skewSol, Matrix.mulVec, dotProduct, Fin.sum_univ_two] at h1 h2 h3 h4 h5
  have v0 : vecHead w.s = w.s 0 := rfl
  have v1 : vecHead (vecTail w.s) = w.s 1 := rfl
  rw [v0] at h4
  rw [v1] at h5
  have hpair : ∀ g : Grads 1 2 0, gradPair g (skewDir c) = -2 * g.dh 0 + (c - 1) * g.dh 1 := by
    intro g
    simp [gradPair, skewDir, Fin.sum_univ_two]
    ring
  rw [hpair]
  change -2 * -w.z 0 + (c - 1) * -w.z 1 = _
  have hc : c ^ 2 + 3 ≠ 0 := by positivity
  rw [eq_div_iff hc]
  have e1 : w.z 0 = w.x 0 - c * w.z 1 := by linarith
  have e2 : w.z 1 = w.x 0 + c * w.z 0 := by linarith
  have e3 : w.x 0 + w.z 0 + w.z 1 = -1 := by linarith
  linear_combination (3 + 2 * c - c ^ 2) * e1 - 4 * c * e2 + (1 - c) * (c + 3) * e3

/-- C53, negation for asymmetric `F`: on a family with a skew-symmetric `F` the backward pass returns
gradients that claim the loss is stationary while its derivative is `-1`. -/
theorem C53_asymmetric_wrong (f : Btrifact) (hf : BtrifactOk f) :
    ∃ (P : ℝ → Lcp 1 2 0) (v : ℝ → Iter 1 2 0) (dP : Lcp 1 2 0) (dv : Iter 1 2 0) (K : Kkt 1 2 0) (g : Grads 1 2 0),
      SolutionCurve P v dP dv ∧ (∀ t i, 0 < (v t).s i ∧ 0 < (v t).z i) ∧
      (∀ t w, 0 ≤ w ⬝ᵥ ((P t).F *ᵥ w)) ∧
      pre_factor_kkt f (P 0).Q (P 0).G (P 0).F (P 0).A = .ok K ∧
      lcpBackward f (P 0) K K.S_LU (v 0) (fun _ => 1) = some g ∧ gradPair g dP = 0 ∧
      HasDerivAt (fun t => (v t).x 0) (-1) 0 := by
  obtain ⟨K, g, hK, hg, hp⟩ := skew_backward f hf 1
  refine ⟨skewProb 1, skewSol, skewDir 1, skewVel, K, g, skew_curve 1, ?_, ?_, hK, hg, ?_, (skew_curve 1).dx 0⟩
  · intro t i
    fin_cases i <;> simp [skewSol, Real.exp_pos]
  · intro t w
    simp [skewProb, Matrix.mulVec, dotProduct, Fin.sum_univ_two]
    apply le_of_eq; ring
  · rw [hp]; norm_num

/-- Non-vacuity of `C53_backward_symmetric`: the family with `F = 0`. -/
example (f : Btrifact) (hf : BtrifactOk f) : ∃ K g,
    pre_factor_kkt f (skewProb 0 0).Q (skewProb 0 0).G (skewProb 0 0).F (skewProb 0 0).A = .ok K ∧
    lcpBackward f (skewProb 0 0) K (factorHistory f K.R K.S_LU []) (skewSol 0)
      (fun k => (ContinuousLinearMap.proj 0 : (Fin 1 → ℝ) →L[ℝ] ℝ) (Pi.single k 1)) = some g ∧
    gradPair g (skewDir 0) = -1 ∧ SolutionCurve (skewProb 0) skewSol (skewDir 0) skewVel ∧
    (skewProb 0 0).Fᵀ = (skewProb 0 0).F ∧
    HasDerivAt (fun t => (fun x : Fin 1 → ℝ => x 0) (skewSol t).x) (gradPair g (skewDir 0)) 0 := by
  obtain ⟨K, g, hK, hg, hp⟩ := skew_backward f hf 0
  have hone : (fun k => (ContinuousLinearMap.proj 0 : (Fin 1 → ℝ) →L[ℝ] ℝ) (Pi.single k 1)) = fun _ => 1 := by
    funext k; fin_cases k; simp
  have hF : (skewProb 0 0).Fᵀ = (skewProb 0 0).F := by
    ext i j; fin_cases i <;> fin_cases j <;> simp [skewProb]
  refine ⟨K, g, hK, by rw [hone]; exact hg, by rw [hp]; norm_num, skew_curve 0, hF, ?_⟩
  exact C53_backward_symmetric f hf (skewProb 0) skewSol (skewDir 0) skewVel (skew_curve 0)
    (fun i => by fin_cases i <;> simp [skewSol]) (fun i => by fin_cases i <;> simp [skewSol])
    (by simp [skewProb]) (by simp [skewDir]) hF K hK [] (fun x => x 0) (ContinuousLinearMap.proj 0)
    (ContinuousLinearMap.hasFDerivAt (ContinuousLinearMap.proj 0 : (Fin 1 → ℝ) →L[ℝ] ℝ)) g (by rw [hone]; exact hg)

end LcpPhysics
