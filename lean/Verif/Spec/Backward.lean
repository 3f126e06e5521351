import Verif.Model.Pdipm
import Mathlib.Analysis.Calculus.Deriv.Basic

/-! # Specification vocabulary: derivatives of the solution map -/

noncomputable section

namespace LcpPhysics.Spec
open Matrix

variable {nz nineq neq : ℕ}

/-- A differentiable family of problems with a differentiable family of interior solutions, the
products `s z` being held fixed. -/
structure SolutionCurve (P : ℝ → Lcp nz nineq neq) (v : ℝ → Iter nz nineq neq) (dP : Lcp nz nineq neq)
    (dv : Iter nz nineq neq) : Prop where
  stat : ∀ t k, ∑ j, (P t).Q k j * (v t).x j + (P t).p k + ∑ i, (P t).G i k * (v t).z i +
    ∑ i, (P t).A i k * (v t).y i = 0
  ineq : ∀ t i, ∑ j, (P t).G i j * (v t).x j + (v t).s i - (P t).h i - ∑ j, (P t).F i j * (v t).z j = 0
  eq : ∀ t i, ∑ j, (P t).A i j * (v t).x j - (P t).b i = 0
  compl : ∀ t i, (v t).s i * (v t).z i = (v 0).s i * (v 0).z i
  dQ : ∀ i j, HasDerivAt (fun t => (P t).Q i j) (dP.Q i j) 0
  dp : ∀ i, HasDerivAt (fun t => (P t).p i) (dP.p i) 0
  dG : ∀ i j, HasDerivAt (fun t => (P t).G i j) (dP.G i j) 0
  dh : ∀ i, HasDerivAt (fun t => (P t).h i) (dP.h i) 0
  dA : ∀ i j, HasDerivAt (fun t => (P t).A i j) (dP.A i j) 0
  db : ∀ i, HasDerivAt (fun t => (P t).b i) (dP.b i) 0
  dF : ∀ i j, HasDerivAt (fun t => (P t).F i j) (dP.F i j) 0
  dx : ∀ i, HasDerivAt (fun t => (v t).x i) (dv.x i) 0
  ds : ∀ i, HasDerivAt (fun t => (v t).s i) (dv.s i) 0
  dz : ∀ i, HasDerivAt (fun t => (v t).z i) (dv.z i) 0
  dy : ∀ i, HasDerivAt (fun t => (v t).y i) (dv.y i) 0

/-- The inner product of the returned gradients with a direction. -/
def gradPair (g : Grads nz nineq neq) (dP : Lcp nz nineq neq) : ℝ :=
  ∑ i, ∑ j, g.dQ i j * dP.Q i j + ∑ i, g.dp i * dP.p i + ∑ i, ∑ j, g.dG i j * dP.G i j + ∑ i, g.dh i * dP.h i +
    ∑ i, ∑ j, g.dA i j * dP.A i j + ∑ i, g.db i * dP.b i + ∑ i, ∑ j, g.dF i j * dP.F i j

end LcpPhysics.Spec
