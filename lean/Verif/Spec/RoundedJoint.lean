import Verif.Spec.Rounded
import Verif.Spec.RoundedWorld
import Verif.Model.RoundedJoint

/-! # Vocabulary for constraints in double precision -/

noncomputable section

namespace LcpPhysics.Spec
open Rounded

/-- The arc tangent of two arguments within one unit in the last place of `π`, and `2π` within two such units. -/
structure PolarArith (fatan : ℝ → ℝ → ℝ) (tau : ℝ) : Prop where
  atan : ∀ y x, |fatan y x - Complex.arg ⟨x, y⟩| ≤ 1 / 2 ^ 51
  tau : |tau - 2 * Real.pi| ≤ 1 / 2 ^ 50

/-- A constraint apart from `rot2`, which no computation of the library reads. -/
def noRot2 (j : Joint) : Joint := { j with rot2 := 0 }

/-- The angle stored in constraint `k`. -/
def anchorAngle (w : Jointed) (k : ℕ) : ℝ := (w.joints.getD k (mkAxis .rotc [] 0)).rot1

/-- The angle of body `i`. -/
def bodyAngle (w : Jointed) (i : ℕ) : ℝ := (bodyAt w.bodies i).p.r

/-- The angles of constraint `k` and of body `i` stay below a bound in size throughout a run. -/
def AnglesBelow (A : Arith) (B : ℝ) (w : Jointed) (cs : List Call) (k i : ℕ) : Prop :=
  ∀ m ≤ cs.length, |bodyAngle (runJ A w (cs.take m)) i| ≤ B ∧ |anchorAngle (runJ A w (cs.take m)) k| ≤ B

end LcpPhysics.Spec
