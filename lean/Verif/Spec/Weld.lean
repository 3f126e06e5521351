import Verif.Spec.Impact
import Verif.Model.World

/-! # Specification: two bodies fixed to each other -/

noncomputable section

namespace LcpPhysics.Spec

/-- The joint number `k` fixes body `j` to body `i`, and no other joint holds either. -/
def WeldedBy (js : List Joint) (i j k : ℕ) : Prop :=
  (∃ J, js[k]? = some J ∧ J.kind = .fixed ∧ J.i1 = i ∧ J.i2 = some j) ∧
  ∀ q J, js[q]? = some J → q ≠ k → (J.i1 ≠ i ∧ i ∉ J.i2) ∧ (J.i1 ≠ j ∧ j ∉ J.i2)

/-- The centre of body `j` as seen from that of body `i`. -/
def offset (bs : List Body) (i j : ℕ) : V2 := (bodyAt bs j).pos - (bodyAt bs i).pos

/-- Square of the distance of the centres of two bodies. -/
def gapSq (bs : List Body) (i j : ℕ) : ℝ := (offset bs i j).1 ^ 2 + (offset bs i j).2 ^ 2

/-- Reduced mass of two bodies. -/
def reducedMass (bs : List Body) (i j : ℕ) : ℝ :=
  (bodyAt bs i).mass * (bodyAt bs j).mass / ((bodyAt bs i).mass + (bodyAt bs j).mass)

/-- Moment of inertia of two bodies about their common centre of mass. -/
def pairInertia (bs : List Body) (i j : ℕ) : ℝ :=
  (bodyAt bs i).ang_inertia + (bodyAt bs j).ang_inertia + reducedMass bs i j * gapSq bs i j

/-- Angular momentum of two bodies about their common centre of mass. -/
def pairSpin (bs : List Body) (v : Vec) (i j : ℕ) : ℝ :=
  (bodyAt bs i).ang_inertia * (twist v i).r + (bodyAt bs j).ang_inertia * (twist v j).r +
  reducedMass bs i j * ((offset bs i j).1 * ((twist v j).y - (twist v i).y) - (offset bs i j).2 * ((twist v j).x - (twist v i).x))

end LcpPhysics.Spec
