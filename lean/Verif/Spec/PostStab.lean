import Verif.Spec.Contact

/-! # Specification: post-stabilization displacement -/

noncomputable section

namespace LcpPhysics.Spec

/-- `dp` cancels the constraint velocities of `v` and opens contacts, by joint impulses `l` and
non-negative contact impulses `pn` only. -/
structure PostStabLaw (bs : List Body) (js : List Joint) (cs : List Contact) (v dp : Vec) (l : Vec)
    (pn : ℕ → ℝ) : Prop where
  dynamics : ∀ u : Vec, momentumPower bs u dp = jointPower js l u + contactPower cs pn (fun _ => 0) u
  joints : ∀ x ∈ jointVels js (dp + v), x = 0
  nonneg : ∀ i < cs.length, 0 ≤ pn i
  contacts : ∀ (i : ℕ) (h : i < cs.length),
    0 ≤ normalVel cs[i] dp + (1 - meanRestitution bs cs[i]) * normalVel cs[i] v ∧
    pn i * (normalVel cs[i] dp + (1 - meanRestitution bs cs[i]) * normalVel cs[i] v) = 0

end LcpPhysics.Spec
