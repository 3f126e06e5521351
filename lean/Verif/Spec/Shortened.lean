import Verif.Spec.Impact
import Verif.Model.World

/-! # Specification: what a force does to a body that is left alone -/

noncomputable section

namespace LcpPhysics.Spec

/-- No joint holds body `i` and nothing is in contact with it. -/
def LeftAlone {σ φ : Type} (w : World σ φ) (i : ℕ) : Prop :=
  (∀ j ∈ w.joints, j.i1 ≠ i ∧ i ∉ j.i2) ∧ ∀ c ∈ w.contacts, c.i1 ≠ i ∧ c.i2 ≠ i

/-- Acceleration of the body `b` by the force `F` (a torque and two components). -/
def accel (b : Body) (F : V3) : V3 := ⟨F.r / b.ang_inertia, F.x / b.mass, F.y / b.mass⟩

/-- Energy of the body `b` with velocity `u` in a field of gravity `γ`; the y axis points downwards. -/
def fallEnergy (b : Body) (γ : ℝ) (u : V3) : ℝ :=
  b.mass * (u.x ^ 2 + u.y ^ 2) / 2 + b.ang_inertia * u.r ^ 2 / 2 - b.mass * γ * b.p.y

end LcpPhysics.Spec
