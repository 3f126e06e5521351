import Verif.Spec.Impact
import Verif.Model.World

/-! # Specification: a body on a pivot -/

noncomputable section

namespace LcpPhysics.Spec

/-- The joint number `k` pins body `i` to the world, and no other joint holds the body. -/
def PinnedBy (js : List Joint) (i k : ℕ) : Prop :=
  (∃ j, js[k]? = some j ∧ j.kind = .revolute ∧ j.i1 = i ∧ j.i2 = none) ∧
  ∀ q j, js[q]? = some j → q ≠ k → j.i1 ≠ i ∧ i ∉ j.i2

/-- Place of the pivot as joint number `k` has it. -/
def pivotAt {σ φ : Type} (w : World σ φ) (k : ℕ) : V2 := match w.joints[k]? with
  | some j => j.pos
  | none => 0

/-- The pivot as seen from the centre of body `i`. -/
def armOf {σ φ : Type} (w : World σ φ) (i k : ℕ) : V2 := pivotAt w k - (bodyAt w.bodies i).pos

/-- Velocity of a body that turns with angular velocity `ω` about the point at the offset `a` from its centre. -/
def turnAbout (a : V2) (ω : ℝ) : V3 := ⟨ω, ω * a.2, -(ω * a.1)⟩

/-- The part of the moment of inertia about the pivot that is not that about the centre. -/
def pivotShare (m I : ℝ) (a : V2) : ℝ := m * (a.1 ^ 2 + a.2 ^ 2) / (I + m * (a.1 ^ 2 + a.2 ^ 2))

end LcpPhysics.Spec
