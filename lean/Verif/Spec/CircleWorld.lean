import Verif.Spec.BroadPhase
import Verif.Model.Contacts

/-! # Specification: worlds of circles -/

noncomputable section

namespace LcpPhysics.Spec

/-- How deep two circles overlap (negative: how far apart they are). -/
def overlapDepth (b1 b2 : Body) : ℝ := b1.rad + b2.rad - dist b1.pos b2.pos

/-- No two different bodies that may touch overlap by more than `tol`. -/
def NoOverlap (nc : ℕ → List ℕ) (tol : ℝ) (bs : List Body) : Prop :=
  ∀ i < bs.length, ∀ j < bs.length, i ≠ j → i ∉ nc j → overlapDepth (bodyAt bs i) (bodyAt bs j) ≤ tol

/-- A broad phase: presents only pairs of different existing bodies, and each pair with overlapping
bounding boxes in one order or the other. -/
structure BroadPhase (pairs : List Body → List (ℕ × ℕ)) : Prop where
  valid : ∀ bs, ∀ p ∈ pairs bs, p.1 < bs.length ∧ p.2 < bs.length ∧ p.1 ≠ p.2
  complete : ∀ bs i j, i < bs.length → j < bs.length → i ≠ j →
    AabbOverlap (geomRegion (bodyAt bs i).geom) (geomRegion (bodyAt bs j).geom) →
    (i, j) ∈ pairs bs ∨ (j, i) ∈ pairs bs

/-- A circle as the constructor and the simulator leave it, usable in a world with contact distance `eps`. -/
structure CircleBody (eps : ℝ) (b : Body) : Prop where
  alive : Alive b
  circle : b.isCircle = true
  rad : 0 ≤ b.rad
  eps : eps ≤ 2 * b.eps

end LcpPhysics.Spec
