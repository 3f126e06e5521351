import Verif.Spec.Plane
import Mathlib.MeasureTheory.Measure.Haar.OfBasis
import Mathlib.MeasureTheory.Integral.Bochner.Set

/-! # Specification: uniform laminae -/

noncomputable section

open MeasureTheory

namespace LcpPhysics.Spec

/-- Area of a region of the plane. -/
def areaOf (S : Set (ℝ × ℝ)) : ℝ := (volume S).toReal

/-- Mean of a function over a region. -/
def meanOver (S : Set (ℝ × ℝ)) (f : ℝ × ℝ → ℝ) : ℝ := (∫ x in S, f x) / areaOf S

/-- Centre of mass of a lamina of uniform density. -/
def centreOfMass (S : Set (ℝ × ℝ)) : ℝ × ℝ := (meanOver S Prod.fst, meanOver S Prod.snd)

/-- Moment of inertia of a uniform lamina of mass `m` for rotations in the plane about `q`: the integral of
the squared distance from `q` against the mass density. -/
def polarMoment (S : Set (ℝ × ℝ)) (m : ℝ) (q : ℝ × ℝ) : ℝ := m * meanOver S fun x => inner (x - q) (x - q)

/-- The disc. -/
def disc (q : ℝ × ℝ) (r : ℝ) : Set (ℝ × ℝ) := {x | inner (x - q) (x - q) ≤ r ^ 2}

end LcpPhysics.Spec
