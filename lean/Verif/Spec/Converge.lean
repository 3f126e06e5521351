import Verif.Spec.Flight
import Mathlib.Analysis.Calculus.Deriv.Basic

/-! # Newton's motion, which the steps of the program approximate -/

noncomputable section

namespace LcpPhysics.Spec

/-- The pose `x` and velocity `u` (rotation first) of a body of mass `m` and angular inertia `I` under the force `f`, from time `0`
to time `T`. -/
structure NewtonMotion (m I : ℝ) (f : ℝ → V3) (T : ℝ) (x u : ℝ → V3) : Prop where
  turns : ∀ t ∈ Set.Icc 0 T, HasDerivWithinAt (fun s => (x s).r) (u t).r (Set.Icc 0 T) t
  right : ∀ t ∈ Set.Icc 0 T, HasDerivWithinAt (fun s => (x s).x) (u t).x (Set.Icc 0 T) t
  down : ∀ t ∈ Set.Icc 0 T, HasDerivWithinAt (fun s => (x s).y) (u t).y (Set.Icc 0 T) t
  torque : ∀ t ∈ Set.Icc 0 T, HasDerivWithinAt (fun s => (u s).r) ((f t).r / I) (Set.Icc 0 T) t
  pushRight : ∀ t ∈ Set.Icc 0 T, HasDerivWithinAt (fun s => (u s).x) ((f t).x / m) (Set.Icc 0 T) t
  pushDown : ∀ t ∈ Set.Icc 0 T, HasDerivWithinAt (fun s => (u s).y) ((f t).y / m) (Set.Icc 0 T) t

/-- All components of `a` and `b` differ by at most `d`. -/
def Within (d : ℝ) (a b : V3) : Prop := |a.r - b.r| ≤ d ∧ |a.x - b.x| ≤ d ∧ |a.y - b.y| ≤ d

/-- The accelerations caused by `f` are at most `A` and change at most by `L` per unit of time. -/
structure Gentle (m I : ℝ) (f : ℝ → V3) (T A L : ℝ) : Prop where
  bound : ∀ t ∈ Set.Icc 0 T, |(f t).r / I| ≤ A ∧ |(f t).x / m| ≤ A ∧ |(f t).y / m| ≤ A
  change : ∀ s ∈ Set.Icc 0 T, ∀ t ∈ Set.Icc 0 T, |(f s).r / I - (f t).r / I| ≤ L * |s - t| ∧
    |(f s).x / m - (f t).x / m| ≤ L * |s - t| ∧ |(f s).y / m - (f t).y / m| ≤ L * |s - t|

end LcpPhysics.Spec
