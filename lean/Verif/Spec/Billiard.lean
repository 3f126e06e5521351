import Verif.Spec.Impact
import Verif.Spec.CircleWorld

/-! # Specification: two discs that fly freely and collide without friction -/

noncomputable section

namespace LcpPhysics.Spec

/-- The constants of two discs: masses, radii and the mean of their restitutions. -/
structure TwoDiscs where
  m0 : ℝ
  m1 : ℝ
  r0 : ℝ
  r1 : ℝ
  e : ℝ

/-- The distance of the centres of touching discs. -/
def TwoDiscs.R (P : TwoDiscs) : ℝ := P.r0 + P.r1

/-- Velocity of the centre of body `i`. -/
def drift (v : Vec) (i : ℕ) : V2 := ((twist v i).x, (twist v i).y)

/-- Position of body 0 as seen from body 1. -/
def between (bs : List Body) : V2 := (bodyAt bs 0).pos - (bodyAt bs 1).pos

/-- Velocity of body 0 as seen from body 1. -/
def closing (v : Vec) : V2 := drift v 0 - drift v 1

/-- Two discs act on each other if they are not farther apart than `eps` and come nearer. -/
def Strikes (R eps : ℝ) (q v : V2) : Prop := len q ≤ R + eps ∧ inner q v < 0

/-- The relative velocity after an impact along the line of centres: its part along this line is turned round and
multiplied by the restitution, the rest is kept. -/
def struck (e : ℝ) (q v : V2) : V2 := v - ((1 + e) * inner q v / inner q q) • q

/-- The relative motion with at most one impact: until the time `τ` the discs fly freely, then they strike at the place
`q0 + τ v0`, and then they fly freely. -/
def StruckOnce (R eps tol e : ℝ) (q0 v0 : V2) (T : ℝ) (q v : V2) : Prop :=
  ∃ τ, 0 ≤ τ ∧ τ ≤ T ∧ R - tol ≤ len (q0 + τ • v0) ∧ Strikes R eps (q0 + τ • v0) v0 ∧
    v = struck e (q0 + τ • v0) v0 ∧ q = q0 + τ • v0 + (T - τ) • v

end LcpPhysics.Spec
