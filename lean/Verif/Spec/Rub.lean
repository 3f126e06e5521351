import Verif.Spec.Impact

/-! # Specification: a round body rubbing against a resting one -/

noncomputable section

namespace LcpPhysics.Spec

/-- `x` cut off to the interval from `-m` to `m`. -/
def clampTo (m x : ℝ) : ℝ := max (-m) (min m x)

/-- Contact `c` is between body `i` and a body that rests before and after; `ν` is its normal pointing into body `i`,
and it acts on body `i` at distance `ρ` from the centre, against `ν`. -/
def PressesOn (c : Contact) (v v' : Vec) (i : ℕ) (ν : V2) (ρ : ℝ) : Prop :=
  (c.i1 = i ∧ c.i2 ≠ i ∧ c.normal = ν ∧ c.p1 = -ρ • ν ∧ twist v c.i2 = 0 ∧ twist v' c.i2 = 0) ∨
  (c.i2 = i ∧ c.i1 ≠ i ∧ c.normal = -ν ∧ c.p2 = -ρ • ν ∧ twist v c.i1 = 0 ∧ twist v' c.i1 = 0)

/-- Speed at which a body with velocity `u` moves along the normal. -/
def lift (ν : V2) (u : V3) : ℝ := inner ν (u.x, u.y)

/-- Speed at which the surface of a round body of radius `ρ` slips along a resting one. -/
def slip (ν : V2) (ρ : ℝ) (u : V3) : ℝ := inner (tangent ν) (u.x, u.y) + ρ * u.r

/-- Velocity `u` after the normal impulse `P` and the tangential impulse `Q` at the rim. -/
def rubbed (m I : ℝ) (ν : V2) (ρ P Q : ℝ) (u : V3) : V3 :=
  ⟨u.r + Q * ρ / I, u.x + (P * ν.1 + Q * (tangent ν).1) / m, u.y + (P * ν.2 + Q * (tangent ν).2) / m⟩

end LcpPhysics.Spec
