import Verif.Spec.Rub

/-! # Specification: a block lying flat on a resting surface -/

noncomputable section

namespace LcpPhysics.Spec

/-- Contact `c` is between body `i` and a body that rests before and after; `ν` is its normal pointing into body `i`.
It acts on body `i` at depth `ρ` under the centre of mass and `X` sideways of it. -/
def PressesAt (c : Contact) (v v' : Vec) (i : ℕ) (ν : V2) (ρ X : ℝ) : Prop :=
  (c.i1 = i ∧ c.i2 ≠ i ∧ c.normal = ν ∧ c.p1 = X • tangent ν - ρ • ν ∧ twist v c.i2 = 0 ∧ twist v' c.i2 = 0) ∨
  (c.i2 = i ∧ c.i1 ≠ i ∧ c.normal = -ν ∧ c.p2 = X • tangent ν - ρ • ν ∧ twist v c.i1 = 0 ∧ twist v' c.i1 = 0)

/-- Body `i` lies on a resting surface, its centre at height `ρ`, and is carried over a width of `A` to either side of
its centre; the coefficient of friction is `μ`. -/
structure LiesFlat (bs : List Body) (cs : List Contact) (v v' : Vec) (i : ℕ) (ν : V2) (ρ A μ : ℝ) : Prop where
  all : ∀ c ∈ cs, c.i1 = i ∨ c.i2 = i → (∃ X, |X| ≤ A ∧ PressesAt c v v' i ν ρ X) ∧ meanFriction bs c = μ
  left : ∃ c ∈ cs, PressesAt c v v' i ν ρ (-A)
  right : ∃ c ∈ cs, PressesAt c v v' i ν ρ A

/-- Speed along the surface. -/
def glide (ν : V2) (u : V3) : ℝ := inner (tangent ν) (u.x, u.y)

end LcpPhysics.Spec
