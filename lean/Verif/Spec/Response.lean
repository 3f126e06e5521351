import Verif.Spec.Contact
import Verif.Spec.Backward
import Verif.Spec.Rub

/-! # Specification: how velocities respond to a small impulse -/

noncomputable section

namespace LcpPhysics.Spec

/-- The contact law, differentiated.  Where the law has two non-negative quantities `s` and `z` whose product is
zero, the interior point method has a small product that it keeps fixed, so that `z' = -d s'` with `d = z / s`.  A
small impulse `f` changes the velocities by `q`, the joint impulses by `l`, the normal impulses by `pn`, the friction
impulses by `a - b` and the slip speeds by `g`.  The weights `d` are numbered as the rows of the LCP: normals, then two per
contact for friction, then the cones. -/
structure Response (bs : List Body) (js : List Joint) (cs : List Contact) (d : ℕ → ℝ) (f : ℕ → V3) (q l : Vec)
    (pn a b g : ℕ → ℝ) : Prop where
  dynamics : ∀ u : Vec, momentumPower bs u q = forcePower bs.length f u + jointPower js l u +
    contactPower cs pn (fun i => a i - b i) u
  joints : ∀ r ∈ jointVels js q, r = 0
  normal : ∀ (i : ℕ) (_ : i < cs.length), pn i = -(d i * normalVel cs[i] q)
  slip : ∀ (i : ℕ) (_ : i < cs.length), a i = -(d (cs.length + 2 * i) * (g i + slipVel cs[i] q)) ∧
    b i = -(d (cs.length + (2 * i + 1)) * (g i - slipVel cs[i] q))
  cone : ∀ (i : ℕ) (_ : i < cs.length),
    g i = -(d (3 * cs.length + i) * (meanFriction bs cs[i] * pn i - (a i + b i)))

variable {nz nineq neq : ℕ}

/-- The iterate satisfies all rows of the problem; only complementarity is left open. -/
structure SolvesRows (P : Lcp nz nineq neq) (v : Iter nz nineq neq) : Prop where
  stat : ∀ k, ∑ j, P.Q k j * v.x j + P.p k + ∑ i, P.G i k * v.z i + ∑ i, P.A i k * v.y i = 0
  ineq : ∀ i, ∑ j, P.G i j * v.x j + v.s i - P.h i - ∑ j, P.F i j * v.z j = 0
  eq : ∀ i, ∑ j, P.A i j * v.x j - P.b i = 0

/-- A direction in which only the vector `p` of the problem varies. -/
def onlyP (δ : Fin nz → ℝ) : Lcp nz nineq neq := { Q := 0, p := δ, G := 0, h := 0, A := 0, b := 0, F := 0 }

/-- The entries of a vector that belong to the bodies, as forces. -/
def asForce (g : Vec) (i : ℕ) : V3 := twist g i

/-- Body `i` has no joints and touches one thing only: contact `k` presses it, at distance `ρ` from its centre and with
normal `ν`, against a body that joints keep at rest. -/
structure Leans (bs : List Body) (js : List Joint) (cs : List Contact) (k i : ℕ) (ν : V2) (ρ : ℝ) : Prop where
  contact : k < cs.length
  body : i < bs.length
  unit : inner ν ν = 1
  free : ∀ j ∈ js, j.i1 ≠ i ∧ i ∉ j.i2
  only : ∀ (r : ℕ) (hr : r < cs.length), r ≠ k → cs[r].i1 ≠ i ∧ cs[r].i2 ≠ i
  presses : ∀ q : Vec, (∀ r ∈ jointVels js q, r = 0) → PressesOn cs[k] q q i ν ρ
  mass : 0 < (bodyAt bs i).mass ∧ 0 < (bodyAt bs i).ang_inertia

/-- The vector that has the entries `e` at body `i` and is zero elsewhere. -/
def atBody (i : ℕ) (e : V3) : Vec := fun k =>
  if k = 3 * i then e.r else if k = 3 * i + 1 then e.x else if k = 3 * i + 2 then e.y else 0

end LcpPhysics.Spec
