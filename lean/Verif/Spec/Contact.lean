import Verif.Model.World
import Verif.Spec.Motion
import Verif.Spec.Plane
import Mathlib.Algebra.BigOperators.Group.Finset.Basic

/-!
# Specification: impulsive contact problem with Coulomb friction, in virtual-power form

`vel` is the stacked velocity of all bodies.  The dynamics equation is stated as: for every virtual
velocity `u`, the power of the change of momentum equals the power of the external impulses plus
the power of joint impulses and contact impulses.
-/

noncomputable section

namespace LcpPhysics.Spec

/-- Normal relative velocity at a contact. -/
def normalVel (c : Contact) (v : Vec) : ℝ := inner c.normal (contactVel c v)

/-- Tangential relative velocity at a contact. -/
def slipVel (c : Contact) (v : Vec) : ℝ := inner (tangent c.normal) (contactVel c v)

/-- The velocities a constraint keeps at zero. -/
def jointVel (j : Joint) (v : Vec) : List ℝ :=
  let u1 := twist v j.i1
  let u2 := match j.i2 with
    | none => 0
    | some k => twist v k
  let rel := pointVel u1 j.pos1 - pointVel u2 j.pos2
  match j.kind with
  | .revolute => [rel.1, rel.2]
  | .fixed => [rel.1, rel.2, u1.r - u2.r]
  | .yc => [u1.y]
  | .xc => [u1.x]
  | .rotc => [u1.r]
  | .total => [u1.r, u1.x, u1.y]

/-- All constraint velocities, joint after joint. -/
def jointVels (js : List Joint) (v : Vec) : List ℝ := js.flatMap fun j => jointVel j v

/-- Virtual power `⟨u, M v⟩`. -/
def momentumPower (bs : List Body) (u v : Vec) : ℝ :=
  ∑ i ∈ Finset.range bs.length,
    ((bodyAt bs i).ang_inertia * (twist v i).r * (twist u i).r +
     (bodyAt bs i).mass * ((twist v i).x * (twist u i).x + (twist v i).y * (twist u i).y))

/-- Virtual power of a force acting on every body. -/
def forcePower (n : ℕ) (f : ℕ → V3) (u : Vec) : ℝ :=
  ∑ i ∈ Finset.range n, ((f i).r * (twist u i).r + (f i).x * (twist u i).x + (f i).y * (twist u i).y)

/-- Virtual power of joint impulses `l`. -/
def jointPower (js : List Joint) (l : Vec) (u : Vec) : ℝ :=
  ∑ r ∈ Finset.range (jointVels js u).length, l r * (jointVels js u).getD r 0

/-- Virtual power of normal impulses `pn` and tangential impulses `pt`. -/
def contactPower (cs : List Contact) (pn pt : ℕ → ℝ) (u : Vec) : ℝ :=
  ∑ i ∈ Finset.range cs.length,
    match cs[i]? with
    | none => 0
    | some c => pn i * normalVel c u + pt i * slipVel c u

/-- Mean of the two bodies' coefficients. -/
def meanRestitution (bs : List Body) (c : Contact) : ℝ :=
  ((bodyAt bs c.i1).restitution + (bodyAt bs c.i2).restitution) / 2

def meanFriction (bs : List Body) (c : Contact) : ℝ :=
  ((bodyAt bs c.i1).fric_coeff + (bodyAt bs c.i2).fric_coeff) / 2

/-- `v'` results from `v` by external impulses `f` (already multiplied by the time step), joint
impulses `l`, normal impulses `pn`, friction impulses `a - b` (both parts non-negative) with slip
speeds `g`: Newton restitution and Coulomb friction with the mean coefficients. -/
structure ContactLaw (bs : List Body) (js : List Joint) (cs : List Contact) (f : ℕ → V3)
    (v v' : Vec) (l : Vec) (pn a b g : ℕ → ℝ) : Prop where
  dynamics : ∀ u : Vec, momentumPower bs u v' = momentumPower bs u v + forcePower bs.length f u
    + jointPower js l u + contactPower cs pn (fun i => a i - b i) u
  joints : ∀ r ∈ jointVels js v', r = 0
  nonneg : ∀ i < cs.length, 0 ≤ pn i ∧ 0 ≤ a i ∧ 0 ≤ b i ∧ 0 ≤ g i
  restitution : ∀ (i : ℕ) (h : i < cs.length),
    0 ≤ normalVel cs[i] v' + meanRestitution bs cs[i] * normalVel cs[i] v ∧
    pn i * (normalVel cs[i] v' + meanRestitution bs cs[i] * normalVel cs[i] v) = 0
  slip : ∀ (i : ℕ) (h : i < cs.length),
    0 ≤ g i + slipVel cs[i] v' ∧ a i * (g i + slipVel cs[i] v') = 0 ∧
    0 ≤ g i - slipVel cs[i] v' ∧ b i * (g i - slipVel cs[i] v') = 0
  cone : ∀ (i : ℕ) (h : i < cs.length),
    0 ≤ meanFriction bs cs[i] * pn i - (a i + b i) ∧
    g i * (meanFriction bs cs[i] * pn i - (a i + b i)) = 0

end LcpPhysics.Spec
