import Verif.Spec.CircleWorld
import Verif.Spec.Contact

/-! # Specification: balls in a row -/

noncomputable section

namespace LcpPhysics.Spec

/-- The contact is between the balls `k` and `k + 1` of a row along the x-axis, its normal along the row. -/
def Joins (c : Contact) (k : ℕ) : Prop :=
  (c.i1 = k ∧ c.i2 = k + 1 ∧ c.normal = (-1, 0)) ∨ (c.i1 = k + 1 ∧ c.i2 = k ∧ c.normal = (1, 0))

/-- The balls lie on a line along the x-axis, in the order of their numbers, and only neighbours are within `eps`. -/
structure InLine (eps : ℝ) (bs : List Body) : Prop where
  level : ∀ k < bs.length, (bodyAt bs k).pos.2 = (bodyAt bs 0).pos.2
  order : ∀ k, k + 1 < bs.length → (bodyAt bs k).pos.1 < (bodyAt bs (k + 1)).pos.1
  apart : ∀ i j, i + 2 ≤ j → j < bs.length →
    (bodyAt bs i).rad + (bodyAt bs j).rad + eps < (bodyAt bs j).pos.1 - (bodyAt bs i).pos.1

/-- The gap between the balls `k` and `k + 1`. -/
def rowGap (bs : List Body) (k : ℕ) : ℝ :=
  (bodyAt bs (k + 1)).pos.1 - (bodyAt bs k).pos.1 - (bodyAt bs k).rad - (bodyAt bs (k + 1)).rad

/-- Mass of the `n` balls after ball `s`. -/
def groupMass (bs : List Body) (s n : ℕ) : ℝ := ∑ k ∈ Finset.range n, (bodyAt bs (s + 1 + k)).mass

/-- Speed of a ball of mass `m` after it hit, with relative speed `u` and restitution `e`, a body of mass `M`. -/
def hitterSpeed (m M e u : ℝ) : ℝ := (m - e * M) * u / (m + M)

/-- Speed of the body of mass `M` after it was hit. -/
def struckSpeed (m M e u : ℝ) : ℝ := (1 + e) * m * u / (m + M)

/-- Velocity along the row of ball `k`, after ball `s`, with the speed `a + u` in a row moving with the speed `a`, has hit the group
of the `n` balls after it. -/
def rowAfter (bs : List Body) (e a u : ℝ) (s n k : ℕ) : ℝ :=
  if k = s then a + hitterSpeed (bodyAt bs s).mass (groupMass bs s n) e u
  else if s < k ∧ k ≤ s + n then a + struckSpeed (bodyAt bs s).mass (groupMass bs s n) e u
  else a

/-- Balls in a row: number, centres, radii, masses, frictions, spins, velocities across the row; restitution, common speed of the
row, number and excess speed of the hitting ball. -/
structure RowScene where
  N : ℕ
  x : ℕ → ℝ
  y : ℝ
  r : ℕ → ℝ
  m : ℕ → ℝ
  mu : ℕ → ℝ
  spin : ℕ → ℝ
  across : ℕ → ℝ
  e : ℝ
  a : ℝ
  s : ℕ
  u : ℝ

/-- What the theorems assume of the data. -/
structure RowScene.Valid (S : RowScene) (eps tol : ℝ) : Prop where
  rad : ∀ k, 0 < S.r k ∧ eps < 2 * S.r k ∧ tol < S.r k
  mass : ∀ k, 0 < S.m k
  fric : ∀ k, 0 ≤ S.mu k
  e : 0 ≤ S.e
  s : S.s < S.N
  u : 0 ≤ S.u
  eps : 0 ≤ eps
  tol : 0 < tol
  row : ∀ k, S.x k + S.r k + S.r (k + 1) ≤ S.x (k + 1)

/-- A ball of the row, as the constructor makes it (bodies.py:117-132). -/
def RowScene.ball (S : RowScene) (eps : ℝ) (k : ℕ) : Body :=
  mkCircle (.two (S.x k, S.y)) (S.r k)
    { vel := .three ⟨S.spin k, if k = S.s then S.a + S.u else S.a, S.across k⟩
      mass := S.m k
      restitution := S.e
      fric_coeff := S.mu k
      eps := eps }

/-- The balls. -/
def RowScene.balls (S : RowScene) (eps : ℝ) : List Body := (List.range S.N).map (S.ball eps)

/-- Equal balls with given gaps between them; the first one moves towards the others, which are at rest. -/
def cradle (n : ℕ) (gap : ℕ → ℝ) (r m mu e u : ℝ) : RowScene where
  N := n + 1
  x k := ∑ i ∈ Finset.range k, (2 * r + gap i)
  y := 0
  r _ := r
  m _ := m
  mu _ := mu
  spin _ := 0
  across _ := 0
  e := e
  a := 0
  s := 0
  u := u

end LcpPhysics.Spec
