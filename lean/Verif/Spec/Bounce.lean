import Verif.Spec.Rolling

/-! # Specification: a ball bounces off a level floor -/

noncomputable section

namespace LcpPhysics.Spec

namespace RollScene

/-- The ball of `S` at the height `g` above the floor, moving down with speed `u`, and the floor. -/
def dropped (S : RollScene) (g u : ℝ) : List Body :=
  [mkCircle (.two (S.x, S.cy - S.L / 2 - S.r - g)) S.r
    { vel := .three ⟨0, 0, u⟩, mass := S.m, restitution := S.eb, fric_coeff := S.μb, eps := S.epsb }, S.floor]

/-- The floor is held in place. -/
def held (S : RollScene) (g u : ℝ) : List Joint := [mkTotal (S.dropped g u) 1]

/-- Coefficient of restitution between the two. -/
def e (S : RollScene) : ℝ := (S.eb + S.ef) / 2

/-- Height of the lowest point of the ball (body 0) above the floor; the y axis points downwards. -/
def gap (S : RollScene) (bs : List Body) : ℝ := S.cy - S.L / 2 - S.r - (bodyAt bs 0).p.y

end RollScene

/-- Height at time `t` of a point that comes down from the height `g` with speed `u` and bounces off the floor, keeping
the part `e` of its speed. -/
def bouncePath (e g u t : ℝ) : ℝ := if u * t ≤ g then g - u * t else e * (u * t - g)

/-- A contact of the ball (body 0, radius `r`) at the height `g` with the level floor (body 1) below it. -/
def MeetsFloor (r g : ℝ) (c : Contact) : Prop :=
  c.pen = -g ∧ c.nan = false ∧
  ((c.i1 = 0 ∧ c.i2 = 1 ∧ c.normal = (0, -1) ∧ c.p1 = (0, r + g)) ∨
   (c.i1 = 1 ∧ c.i2 = 0 ∧ c.normal = (0, 1) ∧ c.p2 = (0, r + g)))

/-- What the broad phase presents for the ball and the floor: the pair once, in either order, or nothing if the ball is
farther from the floor than the contact distance. -/
def SeesFloor (S : RollScene) (eps : ℝ) (pairs : List Body → List (ℕ × ℕ)) : Prop :=
  ∀ bs, bs.length = 2 → pairs bs = [(0, 1)] ∨ pairs bs = [(1, 0)] ∨ (pairs bs = [] ∧ eps < S.gap bs)

/-- No fraction of steps of length `dt` brings a ball at the height `g` with speed `u` exactly to the height `eps` or
`-tol`. -/
def OffGrid (dt eps tol g u : ℝ) : Prop :=
  ∀ a m : ℕ, g - u * (a * dt / 2 ^ m) ≠ eps ∧ g - u * (a * dt / 2 ^ m) ≠ -tol

end LcpPhysics.Spec
