import Verif.Spec.Rub
import Verif.Spec.Posed
import Verif.Lemmas.Bodies
import Verif.Model.Joints

/-! # Specification: a ball on a level floor -/

noncomputable section

namespace LcpPhysics.Spec

/-- A ball of radius `r` and mass `m` on the top edge of a fixed box; the y axis points downwards. -/
structure RollScene where
  r : ℝ
  m : ℝ
  /-- where the ball starts, how fast it moves and spins -/
  x : ℝ
  u : ℝ
  ω : ℝ
  /-- centre and size of the floor -/
  cx : ℝ
  cy : ℝ
  W : ℝ
  L : ℝ
  mf : ℝ
  /-- restitution and friction of the two -/
  eb : ℝ
  ef : ℝ
  μb : ℝ
  μf : ℝ
  /-- the safety margins of the two geometries -/
  epsb : ℝ
  epsf : ℝ

namespace RollScene

def ball (S : RollScene) : Body :=
  mkCircle (.two (S.x, S.cy - S.L / 2 - S.r)) S.r
    { vel := .three ⟨S.ω, S.u, 0⟩, mass := S.m, restitution := S.eb, fric_coeff := S.μb, eps := S.epsb }

def floor (S : RollScene) : Body :=
  rectBase (.two (S.cx, S.cy)) (S.W, S.L)
    { vel := .two (0, 0), mass := S.mf, restitution := S.ef, fric_coeff := S.μf, eps := S.epsf }

def bodies (S : RollScene) : List Body := [S.ball, S.floor]

def joints (S : RollScene) : List Joint := [mkTotal S.bodies 1]

/-- Coefficient of friction between the two. -/
def μ (S : RollScene) : ℝ := (S.μb + S.μf) / 2

structure Valid (S : RollScene) : Prop where
  r : 0 < S.r
  m : 0 < S.m
  mf : 0 < S.mf
  W : 0 < S.W
  L : 0 < S.L
  size : S.W + S.L + S.r < 10 ^ 10
  μ : 0 ≤ S.μ

end RollScene

/-- Speed at which the lowest point of a ball of radius `r` slips over a level floor. -/
def floorSlip (r : ℝ) (u : V3) : ℝ := u.x - r * u.r

/-- A contact of the ball (body 0, radius `r`) with the level floor (body 1) below it. -/
def TouchesFloor (r : ℝ) (c : Contact) : Prop :=
  c.pen = 0 ∧ c.nan = false ∧
  ((c.i1 = 0 ∧ c.i2 = 1 ∧ c.normal = (0, -1) ∧ c.p1 = (0, r)) ∨
   (c.i1 = 1 ∧ c.i2 = 0 ∧ c.normal = (0, 1) ∧ c.p2 = (0, r)))

end LcpPhysics.Spec
