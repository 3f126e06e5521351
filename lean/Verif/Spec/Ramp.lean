import Verif.Spec.Block
import Verif.Spec.Posed
import Verif.Lemmas.Bodies
import Verif.Model.Joints

/-! # Specification: a box on an inclined plane -/

noncomputable section

namespace LcpPhysics.Spec

/-- A box lying flat on the top face of a fixed box that is tilted by the angle `θ`, as in `slide_demo`; the y axis
points downwards, so for positive `θ` the plane falls off to the right. -/
structure RampScene where
  θ : ℝ
  /-- centre, size and mass of the plane -/
  cx : ℝ
  cy : ℝ
  W : ℝ
  L : ℝ
  mf : ℝ
  /-- size and mass of the box -/
  w : ℝ
  h : ℝ
  m : ℝ
  /-- where on the plane it starts, and its speed down the plane -/
  ξ : ℝ
  u : ℝ
  /-- restitution and friction of the two -/
  eb : ℝ
  ef : ℝ
  μb : ℝ
  μf : ℝ
  /-- the safety margins of the two geometries -/
  epsb : ℝ
  epsf : ℝ

namespace RampScene

/-- Pose of a box that lies on the plane at distance `ξ` from the middle. -/
def pose (S : RampScene) (ξ : ℝ) : V3 :=
  ⟨S.θ, S.cx + (rot S.θ (ξ, -((S.L + S.h) / 2))).1, S.cy + (rot S.θ (ξ, -((S.L + S.h) / 2))).2⟩

/-- Velocity of a box that moves down the plane at speed `y`. -/
def vel (S : RampScene) (y : ℝ) : V3 := ⟨0, y * Real.cos S.θ, y * Real.sin S.θ⟩

def plane (S : RampScene) : Body :=
  (rectBase (.three ⟨S.θ, S.cx, S.cy⟩) (S.W, S.L)
    { vel := .two (0, 0), mass := S.mf, restitution := S.ef, fric_coeff := S.μf, eps := S.epsf }).set_p ⟨S.θ, S.cx, S.cy⟩

def box (S : RampScene) : Body :=
  (rectBase (.three (S.pose S.ξ)) (S.w, S.h)
    { vel := .three (S.vel S.u), mass := S.m, restitution := S.eb, fric_coeff := S.μb, eps := S.epsb }).set_p (S.pose S.ξ)

def bodies (S : RampScene) : List Body := [S.plane, S.box]

def joints (S : RampScene) : List Joint := [mkTotal S.bodies 0]

/-- Coefficient of friction between the two. -/
def μ (S : RampScene) : ℝ := (S.μb + S.μf) / 2

/-- Upward normal of the plane. -/
def ν (S : RampScene) : V2 := (Real.sin S.θ, -Real.cos S.θ)

structure Valid (S : RampScene) : Prop where
  steep : 0 < Real.cos S.θ
  W : 0 < S.W
  L : 0 < S.L
  mf : 0 < S.mf
  w : 0 < S.w
  h : 0 < S.h
  m : 0 < S.m
  size : S.W + S.L + S.w + S.h ≤ 10 ^ 9
  μ : 0 ≤ S.μ
  epsb : 0 ≤ S.epsb
  epsf : 0 ≤ S.epsf

/-- The box is on the plane with all of its base. -/
def Room (S : RampScene) (ξ : ℝ) : Prop := |ξ| + S.w / 2 ≤ S.W / 2

/-- Speed down the plane after a step of length `dt`. -/
def next (S : RampScene) (g dt y : ℝ) : ℝ :=
  y + g * dt * Real.sin S.θ - clampTo (S.μ * (g * dt * Real.cos S.θ)) (y + g * dt * Real.sin S.θ)

/-- The box is broad enough not to tip in a step in which it has speed `y`. -/
def Broad (S : RampScene) (g dt y : ℝ) : Prop :=
  S.μ * S.h ≤ S.w ∨ S.h * |y + g * dt * Real.sin S.θ| ≤ S.w * (g * dt * Real.cos S.θ)

/-- A contact of the box (body 1) with the plane (body 0), at distance `X` from the middle of its base. -/
def Touches (S : RampScene) (X : ℝ) (c : Contact) : Prop :=
  c.pen = 0 ∧ c.nan = false ∧
  ((c.i1 = 1 ∧ c.i2 = 0 ∧ c.normal = S.ν ∧ c.p1 = X • tangent S.ν - (S.h / 2) • S.ν) ∨
   (c.i1 = 0 ∧ c.i2 = 1 ∧ c.normal = -S.ν ∧ c.p2 = X • tangent S.ν - (S.h / 2) • S.ν))

/-- The contacts carry the box along all of its base. -/
structure Carried (S : RampScene) (cs : List Contact) : Prop where
  all : ∀ c ∈ cs, ∃ X, |X| ≤ S.w / 2 ∧ S.Touches X c
  left : ∃ c ∈ cs, S.Touches (-(S.w / 2)) c
  right : ∃ c ∈ cs, S.Touches (S.w / 2) c

end RampScene

end LcpPhysics.Spec
