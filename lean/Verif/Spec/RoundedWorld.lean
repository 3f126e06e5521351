import Verif.Spec.Rounded
import Verif.Spec.CircleWorld
import Verif.Model.RoundedWorld

/-! # Specification: worlds of circles in double precision -/

noncomputable section

namespace LcpPhysics.Spec
open Rounded

/-- A circle whose pose and radius are of double precision. -/
structure DoubleCircle (eps : ℝ) (b : Body) : Prop where
  circle : CircleBody eps b
  pose : RepPose b.p
  radius : Rep b.rad

/-- Half the smallest number is rounded to zero (the tie goes to the even one). -/
def TinyToZero (rnd : ℝ → ℝ) : Prop := rnd (1 / 2 ^ 1075) = 0

/-- The broad phase looks at the geometries only. -/
def GeomOnly (pairs : List Body → List (ℕ × ℕ)) : Prop :=
  ∀ bs cs : List Body, bs.map Body.geom = cs.map Body.geom → ∀ p, p ∈ pairs bs ↔ p ∈ pairs cs

/-- How much deeper than `tol` two circles may be because of rounding. -/
def roundingDepth (b1 b2 : Body) : ℝ := 14 / 2 ^ 53 * (b1.rad + b2.rad) + 1 / 2 ^ 530

/-- A world as it may be given to the constructor: exclusions go both ways, the margins are no smaller than the contact distance. -/
structure GoodSetup (S : WorldSetup) : Prop where
  symm : ∀ i j, i ∈ S.nc j → j ∈ S.nc i
  broad : BroadPhase S.pairs
  geom : GeomOnly S.pairs
  eps : 0 ≤ S.eps
  tol : 0 ≤ S.tol
  dt : 0 ≤ S.dt

/-- No two circles that may touch are deeper than `tol`, up to rounding. -/
def NearlyNoOverlap (S : WorldSetup) (bs : List Body) : Prop :=
  ∀ i < bs.length, ∀ j < bs.length, i ≠ j → i ∉ S.nc j →
    overlapDepth (bodyAt bs i) (bodyAt bs j) ≤ S.tol + roundingDepth (bodyAt bs i) (bodyAt bs j)

/-- The length tried after `k` halvings. -/
def shortened (rnd : ℝ → ℝ) (dt : ℝ) : ℕ → ℝ
  | 0 => dt
  | k + 1 => rnd (shortened rnd dt k / 2)

/-- A world of circles between steps. -/
structure RoundedScene (A : Arith) (S : WorldSetup) (w : Circles) : Prop where
  bodies : ∀ b ∈ w.bodies, DoubleCircle S.eps b
  kept : Accepts A S w.bodies

/-- The velocities cannot be felt any more after `k` halvings of the step `dt`: each coordinate at rest, or moved by less than a quarter of
the spacing of the numbers there. -/
def Unfelt (dt : ℝ) (k : ℕ) (b : Body) (v : V3) : Prop :=
  (v.x = 0 ∨ (1 / 2 ^ 900 ≤ |b.p.x| ∧ |v.x| * dt ≤ 2 ^ k * (1 / 2 ^ 56 * |b.p.x|))) ∧
  (v.y = 0 ∨ (1 / 2 ^ 900 ≤ |b.p.y| ∧ |v.y| * dt ≤ 2 ^ k * (1 / 2 ^ 56 * |b.p.y|)))

end LcpPhysics.Spec
