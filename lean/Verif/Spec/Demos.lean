import Verif.Model.Demos

/-! # Specification: scenes whose bodies start apart -/

noncomputable section

namespace LcpPhysics.Spec
open Demos

/-- Angle and position a body is created with. -/
def startPose : Item → V3
  | .circle pos _ _ => pos.toV3
  | .rect pos _ _ => pos.toV3
  | .turned pos _ a w => pos.toV3 + ({ a.vel.toV3 with r := w } : V3)

/-- Half the extent of the upright box around a body, with the margin of the body on all sides. -/
def halfBox : Item → ℝ × ℝ
  | .circle _ rad a => (rad + a.eps, rad + a.eps)
  | .rect pos dims a =>
      ((dims.1 / 2 + a.eps) * |Real.cos pos.toV3.r| + (dims.2 / 2 + a.eps) * |Real.sin pos.toV3.r|,
       (dims.1 / 2 + a.eps) * |Real.sin pos.toV3.r| + (dims.2 / 2 + a.eps) * |Real.cos pos.toV3.r|)
  | .turned pos dims a w =>
      ((dims.1 / 2 + a.eps) * |Real.cos (pos.toV3.r + w)| + (dims.2 / 2 + a.eps) * |Real.sin (pos.toV3.r + w)|,
       (dims.1 / 2 + a.eps) * |Real.sin (pos.toV3.r + w)| + (dims.2 / 2 + a.eps) * |Real.cos (pos.toV3.r + w)|)

/-- The boxes around two bodies do not meet. -/
def StartApart (i j : Item) : Prop :=
  (halfBox i).1 + (halfBox j).1 < |(startPose i).x - (startPose j).x| ∨
  (halfBox i).2 + (halfBox j).2 < |(startPose i).y - (startPose j).y|

/-- Positive sizes below the constant of the contact search, positive mass and the default margin. -/
def Fine : Item → Prop
  | .circle _ rad a => 0 < rad ∧ rad ≤ 10 ^ 9 ∧ 0 < a.mass ∧ a.eps = 0.1
  | .rect _ dims a => 0 < dims.1 ∧ 0 < dims.2 ∧ dims.1 + dims.2 ≤ 10 ^ 9 ∧ 0 < a.mass ∧ a.eps = 0.1
  | .turned _ dims a _ => 0 < dims.1 ∧ 0 < dims.2 ∧ dims.1 + dims.2 ≤ 10 ^ 9 ∧ 0 < a.mass ∧ a.eps = 0.1

/-- All the scenes of the demos and of their tests. -/
def shippedScenes : List Demo :=
  [debug_demo, chain_demo, slide_demo, fric_demo, fixed_joint_demo, testDemo, testChain, testSlide, testFric]

end LcpPhysics.Spec
