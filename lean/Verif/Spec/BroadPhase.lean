import Verif.Model.BodyOps
import Verif.Spec.Plane

/-! # Specification: regions occupied by bodies and by their broad-phase geometries -/

noncomputable section

namespace LcpPhysics.Spec

/-- Points of the world covered by a body. -/
def bodyRegion (b : Body) : Set (ℝ × ℝ) :=
  match b.shape with
  | .circle r => {x | dist x b.pos ≤ r}
  | .hull vs => {x | x - b.pos ∈ solid vs}
  | .rect _ vs => {x | x - b.pos ∈ solid vs}

/-- Points of the plane `z = 0` covered by an ODE geometry: a ball, or a box turned by its quaternion
(identity until one is set). -/
def geomRegion (g : Geom) : Set (ℝ × ℝ) :=
  match g.kind, g.quat with
  | .sphere r, _ => {x | dist x g.pos ≤ r}
  | .box l, none => {x | x - g.pos ∈ boxRegion l}
  | .box l, some q => {x | x - g.pos ∈ quatAct q '' boxRegion l}

/-- The axis-aligned bounding boxes of two regions overlap: on either axis the regions have a
coordinate in common (regions here are convex, so their coordinates fill intervals). -/
def AabbOverlap (A B : Set (ℝ × ℝ)) : Prop :=
  (∃ x ∈ A, ∃ y ∈ B, x.1 = y.1) ∧ ∃ x ∈ A, ∃ y ∈ B, x.2 = y.2

/-- What the constructors build. -/
inductive Constructed : Body → Prop
  | circle (pos : Arg) (rad : ℝ) (a : Params) : Constructed (mkCircle pos rad a)
  | hull (ref : V2) (vs : List V2) (a : Params) (b : Body) (h : mkHull ref vs a = .ok b) : Constructed b
  | rect (pos : Arg) (dims : V2) (a : Params) (b : Body) (h : mkRect pos dims a = .ok b)
      (h1 : 0 < dims.1) (h2 : 0 < dims.2) : Constructed b

/-- A body in some state of its life. -/
def Alive (b : Body) : Prop := ∃ b0 ops, Constructed b0 ∧ b = b0.run ops

end LcpPhysics.Spec
