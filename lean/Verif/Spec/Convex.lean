import Verif.Spec.Plane

/-! # Specification vocabulary: convex combinations and convex polygons -/

noncomputable section

namespace LcpPhysics.Spec

/-- `q` is a convex combination of the listed points with strictly positive weights. -/
def PosCombo (pts : List (ℝ × ℝ)) (q : ℝ × ℝ) : Prop :=
  ∃ ws : List ℝ, ws.length = pts.length ∧ (∀ w ∈ ws, 0 < w) ∧ ws.sum = 1 ∧
    (List.zipWith (fun w p => w • p) ws pts).sum = q

/-- Directed edge `i` of a closed polygon. -/
def edgeVec (vs : List (ℝ × ℝ)) (i : ℕ) : ℝ × ℝ := vs.getD ((i + 1) % vs.length) 0 - vs.getD i 0

/-- Clockwise quarter turn: outward direction of an edge of a counter-clockwise polygon. -/
def outward (e : ℝ × ℝ) : ℝ × ℝ := (e.2, -e.1)

/-- Outward unit normal of edge `i`. -/
def edgeNormal (vs : List (ℝ × ℝ)) (i : ℕ) : ℝ × ℝ := (1 / len (edgeVec vs i)) • outward (edgeVec vs i)

/-- A counter-clockwise convex polygon with non-degenerate edges: it lies on the inner side of the
line through each of its edges. -/
structure ConvexPolygon (vs : List (ℝ × ℝ)) : Prop where
  three : 2 < vs.length
  edge_ne : ∀ i < vs.length, edgeVec vs i ≠ 0
  inside : ∀ i < vs.length, ∀ w ∈ vs, inner (outward (edgeVec vs i)) (w - vs.getD i 0) ≤ 0

/-- No three vertices (at different places in the list) are collinear. -/
def NoThreeCollinear (vs : List (ℝ × ℝ)) : Prop :=
  ∀ i j k, i < vs.length → j < vs.length → k < vs.length → i ≠ j → j ≠ k → i ≠ k →
    det (vs.getD j 0 - vs.getD i 0) (vs.getD k 0 - vs.getD i 0) ≠ 0

/-- `d` is the separation of the polygon `Q`, displaced by `t`, along the outward unit normal of edge
`i` of the polygon `P`: the smallest signed distance of a point of `Q` from the line of that edge. -/
def EdgeGap (P Q : List (ℝ × ℝ)) (t : ℝ × ℝ) (i : ℕ) (d : ℝ) : Prop :=
  IsLeast ((fun y => inner (edgeNormal P i) (y + t - P.getD i 0)) '' solid Q) d

end LcpPhysics.Spec
