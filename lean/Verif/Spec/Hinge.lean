import Verif.Spec.Contact

/-! # Specification: how far the bodies held by a joint come apart -/

noncomputable section

namespace LcpPhysics.Spec

/-- Where the point of a body is now that was at `a` when the body was as in `b0`. -/
def carried (b0 b : Body) (a : V2) : V2 := b.pos + rot (b.p.r - b0.p.r) (a - b0.pos)

/-- How far two bodies have come apart: the distance of the two points that were together at `a`. -/
def parted (bs0 bs : List Body) (i j : ℕ) (a : V2) : ℝ :=
  dist (carried (bodyAt bs0 i) (bodyAt bs i) a) (carried (bodyAt bs0 j) (bodyAt bs j) a)

/-- Sum of the distances of the two bodies' centres from the place of the joint. -/
def reach (bs : List Body) (i j : ℕ) (a : V2) : ℝ := dist a (bodyAt bs i).pos + dist a (bodyAt bs j).pos

/-- Joint number `k` hinges the bodies `i` and `j` at the place `a`; other joints may hold them too. -/
def HingedAt (js : List Joint) (k i j : ℕ) (a : V2) : Prop :=
  ∃ J, js[k]? = some J ∧ J.kind = .revolute ∧ J.i1 = i ∧ J.i2 = some j ∧ J.pos = a

/-- Joint number `k` fixes body `j` to body `i`; other joints may hold them too. -/
def FixedTo (js : List Joint) (k i j : ℕ) : Prop := ∃ J, js[k]? = some J ∧ J.kind = .fixed ∧ J.i1 = i ∧ J.i2 = some j

/-- Joint number `k` hinges body `i` to the world at the place `a`; other joints may hold it too. -/
def PinnedAt (js : List Joint) (k i : ℕ) (a : V2) : Prop :=
  ∃ J, js[k]? = some J ∧ J.kind = .revolute ∧ J.i1 = i ∧ J.i2 = none ∧ J.pos = a

/-- Size of a collection of forces, weighed with the inverse masses. -/
def pushSq (bs : List Body) (f : ℕ → V3) : ℝ :=
  ∑ i ∈ Finset.range bs.length,
    ((f i).r ^ 2 / (bodyAt bs i).ang_inertia + ((f i).x ^ 2 + (f i).y ^ 2) / (bodyAt bs i).mass)

end LcpPhysics.Spec
