import Verif.Model.Bodies
import Verif.Model.RoundedBody

/-!
# Moments of inertia in floating point

Circles and rectangles; for a hull first the two sums, with the computed cross and dot products as given numbers,
then these products themselves, without fused operations.
-/

noncomputable section

namespace LcpPhysics.Rounded

/-- bodies.py:125-126 `mass * self.rad * self.rad / 2`. -/
def fcircleInertia (A : Arith) (rad mass : ℝ) : ℝ := A.rnd (A.rnd (A.rnd (mass * rad) * rad) / 2)

/-- bodies.py:269-270 `mass * torch.sum(self.dims ** 2) / 12`. -/
def frectInertia (A : Arith) (dims : V2) (mass : ℝ) : ℝ :=
  A.rnd (A.rnd (mass * A.rnd (A.rnd (dims.1 ^ 2) + A.rnd (dims.2 ^ 2))) / 12)

/-- bodies.py:180-187: the numerator. An entry holds `norm_cross` and the sum of the three dot products, as computed. -/
def hullNumerator (A : Arith) (l : List (ℝ × ℝ)) : ℝ := l.foldl (fun s e => A.rnd (s + A.rnd (e.1 * e.2))) 0

/-- bodies.py:181, 188: the denominator. -/
def hullDenominator (A : Arith) (l : List (ℝ × ℝ)) : ℝ := l.foldl (fun s e => A.rnd (s + e.1)) 0

/-- bodies.py:189 `1 / 6 * mass * numerator / denominator`. -/
def fhullInertia (A : Arith) (l : List (ℝ × ℝ)) (mass : ℝ) : ℝ :=
  A.rnd (A.rnd (A.rnd (A.rnd (1 / 6) * mass) * hullNumerator A l) / hullDenominator A l)

/-- utils.py:93-96 `cross_2d`. -/
def fcross (A : Arith) (v1 v2 : V2) : ℝ := A.rnd (A.rnd (v1.1 * v2.2) - A.rnd (v1.2 * v2.1))

/-- `torch.dot`, every operation rounded. -/
def fdotV (A : Arith) (v1 v2 : V2) : ℝ := A.rnd (A.rnd (v1.1 * v2.1) + A.rnd (v1.2 * v2.2))

/-- bodies.py:182-187: what the loop computes for every edge; `torch.norm` of a scalar is `|·|`. -/
def hullEntries (A : Arith) (verts : List V2) : List (ℝ × ℝ) :=
  (List.range verts.length).map fun i =>
    let v1 := vget verts i
    let v2 := vget verts ((i + 1) % verts.length)
    (|fcross A v2 v1|, A.rnd (A.rnd (fdotV A v1 v1 + fdotV A v1 v2) + fdotV A v2 v2))

end LcpPhysics.Rounded
