import Verif.Spec.Double
import Verif.Spec.Plane
import Verif.Model.RoundedBody

/-! # What the rounded arithmetic is assumed to do -/

noncomputable section

namespace LcpPhysics.Spec
open Rounded

/-- Operations round to nearest; sine and cosine are accurate to `2^-52` (for results near one this is one unit in the last place). -/
structure DoubleArith (A : Arith) : Prop where
  nearest : Nearest A.rnd
  cos : ∀ a, |A.fcos a - Real.cos a| ≤ 1 / 2 ^ 52
  sin : ∀ a, |A.fsin a - Real.sin a| ≤ 1 / 2 ^ 52

/-- Double precision with correctly rounded sine and cosine. -/
def doubleOf (rnd : ℝ → ℝ) : Arith := ⟨rnd, fun a => rnd (Real.cos a), fun a => rnd (Real.sin a)⟩

/-- A pose of double precision numbers. -/
def RepPose (p : V3) : Prop := Rep p.r ∧ Rep p.x ∧ Rep p.y

/-- The poses set are of double precision. -/
def RepOps (ops : List BodyOp) : Prop := ∀ q, BodyOp.setP q ∈ ops → RepPose q

/-- The sum of the angles by which the pose is turned, in absolute value. -/
def turning (A : Arith) : Body → List BodyOp → ℝ
  | _, [] => 0
  | b, o :: ops => |(op A b o).p.r - b.p.r| + turning A (op A b o) ops

/-- Bound for the distance of a vertex at distance `R` from the centre from where it should be, after `n` calls that turn the body by `T`
altogether. -/
def driftBound (R : ℝ) (n : ℕ) (T : ℝ) : ℝ :=
  (R + n * (1 / 2 ^ 1071)) * Real.exp (n * (11 / 2 ^ 53) + T / 2 ^ 53) - R

/-- The way travelled in one coordinate by the calls of `move`. -/
def travel (c : V3 → ℝ) : V3 → List BodyOp → ℝ
  | _, [] => 0
  | v, .move dt :: ops => |c v * dt| + travel c v ops
  | v, .setP _ :: ops => travel c v ops
  | _, .setV w :: ops => travel c w ops

/-- A coordinate stays below a bound in size throughout a run. -/
def StaysBelow (A : Arith) (c : V3 → ℝ) (B : ℝ) (b : Body) (ops : List BodyOp) : Prop :=
  ∀ k ≤ ops.length, |c (run A b (ops.take k)).p| ≤ B

end LcpPhysics.Spec
