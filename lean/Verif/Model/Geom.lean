import Mathlib.Analysis.Real.Sqrt
import Mathlib.Analysis.SpecialFunctions.Complex.Arg
import Mathlib.Analysis.SpecialFunctions.Trigonometric.Basic

/-!
# Model of `lcp_physics/physics/utils.py`: 2-d vector helpers

A torch tensor of two doubles is a pair of reals.  `X = 0`, `Y = 1` (utils.py:45-48), so
component `[X]` is `.1` and component `[Y]` is `.2`.  Doubles are modelled by exact reals.
-/

noncomputable section

namespace LcpPhysics

/-- A tensor of size 2. -/
abbrev V2 := ℝ × ℝ

/-- A tensor of size 3: pose `(angle, x, y)` or velocity `(angular, x, y)` of a body
(bodies.py:25-38: index 0 is the rotation, 1: is the position). -/
@[ext] structure V3 where
  r : ℝ
  x : ℝ
  y : ℝ

namespace V3
/-- Elementwise tensor operations on size-3 tensors. -/
instance : Zero V3 := ⟨⟨0, 0, 0⟩⟩
instance : Add V3 := ⟨fun a b => ⟨a.r + b.r, a.x + b.x, a.y + b.y⟩⟩
instance : Sub V3 := ⟨fun a b => ⟨a.r - b.r, a.x - b.x, a.y - b.y⟩⟩
instance : Neg V3 := ⟨fun a => ⟨-a.r, -a.x, -a.y⟩⟩
instance : SMul ℝ V3 := ⟨fun k a => ⟨k * a.r, k * a.x, k * a.y⟩⟩

@[simp] theorem zero_r : (0 : V3).r = 0 := rfl
@[simp] theorem zero_x : (0 : V3).x = 0 := rfl
@[simp] theorem zero_y : (0 : V3).y = 0 := rfl
@[simp] theorem add_r (a b : V3) : (a + b).r = a.r + b.r := rfl
@[simp] theorem add_x (a b : V3) : (a + b).x = a.x + b.x := rfl
@[simp] theorem add_y (a b : V3) : (a + b).y = a.y + b.y := rfl
@[simp] theorem sub_r (a b : V3) : (a - b).r = a.r - b.r := rfl
@[simp] theorem sub_x (a b : V3) : (a - b).x = a.x - b.x := rfl
@[simp] theorem sub_y (a b : V3) : (a - b).y = a.y - b.y := rfl
@[simp] theorem neg_r (a : V3) : (-a).r = -a.r := rfl
@[simp] theorem neg_x (a : V3) : (-a).x = -a.x := rfl
@[simp] theorem neg_y (a : V3) : (-a).y = -a.y := rfl
@[simp] theorem smul_r (k : ℝ) (a : V3) : (k • a).r = k * a.r := rfl
@[simp] theorem smul_x (k : ℝ) (a : V3) : (k • a).x = k * a.x := rfl
@[simp] theorem smul_y (k : ℝ) (a : V3) : (k • a).y = k * a.y := rfl

/-- The slice `[1:]` (bodies.py:33, 88): the position part. -/
def xy (a : V3) : V2 := (a.x, a.y)
end V3

/-- `torch.dot` / `Tensor.dot` on size-2 tensors (used in contacts.py, bodies.py:187). -/
def dot (a b : V2) : ℝ := a.1 * b.1 + a.2 * b.2

/-- `Tensor.norm()` on size-2 tensors. -/
def nrm (a : V2) : ℝ := Real.sqrt (a.1 * a.1 + a.2 * a.2)

/-- utils.py:93-96 `cross_2d`. -/
def cross_2d (v1 v2 : V2) : ℝ := v1.1 * v2.2 - v1.2 * v2.1

/-- utils.py:99-102 `left_orthogonal`: `[v[1], -v[0]]`. -/
def left_orthogonal (v : V2) : V2 := (v.2, -v.1)

/-- A tensor of size 2x2, row major. -/
structure M22 where
  m00 : ℝ
  m01 : ℝ
  m10 : ℝ
  m11 : ℝ

/-- `Tensor.matmul` of a 2x2 matrix with a size-2 tensor (bodies.py:214, 280-281). -/
def M22.matmul (m : M22) (v : V2) : V2 := (m.m00 * v.1 + m.m01 * v.2, m.m10 * v.1 + m.m11 * v.2)

/-- utils.py:105-112 `rotation_matrix`. -/
def rotation_matrix (ang : ℝ) : M22 :=
  let s := Real.sin ang
  let c := Real.cos ang
  { m00 := c, m11 := c, m01 := -s, m10 := s }

/-- `torch.atan2(y, x)`; the principal argument of `x + i y` in `(-π, π]`, `0` at the origin. -/
def atan2 (y x : ℝ) : ℝ := Complex.arg ⟨x, y⟩

/-- utils.py:75-82 `cart_to_polar`. -/
def cart_to_polar (v : V2) (positive : Bool := true) : ℝ × ℝ :=
  let r := nrm v
  let theta := atan2 v.2 v.1
  let theta := if theta < 0 ∧ positive = true then theta + 2 * Real.pi else theta
  (r, theta)

/-- utils.py:85-90 `polar_to_cart`. -/
def polar_to_cart (r theta : ℝ) : V2 := (Real.cos theta * r, Real.sin theta * r)

end LcpPhysics
