import Verif.Model.Geom
import Mathlib.Algebra.BigOperators.Group.Finset.Basic

/-!
# Model of `lcp_physics/physics/bodies.py`

A body object becomes a value of type `Body`; a mutating method returns the new body.
`self.rot = self.p[0:1]` and `self.pos = self.p[1:]` are views of `self.p` that every method
re-creates together with `p` (bodies.py:32-33, 86-88), so they are functions of `p` here.
Drawing, colours and tensor dtypes/devices (`_set_base_tensor`) are not modelled.
-/

noncomputable section

open scoped BigOperators

namespace LcpPhysics

/-- Errors raised by the modelled code. -/
inductive Err where
  /-- an `assert` failed -/
  | assertion
  /-- `ValueError` / `RuntimeError` / `UnboundLocalError` etc. -/
  | raised (what : String)
deriving Repr, DecidableEq

/-- The `i`-th element of a Python list of vertices; only used with `i < len`. -/
def vget (verts : List V2) (i : ℕ) : V2 := verts.getD i 0

/-- The three body classes (bodies.py:116, 154, 253) with the data their methods use. -/
inductive Shape where
  | circle (rad : ℝ)
  | hull (verts : List V2)
  | rect (dims : V2) (verts : List V2)

/-- The ODE geometry object: what was passed to its constructor and setters. -/
inductive GeomKind where
  /-- `ode.GeomSphere(None, radius)` -/
  | sphere (radius : ℝ)
  /-- `ode.GeomBox(None, (lx, ly, 1))` -/
  | box (lengths : V2)

/-- State of the ODE geometry: kind, position (z = 0) and the last quaternion `(w,x,y,z)` set;
`none` means `setQuaternion` was never called (identity orientation). -/
structure Geom where
  kind : GeomKind
  pos : V2
  quat : Option (ℝ × ℝ × ℝ × ℝ)

/-- bodies.py:15-113 `Body` (with the subclass data in `shape`). -/
structure Body where
  p : V3
  v : V3
  mass : ℝ
  ang_inertia : ℝ
  restitution : ℝ
  fric_coeff : ℝ
  eps : ℝ
  shape : Shape
  geom : Geom

/-- bodies.py:33, 88: `self.pos = self.p[1:]`. -/
def Body.pos (b : Body) : V2 := b.p.xy

/-- bodies.py:32, 87: `self.rot = self.p[0:1]`. -/
def Body.rot (b : Body) : ℝ := b.p.r

/-- `self.verts` of a `Hull`/`Rect`; a circle has none. -/
def Body.verts (b : Body) : List V2 :=
  match b.shape with
  | .circle _ => []
  | .hull vs => vs
  | .rect _ vs => vs

/-- `isinstance(b, Circle)`. -/
def Body.isCircle (b : Body) : Bool :=
  match b.shape with
  | .circle _ => true
  | _ => false

/-- A `pos`/`vel` constructor argument, of size 2 or 3. -/
inductive Arg where
  | two (a : V2)
  | three (a : V3)

/-- bodies.py:27-31, 35-38: a size-2 argument gets a zero rotation component. -/
def Arg.toV3 : Arg → V3
  | .two a => ⟨0, a.1, a.2⟩
  | .three a => a

/-- bodies.py:216-226 `Hull._get_centroid`: the accumulating loop is a finite sum. -/
def centroidNum (verts : List V2) : V2 :=
  ∑ i ∈ Finset.range verts.length,
    let v1 := vget verts i
    let v2 := vget verts ((i + 1) % verts.length)
    let cross := cross_2d v2 v1
    cross • (v1 + v2)

/-- bodies.py:216-226, the `denominator` accumulator of `_get_centroid`. -/
def centroidDen (verts : List V2) : ℝ :=
  ∑ i ∈ Finset.range verts.length,
    let v1 := vget verts i
    let v2 := vget verts ((i + 1) % verts.length)
    let cross := cross_2d v2 v1
    cross / 2

/-- bodies.py:226 `1 / 6 * numerator / denominator` (NaN in the code when the denominator is 0;
theorem C03 shows this cannot happen for an accepted hull). -/
def get_centroid (verts : List V2) : V2 :=
  (1 / centroidDen verts) • ((1 / 6 : ℝ) • centroidNum verts)

/-- bodies.py:228-235 `Hull._is_clockwise`, the accumulated `total`. -/
def clockwiseTotal (verts : List V2) : ℝ :=
  ∑ i ∈ Finset.range verts.length,
    let v1 := vget verts i
    let v2 := vget verts ((i + 1) % verts.length)
    (v2.1 - v1.1) * (v2.2 + v1.2)

/-- bodies.py:235 `return total < 0`. -/
def is_clockwise (verts : List V2) : Prop := clockwiseTotal verts < 0

/-- bodies.py:179-189 `Hull._get_ang_inertia`, numerator; `torch.norm` of a scalar is `|·|`. -/
def inertiaNum (verts : List V2) : ℝ :=
  ∑ i ∈ Finset.range verts.length,
    let v1 := vget verts i
    let v2 := vget verts ((i + 1) % verts.length)
    let norm_cross := |cross_2d v2 v1|
    norm_cross * (dot v1 v1 + dot v1 v2 + dot v2 v2)

/-- bodies.py:179-189 `Hull._get_ang_inertia`, denominator. -/
def inertiaDen (verts : List V2) : ℝ :=
  ∑ i ∈ Finset.range verts.length,
    let v1 := vget verts i
    let v2 := vget verts ((i + 1) % verts.length)
    |cross_2d v2 v1|

/-- bodies.py:189 `1 / 6 * mass * numerator / denominator`. -/
def hullInertia (verts : List V2) (mass : ℝ) : ℝ :=
  1 / 6 * mass * inertiaNum verts / inertiaDen verts

/-- bodies.py:125-126 `Circle._get_ang_inertia`. -/
def circleInertia (rad mass : ℝ) : ℝ := mass * rad * rad / 2

/-- bodies.py:269-270 `Rect._get_ang_inertia`. -/
def rectInertia (dims : V2) (mass : ℝ) : ℝ := mass * (dims.1 ^ 2 + dims.2 ^ 2) / 12

/-- bodies.py:193-194 (`_create_geom`): radius of the bounding circle of the vertices,
`sqrt(max(v.dot(v)))`; the list is never empty there (an accepted hull has > 2 vertices). -/
def maxRad (verts : List V2) : ℝ :=
  Real.sqrt ((verts.map fun v => dot v v).foldr max 0)

/-- Optional physical parameters of the constructors (defaults: utils.py:15-23, bodies.py:18-20). -/
structure Params where
  vel : Arg := .three 0
  mass : ℝ := 1
  restitution : ℝ := 0.5
  fric_coeff : ℝ := 0.9
  eps : ℝ := 0.1

/-- bodies.py:117-132 `Circle.__init__` with `Body.__init__` and `_create_geom`. -/
def mkCircle (pos : Arg) (rad : ℝ) (a : Params) : Body where
  p := pos.toV3
  v := a.vel.toV3
  mass := a.mass
  ang_inertia := circleInertia rad a.mass
  restitution := a.restitution
  fric_coeff := a.fric_coeff
  eps := a.eps
  shape := .circle rad
  geom := { kind := .sphere (rad + a.eps), pos := pos.toV3.xy, quat := none }

open Classical in
/-- bodies.py:162-177, 191-200 `Hull.__init__` with `Body.__init__` and `_create_geom`. -/
def mkHull (ref_point : V2) (vertices : List V2) (a : Params) : Except Err Body :=
  if vertices.length > 2 ∧ is_clockwise vertices then
    let centroid := get_centroid vertices
    let verts := vertices.map (fun v => v - centroid)
    let pos := ref_point + centroid
    .ok {
      p := ⟨0, pos.1, pos.2⟩
      v := a.vel.toV3
      mass := a.mass
      ang_inertia := hullInertia verts a.mass
      restitution := a.restitution
      fric_coeff := a.fric_coeff
      eps := a.eps
      shape := .hull verts
      geom := { kind := .sphere (maxRad verts + a.eps), pos := pos, quat := none } }
  else .error .assertion

/-- bodies.py:211-214 `Hull.rotate_verts`. -/
def hullRotate (rot : ℝ) (verts : List V2) : List V2 :=
  verts.map (fun v => (rotation_matrix rot).matmul v)

/-- bodies.py:278-283 `Rect.rotate_verts`: rotates two vertices and negates them for the others.
A `Rect` always has four vertices; other lists cannot occur. -/
def rectRotate (rot : ℝ) (verts : List V2) : List V2 :=
  match verts with
  | [v0, v1, _, _] =>
    let w0 := (rotation_matrix rot).matmul v0
    let w1 := (rotation_matrix rot).matmul v1
    [w0, w1, -w0, -w1]
  | vs => vs

/-- bodies.py:91-96: the quaternion passed to `setQuaternion`, in ODE's order `(w, x, y, z)`. -/
def quatOf (rot : ℝ) : ℝ × ℝ × ℝ × ℝ :=
  let s := Real.sin (-rot / 2)
  let c := Real.cos (-rot / 2)
  (s, 0, 0, c)

/-- bodies.py:84-96 `Body.set_p`. -/
def Body.baseSetP (b : Body) (new_p : V3) (update_geom_rotation : Bool) : Body :=
  { b with
    p := new_p
    geom := { b.geom with
      pos := new_p.xy
      quat := if update_geom_rotation then some (quatOf new_p.r) else b.geom.quat } }

/-- `set_p` dispatched on the class, with each class's default for `update_geom_rotation`:
Circle bodies.py:137-138, Hull 202-206, Rect 285-286 (which calls Hull's). -/
def Body.set_p (b : Body) (new_p : V3) : Body :=
  match b.shape with
  | .circle _ => b.baseSetP new_p false
  | .hull vs =>
    let rot := new_p.r - b.p.r
    let vs' := if rot ≠ 0 then hullRotate rot vs else vs
    ({ b with shape := .hull vs' }).baseSetP new_p false
  | .rect d vs =>
    let rot := new_p.r - b.p.r
    let vs' := if rot ≠ 0 then rectRotate rot vs else vs
    ({ b with shape := .rect d vs' }).baseSetP new_p true

/-- bodies.py:80-82 `Body.move` (Circle 134-135, Hull 208-209, Rect 288-289 only pass the default
flag on): `new_p = self.p + self.v * dt`. -/
def Body.move (b : Body) (dt : ℝ) : Body := b.set_p (b.p + dt • b.v)

open Classical in
/-- bodies.py:254-276 `Rect.__init__` with `Hull.__init__`, `Body.__init__`, `_create_geom`. -/
def mkRect (pos : Arg) (dims : V2) (a : Params) : Except Err Body :=
  let half_dims : V2 := (dims.1 / 2, dims.2 / 2)
  let v0 : V2 := half_dims
  let v1 : V2 := (half_dims.1 * (-1), half_dims.2 * 1)
  let verts := [v0, v1, -v0, -v1]
  let ref_point : V2 := pos.toV3.xy
  if verts.length > 2 ∧ is_clockwise verts then
    let centroid := get_centroid verts
    let verts := verts.map (fun v => v - centroid)
    let bpos := ref_point + centroid
    let b : Body := {
      p := ⟨0, bpos.1, bpos.2⟩
      v := a.vel.toV3
      mass := a.mass
      ang_inertia := rectInertia dims a.mass
      restitution := a.restitution
      fric_coeff := a.fric_coeff
      eps := a.eps
      shape := .rect dims verts
      geom := { kind := .box (dims.1 + 2 * a.eps, dims.2 + 2 * a.eps), pos := bpos, quat := none } }
    match pos with
    | .two _ => .ok b
    | .three p => .ok (b.set_p p)
  else .error .assertion

end LcpPhysics
