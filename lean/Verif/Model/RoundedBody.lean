import Verif.Model.BodyOps

/-!
# Poses and vertices in floating point

The tensors of a body are of double precision (utils.py:34).  Here every operation of `move`, `set_p` and `rotate_verts` is followed by a
rounding; the sine and cosine are those of the library.  Everything else of a body is left as it is: the geometry of the broad phase gets
the pose, without further rounding.  Products of a matrix and a vector are computed as two rounded products and a rounded sum (a fused
multiply-add would round less).
-/

noncomputable section

namespace LcpPhysics.Rounded

/-- The arithmetic: rounding, cosine and sine. -/
structure Arith where
  rnd : ℝ → ℝ
  fcos : ℝ → ℝ
  fsin : ℝ → ℝ

/-- Without rounding. -/
def Arith.exact : Arith := ⟨id, Real.cos, Real.sin⟩

/-- utils.py:105-112 `rotation_matrix` and bodies.py:213-214 `rot_mat.matmul`. -/
def turn (A : Arith) (a : ℝ) (v : V2) : V2 :=
  let c := A.fcos a
  let s := A.fsin a
  (A.rnd (A.rnd (c * v.1) + A.rnd (-s * v.2)), A.rnd (A.rnd (s * v.1) + A.rnd (c * v.2)))

/-- bodies.py:211-214 `Hull.rotate_verts`. -/
def hullTurn (A : Arith) (a : ℝ) (verts : List V2) : List V2 := verts.map (turn A a)

/-- bodies.py:278-283 `Rect.rotate_verts`; a negation is exact. -/
def rectTurn (A : Arith) (a : ℝ) (verts : List V2) : List V2 :=
  match verts with
  | [v0, v1, _, _] => [turn A a v0, turn A a v1, -turn A a v0, -turn A a v1]
  | vs => vs

/-- bodies.py:202-206 `set_p`: the angle is the rounded difference of the stored ones; circles (137-138) and rectangles (285-286) as in
`Body.set_p`. -/
def setP (A : Arith) (b : Body) (new_p : V3) : Body :=
  let rot := A.rnd (new_p.r - b.p.r)
  match b.shape with
  | .circle _ => b.baseSetP new_p false
  | .hull vs => ({ b with shape := .hull (if rot ≠ 0 then hullTurn A rot vs else vs) }).baseSetP new_p false
  | .rect d vs => ({ b with shape := .rect d (if rot ≠ 0 then rectTurn A rot vs else vs) }).baseSetP new_p true

/-- bodies.py:81: the new pose of `move`. -/
def moved (A : Arith) (p v : V3) (dt : ℝ) : V3 :=
  ⟨A.rnd (p.r + A.rnd (v.r * dt)), A.rnd (p.x + A.rnd (v.x * dt)), A.rnd (p.y + A.rnd (v.y * dt))⟩

/-- bodies.py:80-82 `move`. -/
def move (A : Arith) (b : Body) (dt : ℝ) : Body := setP A b (moved A b.p b.v dt)

/-- One call. -/
def op (A : Arith) (b : Body) : BodyOp → Body
  | .setP p => setP A b p
  | .move dt => move A b dt
  | .setV v => { b with v := v }

/-- A sequence of calls. -/
def run (A : Arith) (b : Body) (ops : List BodyOp) : Body := ops.foldl (op A) b

end LcpPhysics.Rounded
