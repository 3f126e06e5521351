import Verif.Model.Bodies

/-! # Histories of calls on one body -/

noncomputable section

namespace LcpPhysics

/-- The mutations of a body that the simulator performs: `set_p` (bodies.py:84, 137, 202, 285),
`move` (bodies.py:80, 134, 208, 288) and the assignment `b.v = ...` in `World.set_v`
(world.py:130). -/
inductive BodyOp where
  | setP (p : V3)
  | move (dt : ℝ)
  | setV (v : V3)

/-- One call. -/
def Body.op (b : Body) : BodyOp → Body
  | .setP p => b.set_p p
  | .move dt => b.move dt
  | .setV v => { b with v := v }

/-- A sequence of calls. -/
def Body.run (b : Body) (ops : List BodyOp) : Body := ops.foldl Body.op b

end LcpPhysics
