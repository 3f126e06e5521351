import Verif.Model.Geom
import Verif.Spec.Plane

/-! # The push of `demos/grad_demo.py` -/

noncomputable section

namespace LcpPhysics.Spec

/-- How far the pushed ball has flown after `n` steps, in units of the force: it is pushed during three steps. -/
def pushed : ℕ → ℝ
  | 0 => 0
  | 1 => 1 / 9
  | n + 2 => (n + 1) / 3

/-- The path of the pushed ball, if it hits nothing. -/
def pushedPos (F : V3) (n : ℕ) : V2 := (250 + pushed n * F.x, 210 + pushed n * F.y)

/-- With the push `F` the ball does not come to the second ball (radius 30 each, contact tolerance 0.1) within the 210 steps. -/
def Misses (F : V3) : Prop := ∀ n ≤ 210, 60.1 < len (pushedPos F n - (400, 250))

end LcpPhysics.Spec
