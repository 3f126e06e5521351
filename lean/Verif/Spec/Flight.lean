import Verif.Spec.Demos
import Verif.Spec.Motion

/-! # Free flight, step by step -/

noncomputable section

namespace LcpPhysics.Spec

/-- Velocities of a body of mass `m` and angular inertia `I` after `n` steps of length `h`, when `f j` is the (generalised) force
during step `j`. -/
def flightVel (h m I : ℝ) (f : ℕ → V3) (v : V3) : ℕ → V3
  | 0 => v
  | n + 1 => flightVel h m I f v n + ⟨h * (f n).r / I, h * (f n).x / m, h * (f n).y / m⟩

/-- Its poses: every step moves with the velocity at its end. -/
def flightPose (h m I : ℝ) (f : ℕ → V3) (p v : V3) : ℕ → V3
  | 0 => p
  | n + 1 => flightPose h m I f p v n + h • flightVel h m I f v (n + 1)

/-- The sum of the forces attached to body `k`, at time `t`. -/
def forceOn (H : ForceHeap) (k : ℕ) (t : ℝ) : V3 := (H.apply_forces k t).getD 0

end LcpPhysics.Spec
