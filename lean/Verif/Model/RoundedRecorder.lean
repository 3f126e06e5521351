import Verif.Model.Clock
import Verif.Model.Recorder

/-!
# The recorder in floating point

The times the recorder compares are python floats; `rnd` is applied after every operation.
-/

noncomputable section

namespace LcpPhysics.Clock

open Classical in
/-- utils.py:66-72 `record`. -/
def recordR (rnd : ℝ → ℝ) (r : Recorder) (t : ℝ) : Recorder :=
  if rnd (t - r.prev_t) ≥ r.dt then
    { r with files := r.files ++ [r.frame], frame := r.frame + 1, prev_t := rnd (r.prev_t + r.dt) }
  else r

/-- world.py:266-267, 303: the recorder after `n` rounds of the loop of `run_world`, if the clock shows `t i` after `i` steps (with a
recorder every round draws, world.py:274). -/
def filmed (rnd : ℝ → ℝ) (rdt : ℝ) (t : ℕ → ℝ) : ℕ → Recorder
  | 0 => mkRecorder rdt
  | n + 1 => recordR rnd (filmed rnd rdt t n) (t (n + 1))

/-- world.py:122: the time after `n` steps when step `i` had length `d i` (shortened or not). -/
def clockOf (rnd : ℝ → ℝ) (d : ℕ → ℝ) : ℕ → ℝ
  | 0 => 0
  | n + 1 => tick rnd (d n) (clockOf rnd d n)

end LcpPhysics.Clock
