import Verif.Model.World

/-!
# The clock of a world in floating point

`World.t` is a python float.  Here only the time is modelled, with a rounding `rnd` after every operation; the bodies are left out.
-/

noncomputable section

namespace LcpPhysics.Clock

/-- world.py:122: the time after a step of length `dt`. -/
def tick (rnd : ℝ → ℝ) (dt t : ℝ) : ℝ := rnd (t + dt)

/-- The time after `n` steps from time zero (world.py:29) that are not shortened. -/
def clockAt (rnd : ℝ → ℝ) (dt : ℝ) : ℕ → ℝ
  | 0 => 0
  | n + 1 => tick rnd dt (clockAt rnd dt n)

open Classical in
/-- world.py:266-267: the loop of `run_world`, counting the steps made; `n` bounds their number. -/
def clockLoop (rnd : ℝ → ℝ) (dt T : ℝ) : ℕ → ℕ → ℝ → Run ℕ
  | n, c, t =>
    if t < T then
      match n with
      | 0 => .running
      | n + 1 => clockLoop rnd dt T n (c + 1) (tick rnd dt t)
    else .done c

/-- world.py:101: `dt /= 2`, `k` times. -/
def halved (rnd : ℝ → ℝ) (d : ℝ) : ℕ → ℝ
  | 0 => d
  | k + 1 => rnd (halved rnd d k / 2)

open Classical in
/-- world.py:76-78, 101, 122: the loop of `step(fixed_dt=True)`; the list says how often each sub-step is halved. -/
def fixedLoop (rnd : ℝ → ℝ) (end_t : ℝ) : List ℕ → ℝ → Run ℝ
  | ks, t =>
    if t < end_t then
      match ks with
      | [] => .running
      | k :: ks => fixedLoop rnd end_t ks (tick rnd (halved rnd (rnd (end_t - t)) k) t)
    else .done t

/-- world.py:75. -/
def fixedClock (rnd : ℝ → ℝ) (dt : ℝ) (ks : List ℕ) (t : ℝ) : Run ℝ := fixedLoop rnd (rnd (t + dt)) ks t

end LcpPhysics.Clock
