import Mathlib.Data.Real.Basic

/-! # Model of `utils.py:54-73` `Recorder` -/

noncomputable section

namespace LcpPhysics

/-- utils.py:57-60: the attributes that change; `files` is the list of frame numbers written to disk,
in order. -/
structure Recorder where
  dt : ℝ
  prev_t : ℝ
  frame : ℕ
  files : List ℕ

/-- utils.py:57-64. -/
def mkRecorder (dt : ℝ) : Recorder := { dt := dt, prev_t := 0, frame := 0, files := [] }

open Classical in
/-- utils.py:66-72 `record`. -/
def Recorder.record (r : Recorder) (t : ℝ) : Recorder :=
  if t - r.prev_t ≥ r.dt then
    { r with files := r.files ++ [r.frame], frame := r.frame + 1, prev_t := r.prev_t + r.dt }
  else r

end LcpPhysics
