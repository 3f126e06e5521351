import Verif.Model.Geom

/-! # Model of `lcp_physics/physics/forces.py` and the force part of `bodies.py` -/

noncomputable section

namespace LcpPhysics

/-- forces.py:35-38: the pre-stored force tensors. -/
def DOWN : V3 := ⟨0, 0, 1⟩
def RIGHT : V3 := ⟨0, 1, 0⟩
def ROT : V3 := ⟨1, 0, 0⟩
def ZEROS : V3 := ⟨0, 0, 0⟩

/-- forces.py:4-5. -/
def down_force (_t : ℝ) : V3 := DOWN

open Classical in
/-- forces.py:8-12. -/
def vert_impulse (t : ℝ) : V3 := if t < 0.1 then DOWN else ZEROS

open Classical in
/-- forces.py:15-19. -/
def hor_impulse (t : ℝ) : V3 := if t < 0.1 then RIGHT else ZEROS

open Classical in
/-- forces.py:22-26. -/
def rot_impulse (t : ℝ) : V3 := if t < 0.1 then ROT else ZEROS

/-- A force object (forces.py:29-67).  `ExternalForce.force = lambda t: force_func(t) * multiplier`;
`Gravity` returns the tensor cached by the last `set_body` (`none` before the first). -/
inductive Force where
  | external (force_func : ℝ → V3) (multiplier : ℝ)
  | gravity (g : ℝ) (cached : Option V3)

/-- forces.py:42, 61-62: the value `f.force(t)`; `none` is Python's `None` (Gravity never attached),
on which `sum` would raise. -/
def Force.force : Force → ℝ → Option V3
  | .external f m, t => some (m • f t)
  | .gravity _ c, _ => c

/-- forces.py:45-48, 64-67 `set_body` for a body of the given mass: `down * mass * multiplier`. -/
def Force.set_body (f : Force) (mass : ℝ) : Force :=
  match f with
  | .external fn m => .external fn m
  | .gravity g _ => .gravity g (some ⟨0 * mass * g, 0 * mass * g, 1 * mass * g⟩)

/-- Force objects are shared by reference: a heap of force objects, and per body the list of the
handles appended to `self.forces` (bodies.py:50, 109). -/
structure ForceHeap where
  obj : ℕ → Force
  attached : ℕ → List ℕ

/-- bodies.py:108-110 `add_force`, body `i` (of mass `mass`) and force object `h`. -/
def ForceHeap.add_force (H : ForceHeap) (i : ℕ) (mass : ℝ) (h : ℕ) : ForceHeap where
  attached := fun k => if k = i then H.attached k ++ [h] else H.attached k
  obj := fun k => if k = h then (H.obj k).set_body mass else H.obj k

/-- Python's `sum` over a list of tensors: starts with `0` and adds in order; `none` when some
element is `None` (TypeError). -/
def sumForces : List (Option V3) → V3 → Option V3
  | [], acc => some acc
  | none :: _, _ => none
  | some f :: fs, acc => sumForces fs (acc + f)

/-- bodies.py:98-102 `apply_forces`: zero without forces, else the sum. -/
def ForceHeap.apply_forces (H : ForceHeap) (i : ℕ) (t : ℝ) : Option V3 :=
  if (H.attached i).length = 0 then some 0
  else sumForces ((H.attached i).map fun h => (H.obj h).force t) 0

end LcpPhysics
