import Verif.Model.Forces
import Verif.Model.RoundedBody

/-!
# Forces in floating point

The same functions as in `Forces.lean`, with a rounding after every operation.  The force functions return the constants `DOWN`, `RIGHT`,
`ROT` and `ZEROS`, or what the user's function returns.
-/

noncomputable section

namespace LcpPhysics.Rounded

/-- An operation on tensors rounds every entry. -/
def rnd3 (A : Arith) (v : V3) : V3 := ⟨A.rnd v.r, A.rnd v.x, A.rnd v.y⟩

/-- forces.py:42, 61-62. -/
def fforce (A : Arith) : Force → ℝ → Option V3
  | .external f m, t => some (rnd3 A (m • f t))
  | .gravity _ c, _ => c

/-- forces.py:45-48, 64-67: `down * mass * multiplier`, two products. -/
def fsetBody (A : Arith) (f : Force) (mass : ℝ) : Force :=
  match f with
  | .external fn m => .external fn m
  | .gravity g _ => .gravity g (some (rnd3 A (g • rnd3 A (mass • (⟨0, 0, 1⟩ : V3)))))

/-- bodies.py:108-110 `add_force`. -/
def faddForce (A : Arith) (H : ForceHeap) (i : ℕ) (mass : ℝ) (h : ℕ) : ForceHeap where
  attached := fun k => if k = i then H.attached k ++ [h] else H.attached k
  obj := fun k => if k = h then fsetBody A (H.obj k) mass else H.obj k

/-- Python's `sum`, from zero, in the order of the list. -/
def fsumForces (A : Arith) : List (Option V3) → V3 → Option V3
  | [], acc => some acc
  | none :: _, _ => none
  | some f :: fs, acc => fsumForces A fs (rnd3 A (acc + f))

/-- bodies.py:98-102 `apply_forces`. -/
def fapplyForces (A : Arith) (H : ForceHeap) (i : ℕ) (t : ℝ) : Option V3 :=
  if (H.attached i).length = 0 then some 0
  else fsumForces A ((H.attached i).map fun h => fforce A (H.obj h) t) 0

end LcpPhysics.Rounded
