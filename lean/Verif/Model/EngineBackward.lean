import Verif.Model.Library

/-!
# The engine, backwards

PyTorch differentiates `solve_dynamics` (engines.py:26-78) by calling `LCPFunction.backward` (lcp.py:37-64) with the
derivative of the loss with respect to the solver's answer.  The answer is negated (engines.py:76), so that derivative is
minus the one with respect to the new velocities; the gradient for the second argument `p` is the gradient with respect
to `u = M v + dt f` (engines.py:32, 62).
-/

noncomputable section

namespace LcpPhysics

variable {σ φ : Type}

/-- A tensor of `n` entries as a vector; reading beyond the end does not happen. -/
def finVec {n : ℕ} (x : Fin n → ℝ) : Vec := fun k => if h : k < n then x ⟨k, h⟩ else 0

/-- engines.py:52-76: the arguments of the LCP solver, `u` and `Jf` given. -/
def engineProblem (w : World σ φ) (Jf : Mat) (u : Vec) :
    Lcp (3 * w.bodies.length) (w.contacts.length + 2 * w.contacts.length + w.contacts.length) w.num_constraints :=
  toLcp (3 * w.bodies.length) w.num_constraints (w.contacts.length + 2 * w.contacts.length + w.contacts.length)
    w.M u (assembleG w.Jc Jf w.contacts.length (2 * w.contacts.length))
    (assembleH (fun i => mv w.Jc (3 * w.bodies.length) w.v i * w.restitutions i) w.contacts.length) w.Je (fun _ => 0)
    (assembleF (w.E 2) w.mu w.contacts.length (2 * w.contacts.length))

/-- engines.py:76 and lcp.py:37-64: the gradient with respect to `u` for a loss whose gradient with respect to the new
velocities is `gv`; `it` is what the forward pass returned.  `none`: the factorisation raises. -/
def engineImpulseGrad (f : Btrifact) (w : World σ φ) (Jf : Mat) (u : Vec)
    (K : Kkt (3 * w.bodies.length) (w.contacts.length + 2 * w.contacts.length + w.contacts.length) w.num_constraints)
    (S_LU : PackedLU (w.num_constraints + (w.contacts.length + 2 * w.contacts.length + w.contacts.length)))
    (it : Iter (3 * w.bodies.length) (w.contacts.length + 2 * w.contacts.length + w.contacts.length) w.num_constraints)
    (gv : Vec) : Option Vec :=
  (lcpBackward f (engineProblem w Jf u) K S_LU it (fun k => -gv k)).map fun g => finVec g.dp

end LcpPhysics
