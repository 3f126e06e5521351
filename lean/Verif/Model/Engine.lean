import Verif.Model.Assembly
import Verif.Model.Forces
import Mathlib.LinearAlgebra.Matrix.NonsingularInverse

/-!
# Model of `lcp_physics/physics/engines.py`

The LCP solver is a parameter: `max_iter`, sizes `nz`, `neq`, `nineq` and `Q p G h A b F` to `x`
(or an exception).  The batch dimension of size one is dropped.
-/

noncomputable section

namespace LcpPhysics

/-- `lcp_solver(max_iter=…)(Q, p, G, h, A, b, F)` with the sizes made explicit. -/
abbrev LcpSolver := (max_iter nz neq nineq : ℕ) → Mat → Vec → Mat → Vec → Mat → Vec → Mat →
  Except Err Vec

/-- A square tensor as a Mathlib matrix. -/
def toMatrix (N : ℕ) (P : Mat) : Matrix (Fin N) (Fin N) ℝ := Matrix.of fun i j => P i j

/-- A Mathlib matrix as a tensor. -/
def ofMatrix {N : ℕ} (A : Matrix (Fin N) (Fin N) ℝ) : Mat := fun i j =>
  if h : i < N ∧ j < N then A ⟨i, h.1⟩ ⟨j, h.2⟩ else 0

open Classical in
/-- `torch.inverse(P)`: raises on singular input. -/
def torchInverse (N : ℕ) (P : Mat) : Except Err Mat :=
  if (toMatrix N P).det = 0 then .error (.raised "RuntimeError: singular")
  else .ok (ofMatrix (toMatrix N P)⁻¹)

variable {φ : Type}

/-- world.py:136-137 `apply_forces`: concatenation over the bodies; raises if a force is `None`. -/
def forceCat (H : ForceHeap) (t : ℝ) : ℕ → Except Err (List V3)
  | 0 => .ok []
  | n + 1 => match forceCat H t n, H.apply_forces n t with
    | .ok l, some f => .ok (l ++ [f])
    | .ok _, none => .error (.raised "TypeError")
    | .error e, _ => .error e

/-- engines.py:38-42, 95-98: the system matrix `P` (`M` alone without constraints). -/
def systemMatrix (M Je : Mat) (n : ℕ) : Mat := fun i j =>
  if i < n then (if j < n then M i j else -Je (j - n) i)
  else (if j < n then Je (i - n) j else 0)

/-- engines.py:64-65: `G = cat [Jc, Jf, zeros]`. -/
def assembleG (Jc Jf : Mat) (nc nf : ℕ) : Mat := fun i j =>
  if i < nc then Jc i j else if i < nc + nf then Jf (i - nc) j else 0

/-- engines.py:66-70: the three slice assignments into `F`; `E` has `nf` rows and `nc` columns and
`N = nc + nf + nc`; negative slice bounds `-nc` are `N - nc`. -/
def assembleF (E mu : Mat) (nc nf : ℕ) : Mat :=
  let N := nc + nf + nc
  let F : Mat := fun _ _ => 0
  let F := setBlock F nc ((N - nc) - nc) (N - nc) nc E
  let F := setBlock F (N - nc) nc 0 nc mu
  setBlock F (N - nc) nc nc nf fun i j => -E j i

/-- engines.py:71: `h = cat [v, zeros]`. -/
def assembleH (v : Vec) (nc : ℕ) : Vec := fun i => if i < nc then v i else 0

/-- engines.py:26-78 `PdipmEngine.solve_dynamics`; the engine state is `cached_inverse`. -/
def pdipmSolve (fd : ℕ) (H : ForceHeap) (lcp : LcpSolver) (max_iter : ℕ)
    (w : World (Option Mat) φ) (dt : ℝ) : Except Err (Option Mat × Vec) :=
  let n := 3 * w.bodies.length
  let Je := w.Je
  let neq := w.num_constraints
  match forceCat H w.t w.bodies.length with
  | .error e => .error e
  | .ok fl =>
    let f := cat3 fl
    let u : Vec := fun k => if k < n then mv w.M n w.v k + dt * f k else 0
    if w.contacts = [] then
      let P := systemMatrix w.M Je n
      match w.eng with
      | some inv => .ok (some inv, mv inv (n + neq) u)
      | none =>
        match torchInverse (n + neq) P with
        | .error e => .error e
        | .ok inv => .ok (if w.static_inverse then some inv else none, mv inv (n + neq) u)
    else
      let nc := w.contacts.length
      let v : Vec := fun i => mv w.Jc n w.v i * w.restitutions i
      match w.Jf fd with
      | .error e => .error e
      | .ok Jf =>
        let G := assembleG w.Jc Jf nc (fd * nc)
        let F := assembleF (w.E fd) w.mu nc (fd * nc)
        match lcp max_iter n neq (nc + fd * nc + nc) w.M u G (assembleH v nc) Je (fun _ => 0) F with
        | .error e => .error e
        | .ok x => .ok (w.eng, fun k => -x k)

/-- engines.py:80-116 `post_stabilization`. -/
def pdipmPostStab (lcp : LcpSolver) (w : World (Option Mat) φ) : Except Err Vec :=
  let n := 3 * w.bodies.length
  let neq := w.num_constraints
  let ge := mv w.Je n w.v
  if w.contacts = [] then
    let u : Vec := fun k => if k < n then 0 else ge (k - n)
    match (match w.eng with
      | some inv => Except.ok inv
      | none => torchInverse (n + neq) (systemMatrix w.M w.Je n)) with
    | .error e => .error e
    | .ok inv => .ok fun k => -mv inv (n + neq) u k
  else
    let gc : Vec := fun i => mv w.Jc n w.v i + mv w.Jc n w.v i * -w.restitutions i
    match lcp 10 n neq w.contacts.length w.M (fun _ => 0) w.Jc gc w.Je ge (fun _ _ => 0) with
    | .error e => .error e
    | .ok x => .ok fun k => -x k

/-- The environment of a world stepped by `PdipmEngine`. -/
def pdipmEnv (fd : ℕ) (H : ForceHeap) (lcp : LcpSolver) (max_iter : ℕ)
    (collide : ℝ → φ → List Body → Except Err (φ × List Contact)) : Env (Option Mat) φ where
  solve_dynamics := pdipmSolve fd H lcp max_iter
  post_stabilization := pdipmPostStab lcp
  collide := collide

end LcpPhysics
