import Verif.Model.Engine
import Verif.Model.Pdipm

/-!
# The engine with the library's own LCP solver

engines.py:20 sets `lcp_solver = LCPFunction`, lcp.py:13-20 its defaults `eps = 1e-12`,
`not_improved_lim = 3`; the engine passes a batch of size one.
-/

noncomputable section

namespace LcpPhysics

/-- The arguments of the call (engines.py:73, 110) as one batch element. -/
def toLcp (nz neq nineq : ℕ) (Q : Mat) (p : Vec) (G : Mat) (h : Vec) (A : Mat) (b : Vec) (F : Mat) :
    Lcp nz nineq neq where
  Q := Matrix.of fun i j => Q i j
  p := fun i => p i
  G := Matrix.of fun i j => G i j
  h := fun i => h i
  A := Matrix.of fun i j => A i j
  b := fun i => b i
  F := Matrix.of fun i j => F i j

/-- engines.py:73, 110 with lcp.py:22-35: `LCPFunction(max_iter=…)(Q, p, G, h, A, b, F)` on a batch
of size one.  `nineq = 0`: `torch.min` over an empty dimension raises.  The four `None`s `forward`
may return cannot be squeezed or negated. -/
def libraryLcp (f : Btrifact) (eps : ℝ) (lim : ℕ) : LcpSolver :=
  fun max_iter nz neq nineq Q p G h A b F =>
    if hn : nineq = 0 then .error (.raised "RuntimeError: min over an empty dimension")
    else
      haveI : NeZero nineq := ⟨hn⟩
      match lcpForward f eps lim max_iter fun _ : Fin 1 => toLcp nz neq nineq Q p G h A b F with
      | .raised e => .error e
      | .ret none => .error (.raised "TypeError: NoneType")
      | .ret (some w) => .ok fun k => if hk : k < nz then w.x 0 ⟨k, hk⟩ else 0

/-- pdipm.py:93-97, 109-136: the best residual of that call, which the solver prints as `best resids`
and stops on; 0 for calls that return nothing. -/
def libraryResid (f : Btrifact) (eps : ℝ) (lim max_iter nz neq nineq : ℕ) (Q : Mat) (p : Vec) (G : Mat)
    (h : Vec) (A : Mat) (b : Vec) (F : Mat) : ℝ :=
  if hn : nineq = 0 then 0
  else
    haveI : NeZero nineq := ⟨hn⟩
    match lcpForward f eps lim max_iter fun _ : Fin 1 => toLcp nz neq nineq Q p G h A b F with
    | .ret (some w) => w.resids 0
    | _ => 0

variable {φ : Type}

/-- The best residual of the LCP solved in `solve_dynamics` (engines.py:44-73); 0 if there is none. -/
def engineResid (f : Btrifact) (eps : ℝ) (lim : ℕ) (H : ForceHeap) (max_iter : ℕ)
    (w : World (Option Mat) φ) (dt : ℝ) : ℝ :=
  let n := 3 * w.bodies.length
  let nc := w.contacts.length
  match forceCat H w.t w.bodies.length, w.Jf 2 with
  | .ok fl, .ok Jf =>
    if w.contacts = [] then 0
    else libraryResid f eps lim max_iter n w.num_constraints (nc + 2 * nc + nc) w.M
      (fun k => if k < n then mv w.M n w.v k + dt * cat3 fl k else 0)
      (assembleG w.Jc Jf nc (2 * nc)) (assembleH (fun i => mv w.Jc n w.v i * w.restitutions i) nc) w.Je
      (fun _ => 0) (assembleF (w.E 2) w.mu nc (2 * nc))
  | _, _ => 0

/-- The best residual of the LCP solved in `post_stabilization` (engines.py:101-112). -/
def stabResid (f : Btrifact) (eps : ℝ) (lim : ℕ) (w : World (Option Mat) φ) : ℝ :=
  let n := 3 * w.bodies.length
  let gc : Vec := fun i => mv w.Jc n w.v i + mv w.Jc n w.v i * -w.restitutions i
  if w.contacts = [] then 0
  else libraryResid f eps lim 10 n w.num_constraints w.contacts.length w.M (fun _ => 0) w.Jc gc w.Je
    (mv w.Je n w.v) (fun _ _ => 0)

end LcpPhysics
