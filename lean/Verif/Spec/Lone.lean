import Verif.Spec.Run
import Verif.Spec.During

/-! # Specification: runs in which nothing touches one body -/

noncomputable section

namespace LcpPhysics.Spec
variable {σ φ : Type}

open Classical in
/-- A contact search that stops the program when it finds a contact of body `i`.  A run with it that returns is a run in which no
search of the run, also of those in poses that were rejected, reported a contact of that body. -/
def watched (i : ℕ) (collide : ℝ → φ → List Body → Except Err (φ × List Contact)) (eps : ℝ) (f : φ) (bs : List Body) :
    Except Err (φ × List Contact) :=
  match collide eps f bs with
  | .error e => .error e
  | .ok r => if Untouched r.2 i then .ok r else .error (.raised "touched")

/-- The same program, stopped when body `i` is touched. -/
def watchedEnv (i : ℕ) (env : Env σ φ) : Env σ φ := { env with collide := watched i env.collide }

/-- The pose and velocity body `i` has at time `t` when it has moved freely since `w0`. -/
def coasts (w0 : World σ φ) (i : ℕ) (t : ℝ) (b : Body) : Prop :=
  b.v = (bodyAt w0.bodies i).v ∧ b.p = (bodyAt w0.bodies i).p + (t - w0.t) • (bodyAt w0.bodies i).v

end LcpPhysics.Spec
