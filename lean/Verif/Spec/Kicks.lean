import Verif.Spec.Isolated
import Verif.Spec.Run
import Verif.Spec.Contact

/-! # Specification for C112: the changes of velocity along a run -/

noncomputable section

namespace LcpPhysics.Spec
variable {σ φ : Type}

/-- Kinetic energy of the difference between the velocities of two lists of bodies, with the masses of the
first: `Σ (I Δω² + m |Δq̇|²) / 2`. -/
def kickEnergy (bs bs' : List Body) : ℝ :=
  ∑ i ∈ Finset.range bs.length, ((bodyAt bs i).ang_inertia * ((bodyAt bs' i).v.r - (bodyAt bs i).v.r) ^ 2 +
    (bodyAt bs i).mass * (((bodyAt bs' i).v.x - (bodyAt bs i).v.x) ^ 2 +
      ((bodyAt bs' i).v.y - (bodyAt bs i).v.y) ^ 2)) / 2

/-- `n` returning steps of any lengths, one after the other. -/
def StepRun (env : Env σ φ) (n : ℕ) (ws : ℕ → World σ φ) : Prop := ∀ k < n, StepsTo env (ws k) (ws (k + 1))

/-- Steps `0, …, n - 1` that change the velocities by at least the energy `d`. -/
def bigKicks (d : ℝ) (n : ℕ) (ws : ℕ → World σ φ) : Set ℕ :=
  {k | k < n ∧ d ≤ kickEnergy (ws k).bodies (ws (k + 1)).bodies}

end LcpPhysics.Spec
