import Verif.Spec.Run
import Verif.Spec.Contact

/-! # Specification: worlds whose player moves one body -/

noncomputable section

namespace LcpPhysics.Spec
variable {σ φ : Type}

/-- One move: a returning `step_dt` of any length, or the player sets the velocity of body `who`.  `ok` is required of
the worlds from which the physics steps start. -/
def PlayStep (env : Env σ φ) (who : ℕ) (ok : World σ φ → Prop) (w w' : World σ φ) : Prop :=
  (ok w ∧ StepsTo env w w') ∨ ∃ v : Vec, (∀ k, k / 3 ≠ who → v k = w.v k) ∧ w' = w.set_v v

/-- Any number of moves. -/
def Play (env : Env σ φ) (who : ℕ) (ok : World σ φ → Prop) : World σ φ → World σ φ → Prop :=
  Relation.ReflTransGen (PlayStep env who ok)

end LcpPhysics.Spec
