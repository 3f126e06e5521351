import Verif.Model.World
import Mathlib.Logic.Relation

/-! # Specification vocabulary: reachable worlds -/

noncomputable section

namespace LcpPhysics
variable {σ φ : Type}

/-- `w'` is reached from `w` by one returning `step_dt` of any length. -/
def StepsTo (env : Env σ φ) (w w' : World σ φ) : Prop :=
  ∃ fuel dt, w.step_dt env fuel dt = .done w'

/-- `w'` is reached from `w` by finitely many returning steps of any lengths. -/
def Reaches (env : Env σ φ) : World σ φ → World σ φ → Prop := Relation.ReflTransGen (StepsTo env)

end LcpPhysics
