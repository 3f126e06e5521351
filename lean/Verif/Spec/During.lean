import Verif.Spec.Run

/-! # Specification: the worlds passed through during one fixed step -/

noncomputable section

namespace LcpPhysics.Spec
variable {σ φ : Type}

/-- `x` is one of the worlds at which a sub-step of a step lasting until `T` starts or ends. -/
def During (env : Env σ φ) (fuel : ℕ) (T : ℝ) : World σ φ → World σ φ → Prop :=
  Relation.ReflTransGen fun a b => a.t < T ∧ a.step_dt env fuel (T - a.t) = .done b

/-- Body `i` takes part in no contact. -/
def Untouched (cs : List Contact) (i : ℕ) : Prop := ∀ c ∈ cs, c.i1 ≠ i ∧ c.i2 ≠ i

/-- Bodies 0 and 1 (ball and paddle) touch nothing whenever a sub-step starts within the next `dt`, after the player has
set the paddle's velocity to `a * (vx, vy)`. -/
def FreeTurn (env : Env σ φ) (fuel : ℕ) (a vx vy : ℝ) (w : World σ φ) : Prop :=
  ∀ x, During env fuel (w.t + w.dt) (w.set_v fun k => if k = 4 then a * vx else if k = 5 then a * vy else w.v k) x →
    x.t < w.t + w.dt → Untouched x.contacts 0 ∧ Untouched x.contacts 1

end LcpPhysics.Spec
