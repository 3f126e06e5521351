import Verif.Spec.Contact
import Verif.Spec.Posed
import Verif.Spec.Run

/-! # Specification: static equilibrium -/

noncomputable section

namespace LcpPhysics.Spec
variable {σ φ : Type}

/-- Joint impulses, pushing normal impulses and tangential impulses within the friction cones balance the
forces `f`. -/
def Balanced (bs : List Body) (js : List Joint) (cs : List Contact) (f : ℕ → V3) : Prop :=
  ∃ (l : Vec) (pn pt : ℕ → ℝ),
    (∀ (i : ℕ) (h : i < cs.length), 0 ≤ pn i ∧ |pt i| ≤ meanFriction bs cs[i] * pn i) ∧
    ∀ u, forcePower bs.length f u + jointPower js l u + contactPower cs pn pt u = 0

/-- Joint impulses and pushing normal impulses alone balance the forces `f` on `n` bodies. -/
def Propped (n : ℕ) (js : List Joint) (cs : List Contact) (f : ℕ → V3) : Prop :=
  ∃ (l : Vec) (pn : ℕ → ℝ), (∀ i < cs.length, 0 ≤ pn i) ∧
    ∀ u, forcePower n f u + jointPower js l u + contactPower cs pn (fun _ => 0) u = 0

/-- A virtual velocity the joints allow and no contact prevents. -/
def Admissible (js : List Joint) (cs : List Contact) (u : Vec) : Prop :=
  (∀ x ∈ jointVels js u, x = 0) ∧ ∀ c ∈ cs, 0 ≤ normalVel c u

/-- The velocities of the first `n` bodies are zero. -/
def AtRest (n : ℕ) (v : Vec) : Prop := ∀ k < 3 * n, v k = 0

/-- The same bodies, in the same pose. -/
def Standing (bs bs' : List Body) : Prop :=
  Posed bs bs' ∧ ∀ i < bs.length, (bodyAt bs' i).p = (bodyAt bs i).p

/-- `w'` is reached from `w` by finitely many returning steps of lengths that are not negative. -/
def ReachesFwd (env : Env σ φ) : World σ φ → World σ φ → Prop :=
  Relation.ReflTransGen fun w w' => ∃ fuel dt, 0 ≤ dt ∧ w.step_dt env fuel dt = .done w'

end LcpPhysics.Spec
