import Verif.Spec.Contact

/-! # Specification: groups of bodies that interact only with each other and with resting bodies -/

noncomputable section

namespace LcpPhysics.Spec

/-- Keeps the velocities of the bodies in `S`, zero elsewhere. -/
def onlyOn (S : ℕ → Prop) [DecidablePred S] (v : Vec) : Vec := fun k => if S (k / 3) then v k else 0

/-- Body `k` rests before and after the impact. -/
def Rests (v v' : Vec) (k : ℕ) : Prop := twist v k = 0 ∧ twist v' k = 0

/-- Constraints and contacts connect bodies of `S` only with bodies of `S` and with resting bodies. -/
structure Island (S : ℕ → Prop) (js : List Joint) (cs : List Contact) (v v' : Vec) : Prop where
  joints : ∀ j ∈ js, ∀ k ∈ j.i2, (S j.i1 → S k ∨ Rests v v' k) ∧ (S k → S j.i1 ∨ Rests v v' j.i1)
  contacts : ∀ c ∈ cs, (S c.i1 → S c.i2 ∨ Rests v v' c.i2) ∧ (S c.i2 → S c.i1 ∨ Rests v v' c.i1)

/-- A contact with a body of `S`. -/
def touches (S : ℕ → Prop) [DecidablePred S] (c : Contact) : Bool := decide (S c.i1 ∨ S c.i2)

/-- A constraint on a body of `S`. -/
def holds (S : ℕ → Prop) [DecidablePred S] (j : Joint) : Bool := decide (S j.i1 ∨ ∃ k ∈ j.i2, S k)

/-- Kinetic energy of the bodies of `S`. -/
def energyOf (S : ℕ → Prop) [DecidablePred S] (bs : List Body) (v : Vec) : ℝ :=
  ∑ i ∈ (Finset.range bs.length).filter S,
    ((bodyAt bs i).ang_inertia * (twist v i).r ^ 2 +
     (bodyAt bs i).mass * ((twist v i).x ^ 2 + (twist v i).y ^ 2)) / 2

end LcpPhysics.Spec
