import Verif.Spec.Lcp
import Verif.Spec.PostStab

/-! # Specification: the contact law up to an error `ε` -/

noncomputable section

namespace LcpPhysics.Spec

/-- `IsMlcp` with every equation up to `ε` and every product at most `ε`. -/
structure ApproxMlcp (ε : ℝ) (nz neq nineq : ℕ) (Q : Mat) (p : Vec) (G : Mat) (h : Vec) (A : Mat) (b : Vec)
    (F : Mat) (x s z y : Vec) : Prop where
  stat : ∀ k < nz, |mv Q nz x k + p k + tmv G nineq z k + tmv A neq y k| ≤ ε
  ineq : ∀ i < nineq, |mv G nz x i + s i - (h i + mv F nineq z i)| ≤ ε
  eq : ∀ i < neq, |mv A nz x i - b i| ≤ ε
  s_nonneg : ∀ i < nineq, 0 ≤ s i
  z_nonneg : ∀ i < nineq, 0 ≤ z i
  compl : ∀ i < nineq, s i * z i ≤ ε

/-- `gap` is non-negative and complementary to `m`, both up to `ε`. -/
def NearCompl (ε m gap : ℝ) : Prop := ∃ s, 0 ≤ s ∧ |gap - s| ≤ ε ∧ m * s ≤ ε

/-- `ContactLaw` with an error of `ε` in each component of the momentum balance, in the constraint
velocities and in the complementarity conditions. -/
structure ApproxLaw (ε : ℝ) (bs : List Body) (js : List Joint) (cs : List Contact) (f : ℕ → V3)
    (v v' : Vec) (l : Vec) (pn a b g : ℕ → ℝ) : Prop where
  dynamics : ∀ u : Vec, |momentumPower bs u v' - (momentumPower bs u v + forcePower bs.length f u
    + jointPower js l u + contactPower cs pn (fun i => a i - b i) u)| ≤
      ε * ∑ k ∈ Finset.range (3 * bs.length), |u k|
  joints : ∀ r ∈ jointVels js v', |r| ≤ ε
  nonneg : ∀ i < cs.length, 0 ≤ pn i ∧ 0 ≤ a i ∧ 0 ≤ b i ∧ 0 ≤ g i
  restitution : ∀ (i : ℕ) (h : i < cs.length),
    NearCompl ε (pn i) (normalVel cs[i] v' + meanRestitution bs cs[i] * normalVel cs[i] v)
  slip : ∀ (i : ℕ) (h : i < cs.length),
    NearCompl ε (a i) (g i + slipVel cs[i] v') ∧ NearCompl ε (b i) (g i - slipVel cs[i] v')
  cone : ∀ (i : ℕ) (h : i < cs.length),
    NearCompl ε (g i) (meanFriction bs cs[i] * pn i - (a i + b i))

/-- `PostStabLaw` with an error of `ε`. -/
structure ApproxPostStab (ε : ℝ) (bs : List Body) (js : List Joint) (cs : List Contact) (v dp : Vec) (l : Vec)
    (pn : ℕ → ℝ) : Prop where
  dynamics : ∀ u : Vec, |momentumPower bs u dp - (jointPower js l u + contactPower cs pn (fun _ => 0) u)| ≤
    ε * ∑ k ∈ Finset.range (3 * bs.length), |u k|
  joints : ∀ x ∈ jointVels js (dp + v), |x| ≤ ε
  nonneg : ∀ i < cs.length, 0 ≤ pn i
  contacts : ∀ (i : ℕ) (h : i < cs.length),
    NearCompl ε (pn i) (normalVel cs[i] dp + (1 - meanRestitution bs cs[i]) * normalVel cs[i] v)

end LcpPhysics.Spec
