import Verif.Spec.Contact

/-! # Specification: textbook impulse of a single frictionless contact -/

noncomputable section

namespace LcpPhysics.Spec

/-- Velocity of body `i` after the external impulse `f`, before any contact acts. -/
def freeTwist (bs : List Body) (f : ℕ → V3) (v : Vec) (i : ℕ) : V3 :=
  ⟨(twist v i).r + (f i).r / (bodyAt bs i).ang_inertia, (twist v i).x + (f i).x / (bodyAt bs i).mass,
   (twist v i).y + (f i).y / (bodyAt bs i).mass⟩

/-- Normal component of a velocity of the first body at the contact. -/
def along1 (c : Contact) (u : V3) : ℝ := inner c.normal (pointVel u c.p1)

/-- Normal component of a velocity of the second body at the contact. -/
def along2 (c : Contact) (u : V3) : ℝ := inner c.normal (pointVel u c.p2)

/-- What a unit normal impulse adds to the normal velocity of the first body at the contact: the inverse of its
effective mass there. -/
def yield1 (bs : List Body) (c : Contact) : ℝ :=
  inner c.normal c.normal / (bodyAt bs c.i1).mass + det c.p1 c.normal ^ 2 / (bodyAt bs c.i1).ang_inertia

/-- The same for the second body. -/
def yield2 (bs : List Body) (c : Contact) : ℝ :=
  inner c.normal c.normal / (bodyAt bs c.i2).mass + det c.p2 c.normal ^ 2 / (bodyAt bs c.i2).ang_inertia

/-- The velocity of the body after impulse `P` along the normal at offset `p`. -/
def kicked (m I : ℝ) (p n : V2) (P : ℝ) (u : V3) : V3 :=
  ⟨u.r + P * det p n / I, u.x + P * n.1 / m, u.y + P * n.2 / m⟩

end LcpPhysics.Spec
