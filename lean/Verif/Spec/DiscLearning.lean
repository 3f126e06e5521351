import Verif.Spec.Billiard

/-! # Specification: what a collision tells about two discs -/

noncomputable section

namespace LcpPhysics.Spec

/-- How much of the velocity along the line of centres disc 0 loses in an impact. -/
def TwoDiscs.share0 (P : TwoDiscs) : ℝ := P.m1 / (P.m0 + P.m1) * (1 + P.e)

/-- How much of it disc 1 gains. -/
def TwoDiscs.share1 (P : TwoDiscs) : ℝ := P.m0 / (P.m0 + P.m1) * (1 + P.e)

/-- How differently two pairs of discs are thrown back. -/
def mismatch (P Q : TwoDiscs) : ℝ := (P.share0 - Q.share0) ^ 2 + (P.share1 - Q.share1) ^ 2

end LcpPhysics.Spec
