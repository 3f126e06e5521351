import Verif.Model.BodyOps
import Verif.Model.Joints

/-! # Specification: the same bodies in another pose -/

noncomputable section

namespace LcpPhysics.Spec

/-- `bs'` are the bodies `bs` after some moves, placements and velocity changes. -/
def Posed (bs bs' : List Body) : Prop :=
  bs'.length = bs.length ∧ ∀ i < bs.length, ∃ ops, bodyAt bs' i = (bodyAt bs i).run ops

end LcpPhysics.Spec
