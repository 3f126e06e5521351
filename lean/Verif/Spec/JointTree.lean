import Verif.Model.Joints

/-! # Specification: constraint graphs without redundancy -/

noncomputable section

namespace LcpPhysics.Spec

/-- The three coordinates of a body in a stacked vector: angle, x, y. -/
def coords (i : ℕ) : List ℕ := [3 * i, 3 * i + 1, 3 * i + 2]

/-- The coordinates whose velocities a constraint involves. -/
def touched (j : Joint) : List ℕ :=
  match j.kind with
  | .xc => [3 * j.i1 + 1]
  | .yc => [3 * j.i1 + 2]
  | .rotc => [3 * j.i1]
  | .total => coords j.i1
  | .revolute | .fixed => coords j.i1 ++ match j.i2 with
    | none => []
    | some k => coords k

/-- The coordinates of body `m` a constraint removes. -/
def held (j : Joint) (m : ℕ) : List ℕ :=
  match j.kind with
  | .revolute => [3 * m + 1, 3 * m + 2]
  | .fixed => coords m
  | _ => touched j

/-- Every constraint removes coordinates of one of its bodies that no earlier constraint involves, as
in chains and trees built link by link, or axis constraints on different axes. -/
def JointTree (js : List Joint) : Prop :=
  ∀ (k : ℕ) (hk : k < js.length), ∃ m, (m = js[k].i1 ∨ js[k].i2 = some m) ∧
    ∀ c ∈ held js[k] m, ∀ (k' : ℕ) (hk' : k' < k), c ∉ touched (js[k']'(by omega))

end LcpPhysics.Spec
