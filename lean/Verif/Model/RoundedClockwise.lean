import Verif.Model.Bodies
import Verif.Model.RoundedBody

/-! # The test for the order of the vertices in floating point -/

noncomputable section

namespace LcpPhysics.Rounded

/-- bodies.py:234: the term of an edge. -/
def fclockTerm (A : Arith) (v1 v2 : V2) : ℝ := A.rnd (A.rnd (v2.1 - v1.1) * A.rnd (v2.2 + v1.2))

/-- bodies.py:229-234 `Hull._is_clockwise`, the accumulated `total`, after the first `k` edges. -/
def fclockTotal (A : Arith) (verts : List V2) (k : ℕ) : ℝ :=
  (List.range k).foldl (fun s i => A.rnd (s + fclockTerm A (vget verts i) (vget verts ((i + 1) % verts.length)))) 0

/-- bodies.py:235 `return total < 0`. -/
def fis_clockwise (A : Arith) (verts : List V2) : Prop := fclockTotal A verts verts.length < 0

end LcpPhysics.Rounded
