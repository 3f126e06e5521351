import Verif.Model.RoundedWorld

/-!
# The contact of two circles in floating point

All of what the handler computes for two circles; `Model/RoundedWorld.lean` has the penetration only.
-/

noncomputable section

namespace LcpPhysics.Rounded

/-- contacts.py:71 `b1.pos - b2.pos`. -/
def fdiff (A : Arith) (p1 p2 : V2) : V2 := (A.rnd (p1.1 - p2.1), A.rnd (p1.2 - p2.2))

/-- contacts.py:76 `normal / dist`. -/
def fdir (A : Arith) (p1 p2 : V2) : V2 :=
  let d := fdiff A p1 p2
  (A.rnd (d.1 / fnorm A d), A.rnd (d.2 / fnorm A d))

/-- contacts.py:77-78 `rad - penetration / 2`. -/
def farm (A : Arith) (rad pen : ℝ) : ℝ := A.rnd (rad - A.rnd (pen / 2))

open Classical in
/-- contacts.py:68-79: two circles.  A computed distance of zero makes the direction a division by zero: the values are then not numbers
(or infinite), marked by `nan`. -/
def circleContact (A : Arith) (eps r1 r2 : ℝ) (p1 p2 : V2) : List Pt :=
  let pen := circlePen A r1 r2 p1 p2
  if pen < -eps then []
  else
    let n := fdir A p1 p2
    let a1 := farm A r1 pen
    let a2 := farm A r2 pen
    [{ normal := n, p1 := (A.rnd (-n.1 * a1), A.rnd (-n.2 * a1)), p2 := (A.rnd (n.1 * a2), A.rnd (n.2 * a2)), pen := pen,
       nan := decide (fnorm A (fdiff A p1 p2) = 0) }]

end LcpPhysics.Rounded
