import Verif.Model.Contacts

/-!
# Model: the ODE contact handler (contacts.py:24-48)

`ode.collide` is external; its result, a list of contacts, is an input.  Points and normals have three
coordinates; geometries lie in the plane `z = 0` (bodies.py:89, `setPosition([x, y, 0.0])`).
-/

noncomputable section

namespace LcpPhysics

/-- What `c.getContactGeomParams()` returns: point, normal, depth and the two geometries (here the indices of
their bodies). -/
structure OdeContact where
  point : ℝ × ℝ × ℝ
  normal : ℝ × ℝ × ℝ
  depth : ℝ
  i1 : ℕ
  i2 : ℕ

open Classical in
/-- contacts.py:32-47: the loop over the contacts.  A point with positive `z` is skipped (`continue`), too large
a distance ends the whole loop (`return`), so later contacts are dropped. -/
def odeLoop (eps : ℝ) (bs : List Body) : List OdeContact → List Contact
  | [] => []
  | c :: cs =>
    if 0 < c.point.2.2 then odeLoop eps bs cs
    else
      let penetration := c.depth - 2 * eps
      if penetration < -2 * eps then []
      else
        let xy : V2 := (c.point.1, c.point.2.1)
        { normal := (c.normal.1, c.normal.2.1), p1 := xy - (bodyAt bs c.i1).geom.pos,
          p2 := xy - (bodyAt bs c.i2).geom.pos, pen := penetration, i1 := c.i1, i2 := c.i2 } ::
          odeLoop eps bs cs

/-- contacts.py:25-31 `OdeContactHandler.__call__` on the pair `(i1, i2)`; `collide` is `ode.collide` on the
geometries of the two bodies. -/
def odeHandle (no_contact : ℕ → List ℕ) (eps : ℝ) (bs : List Body)
    (collide : ℕ → ℕ → List OdeContact) (i1 i2 : ℕ) : List Contact :=
  if i1 ∈ no_contact i2 then [] else odeLoop eps bs (collide i1 i2)

/-- world.py:139-142 with `OdeContactHandler` as the callback. -/
def odeFind (no_contact : ℕ → List ℕ) (eps : ℝ) (bs : List Body)
    (collide : ℕ → ℕ → List OdeContact) (pairs : List (ℕ × ℕ)) : List Contact :=
  pairs.flatMap fun p => odeHandle no_contact eps bs collide p.1 p.2

end LcpPhysics
