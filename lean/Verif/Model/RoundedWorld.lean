import Verif.Model.RoundedBody
import Verif.Model.World
import Verif.Model.Contacts

/-!
# The strict stepping loop in floating point, for circles

Of the contacts only the penetration is computed here: it alone decides whether an attempted step is kept.  The velocities come from
outside, so that the engine, its forces and the joints may be anything; post-stabilization is off.
-/

noncomputable section

namespace LcpPhysics.Rounded

/-- contacts.py:72 `normal.norm()`: rounded squares, rounded sum, rounded root (the library may fuse some of the operations). -/
def fnorm (A : Arith) (d : V2) : ℝ := A.rnd (Real.sqrt (A.rnd (A.rnd (d.1 * d.1) + A.rnd (d.2 * d.2))))

/-- contacts.py:70-73: the penetration of two circles. -/
def circlePen (A : Arith) (r1 r2 : ℝ) (p1 p2 : V2) : ℝ :=
  A.rnd (A.rnd (r1 + r2) - fnorm A (A.rnd (p1.1 - p2.1), A.rnd (p1.2 - p2.2)))

open Classical in
/-- world.py:139-142 `find_contacts` and contacts.py:60-79 for circles: the penetrations of the contacts reported for the presented
pairs. -/
def pens (A : Arith) (nc : ℕ → List ℕ) (eps : ℝ) (bs : List Body) (ps : List (ℕ × ℕ)) : List ℝ :=
  ps.flatMap fun p =>
    if p.1 ∈ nc p.2 then []
    else
      let pen := circlePen A (bodyAt bs p.1).rad (bodyAt bs p.2).rad (bodyAt bs p.1).pos (bodyAt bs p.2).pos
      if pen < -eps then [] else [pen]

/-- What the world is made with: exclusions (bodies.py:104-106), broad phase, `eps`, `tol` and `dt` (world.py:20-34). -/
structure WorldSetup where
  nc : ℕ → List ℕ
  pairs : List Body → List (ℕ × ℕ)
  eps : ℝ
  tol : ℝ
  dt : ℝ

/-- world.py:69, 95: no contact is deeper than `tol`. -/
def Accepts (A : Arith) (S : WorldSetup) (bs : List Body) : Prop := ∀ p ∈ pens A S.nc S.eps bs (S.pairs bs), p ≤ S.tol

/-- world.py:132-134 `set_p`. -/
def setPs (A : Arith) (bs : List Body) (new_p : Vec) : List Body := bs.zipIdx.map fun bi => setP A bi.1 (slice3 new_p bi.2)

/-- world.py:127-130 `set_v`. -/
def setVs (bs : List Body) (new_v : Vec) : List Body := bs.zipIdx.map fun bi => { bi.1 with v := slice3 new_v bi.2 }

open Classical in
/-- world.py:88-107: the `while True` loop of a strict world; returns the bodies and the accepted step. -/
def strictLoop (A : Arith) (S : WorldSetup) (start_p : Vec) : ℕ → List Body → ℝ → Run (List Body × ℝ)
  | 0, _, _ => .running
  | fuel + 1, bs, dt =>
    let bs := bs.map fun b => move A b dt
    if Accepts A S bs then .done (bs, dt)
    else strictLoop A S start_p fuel (setPs A bs start_p) (A.rnd (dt / 2))

/-- The bodies and the clock. -/
structure Circles where
  bodies : List Body
  t : ℝ

/-- world.py:83-122 `step_dt`, given the answer of the engine (world.py:86). -/
def strictStep (A : Arith) (S : WorldSetup) (fuel : ℕ) (w : Circles) (new_v : Vec) : Run Circles :=
  (strictLoop A S (cat3 (w.bodies.map Body.p)) fuel (setVs w.bodies new_v) S.dt).bind fun r =>
    .done ⟨r.1, A.rnd (w.t + r.2)⟩

/-- Several calls of `step`, given the answers of the engine. -/
def strictRun (A : Arith) (S : WorldSetup) (fuel : ℕ) : Circles → List Vec → Run Circles
  | w, [] => .done w
  | w, v :: vs => (strictStep A S fuel w v).bind fun w => strictRun A S fuel w vs

end LcpPhysics.Rounded
