import Verif.Model.World
import Mathlib.LinearAlgebra.Matrix.NonsingularInverse
import Mathlib.LinearAlgebra.Matrix.Notation

/-!
# Model of `lcp_physics/physics/contacts.py`: `DiffContactHandler`

* GJK simplices hold vertices of one hull by reference and `support in set(simplex)` compares
  tensors by identity (tensor hashes are ids), so a simplex is a list of vertex indices.
* Division by zero gives `inf`/`NaN` in the code and `0` in Lean; every place where it can happen is
  modelled explicitly: comparisons with NaN are false (the branch is skipped), and where a
  non-finite value would be stored in a contact's penetration or points the model stops with the
  error `nonfinite`, except for the NaN normals of touching centres, which are recorded with
  `Contact.nan`.
* `random.choice` reads the next entry of an arbitrary stream.
-/

noncomputable section

namespace LcpPhysics

/-- contacts.py:208-217 `get_support`, the loop: position `i`, best so far and `best_norm`. -/
def supportLoop (direction : V2) : List V2 → ℕ → Option (V2 × ℕ) → ℝ → Option (V2 × ℕ)
  | [], _, best, _ => best
  | p :: ps, i, best, best_norm =>
    let cur_norm := dot p direction
    open Classical in
    if cur_norm ≥ best_norm then supportLoop direction ps (i + 1) (some (p, i)) cur_norm
    else supportLoop direction ps (i + 1) best best_norm

/-- contacts.py:208-217 `get_support`: `best_idx` is unbound if no point reaches `-1`. -/
def get_support (points : List V2) (direction : V2) : Except Err (V2 × ℕ) :=
  match supportLoop direction points 0 none (-1) with
  | some r => .ok r
  | none => .error (.raised "UnboundLocalError")

/-- contacts.py:333-341 `get_barycentric_coords` of a segment (`a ≠ b`). -/
def bary2 (point a b : V2) : ℝ × ℝ :=
  let diff := b - a
  let diff_norm := nrm diff
  let normalized_diff : V2 := (1 / diff_norm) • diff
  (dot (b - point) normalized_diff / diff_norm, dot (point - a) normalized_diff / diff_norm)

/-- contacts.py:343-348: the matrix whose columns are the vertices extended by one. -/
def baryMat (a b c : V2) : Matrix (Fin 3) (Fin 3) ℝ :=
  !![a.1, b.1, c.1; a.2, b.2, c.2; 1, 1, 1]

open Classical in
/-- contacts.py:342-351 `get_barycentric_coords` of a triangle; `torch.inverse` raises if the
points are collinear. -/
def bary3 (point a b c : V2) : Except Err (ℝ × ℝ × ℝ) :=
  if (baryMat a b c).det = 0 then .error (.raised "RuntimeError: singular")
  else
    let uvw := (baryMat a b c)⁻¹.mulVec ![point.1, point.2, 1]
    .ok (uvw 0, uvw 1, uvw 2)

open Classical in
/-- contacts.py:295-330 `get_closest`.  Two equal points give NaN coordinates; the model stops
there with `nonfinite`. -/
def get_closest (point : V2) (simplex : List V2) : Except Err (V2 × List ℕ) :=
  match simplex with
  | [a] => .ok (a, [0])
  | [a, b] =>
    if a = b then .error (.raised "nonfinite")
    else
      let (u, v) := bary2 point a b
      if u ≤ 0 then .ok (b, [1])
      else if v ≤ 0 then .ok (a, [0])
      else .ok (u • a + v • b, [0, 1])
  | [a, b, c] =>
    let (uAB, vAB) := bary2 point a b
    let (uBC, vBC) := bary2 point b c
    let (uCA, vCA) := bary2 point c a
    match bary3 point a b c with
    | .error e => .error e
    | .ok (uABC, vABC, wABC) =>
      if vAB ≤ 0 ∧ uCA ≤ 0 then .ok (a, [0])
      else if vBC ≤ 0 ∧ uAB ≤ 0 then .ok (b, [1])
      else if vCA ≤ 0 ∧ uBC ≤ 0 then .ok (c, [2])
      else if uAB > 0 ∧ vAB > 0 ∧ wABC ≤ 0 then .ok (uAB • a + vAB • b, [0, 1])
      else if uBC > 0 ∧ vBC > 0 ∧ uABC ≤ 0 then .ok (uBC • b + vBC • c, [1, 2])
      else if uCA > 0 ∧ vCA > 0 ∧ vABC ≤ 0 then .ok (uCA • c + vCA • a, [2, 0])
      else if uABC > 0 ∧ vABC > 0 ∧ wABC > 0 then .ok (point, [0, 1, 2])
      else .error (.raised "ValueError: Point does not satisfy any condition")
  | _ => .error (.raised "ValueError: Simplex should not have more than 3 points")

open Classical in
/-- contacts.py:88-96: the search direction after `get_closest` (fewer than three ids). -/
def gjkDir (tp : V2) (simplex : List V2) (closest : V2) (ids : List ℕ) : V2 :=
  match ids with
  | [i0, i1] =>
    let d := left_orthogonal (vget simplex i0 - vget simplex i1)
    if dot d (tp - vget simplex i0) < 0 then -d else d
  | _ => tp - closest

open Classical in
/-- contacts.py:84-103: the GJK loop over vertices `verts` for the query `tp`; returns `closest` and
the vertices used. -/
def gjkLoop (verts : List V2) (tp : V2) : ℕ → List ℕ → Run (V2 × List ℕ)
  | 0, _ => .running
  | fuel + 1, simplex =>
    let pts := simplex.map (vget verts)
    match get_closest tp pts with
    | .error e => .raised e
    | .ok (closest, ids) =>
      let used := ids.map fun k => simplex.getD k 0
      if ids.length = 3 then .done (closest, used)
      else
        let dir := gjkDir tp pts closest ids
        if dir.1 = 0 ∧ dir.2 = 0 then .done (closest, used)
        else match get_support verts dir with
          | .error e => .raised e
          | .ok (_, s) =>
            if s ∈ simplex then .done (closest, used)
            else gjkLoop verts tp fuel (used ++ [s])

/-- What the circle-against-hull part leaves in the variables of contacts.py:104-138: nothing
(`return`) or `best_normal`, `best_pt1`, `best_pt2`, `best_dist`, and whether the normal is NaN. -/
structure CHull where
  normal : V2
  pt1 : V2
  pt2 : V2
  dist : ℝ
  nan : Bool

/-- contacts.py:104-113: shallow case. `b1` is the circle at `pos1`, the hull is at `pos2`. -/
def shallowContact (eps rad : ℝ) (pos1 pos2 closest : V2) : Option CHull :=
  let best_pt2 := closest
  let closest := closest + pos2
  let best_pt1 := closest - pos1
  let best_dist := nrm (closest - pos1) - rad
  open Classical in
  if best_dist > eps then none
  else some { normal := (1 / nrm best_pt1) • -best_pt1, pt1 := best_pt1, pt2 := best_pt2,
              dist := best_dist, nan := decide (nrm best_pt1 = 0) }

/-- State of the SAT loop: best so far and `last_sat_idx`; or the early `return`. -/
inductive SatRun where
  | gap (idx : ℕ)
  | go (best : Option CHull) (best_dist : ℝ) (last : ℕ)

open Classical in
/-- contacts.py:121-138: one iteration of the circle-hull SAT loop at edge `idx`; a zero-length edge
gives a NaN distance and is skipped. -/
def satCircleStep (eps rad : ℝ) (pos1 pos2 : V2) (verts : List V2) (st : SatRun) (idx : ℕ) : SatRun :=
  match st with
  | .gap i => .gap i
  | .go best best_dist last =>
    let edge := vget verts ((idx + 1) % verts.length) - vget verts idx
    let edge_norm := nrm edge
    if edge_norm = 0 then .go best best_dist last
    else
      let normal := (1 / edge_norm) • left_orthogonal edge
      let center := pos1 - pos2
      let dist := dot normal (center - vget verts idx) - rad
      if dist > best_dist then
        if dist > eps then .gap idx
        else
          let pt2 := center + (-(dist + rad)) • normal
          .go (some { normal := normal, pt1 := pt2 + pos2 - pos1, pt2 := pt2, dist := dist,
                      nan := false }) dist idx
      else .go best best_dist last

/-- `range(start, n + start)` reduced modulo `n` (contacts.py:119-120, 227-228). -/
def satOrder (n start : ℕ) : List ℕ := (List.range n).map fun k => (start + k) % n

/-- contacts.py:115-138: the SAT loop; `-1e10` is the initial best. -/
def satCircle (eps rad : ℝ) (pos1 pos2 : V2) (verts : List V2) (start : ℕ) : SatRun :=
  (satOrder verts.length start).foldl (satCircleStep eps rad pos1 pos2 verts) (.go none (-10 ^ 10) start)

/-- contacts.py:80-138, circle against hull without the flip: outcome and new `last_sat_idx`. -/
def circleHull (fuel : ℕ) (eps rad : ℝ) (pos1 pos2 : V2) (verts : List V2) (seed last : ℕ) :
    Run (Option CHull × ℕ) :=
  (gjkLoop verts (pos1 - pos2) fuel [seed % verts.length]).bind fun r =>
    if r.2.length < 3 then .done (shallowContact eps rad pos1 pos2 r.1, last)
    else match satCircle eps rad pos1 pos2 verts last with
      | .gap idx => .done (none, idx)
      | .go none _ _ => .raised (.raised "UnboundLocalError")
      | .go (some c) _ last => .done (some c, last)

/-- One entry of `pts`: `(normal, p1, p2, penetration)`. -/
structure Pt where
  normal : V2
  p1 : V2
  p2 : V2
  pen : ℝ
  nan : Bool := false

/-- contacts.py:139-144: flip back when the circle is `geom2`. -/
def CHull.toPt (c : CHull) (flip : Bool) : Pt :=
  if flip then { normal := -c.normal, p1 := c.pt2, p2 := c.pt1, pen := -c.dist, nan := c.nan }
  else { normal := c.normal, p1 := c.pt1, p2 := c.pt2, pen := -c.dist, nan := c.nan }

open Classical in
/-- contacts.py:68-79: circle against circle. -/
def circleCircle (eps rad1 rad2 : ℝ) (pos1 pos2 : V2) : List Pt :=
  let r := rad1 + rad2
  let normal := pos1 - pos2
  let dist := nrm normal
  let penetration := r - dist
  if penetration < -eps then []
  else
    let normal := (1 / dist) • normal
    [{ normal := normal, p1 := (rad1 - penetration / 2) • -normal,
       p2 := (rad2 - penetration / 2) • normal, pen := penetration, nan := decide (dist = 0) }]

/-- Result of `test_separations`: the early exit `(dist, None, …, idx)` or the full tuple. -/
inductive Sep where
  | gap (dist : ℝ) (idx : ℕ)
  | best (dist : ℝ) (pt1 pt2 neg_normal : V2) (vertex : ℕ) (edge_norm : ℝ) (edge : ℕ)

/-- contacts.py:246, entry 0 of the tuple. -/
def Sep.dist : Sep → ℝ
  | .gap d _ => d
  | .best d .. => d

/-- contacts.py:246, entry 6 of the tuple. -/
def Sep.edge : Sep → ℕ
  | .gap _ i => i
  | .best _ _ _ _ _ _ i => i

/-- State of the loop of `test_separations`. -/
inductive SepRun where
  | fail (e : Err)
  | gap (dist : ℝ) (idx : ℕ)
  | go (best : Option Sep) (best_dist : ℝ)

open Classical in
/-- contacts.py:227-245: one iteration at edge `idx`.  A zero-length edge makes the support
direction NaN and `get_support` raises. -/
def sepStep (eps : ℝ) (pos1 pos2 : V2) (verts1 verts2 : List V2) (st : SepRun) (idx : ℕ) : SepRun :=
  match st with
  | .fail e => .fail e
  | .gap d i => .gap d i
  | .go best best_dist =>
    let edge := vget verts1 ((idx + 1) % verts1.length) - vget verts1 idx
    let edge_norm := nrm edge
    if edge_norm = 0 then .fail (.raised "UnboundLocalError")
    else
      let normal := (1 / edge_norm) • left_orthogonal edge
      match get_support verts2 (-normal) with
      | .error e => .fail e
      | .ok (support_point, support_idx) =>
        let support_point := support_point + pos2 - pos1
        let dist := dot normal (support_point - vget verts1 idx)
        if dist > best_dist then
          if dist > eps then .gap dist idx
          else
            let pt1 := support_point + (-dist) • normal
            .go (some (.best dist pt1 (pt1 + pos1 - pos2) (-normal) support_idx edge_norm idx)) dist
        else .go best best_dist

/-- contacts.py:220-250 `test_separations`. -/
def test_separations (eps : ℝ) (pos1 pos2 : V2) (verts1 verts2 : List V2) (start : ℕ) :
    Except Err Sep :=
  match (satOrder verts1.length start).foldl (sepStep eps pos1 pos2 verts1 verts2)
      (.go none (-10 ^ 10)) with
  | .fail e => .error e
  | .gap d i => .ok (.gap d i)
  | .go none _ => .error (.raised "UnboundLocalError")
  | .go (some s) _ => .ok s

open Classical in
/-- contacts.py:258-266: one of the two candidate edges; a zero-length edge has NaN normal. -/
def incStep (ref_normal : V2) (verts : List V2) (st : ℝ × ℕ) (i : ℕ) : ℝ × ℕ :=
  let edge := vget verts ((i + 1) % verts.length) - vget verts i
  let edge_norm := nrm edge
  if edge_norm = 0 then st
  else
    let inc_normal := (1 / edge_norm) • left_orthogonal edge
    let d := dot ref_normal inc_normal
    if d < st.1 then (d, i) else st

/-- contacts.py:253-267 `get_incident_edge`; Python's index `-1` is the last one. -/
def get_incident_edge (ref_normal : V2) (verts : List V2) (inc_vertex : ℕ) : ℕ :=
  ([(inc_vertex + verts.length - 1) % verts.length, inc_vertex].foldl (incStep ref_normal verts)
    (10 ^ 10, verts.length - 1)).2

open Classical in
/-- contacts.py:270-292 `clip_segment_to_line`; `none` stands for a non-finite point. -/
def clip_segment_to_line (v0 v1 : V2) (normal : V2) (offset : ℝ) : List (Option V2) :=
  let distance0 := dot normal v0 + offset
  let distance1 := dot normal v1 + offset
  let c0 : List (Option V2) := if distance0 ≥ 0 then [some v0] else []
  let c1 : List (Option V2) := if distance1 ≥ 0 then [some v1] else []
  let clipped := c0 ++ c1
  if distance0 * distance1 < 0 ∨ clipped.length < 2 then
    if distance0 - distance1 = 0 then clipped ++ [none]
    else clipped ++ [some (v0 + (distance0 / (distance0 - distance1)) • (v1 - v0))]
  else clipped

open Classical in
/-- contacts.py:166-172, 194-201: the loop that turns the clipped vertices into contact points;
`ref_pos` is the reference body (whose frame `v` is in), `inc_pos` the other one, and `ref_first`
tells whether the reference body is `b1`. -/
def emitPts (eps : ℝ) (normal ref_vertex ref_pos inc_pos : V2) (ref_first : Bool) :
    List (Option V2) → Except Err (List Pt)
  | [] => .ok []
  | none :: _ => .error (.raised "nonfinite")
  | some v :: vs =>
    match emitPts eps normal ref_vertex ref_pos inc_pos ref_first vs with
    | .error e => .error e
    | .ok rest =>
      let dist := dot normal (v - ref_vertex)
      if dist ≤ eps then
        let pt1 := v + (-dist) • normal
        let pt2 := pt1 + ref_pos - inc_pos
        .ok ((if ref_first then { normal := -normal, p1 := pt1, p2 := pt2, pen := -dist }
              else { normal := normal, p1 := pt2, p2 := pt1, pen := -dist }) :: rest)
      else .ok rest

/-- contacts.py:152-172 and 175-201: contact manifold from the chosen reference body.  `normal` is
the outward unit normal of the reference edge. -/
def manifold (eps : ℝ) (ref_pos inc_pos : V2) (ref_verts inc_verts : List V2) (neg_normal : V2)
    (vertex : ℕ) (edge_norm : ℝ) (edge : ℕ) (ref_first : Bool) : Except Err (List Pt) :=
  let normal := -neg_normal
  let half_edge_norm := edge_norm / 2
  let inc := get_incident_edge normal inc_verts vertex
  let a := vget inc_verts inc + inc_pos - ref_pos
  let b := vget inc_verts ((inc + 1) % inc_verts.length) + inc_pos - ref_pos
  let clip_plane := left_orthogonal normal
  match clip_segment_to_line a b clip_plane half_edge_norm with
  | [some a, some b] =>
    emitPts eps normal (vget ref_verts edge) ref_pos inc_pos ref_first
      (clip_segment_to_line a b (-clip_plane) half_edge_norm)
  | [_] => .ok []
  | [] => .ok []
  | _ => .error (.raised "nonfinite")

/-- Hidden state of the contact search: `last_sat_idx` of every body and the random stream. -/
structure Finder where
  sat : ℕ → ℕ
  rnd : ℕ → ℕ

/-- Assign `last_sat_idx` of one body. -/
def Finder.setSat (f : Finder) (i k : ℕ) : Finder :=
  { f with sat := fun j => if j = i then k else f.sat j }

open Classical in
/-- contacts.py:145-201: hull against hull, bodies `i1`, `i2`. -/
def hullHull (eps : ℝ) (pos1 pos2 : V2) (verts1 verts2 : List V2) (i1 i2 : ℕ) (f : Finder) :
    Except Err (Finder × List Pt) :=
  match test_separations eps pos1 pos2 verts1 verts2 (f.sat i1) with
  | .error e => .error e
  | .ok c1 =>
    let f := f.setSat i1 c1.edge
    if c1.dist > eps then .ok (f, [])
    else match test_separations eps pos2 pos1 verts2 verts1 (f.sat i2) with
      | .error e => .error e
      | .ok c2 =>
        let f := f.setSat i2 c2.edge
        if c2.dist > eps then .ok (f, [])
        else if c2.dist > c1.dist then
          match c2 with
          | .gap _ _ => .error (.raised "TypeError")
          | .best _ _ _ nn vx en ed =>
            match manifold eps pos2 pos1 verts2 verts1 nn vx en ed false with
            | .error e => .error e
            | .ok pts => .ok (f, pts)
        else
          match c1 with
          | .gap _ _ => .error (.raised "TypeError")
          | .best _ _ _ nn vx en ed =>
            match manifold eps pos1 pos2 verts1 verts2 nn vx en ed true with
            | .error e => .error e
            | .ok pts => .ok (f, pts)

/-- The radius of a circle body. -/
def Body.rad (b : Body) : ℝ :=
  match b.shape with
  | .circle r => r
  | _ => 0

/-- contacts.py:57-204 `DiffContactHandler.__call__` for the geometries of bodies `i1`, `i2` not
excluded from contact: new hidden state and the contacts appended. -/
def handlePair (fuel : ℕ) (eps : ℝ) (bs : List Body) (f : Finder) (i1 i2 : ℕ) :
    Run (Finder × List Contact) :=
  let b1 := bodyAt bs i1
  let b2 := bodyAt bs i2
  let mk (p : Pt) : Contact :=
    { normal := p.normal, p1 := p.p1, p2 := p.p2, pen := p.pen, i1 := i1, i2 := i2, nan := p.nan }
  if b1.isCircle ∧ b2.isCircle then
    .done (f, (circleCircle eps b1.rad b2.rad b1.pos b2.pos).map mk)
  else if b1.isCircle ∨ b2.isCircle then
    let flip := b2.isCircle
    let c := if flip then b2 else b1
    let h := if flip then b1 else b2
    let ih := if flip then i1 else i2
    (circleHull fuel eps c.rad c.pos h.pos h.verts (f.rnd 0) (f.sat ih)).bind fun r =>
      let f := { f with rnd := fun n => f.rnd (n + 1) }
      .done (f.setSat ih r.2, (r.1.toList.map fun c => c.toPt flip).map mk)
  else
    Run.ofExcept ((hullHull eps b1.pos b2.pos b1.verts b2.verts i1 i2 f).map fun r =>
      (r.1, r.2.map mk))

/-- contacts.py:60-61: `if geom1 in geom2.no_contact: return`; `no_contact i` is the set of the
geometry of body `i`. -/
def handle (fuel : ℕ) (no_contact : ℕ → List ℕ) (eps : ℝ) (bs : List Body) (f : Finder)
    (i1 i2 : ℕ) : Run (Finder × List Contact) :=
  if i1 ∈ no_contact i2 then .done (f, []) else handlePair fuel eps bs f i1 i2

/-- world.py:139-142 with the pairs `space.collide` presents: the callback runs on each. -/
def handleAll (fuel : ℕ) (no_contact : ℕ → List ℕ) (eps : ℝ) (bs : List Body) :
    List (ℕ × ℕ) → Finder → Run (Finder × List Contact)
  | [], f => .done (f, [])
  | p :: ps, f => (handle fuel no_contact eps bs f p.1 p.2).bind fun r =>
      (handleAll fuel no_contact eps bs ps r.1).bind fun s => .done (s.1, r.2 ++ s.2)

/-- A run as a call that is given up after the fuel. -/
def Run.toExcept {α : Type} : Run α → Except Err α
  | .running => .error (.raised "out of fuel")
  | .raised e => .error e
  | .done a => .ok a

/-- `find_contacts` as the world sees it: `pairs` is what ODE's broad phase presents for the
current geometries. -/
def diffCollide (fuel : ℕ) (no_contact : ℕ → List ℕ) (pairs : List Body → List (ℕ × ℕ)) (eps : ℝ)
    (f : Finder) (bs : List Body) : Except Err (Finder × List Contact) :=
  (handleAll fuel no_contact eps bs (pairs bs) f).toExcept

/-- bodies.py:104-106 `add_no_contact`: each geometry joins the other's set. -/
def addNoContact (nc : ℕ → List ℕ) (i j : ℕ) : ℕ → List ℕ :=
  let nc1 : ℕ → List ℕ := fun k => if k = i then j :: nc k else nc k
  fun k => if k = j then i :: nc1 k else nc1 k

end LcpPhysics
