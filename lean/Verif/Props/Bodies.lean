import Verif.Lemmas.Bodies

/-!
# C03-C08: hulls, rectangles, rigidity, inertia, broad-phase orientation (bodies.py)
-/

noncomputable section

namespace LcpPhysics
open Spec

/-! ## C03 -/

/-- C03: the `Hull` constructor raises exactly when there are fewer than three vertices or the
signed area of the polygon is not positive. -/
theorem C03_hull_accepts_iff (ref : V2) (vs : List V2) (a : Params) :
    (∃ b, mkHull ref vs a = .ok b) ↔ 3 ≤ vs.length ∧ 0 < area2 vs := by
  constructor
  · rintro ⟨b, h⟩
    exact ⟨(mkHull_ok h).1, (mkHull_ok h).2.1⟩
  · rintro ⟨h1, h2⟩
    unfold mkHull
    rw [if_pos ⟨h1, (is_clockwise_iff vs).2 h2⟩]
    exact ⟨_, rfl⟩

/-- C03: the error of a rejected hull is the assertion. -/
theorem C03_hull_rejects (ref : V2) (vs : List V2) (a : Params)
    (h : ¬ (3 ≤ vs.length ∧ 0 < area2 vs)) : mkHull ref vs a = .error .assertion := by
  unfold mkHull
  rw [if_neg]; rintro ⟨h1, h2⟩; exact h ⟨h1, (is_clockwise_iff vs).1 h2⟩

/-- C03: for an accepted hull the centroid division is defined, and every vertex stays at the world
position the caller gave. -/
theorem C03_hull_vertices_stay (ref : V2) (vs : List V2) (a : Params) (b : Body)
    (h : mkHull ref vs a = .ok b) :
    centroidDen vs ≠ 0 ∧ b.rot = 0 ∧ b.pos = ref + get_centroid vs ∧
    b.verts.length = vs.length ∧
    ∀ i < vs.length, b.pos + b.verts.getD i 0 = ref + vs.getD i 0 := by
  obtain ⟨_, hp, hb, hs, _⟩ := mkHull_ok h
  have hv : b.verts = vs.map (fun v => v - get_centroid vs) := by unfold Body.verts; rw [hs]
  have hpos : b.pos = ref + get_centroid vs := by unfold Body.pos; rw [hb]; rfl
  refine ⟨?_, by unfold Body.rot; rw [hb], hpos, by rw [hv, List.length_map], ?_⟩
  · rw [centroidDen_eq]; intro h0; linarith
  · intro i hi
    rw [hpos, hv, getD_map_lt _ hi]; abel

/-- Non-vacuity: a concrete triangle is accepted. -/
example : ∃ b, mkHull (5, 5) [(0, 0), (3, 0), (0, 3)] {} = .ok b :=
  (C03_hull_accepts_iff _ _ _).2 ⟨by simp, by
    simp [area2, edgeSum, Finset.sum_range_succ, det]⟩

/-- Non-vacuity: the same triangle in the opposite order is rejected. -/
example : mkHull (5, 5) [(0, 3), (3, 0), (0, 0)] {} = .error .assertion :=
  C03_hull_rejects _ _ _ (by
    simp [area2, edgeSum, Finset.sum_range_succ, det])

/-! ## C04 -/

/-- C04: the centroid is the area centroid: the signed-area weighted mean of the triangle centroids
of the fan from any point `q`. -/
theorem C04_centroid_is_area_centroid (q : V2) (vs : List V2) :
    get_centroid vs = fanCentroid q vs := get_centroid_eq_fan q vs

/-- C04: translation equivariance. -/
theorem C04_centroid_translate (t : V2) (vs : List V2) (h : area2 vs ≠ 0) :
    get_centroid (vs.map (fun v => v + t)) = get_centroid vs + t := by
  have := get_centroid_translate (-t) vs h
  simpa only [sub_neg_eq_add] using this

/-- C04: rotation equivariance. -/
theorem C04_centroid_rotate (t : ℝ) (vs : List V2) :
    get_centroid (vs.map (rot t)) = rot t (get_centroid vs) := by
  unfold get_centroid
  rw [centroidDen_eq, centroidDen_eq, area2_rot, centroidNum_eq, centroidNum_eq, edgeSum_map,
    rot_map_smul, rot_map_smul]
  congr 2
  simp only [rot_det, ← rot_map_add, ← rot_map_smul]
  unfold edgeSum
  induction (Finset.range vs.length) using Finset.induction_on with
  | empty => simp [rot_map_zero]
  | insert i s hi ih => rw [Finset.sum_insert hi, Finset.sum_insert hi, ih, rot_map_add]

/-- C04: after construction, and after every later sequence of moves, the centroid of the stored
vertices is the origin of the body frame. -/
theorem C04_centroid_zero_in_body_frame (ref : V2) (vs : List V2) (a : Params) (b : Body)
    (h : mkHull ref vs a = .ok b) (ops : List BodyOp) : get_centroid (b.run ops).verts = 0 := by
  obtain ⟨_, hp, _, hs, _⟩ := mkHull_ok h
  have hv : b.verts = vs.map (fun v => v - get_centroid vs) := by unfold Body.verts; rw [hs]
  rw [run_verts b ops (mkHull_rectForm h), C04_centroid_rotate, hv,
    get_centroid_translate _ _ hp.ne', sub_self, rot_map_zero]

/-- C04: for a polygon star-shaped about some point `q` of its convex hull (for instance any convex
polygon, with `q` a vertex) the centroid lies in the convex hull; so the body frame's origin lies
in the convex hull of the stored vertices. -/
theorem C04_centroid_in_hull (q : V2) (vs : List V2) (hq : q ∈ solid vs)
    (hstar : ∀ i < vs.length, 0 ≤ det (vs.getD i 0 - q) (vs.getD ((i + 1) % vs.length) 0 - q))
    (hpos : 0 < area2 vs) : get_centroid vs ∈ solid vs := centroid_mem_solid q vs hq hstar hpos

/-- Non-vacuity of `C04_centroid_in_hull` (unit right triangle, `q` its first vertex). -/
example : get_centroid [(0, 0), (3, 0), (0, 3)] ∈ solid [(0, 0), (3, 0), (0, 3)] := by
  refine C04_centroid_in_hull (0, 0) _ (subset_convexHull ℝ _ (by simp)) ?_ ?_
  · intro i hi
    have : i = 0 ∨ i = 1 ∨ i = 2 := by simp at hi; omega
    rcases this with rfl | rfl | rfl <;> simp [det]
  · simp [area2, edgeSum, Finset.sum_range_succ, det]

example : get_centroid [(0, 0), (3, 0), (0, 3)] = (1, 1) := by
  simp [get_centroid, centroidDen, centroidNum, Finset.sum_range_succ, vget, cross_2d]
  norm_num

/-! ## C05 -/

/-- C05: after any sequence of `set_p`/`move`/velocity changes the vertices of a hull are the
original ones rotated by the change of the angle coordinate. -/
theorem C05_hull_rigid (ref : V2) (vs : List V2) (a : Params) (b : Body)
    (h : mkHull ref vs a = .ok b) (ops : List BodyOp) :
    (b.run ops).verts = (vs.map (fun v => v - get_centroid vs)).map (rot (b.run ops).rot) := by
  obtain ⟨_, _, hb, hs, _⟩ := mkHull_ok h
  have hv : b.verts = vs.map (fun v => v - get_centroid vs) := by unfold Body.verts; rw [hs]
  have := run_verts b ops (mkHull_rectForm h)
  rw [hb, sub_zero, hv] at this
  exact this

/-- C05 for rectangles. -/
theorem C05_rect_rigid (pos : Arg) (dims : V2) (a : Params) (b : Body)
    (h : mkRect pos dims a = .ok b) (ops : List BodyOp) :
    (b.run ops).verts =
      [((dims.1 / 2, dims.2 / 2) : V2), (-(dims.1 / 2), dims.2 / 2),
       (-(dims.1 / 2), -(dims.2 / 2)), (dims.1 / 2, -(dims.2 / 2))].map (rot (b.run ops).rot) := by
  by_cases hd : 0 < dims.1 * dims.2
  · have hr := mkRect_rectForm h
    rw [mkRect_eq pos dims a hd] at h
    cases pos with
    | two q =>
      simp only [Except.ok.injEq] at h
      rw [run_verts b ops hr]
      subst h
      simp only [rectBase, sub_zero, Body.rot]
      rfl
    | three q =>
      simp only [Except.ok.injEq] at h
      have hb : b.p.r = q.r := by subst h; rw [set_p_p]
      have hv : b.verts = (rectCorners dims).map (rot q.r) := by
        subst h
        rw [set_p_verts _ _ (rectBase_rectForm _ _ _)]
        simp only [rectBase, sub_zero]; rfl
      rw [run_verts b ops hr, hv, List.map_map, hb]
      change _ = (rectCorners dims).map _
      congr 1
      funext x
      simp only [Function.comp, rot_add, Body.rot]
      congr 1; ring
  · rw [mkRect_err pos dims a hd] at h; cases h

/-- C05: hence all pairwise vertex distances (and dot/cross products) of a hull never change, and
two histories ending in the same angle give the same vertices. -/
theorem C05_hull_distances (ref : V2) (vs : List V2) (a : Params) (b : Body)
    (h : mkHull ref vs a = .ok b) (ops : List BodyOp) (i j : ℕ)
    (hi : i < vs.length) (hj : j < vs.length) :
    Spec.dist ((b.run ops).verts.getD i 0) ((b.run ops).verts.getD j 0) =
      Spec.dist (vs.getD i 0) (vs.getD j 0) := by
  have hi' : i < (vs.map (fun v => v - get_centroid vs)).length := by simpa using hi
  have hj' : j < (vs.map (fun v => v - get_centroid vs)).length := by simpa using hj
  rw [C05_hull_rigid ref vs a b h ops, getD_map_lt _ hi', getD_map_lt _ hj', getD_map_lt _ hi,
    getD_map_lt _ hj, rot_dist]
  unfold Spec.dist; congr 1; abel

theorem C05_pose_determines_vertices (ref : V2) (vs : List V2) (a : Params) (b : Body)
    (h : mkHull ref vs a = .ok b) (ops ops' : List BodyOp)
    (hrot : (b.run ops).rot = (b.run ops').rot) : (b.run ops).verts = (b.run ops').verts := by
  rw [C05_hull_rigid ref vs a b h, C05_hull_rigid ref vs a b h, hrot]

/-- The pose after a history is what the calls say: `set_p` sets it, `move` adds `dt * v`. -/
theorem C05_pose_after_op (b : Body) (o : BodyOp) :
    (b.op o).p = match o with
      | .setP q => q
      | .move dt => b.p + dt • b.v
      | .setV _ => b.p := by
  cases o with
  | setP q => exact set_p_p b q
  | move dt => exact set_p_p b _
  | setV v => rfl

/-! ## C06 -/

/-- C06: a `Rect` is accepted iff the product of its dimensions is positive. -/
theorem C06_rect_accepts_iff (pos : Arg) (dims : V2) (a : Params) :
    (∃ b, mkRect pos dims a = .ok b) ↔ 0 < dims.1 * dims.2 := by
  constructor
  · rintro ⟨b, h⟩
    by_contra hd
    rw [mkRect_err pos dims a hd] at h; cases h
  · intro hd; rw [mkRect_eq pos dims a hd]; exact ⟨_, rfl⟩

/-- C06: an accepted `Rect` and the `Hull` built from its four corners at the same reference point
(then turned by the angle given, if any): the `Rect` sits exactly at the position given, and both
have the same pose, vertices, inertia, mass and velocity after every sequence of calls. -/
theorem C06_rect_is_hull (pos : Arg) (dims : V2) (a : Params) (b : Body)
    (h : mkRect pos dims a = .ok b) :
    b.p = pos.toV3 ∧
    ∃ hb, mkHull pos.toV3.xy
        [(dims.1 / 2, dims.2 / 2), (-(dims.1 / 2), dims.2 / 2),
         (-(dims.1 / 2), -(dims.2 / 2)), (dims.1 / 2, -(dims.2 / 2))] a = .ok hb ∧
      ∀ ops, (b.run ops).p = ((hb.set_p pos.toV3).run ops).p ∧
        (b.run ops).v = ((hb.set_p pos.toV3).run ops).v ∧
        (b.run ops).verts = ((hb.set_p pos.toV3).run ops).verts ∧
        (b.run ops).ang_inertia = ((hb.set_p pos.toV3).run ops).ang_inertia ∧
        (b.run ops).mass = ((hb.set_p pos.toV3).run ops).mass := by
  have hd : 0 < dims.1 * dims.2 := (C06_rect_accepts_iff pos dims a).1 ⟨b, h⟩
  have hbr := mkRect_rectForm h
  have hbv := C05_rect_rigid pos dims a b h []
  rw [mkRect_eq pos dims a hd] at h
  have hbp : b.p = pos.toV3 := by
    cases pos with
    | two q => simp only [Except.ok.injEq] at h; subst h; rfl
    | three q => simp only [Except.ok.injEq] at h; subst h; exact set_p_p _ _
  have hbi : b.ang_inertia = rectInertia dims a.mass ∧ b.mass = a.mass ∧ b.v = a.vel.toV3 := by
    cases pos with
    | two q => simp only [Except.ok.injEq] at h; subst h; exact ⟨rfl, rfl, rfl⟩
    | three q =>
      simp only [Except.ok.injEq] at h; subst h
      exact ⟨set_p_inertia _ _, set_p_mass _ _, set_p_v _ _⟩
  refine ⟨hbp, ?_⟩
  change ∃ hb, mkHull pos.toV3.xy (rectCorners dims) a = .ok hb ∧ _
  obtain ⟨hb, hhb⟩ := (C03_hull_accepts_iff pos.toV3.xy (rectCorners dims) a).2
    ⟨by simp [rectCorners], by rw [area2_rectCorners]; linarith⟩
  refine ⟨hb, hhb, ?_⟩
  obtain ⟨_, _, hp, hs, hi, hm, hv, _⟩ := mkHull_ok hhb
  have hmap : (rectCorners dims).map (fun v => v - 0) = rectCorners dims := by simp
  rw [centroid_rectCorners, hmap] at hs hi
  have hbverts : b.verts = (rectCorners dims).map (rot pos.toV3.r) := by
    change b.verts = _ at hbv
    rw [hbv]; simp only [Body.run, List.foldl_nil, Body.rot, hbp]; rfl
  -- the base case
  have base : b.p = (hb.set_p pos.toV3).p ∧ b.v = (hb.set_p pos.toV3).v ∧
      b.verts = (hb.set_p pos.toV3).verts ∧ b.ang_inertia = (hb.set_p pos.toV3).ang_inertia ∧
      b.mass = (hb.set_p pos.toV3).mass := by
    refine ⟨by rw [set_p_p, hbp], by rw [set_p_v, hv, hbi.2.2], ?_, ?_, ?_⟩
    · rw [set_p_verts _ _ (mkHull_rectForm hhb), hbverts, hp]
      simp only [sub_zero]
      have : hb.verts = rectCorners dims := by unfold Body.verts; rw [hs]
      rw [this]
    · rw [set_p_inertia, hi, hbi.1, hullInertia_rectCorners dims a.mass hd]
    · rw [set_p_mass, hm, hbi.2.1]
  have hr2 : (hb.set_p pos.toV3).RectForm := set_p_rectForm _ _ (mkHull_rectForm hhb)
  generalize hb.set_p pos.toV3 = c at *
  clear hbverts hbi hbp hbv h hhb
  intro ops
  induction ops generalizing b c with
  | nil => exact base
  | cons o os ih =>
    apply ih (b.op o) (op_rectForm b o hbr) (c.op o) _ (op_rectForm c o hr2)
    obtain ⟨e1, e2, e3, e4, e5⟩ := base
    cases o with
    | setP q =>
      simp only [Body.op]
      exact ⟨by rw [set_p_p, set_p_p], by rw [set_p_v, set_p_v, e2],
        by rw [set_p_verts _ _ hbr, set_p_verts _ _ hr2, e1, e3],
        by rw [set_p_inertia, set_p_inertia, e4], by rw [set_p_mass, set_p_mass, e5]⟩
    | move dt =>
      simp only [Body.op, Body.move]
      exact ⟨by rw [set_p_p, set_p_p, e1, e2], by rw [set_p_v, set_p_v, e2],
        by rw [set_p_verts _ _ hbr, set_p_verts _ _ hr2, e1, e2, e3],
        by rw [set_p_inertia, set_p_inertia, e4], by rw [set_p_mass, set_p_mass, e5]⟩
    | setV v => exact ⟨e1, rfl, e3, e4, e5⟩

/-- Non-vacuity of C05/C06. -/
example : ∃ b, mkRect (.three ⟨1, 2, 3⟩) (4, 6) {} = .ok b :=
  (C06_rect_accepts_iff _ _ _).2 (by norm_num)

/-! ## C07 (bodies; the world mass matrix is in Props/World) -/

theorem C07_circle_inertia_pos (pos : Arg) (rad : ℝ) (a : Params) (hm : 0 < a.mass)
    (hr : 0 < rad) : 0 < (mkCircle pos rad a).ang_inertia := by
  simp only [mkCircle, circleInertia]; positivity

/-- C07: an accepted hull with positive mass has positive inertia, and the division in the inertia
formula is defined. -/
theorem C07_hull_inertia_pos (ref : V2) (vs : List V2) (a : Params) (b : Body) (hm : 0 < a.mass)
    (h : mkHull ref vs a = .ok b) : 0 < b.ang_inertia ∧ inertiaDen b.verts ≠ 0 := by
  obtain ⟨_, hp, _, hs, hi, _⟩ := mkHull_ok h
  have ha : area2 (vs.map (fun v => v - get_centroid vs)) ≠ 0 := by
    rw [area2_translate]; exact hp.ne'
  have hv : b.verts = vs.map (fun v => v - get_centroid vs) := by unfold Body.verts; rw [hs]
  refine ⟨?_, ?_⟩
  · rw [hi]; exact hullInertia_pos _ _ hm ha
  · rw [hv, inertiaDen_eq]; exact (edgeSum_abs_pos _ ha).ne'

theorem C07_rect_inertia_pos (pos : Arg) (dims : V2) (a : Params) (b : Body) (hm : 0 < a.mass)
    (h : mkRect pos dims a = .ok b) : 0 < b.ang_inertia := by
  have hd : 0 < dims.1 * dims.2 := (C06_rect_accepts_iff pos dims a).1 ⟨b, h⟩
  have hne : dims.1 ≠ 0 := by rintro h0; rw [h0] at hd; simp at hd
  have : 0 < dims.1 ^ 2 := by positivity
  have hi : b.ang_inertia = rectInertia dims a.mass := by
    rw [mkRect_eq pos dims a hd] at h
    cases pos with
    | two q => simp only [Except.ok.injEq] at h; subst h; rfl
    | three q => simp only [Except.ok.injEq] at h; subst h; exact set_p_inertia _ _
  rw [hi]; unfold rectInertia
  have := sq_nonneg dims.2
  positivity

/-- C07: recomputing the inertia from the vertices at any later time gives the stored value:
inertia does not change when the body moves. -/
theorem C07_hull_inertia_invariant (ref : V2) (vs : List V2) (a : Params) (b : Body)
    (h : mkHull ref vs a = .ok b) (ops : List BodyOp) :
    hullInertia (b.run ops).verts (b.run ops).mass = b.ang_inertia ∧
      (b.run ops).ang_inertia = b.ang_inertia := by
  have hm : ∀ (ops : List BodyOp) (c : Body), (c.run ops).mass = c.mass ∧
      (c.run ops).ang_inertia = c.ang_inertia := by
    intro ops
    induction ops with
    | nil => intro c; exact ⟨rfl, rfl⟩
    | cons o os ih =>
      intro c
      have h1 := ih (c.op o)
      have h2 : (c.op o).mass = c.mass ∧ (c.op o).ang_inertia = c.ang_inertia := by
        cases o with
        | setP q => exact ⟨set_p_mass _ _, set_p_inertia _ _⟩
        | move dt => exact ⟨set_p_mass _ _, set_p_inertia _ _⟩
        | setV v => exact ⟨rfl, rfl⟩
      exact ⟨h1.1.trans h2.1, h1.2.trans h2.2⟩
  obtain ⟨_, hp, _, hs, hi, hmass, _⟩ := mkHull_ok h
  refine ⟨?_, (hm ops b).2⟩
  rw [C05_hull_rigid ref vs a b h ops, (hm ops b).1, hmass, hi]
  unfold hullInertia
  simp only [inertiaNum_eq, inertiaDen_eq, edgeSum_map, rot_det, rot_inner]

/-- C07: inertia is linear in mass. -/
theorem C07_hull_inertia_mass_linear (vs : List V2) (k m : ℝ) :
    hullInertia vs (k * m) = k * hullInertia vs m := by
  unfold hullInertia; ring

/-- C07: inertia is quadratic in a uniform (non-zero) scaling. -/
theorem C07_hull_inertia_scale (vs : List V2) (k m : ℝ) (hk : k ≠ 0) :
    hullInertia (vs.map (fun v => k • v)) m = k ^ 2 * hullInertia vs m := by
  unfold hullInertia
  rw [inertiaNum_eq, inertiaDen_eq, edgeSum_map, edgeSum_map, inertiaNum_eq, inertiaDen_eq]
  have h1 : (fun a b : V2 => |det (k • a) (k • b)|) = fun a b => k ^ 2 • |det a b| := by
    funext a b
    rw [smul_eq_mul, ← abs_of_nonneg (sq_nonneg k), ← abs_mul]; congr 1; simp [det]; ring
  have h2 : (fun a b : V2 => |det (k • a) (k • b)| *
      (inner (k • a) (k • a) + inner (k • a) (k • b) + inner (k • b) (k • b))) =
      fun a b => (k ^ 2 * k ^ 2) • (|det a b| * (inner a a + inner a b + inner b b)) := by
    funext a b
    have := congrFun (congrFun h1 a) b
    rw [this]; simp [inner]; ring
  rw [h1, h2, edgeSum_smul, edgeSum_smul, smul_eq_mul, smul_eq_mul]
  have : k ^ 2 ≠ 0 := pow_ne_zero 2 hk
  rw [show 1 / 6 * m * (k ^ 2 * k ^ 2 * edgeSum vs
      fun a b => |det a b| * (inner a a + inner a b + inner b b)) =
      k ^ 2 * (k ^ 2 * (1 / 6 * m * edgeSum vs
      fun a b => |det a b| * (inner a a + inner a b + inner b b))) by ring,
    mul_div_mul_left _ _ this, mul_div_assoc]

/-- Non-vacuity: the inertia of the 2x2 square of mass 6 is `6 * (4 + 4) / 12 = 4`. -/
example : hullInertia [(1, 1), (-1, 1), (-1, -1), (1, -1)] 6 = 4 := by
  have := hullInertia_rectCorners (2, 2) 6 (by norm_num)
  simp [rectCorners, rectInertia] at this
  rw [this]; norm_num

/-! ## C08 -/

/-- C08: the quaternion passed to ODE is a unit quaternion that acts as the rotation by
`angle + π`. -/
theorem C08_quaternion_rotation (r : ℝ) (v : V2) :
    quatAct (quatOf r) v = rot (r + Real.pi) v ∧
    (quatOf r).1 ^ 2 + (quatOf r).2.1 ^ 2 + (quatOf r).2.2.1 ^ 2 + (quatOf r).2.2.2 ^ 2 = 1 := by
  have hc : Real.cos r = Real.cos (-r / 2) ^ 2 - Real.sin (-r / 2) ^ 2 := by
    rw [← Real.cos_two_mul']
    rw [show 2 * (-r / 2) = -r by ring, Real.cos_neg]
  have hs : Real.sin r = -(2 * Real.sin (-r / 2) * Real.cos (-r / 2)) := by
    rw [← Real.sin_two_mul]
    rw [show 2 * (-r / 2) = -r by ring, Real.sin_neg, neg_neg]
  constructor
  · simp only [quatAct, quatOf, rot, Real.cos_add_pi, Real.sin_add_pi]
    rw [hc, hs]
    ext <;> dsimp only <;> ring
  · simp only [quatOf]
    linear_combination Real.sin_sq_add_cos_sq (-r / 2)

/-- C08: the orientation handed to ODE makes the box geometry occupy the region of the body rotated
by its angle. -/
theorem C08_box_region (r : ℝ) (l : V2) :
    quatAct (quatOf r) '' boxRegion l = rot r '' boxRegion l := by
  have key : ∀ v, quatAct (quatOf r) v = rot r (-v) := by
    intro v
    rw [(C08_quaternion_rotation r v).1]
    simp [rot]
  ext p
  constructor
  · rintro ⟨v, hv, rfl⟩
    exact ⟨-v, by simpa [boxRegion] using hv, (key v).symm⟩
  · rintro ⟨v, hv, rfl⟩
    exact ⟨-v, by simpa [boxRegion] using hv, by rw [key, neg_neg]⟩

/-- Orientation of the ODE geometry: identity until the first `setQuaternion`. -/
def Geom.act (g : Geom) (v : V2) : V2 :=
  match g.quat with
  | none => v
  | some q => quatAct q v

/-- C08: at every point of every history the ODE box of a `Rect` is centred at the body's position
and covers exactly the rectangle of side lengths `dims + 2 eps` turned by the body's angle. -/
theorem C08_rect_geom (pos : Arg) (dims : V2) (a : Params) (b : Body)
    (h : mkRect pos dims a = .ok b) (ops : List BodyOp) :
    (b.run ops).geom.kind = .box (dims.1 + 2 * a.eps, dims.2 + 2 * a.eps) ∧
    (b.run ops).geom.pos = (b.run ops).pos ∧
    ∀ l, (b.run ops).geom.act '' boxRegion l = rot (b.run ops).rot '' boxRegion l := by
  -- invariant
  let I : Body → Prop := fun c =>
    (∃ d vs, c.shape = .rect d vs) ∧
    c.geom.kind = .box (dims.1 + 2 * a.eps, dims.2 + 2 * a.eps) ∧ c.geom.pos = c.pos ∧
    (c.geom.quat = some (quatOf c.rot) ∨ (c.geom.quat = none ∧ c.rot = 0))
  have hset : ∀ c q, I c → I (c.set_p q) := by
    rintro c q ⟨⟨d, vs, hs⟩, h1, h2, h3⟩
    have : ∃ vs', c.set_p q = ({ c with shape := Shape.rect d vs' }).baseSetP q true := by
      unfold Body.set_p; rw [hs]; exact ⟨_, rfl⟩
    obtain ⟨vs', this⟩ := this
    rw [this]
    exact ⟨⟨d, _, rfl⟩, h1, rfl, Or.inl rfl⟩
  have hop : ∀ c o, I c → I (c.op o) := by
    intro c o hc
    cases o with
    | setP q => exact hset c q hc
    | move dt => exact hset c _ hc
    | setV v => exact hc
  have hrun : ∀ (ops : List BodyOp) c, I c → I (c.run ops) := by
    intro ops
    induction ops with
    | nil => intro c hc; exact hc
    | cons o os ih => intro c hc; exact ih _ (hop c o hc)
  have hd : 0 < dims.1 * dims.2 := (C06_rect_accepts_iff pos dims a).1 ⟨b, h⟩
  have hbase : I (rectBase pos dims a) := ⟨⟨_, _, rfl⟩, rfl, rfl, Or.inr ⟨rfl, rfl⟩⟩
  have hb : I b := by
    rw [mkRect_eq pos dims a hd] at h
    cases pos with
    | two q => simp only [Except.ok.injEq] at h; subst h; exact hbase
    | three q => simp only [Except.ok.injEq] at h; subst h; exact hset _ _ hbase
  obtain ⟨_, h1, h2, h3⟩ := hrun ops b hb
  refine ⟨h1, h2, ?_⟩
  intro l
  rcases h3 with h3 | ⟨h3, h4⟩
  · have : (b.run ops).geom.act = quatAct (quatOf (b.run ops).rot) := by
      funext v; unfold Geom.act; rw [h3]
    rw [this, C08_box_region]
  · have : (b.run ops).geom.act = rot 0 := by
      funext v; unfold Geom.act; rw [h3, rot_zero]
    rw [this, h4]

/-- Non-vacuity: at angle 0 the quaternion turns the box by π: `(1, 0) ↦ (-1, 0)`. -/
example : quatAct (quatOf 0) (1, 0) = (-1, 0) := by simp [quatAct, quatOf]

end LcpPhysics
