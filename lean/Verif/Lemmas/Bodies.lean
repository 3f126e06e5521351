import Verif.Lemmas.Polygon
import Verif.Model.BodyOps
import Mathlib.Analysis.Convex.Combination
import Mathlib.Algebra.BigOperators.Field

/-! Helper lemmas about bodies. -/

noncomputable section

namespace LcpPhysics
open Spec

/-- Rectangles keep their vertices in the form `[a, b, -a, -b]`. -/
def Body.RectForm (b : Body) : Prop :=
  match b.shape with
  | .rect _ vs => ∃ v0 v1 : V2, vs = [v0, v1, -v0, -v1]
  | _ => True

theorem hullRotate_eq (t : ℝ) (vs : List V2) : hullRotate t vs = vs.map (rot t) := by
  unfold hullRotate; simp only [matmul_eq_rot]

theorem rectRotate_eq (t : ℝ) (v0 v1 : V2) :
    rectRotate t [v0, v1, -v0, -v1] = [v0, v1, -v0, -v1].map (rot t) := by
  simp [rectRotate, matmul_eq_rot, rot_map_neg]

theorem map_rot_zero (vs : List V2) : vs.map (rot 0) = vs := by
  have : rot 0 = id := by funext a; exact rot_zero a
  rw [this, List.map_id]

theorem set_p_p (b : Body) (q : V3) : (b.set_p q).p = q := by
  unfold Body.set_p; cases b.shape <;> rfl

theorem set_p_v (b : Body) (q : V3) : (b.set_p q).v = b.v := by
  unfold Body.set_p; cases b.shape <;> rfl

theorem set_p_mass (b : Body) (q : V3) : (b.set_p q).mass = b.mass := by
  unfold Body.set_p; cases b.shape <;> rfl

theorem set_p_inertia (b : Body) (q : V3) : (b.set_p q).ang_inertia = b.ang_inertia := by
  unfold Body.set_p; cases b.shape <;> rfl

theorem set_p_eps (b : Body) (q : V3) : (b.set_p q).eps = b.eps := by
  unfold Body.set_p; cases b.shape <;> rfl

theorem set_p_restitution (b : Body) (q : V3) : (b.set_p q).restitution = b.restitution := by
  unfold Body.set_p; cases b.shape <;> rfl

theorem set_p_fric (b : Body) (q : V3) : (b.set_p q).fric_coeff = b.fric_coeff := by
  unfold Body.set_p; cases b.shape <;> rfl

theorem set_p_verts (b : Body) (q : V3) (h : b.RectForm) :
    (b.set_p q).verts = b.verts.map (rot (q.r - b.p.r)) := by
  unfold Body.set_p Body.verts Body.RectForm at *
  cases hs : b.shape with
  | circle r => simp [Body.baseSetP, hs]
  | hull vs =>
    simp only [Body.baseSetP]
    split_ifs with h0
    · rw [hullRotate_eq]
    · push Not at h0; rw [h0, map_rot_zero]
  | rect d vs =>
    rw [hs] at h
    obtain ⟨v0, v1, rfl⟩ := h
    simp only [Body.baseSetP]
    split_ifs with h0
    · rw [rectRotate_eq]
    · push Not at h0; rw [h0, map_rot_zero]

theorem set_p_rectForm (b : Body) (q : V3) (h : b.RectForm) : (b.set_p q).RectForm := by
  unfold Body.set_p Body.RectForm at *
  cases hs : b.shape with
  | circle r => simp [Body.baseSetP, hs]
  | hull vs => simp [Body.baseSetP]
  | rect d vs =>
    rw [hs] at h
    obtain ⟨v0, v1, rfl⟩ := h
    simp only [Body.baseSetP]
    split_ifs with h0
    · exact ⟨_, _, rfl⟩
    · exact ⟨_, _, rfl⟩

theorem op_rectForm (b : Body) (o : BodyOp) (h : b.RectForm) : (b.op o).RectForm := by
  cases o with
  | setP q => exact set_p_rectForm b q h
  | move dt => exact set_p_rectForm b _ h
  | setV v => exact h

theorem op_verts (b : Body) (o : BodyOp) (h : b.RectForm) :
    (b.op o).verts = b.verts.map (rot ((b.op o).p.r - b.p.r)) := by
  cases o with
  | setP q => simp only [Body.op]; rw [set_p_verts b q h, set_p_p]
  | move dt =>
    simp only [Body.op, Body.move]; rw [set_p_verts b _ h, set_p_p]
  | setV v => simp only [Body.op, sub_self, map_rot_zero]; rfl

theorem run_rectForm (b : Body) (ops : List BodyOp) (h : b.RectForm) : (b.run ops).RectForm := by
  induction ops generalizing b with
  | nil => exact h
  | cons o os ih => exact ih (b.op o) (op_rectForm b o h)

theorem run_verts (b : Body) (ops : List BodyOp) (h : b.RectForm) :
    (b.run ops).verts = b.verts.map (rot ((b.run ops).p.r - b.p.r)) := by
  induction ops generalizing b with
  | nil => simp [Body.run, map_rot_zero]
  | cons o os ih =>
    have := ih (b.op o) (op_rectForm b o h)
    change ((b.op o).run os).verts = _
    rw [this, op_verts b o h, List.map_map]
    congr 1
    funext a
    simp only [Function.comp, rot_add]
    change rot _ a = rot (((b.op o).run os).p.r - b.p.r) a
    congr 1; ring

theorem op_geomKind (b : Body) (o : BodyOp) : (b.op o).geom.kind = b.geom.kind := by
  cases o <;> simp only [Body.op, Body.move, Body.set_p] <;> first | rfl | (cases b.shape <;> rfl)

theorem is_clockwise_iff (vs : List V2) : is_clockwise vs ↔ 0 < area2 vs := by
  unfold is_clockwise; rw [clockwiseTotal_eq]; constructor <;> intro h <;> linarith

theorem mkHull_ok {r : V2} {vs : List V2} {a : Params} {b : Body} (h : mkHull r vs a = .ok b) :
    vs.length > 2 ∧ 0 < area2 vs ∧
      b.p = ⟨0, (r + get_centroid vs).1, (r + get_centroid vs).2⟩ ∧
      b.shape = .hull (vs.map (fun v => v - get_centroid vs)) ∧
      b.ang_inertia = hullInertia (vs.map (fun v => v - get_centroid vs)) a.mass ∧
      b.mass = a.mass ∧ b.v = a.vel.toV3 ∧ b.eps = a.eps := by
  unfold mkHull at h
  split_ifs at h with hc
  simp only [Except.ok.injEq] at h
  subst h
  exact ⟨hc.1, (is_clockwise_iff vs).1 hc.2, rfl, rfl, rfl, rfl, rfl, rfl⟩

/-- half-dimension corners as built by `Rect.__init__` -/
def rectCorners (dims : V2) : List V2 :=
  [(dims.1 / 2, dims.2 / 2), (-(dims.1 / 2), dims.2 / 2),
   (-(dims.1 / 2), -(dims.2 / 2)), (dims.1 / 2, -(dims.2 / 2))]

theorem rect_verts_eq (dims : V2) :
    ([((dims.1 / 2, dims.2 / 2) : V2), (dims.1 / 2 * (-1), dims.2 / 2 * 1),
      -(dims.1 / 2, dims.2 / 2), -(dims.1 / 2 * (-1), dims.2 / 2 * 1)]) = rectCorners dims := by
  simp [rectCorners]

theorem edgeSum_four {M : Type*} [AddCommMonoid M] (a b c d : V2) (f : V2 → V2 → M) :
    edgeSum [a, b, c, d] f = f a b + f b c + f c d + f d a := by
  simp [edgeSum, Finset.sum_range_succ]

theorem area2_rectCorners (dims : V2) : area2 (rectCorners dims) = 2 * (dims.1 * dims.2) := by
  unfold area2 rectCorners; rw [edgeSum_four]; simp [det]; ring

theorem centroid_rectCorners (dims : V2) : get_centroid (rectCorners dims) = 0 := by
  have : centroidNum (rectCorners dims) = 0 := by
    rw [centroidNum_eq]; unfold rectCorners; rw [edgeSum_four]
    ext <;> simp [det] <;> ring
  unfold get_centroid; rw [this]; simp

theorem hullInertia_rectCorners (dims : V2) (m : ℝ) (h : 0 < dims.1 * dims.2) :
    hullInertia (rectCorners dims) m = rectInertia dims m := by
  unfold hullInertia rectInertia
  rw [inertiaNum_eq, inertiaDen_eq]
  unfold rectCorners
  rw [edgeSum_four, edgeSum_four]
  have e1 : |det (dims.1 / 2, dims.2 / 2) (-(dims.1 / 2), dims.2 / 2)| = dims.1 * dims.2 / 2 := by
    rw [← abs_of_pos (by linarith : 0 < dims.1 * dims.2 / 2)]; congr 1; simp [det]; ring
  have e2 : |det (-(dims.1 / 2), dims.2 / 2) (-(dims.1 / 2), -(dims.2 / 2))|
      = dims.1 * dims.2 / 2 := by
    rw [← abs_of_pos (by linarith : 0 < dims.1 * dims.2 / 2)]; congr 1; simp [det]; ring
  have e3 : |det (-(dims.1 / 2), -(dims.2 / 2)) (dims.1 / 2, -(dims.2 / 2))|
      = dims.1 * dims.2 / 2 := by
    rw [← abs_of_pos (by linarith : 0 < dims.1 * dims.2 / 2)]; congr 1; simp [det]; ring
  have e4 : |det (dims.1 / 2, -(dims.2 / 2)) (dims.1 / 2, dims.2 / 2)| = dims.1 * dims.2 / 2 := by
    rw [← abs_of_pos (by linarith : 0 < dims.1 * dims.2 / 2)]; congr 1; simp [det]; ring
  rw [e1, e2, e3, e4]
  have hne : dims.1 * dims.2 ≠ 0 := h.ne'
  simp only [inner]
  rw [div_eq_iff (by linarith)]
  ring

/-- The body `Rect.__init__` builds before the optional `set_p(pos)`. -/
def rectBase (pos : Arg) (dims : V2) (a : Params) : Body where
  p := ⟨0, pos.toV3.x, pos.toV3.y⟩
  v := a.vel.toV3
  mass := a.mass
  ang_inertia := rectInertia dims a.mass
  restitution := a.restitution
  fric_coeff := a.fric_coeff
  eps := a.eps
  shape := .rect dims (rectCorners dims)
  geom := { kind := .box (dims.1 + 2 * a.eps, dims.2 + 2 * a.eps), pos := pos.toV3.xy, quat := none }

theorem mkRect_eq (pos : Arg) (dims : V2) (a : Params) (h : 0 < dims.1 * dims.2) :
    mkRect pos dims a = .ok (match pos with
      | .two _ => rectBase pos dims a
      | .three q => (rectBase pos dims a).set_p q) := by
  unfold mkRect
  simp only [rect_verts_eq, centroid_rectCorners, is_clockwise_iff, area2_rectCorners]
  rw [if_pos ⟨by simp [rectCorners], by linarith⟩]
  have hmap : (rectCorners dims).map (fun v => v - 0) = rectCorners dims := by simp
  simp only [hmap, add_zero]
  cases pos <;> rfl

theorem mkRect_err (pos : Arg) (dims : V2) (a : Params) (h : ¬ 0 < dims.1 * dims.2) :
    mkRect pos dims a = .error .assertion := by
  unfold mkRect
  simp only [rect_verts_eq, centroid_rectCorners, is_clockwise_iff, area2_rectCorners]
  rw [if_neg]; rintro ⟨_, h'⟩; exact h (by linarith)

theorem rectBase_rectForm (pos : Arg) (dims : V2) (a : Params) : (rectBase pos dims a).RectForm :=
  ⟨(dims.1 / 2, dims.2 / 2), (-(dims.1 / 2), dims.2 / 2), by simp [rectCorners]⟩

theorem mkRect_rectForm {pos : Arg} {dims : V2} {a : Params} {b : Body}
    (h : mkRect pos dims a = .ok b) : b.RectForm := by
  by_cases hd : 0 < dims.1 * dims.2
  · rw [mkRect_eq pos dims a hd] at h
    cases pos with
    | two q => simp only [Except.ok.injEq] at h; subst h; exact rectBase_rectForm _ _ _
    | three q =>
      simp only [Except.ok.injEq] at h; subst h
      exact set_p_rectForm _ _ (rectBase_rectForm _ _ _)
  · rw [mkRect_err pos dims a hd] at h; cases h

theorem mkHull_rectForm {r : V2} {vs : List V2} {a : Params} {b : Body}
    (h : mkHull r vs a = .ok b) : b.RectForm := by
  have := (mkHull_ok h).2.2.2.1
  unfold Body.RectForm; rw [this]; trivial

theorem edgeSum_abs_pos (vs : List V2) (h : area2 vs ≠ 0) :
    0 < edgeSum vs (fun a b => |det a b|) :=
  edgeSum_pos_of_ne vs (g := det) (fun _ _ => abs_nonneg _) (fun _ _ h => abs_pos.2 h) h

theorem quad_pos {a b : V2} (h : det a b ≠ 0) : 0 < inner a a + inner a b + inner b b := by
  have ha : a ≠ 0 := by rintro rfl; simp [det] at h
  have : 0 < inner a a := lt_of_le_of_ne (inner_self_nonneg a)
    (fun h' => ha (inner_self_eq_zero.1 h'.symm))
  have h2 : inner a a + inner a b + inner b b =
      3 / 4 * inner a a + inner ((1/2 : ℝ) • a + b) ((1/2 : ℝ) • a + b) := by
    simp [inner]; ring
  have := inner_self_nonneg ((1/2 : ℝ) • a + b)
  rw [h2]; linarith

theorem quad_nonneg (a b : V2) : 0 ≤ inner a a + inner a b + inner b b := by
  have h2 : inner a a + inner a b + inner b b =
      3 / 4 * inner a a + inner ((1/2 : ℝ) • a + b) ((1/2 : ℝ) • a + b) := by
    simp [inner]; ring
  have := inner_self_nonneg ((1/2 : ℝ) • a + b)
  have := inner_self_nonneg a
  rw [h2]; linarith

theorem hullInertia_pos (vs : List V2) (m : ℝ) (hm : 0 < m) (h : area2 vs ≠ 0) :
    0 < hullInertia vs m := by
  unfold hullInertia
  rw [inertiaNum_eq, inertiaDen_eq]
  have h1 := edgeSum_abs_pos vs h
  have h2 : 0 < edgeSum vs (fun a b => |det a b| * (inner a a + inner a b + inner b b)) :=
    edgeSum_pos_of_ne vs (g := det)
      (fun a b => mul_nonneg (abs_nonneg _) (quad_nonneg a b))
      (fun a b h => mul_pos (abs_pos.2 h) (quad_pos h)) h
  positivity

/-- centroid of a polygon that is star-shaped about a point of its hull lies in the hull -/
theorem centroid_mem_solid (q : V2) (vs : List V2) (hq : q ∈ solid vs)
    (hstar : ∀ i < vs.length, 0 ≤ det (vs.getD i 0 - q) (vs.getD ((i + 1) % vs.length) 0 - q))
    (hpos : 0 < area2 vs) : get_centroid vs ∈ solid vs := by
  rw [get_centroid_eq_fan q]
  have hc : Convex ℝ (solid vs) := convex_convexHull ℝ _
  have hsum : ∑ i ∈ Finset.range vs.length,
      det (vs.getD i 0 - q) (vs.getD ((i + 1) % vs.length) 0 - q) / 2 = area2 vs / 2 := by
    rw [← Finset.sum_div]; congr 1; exact area2_fan q vs
  have := hc.centerMass_mem (t := Finset.range vs.length)
    (w := fun i => det (vs.getD i 0 - q) (vs.getD ((i + 1) % vs.length) 0 - q) / 2)
    (z := fun i => (1 / 3 : ℝ) • (q + vs.getD i 0 + vs.getD ((i + 1) % vs.length) 0))
    (by intro i hi; have := hstar i (Finset.mem_range.1 hi); linarith)
    (by rw [hsum]; linarith)
    (by
      intro i hi
      have hi := Finset.mem_range.1 hi
      have hj : (i + 1) % vs.length < vs.length := Nat.mod_lt _ (by omega)
      have m1 : vs.getD i 0 ∈ solid vs := subset_convexHull ℝ _ (getD_mem hi)
      have m2 : vs.getD ((i + 1) % vs.length) 0 ∈ solid vs := subset_convexHull ℝ _ (getD_mem hj)
      have m3 : (1 / 2 : ℝ) • q + (1 / 2 : ℝ) • vs.getD i 0 ∈ solid vs :=
        hc hq m1 (by norm_num) (by norm_num) (by norm_num)
      have m4 := hc m3 m2 (a := 2 / 3) (b := 1 / 3) (by norm_num) (by norm_num) (by norm_num)
      convert m4 using 1
      module)
  unfold fanCentroid edgeSum
  rw [one_div]
  exact this

end LcpPhysics
