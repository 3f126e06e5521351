import Verif.Spec.BroadPhase
import Verif.Props.RectContact

/-! # C09: the broad phase never hides a contact -/

noncomputable section

namespace LcpPhysics
open Spec

theorem abs_fst_le_len (v : V2) : |v.1| ≤ len v := by
  rw [len]; exact Real.abs_le_sqrt (by nlinarith [sq_nonneg v.2])

theorem abs_snd_le_len (v : V2) : |v.2| ≤ len v := by
  rw [len]; exact Real.abs_le_sqrt (by nlinarith [sq_nonneg v.1])

theorem run_geom_pos (b : Body) (h : b.geom.pos = b.pos) (ops : List BodyOp) :
    (b.run ops).geom.pos = (b.run ops).pos := by
  have hset : ∀ (c : Body) q, (c.set_p q).geom.pos = (c.set_p q).pos := by
    intro c q; unfold Body.set_p; cases c.shape <;> rfl
  induction ops generalizing b with
  | nil => exact h
  | cons o os ih =>
    refine ih (b.op o) ?_
    cases o with
    | setP q => exact hset b q
    | move dt => exact hset b _
    | setV v => exact h

theorem run_eps (b : Body) (ops : List BodyOp) : (b.run ops).eps = b.eps := by
  induction ops generalizing b with
  | nil => rfl
  | cons o os ih =>
    change ((b.op o).run os).eps = _
    rw [ih]
    cases o with
    | setP q => exact set_p_eps b q
    | move dt => exact set_p_eps b _
    | setV v => rfl

theorem run_geomKind (b : Body) (ops : List BodyOp) : (b.run ops).geom.kind = b.geom.kind := by
  induction ops generalizing b with
  | nil => rfl
  | cons o os ih => change ((b.op o).run os).geom.kind = _; rw [ih, op_geomKind]

theorem run_circle (b : Body) {r : ℝ} (h : b.shape = .circle r) (ops : List BodyOp) :
    (b.run ops).shape = .circle r := by
  have hset : ∀ (c : Body) q, c.shape = .circle r → (c.set_p q).shape = .circle r := by
    intro c q hc; unfold Body.set_p; rw [hc]; exact hc
  induction ops generalizing b with
  | nil => exact h
  | cons o os ih =>
    refine ih (b.op o) ?_
    cases o with
    | setP q => exact hset b q h
    | move dt => exact hset b _ h
    | setV v => exact h

theorem run_hull (b : Body) (h : ∃ vs, b.shape = .hull vs) (ops : List BodyOp) :
    ∃ vs, (b.run ops).shape = .hull vs := by
  have hset : ∀ (c : Body) q, (∃ vs, c.shape = .hull vs) → ∃ vs, (c.set_p q).shape = .hull vs := by
    rintro c q ⟨vs, hc⟩; unfold Body.set_p; rw [hc]; exact ⟨_, rfl⟩
  induction ops generalizing b with
  | nil => exact h
  | cons o os ih =>
    refine ih (b.op o) ?_
    cases o with
    | setP q => exact hset b q h
    | move dt => exact hset b _ h
    | setV v => exact h

theorem run_rect (b : Body) (h : ∃ d vs, b.shape = .rect d vs) (ops : List BodyOp) :
    ∃ d vs, (b.run ops).shape = .rect d vs := by
  have hset : ∀ (c : Body) q, (∃ d vs, c.shape = .rect d vs) → ∃ d vs, (c.set_p q).shape = .rect d vs := by
    rintro c q ⟨d, vs, hc⟩; unfold Body.set_p; rw [hc]; exact ⟨_, _, rfl⟩
  induction ops generalizing b with
  | nil => exact h
  | cons o os ih =>
    refine ih (b.op o) ?_
    cases o with
    | setP q => exact hset b q h
    | move dt => exact hset b _ h
    | setV v => exact h

theorem mkRect_shape {pos : Arg} {dims : V2} {a : Params} {b : Body} (h : mkRect pos dims a = .ok b) :
    (∃ d vs, b.shape = .rect d vs) ∧ b.eps = a.eps := by
  have hd : 0 < dims.1 * dims.2 := (C06_rect_accepts_iff pos dims a).1 ⟨b, h⟩
  rw [mkRect_eq pos dims a hd] at h
  cases pos with
  | two q => simp only [Except.ok.injEq] at h; subst h; exact ⟨⟨_, _, rfl⟩, rfl⟩
  | three q =>
    simp only [Except.ok.injEq] at h; subst h
    exact ⟨run_rect (rectBase (.three q) dims a) ⟨_, _, rfl⟩ [.setP q], by rw [set_p_eps]; rfl⟩

theorem solid_len_le {vs : List V2} {R : ℝ} (h : ∀ v ∈ vs, len v ≤ R) : ∀ x ∈ solid vs, len x ≤ R := by
  have : solid vs ⊆ {x | len x ≤ R} := by
    refine convexHull_min (fun v hv => h v hv) ?_
    intro x hx y hy u v hu hv huv
    have h1 := len_add_le (u • x) (v • y)
    rw [len_smul, len_smul, abs_of_nonneg hu, abs_of_nonneg hv] at h1
    have h2 := mul_le_mul_of_nonneg_left hx hu
    have h3 := mul_le_mul_of_nonneg_left hy hv
    change len (u • x + v • y) ≤ R
    have : u * R + v * R = R := by rw [← add_mul, huv, one_mul]
    linarith
  exact fun x hx => this hx

theorem len_le_maxRad {vs : List V2} {v : V2} (h : v ∈ vs) : len v ≤ maxRad vs := by
  rw [len_eq_sqrt_inner, maxRad]
  apply Real.sqrt_le_sqrt
  induction vs with
  | nil => simp at h
  | cons w ws ih =>
    rw [List.map_cons, List.foldr_cons]
    rcases List.mem_cons.1 h with rfl | h
    · exact le_max_left _ _
    · exact (ih h).trans (le_max_right _ _)

theorem outward_rot (t : ℝ) (e : V2) : outward (rot t e) = rot t (outward e) := by
  ext <;> simp [outward, rot] <;> ring

/-- Edge `i` of a turned rectangle: its outward unit normal does not depend on the side lengths. -/
theorem corners_edge (d : V2) (h1 : 0 < d.1) (h2 : 0 < d.2) (t : ℝ) (i : ℕ) (hi : i < 4) :
    edgeNormal ((rectCorners d).map (rot t)) i = rot t ([((0 : ℝ), (1 : ℝ)), (-1, 0), (0, -1), (1, 0)].getD i 0) ∧
    inner (edgeNormal ((rectCorners d).map (rot t)) i) (((rectCorners d).map (rot t)).getD i 0) =
      [d.2 / 2, d.1 / 2, d.2 / 2, d.1 / 2].getD i 0 := by
  have hv : edgeVec ((rectCorners d).map (rot t)) i = rot t (edgeVec (rectCorners d) i) := by
    unfold edgeVec
    rw [rot_map_sub]
    interval_cases i <;> simp [rectCorners]
  have hn : edgeNormal ((rectCorners d).map (rot t)) i =
      rot t ([((0 : ℝ), (1 : ℝ)), (-1, 0), (0, -1), (1, 0)].getD i 0) := by
    unfold edgeNormal
    rw [hv, outward_rot, rot_len, ← rot_map_smul]
    congr 1
    have e1 : Real.sqrt ((-(d.1 / 2) - d.1 / 2) ^ 2) = d.1 := by
      rw [show (-(d.1 / 2) - d.1 / 2) ^ 2 = d.1 ^ 2 by ring]; exact Real.sqrt_sq h1.le
    have e2 : Real.sqrt ((-(d.2 / 2) - d.2 / 2) ^ 2) = d.2 := by
      rw [show (-(d.2 / 2) - d.2 / 2) ^ 2 = d.2 ^ 2 by ring]; exact Real.sqrt_sq h2.le
    have e3 : Real.sqrt (d.1 ^ 2) = d.1 := Real.sqrt_sq h1.le
    have e4 : Real.sqrt (d.2 ^ 2) = d.2 := Real.sqrt_sq h2.le
    have i1 : d.1⁻¹ * d.1 = 1 := inv_mul_cancel₀ h1.ne'
    have i2 : d.2⁻¹ * d.2 = 1 := inv_mul_cancel₀ h2.ne'
    have i3 : d.2⁻¹ * (-(d.2 / 2) - d.2 / 2) = -1 := by linear_combination -i2
    interval_cases i <;> simp [rectCorners, edgeVec, outward, len, e1, e2, e3, e4, i1, i2, i3]
  refine ⟨hn, ?_⟩
  rw [hn]
  have : ((rectCorners d).map (rot t)).getD i 0 = rot t ((rectCorners d).getD i 0) := by
    interval_cases i <;> simp [rectCorners]
  rw [this, rot_inner]
  interval_cases i <;> simp [rectCorners, inner]

theorem corners_solid (d : V2) (h1 : 0 < d.1) (h2 : 0 < d.2) (t : ℝ) (x : V2) :
    x ∈ solid ((rectCorners d).map (rot t)) ↔ ∃ w ∈ boxRegion d, rot t w = x := by
  have hf : RectForm ((rectCorners d).map (rot t)) := rot_rectForm (mul_pos h1 h2) t
  rw [mem_solid_iff (rect_convex hf) (rect_noThreeCollinear hf), rect_length hf]
  have hx : x = rot t (rot (-t) x) := by rw [rot_add, neg_add_cancel, rot_zero]
  set w := rot (-t) x with hw
  have key : ∀ i < 4, (inner (outward (edgeVec ((rectCorners d).map (rot t)) i))
      (x - ((rectCorners d).map (rot t)).getD i 0) ≤ 0 ↔
      inner ([((0 : ℝ), (1 : ℝ)), (-1, 0), (0, -1), (1, 0)].getD i 0) w ≤
        [d.2 / 2, d.1 / 2, d.2 / 2, d.1 / 2].getD i 0) := by
    intro i hi
    obtain ⟨e1, e2⟩ := corners_edge d h1 h2 t i hi
    have hp : 0 < len (edgeVec ((rectCorners d).map (rot t)) i) :=
      len_pos ((rect_convex hf).edge_ne i (by rw [rect_length hf]; exact hi))
    have e3 : inner (outward (edgeVec ((rectCorners d).map (rot t)) i))
        (x - ((rectCorners d).map (rot t)).getD i 0) = len (edgeVec ((rectCorners d).map (rot t)) i) *
        inner (edgeNormal ((rectCorners d).map (rot t)) i) (x - ((rectCorners d).map (rot t)).getD i 0) := by
      rw [inner_edgeNormal, ← mul_assoc, mul_one_div_cancel hp.ne', one_mul]
    rw [e3, inner_sub_right, e2, e1, hx, rot_inner]
    constructor
    · intro h
      by_contra hc
      exact absurd h (not_le.2 (mul_pos hp (by linarith [not_le.1 hc])))
    · intro h
      exact mul_nonpos_of_nonneg_of_nonpos hp.le (by linarith)
  constructor
  · intro h
    refine ⟨w, ?_, hx.symm⟩
    have k0 := (key 0 (by norm_num)).1 (h 0 (by norm_num))
    have k1 := (key 1 (by norm_num)).1 (h 1 (by norm_num))
    have k2 := (key 2 (by norm_num)).1 (h 2 (by norm_num))
    have k3 := (key 3 (by norm_num)).1 (h 3 (by norm_num))
    simp [inner] at k0 k1 k2 k3
    exact ⟨abs_le.2 ⟨by linarith, by linarith⟩, abs_le.2 ⟨by linarith, by linarith⟩⟩
  · rintro ⟨w', ⟨hw1, hw2⟩, hx'⟩
    have : w' = w := by rw [hw, ← hx', rot_add, add_neg_cancel, rot_zero]
    subst this
    obtain ⟨a1, a2⟩ := abs_le.1 hw1
    obtain ⟨b1, b2⟩ := abs_le.1 hw2
    intro i hi
    rw [key i hi]
    interval_cases i <;> simp [inner] <;> linarith

/-- The geometry of a rectangle body, in any state: the rectangle grown by `eps` on every side. -/
theorem rect_geomRegion {pos : Arg} {dims : V2} {a : Params} {b : Body} (h : mkRect pos dims a = .ok b)
    (ops : List BodyOp) (x : V2) :
    x ∈ geomRegion (b.run ops).geom ↔
      ∃ w ∈ boxRegion (dims.1 + 2 * a.eps, dims.2 + 2 * a.eps), rot (b.run ops).rot w = x - (b.run ops).pos := by
  obtain ⟨h1, h2, h3⟩ := C08_rect_geom pos dims a b h ops
  have h4 := h3 (dims.1 + 2 * a.eps, dims.2 + 2 * a.eps)
  have : x ∈ geomRegion (b.run ops).geom ↔ x - (b.run ops).pos ∈
      (b.run ops).geom.act '' boxRegion (dims.1 + 2 * a.eps, dims.2 + 2 * a.eps) := by
    unfold geomRegion Geom.act
    rw [h1, ← h2]
    cases (b.run ops).geom.quat with
    | none => simp
    | some q => rfl
  rw [this, h4]
  rfl

/-- C09: in every state of its life the broad-phase geometry of a body contains every point within the
body's own `eps` of the body. -/
theorem C09_geometry_covers (b : Body) (hb : Alive b) (x : V2) (hx : x ∈ bodyRegion b) (y : V2)
    (hy : Spec.dist y x ≤ b.eps) : y ∈ geomRegion b.geom := by
  obtain ⟨b0, ops, hc, rfl⟩ := hb
  cases hc with
  | circle pos rad a =>
    have hs : ((mkCircle pos rad a).run ops).shape = .circle rad := run_circle _ rfl ops
    have hk : ((mkCircle pos rad a).run ops).geom.kind = .sphere (rad + a.eps) := run_geomKind _ ops
    have hp := run_geom_pos (mkCircle pos rad a) rfl ops
    have he : ((mkCircle pos rad a).run ops).eps = a.eps := run_eps _ ops
    unfold bodyRegion at hx
    unfold geomRegion
    rw [hs] at hx
    rw [hk, hp]
    rw [he] at hy
    have hx : Spec.dist x ((mkCircle pos rad a).run ops).pos ≤ rad := hx
    change Spec.dist y ((mkCircle pos rad a).run ops).pos ≤ rad + a.eps
    have := Spec.dist_triangle y x ((mkCircle pos rad a).run ops).pos
    linarith
  | hull ref vs a _ h =>
    obtain ⟨_, _, hbp, hs, -, -, -, hbe⟩ := mkHull_ok h
    have hg : b0.geom.pos = b0.pos ∧
        b0.geom.kind = .sphere (maxRad (vs.map fun v => v - get_centroid vs) + a.eps) := by
      unfold mkHull at h
      split_ifs at h with hc
      simp only [Except.ok.injEq] at h
      subst h
      exact ⟨rfl, rfl⟩
    obtain ⟨ws, hws⟩ := run_hull b0 ⟨_, hs⟩ ops
    have hv : (b0.run ops).verts = ws := by unfold Body.verts; rw [hws]
    rw [C05_hull_rigid ref vs a b0 h ops] at hv
    have hk : (b0.run ops).geom.kind = .sphere (maxRad (vs.map fun v => v - get_centroid vs) + a.eps) := by
      rw [run_geomKind, hg.2]
    have hp := run_geom_pos b0 hg.1 ops
    have he : (b0.run ops).eps = a.eps := by rw [run_eps, hbe]
    unfold bodyRegion at hx
    unfold geomRegion
    rw [hws] at hx
    rw [hk, hp]
    rw [he] at hy
    have hx : x - (b0.run ops).pos ∈ solid ws := hx
    have hl : len (x - (b0.run ops).pos) ≤ maxRad (vs.map fun v => v - get_centroid vs) := by
      refine solid_len_le (fun v hv' => ?_) _ hx
      rw [← hv] at hv'
      obtain ⟨w, hw, rfl⟩ := List.mem_map.1 hv'
      rw [rot_len]
      exact len_le_maxRad hw
    change Spec.dist y (b0.run ops).pos ≤ _
    have := Spec.dist_triangle y x (b0.run ops).pos
    have e : Spec.dist x (b0.run ops).pos = len (x - (b0.run ops).pos) := rfl
    linarith
  | rect pos dims a _ h h1 h2 =>
    obtain ⟨hs, hbe⟩ := mkRect_shape h
    obtain ⟨d, ws, hws⟩ := run_rect b0 hs ops
    have hv : (b0.run ops).verts = ws := by unfold Body.verts; rw [hws]
    rw [C05_rect_rigid pos dims a b0 h ops] at hv
    unfold bodyRegion at hx
    rw [hws] at hx
    have hx : x - (b0.run ops).pos ∈ solid ws := hx
    rw [← hv] at hx
    obtain ⟨w, ⟨hw1, hw2⟩, hw⟩ := (corners_solid dims h1 h2 _ _).1 hx
    rw [run_eps, hbe] at hy
    rw [rect_geomRegion h ops]
    set u := rot (-(b0.run ops).rot) (y - x) with hu
    have hlu : len u ≤ a.eps := by rw [hu, rot_len]; exact hy
    refine ⟨w + u, ⟨?_, ?_⟩, ?_⟩
    · have := abs_add_le w.1 u.1
      have := abs_fst_le_len u
      simp only [Prod.fst_add]; linarith
    · have := abs_add_le w.2 u.2
      have := abs_snd_le_len u
      simp only [Prod.snd_add]; linarith
    · rw [rot_map_add, hw, hu, rot_add, neg_add_cancel, rot_zero]; abel

/-- Two discs whose radii reach from centre to centre have a common point. -/
theorem discs_meet {c1 c2 : V2} {R1 R2 : ℝ} (h1 : 0 ≤ R1) (h2 : 0 ≤ R2) (h : Spec.dist c1 c2 ≤ R1 + R2) :
    ∃ z, Spec.dist z c1 ≤ R1 ∧ Spec.dist z c2 ≤ R2 := by
  rcases (add_nonneg h1 h2).eq_or_lt with h0 | h0
  · have e1 : R1 = 0 := by linarith
    have e2 : R2 = 0 := by linarith
    have : Spec.dist c1 c2 = 0 := le_antisymm (by linarith) (len_nonneg _)
    have hc := Spec.dist_eq_zero.1 this
    subst hc
    exact ⟨c1, by rw [Spec.dist_self]; exact h1, by rw [Spec.dist_self]; exact h2⟩
  · refine ⟨c1 + (R1 / (R1 + R2)) • (c2 - c1), ?_, ?_⟩
    · have e : c1 + (R1 / (R1 + R2)) • (c2 - c1) - c1 = (R1 / (R1 + R2)) • (c2 - c1) := by abel
      rw [Spec.dist, e, len_smul, abs_of_nonneg (div_nonneg h1 h0.le), ← len_neg, neg_sub]
      calc R1 / (R1 + R2) * len (c1 - c2) ≤ R1 / (R1 + R2) * (R1 + R2) :=
            mul_le_mul_of_nonneg_left h (div_nonneg h1 h0.le)
        _ = R1 := div_mul_cancel₀ _ h0.ne'
    · have e : c1 + (R1 / (R1 + R2)) • (c2 - c1) - c2 = (R2 / (R1 + R2)) • (c1 - c2) := by
        have : R2 / (R1 + R2) = 1 - R1 / (R1 + R2) := by field_simp; ring
        rw [this]; module
      rw [Spec.dist, e, len_smul, abs_of_nonneg (div_nonneg h2 h0.le)]
      calc R2 / (R1 + R2) * len (c1 - c2) ≤ R2 / (R1 + R2) * (R1 + R2) :=
            mul_le_mul_of_nonneg_left h (div_nonneg h2 h0.le)
        _ = R2 := div_mul_cancel₀ _ h0.ne'

theorem aabb_of_common {A B : Set V2} {z : V2} (h1 : z ∈ A) (h2 : z ∈ B) : AabbOverlap A B :=
  ⟨⟨z, h1, z, h2, rfl⟩, ⟨z, h1, z, h2, rfl⟩⟩

/-- C09: two bodies whose regions come within the sum of their `eps` have overlapping broad-phase
bounding boxes (their geometries even share a point). -/
theorem C09_near_bodies_overlap (b1 b2 : Body) (h1 : Alive b1) (h2 : Alive b2) (e1 : 0 ≤ b1.eps)
    (e2 : 0 ≤ b2.eps) (x1 : V2) (hx1 : x1 ∈ bodyRegion b1) (x2 : V2) (hx2 : x2 ∈ bodyRegion b2)
    (hd : Spec.dist x1 x2 ≤ b1.eps + b2.eps) :
    (∃ z, z ∈ geomRegion b1.geom ∧ z ∈ geomRegion b2.geom) ∧
      AabbOverlap (geomRegion b1.geom) (geomRegion b2.geom) := by
  obtain ⟨z, hz1, hz2⟩ := discs_meet e1 e2 hd
  have k1 := C09_geometry_covers b1 h1 x1 hx1 z hz1
  have k2 := C09_geometry_covers b2 h2 x2 hx2 z hz2
  exact ⟨⟨z, k1, k2⟩, aabb_of_common k1 k2⟩

theorem alive_verts {b : Body} (h : Alive b) (hc : b.isCircle = false) :
    b.verts ≠ [] ∧ ∀ x, x ∈ bodyRegion b ↔ x - b.pos ∈ solid b.verts := by
  constructor
  · obtain ⟨b0, ops, hc0, rfl⟩ := h
    cases hc0 with
    | circle pos rad a =>
      rw [Body.isCircle, run_circle (mkCircle pos rad a) rfl ops] at hc
      cases hc
    | hull ref vs a _ h =>
      rw [C05_hull_rigid ref vs a b0 h ops]
      have := (mkHull_ok h).1
      intro h0
      rw [List.map_eq_nil_iff, List.map_eq_nil_iff] at h0
      rw [h0] at this
      simp at this
    | rect pos dims a _ h h1 h2 =>
      rw [C05_rect_rigid pos dims a b0 h ops]; simp
  · intro x
    unfold bodyRegion Body.verts
    unfold Body.isCircle at hc
    cases hs : b.shape with
    | circle r => rw [hs] at hc; cases hc
    | hull vs => rfl
    | rect d vs => rfl

theorem circle_region {b : Body} (hc : b.isCircle = true) (x : V2) :
    x ∈ bodyRegion b ↔ Spec.dist x b.pos ≤ b.rad := by
  unfold bodyRegion Body.rad
  unfold Body.isCircle at hc
  cases hs : b.shape with
  | circle r => rfl
  | hull vs => rw [hs] at hc; cases hc
  | rect d vs => rw [hs] at hc; cases hc

/-- The nearest points of a disc and a point. -/
theorem disc_near {c q : V2} {r e : ℝ} (hr : 0 ≤ r) (he : 0 ≤ e) (h : Spec.dist c q ≤ r + e) :
    ∃ x, Spec.dist x c ≤ r ∧ Spec.dist x q ≤ e := discs_meet hr he h

/-- C09 for the narrow phase: a reported contact between a circle and anything means that the bodies are within
the world's `eps`. -/
theorem C09_circle_contact_near (fuel : ℕ) (eps : ℝ) (heps : 0 ≤ eps) (bs : List Body) (f f' : Finder) (i1 i2 : ℕ)
    (cs : List Contact) (h : handlePair fuel eps bs f i1 i2 = .done (f', cs)) (hne : cs ≠ [])
    (h1 : Alive (bodyAt bs i1)) (h2 : Alive (bodyAt bs i2)) (r1 : 0 ≤ (bodyAt bs i1).rad)
    (r2 : 0 ≤ (bodyAt bs i2).rad)
    (hcirc : (bodyAt bs i1).isCircle = true ∨ (bodyAt bs i2).isCircle = true) :
    ∃ x1 ∈ bodyRegion (bodyAt bs i1), ∃ x2 ∈ bodyRegion (bodyAt bs i2), Spec.dist x1 x2 ≤ eps := by
  have key : ∀ (c p : V2) (rad : ℝ) (verts : List V2) (seed last : ℕ) (r : Option CHull × ℕ),
      0 ≤ rad → verts ≠ [] → circleHull fuel eps rad c p verts seed last = .done r → r.1 ≠ none →
      ∃ x y, Spec.dist x c ≤ rad ∧ y - p ∈ solid verts ∧ Spec.dist x y ≤ eps := by
    intro c p rad verts seed last r hr hv hd hn
    have hl : 0 < verts.length := List.length_pos_iff.2 hv
    unfold circleHull at hd
    cases hg : gjkLoop verts (c - p) fuel [seed % verts.length] with
    | running => rw [hg] at hd; cases hd
    | raised e => rw [hg] at hd; cases hd
    | done g =>
      obtain ⟨q, used⟩ := g
      rw [hg] at hd
      simp only [Run.bind] at hd
      obtain ⟨hq, -, -, hu, hle⟩ := C15_gjk_correct verts (c - p) fuel _
        (by simpa using Nat.mod_lt seed hl) q used hg
      have hqs : (q + p) - p ∈ solid verts := by rw [add_sub_cancel_right]; exact hq.1
      by_cases hlt : used.length < 3
      · rw [if_pos hlt] at hd
        injection hd with hd
        rw [← hd] at hn
        unfold shallowContact at hn
        simp only at hn
        by_cases hc : nrm (q + p - c) - rad > eps
        · rw [if_pos hc] at hn; exact absurd rfl hn
        · rw [nrm_eq_len] at hc
          obtain ⟨x, hx1, hx2⟩ := disc_near (c := c) (q := q + p) hr heps (by
            rw [Spec.dist_comm, Spec.dist]; linarith)
          exact ⟨x, q + p, hx1, hqs, hx2⟩
      · have e : q = c - p := hu (by omega)
        refine ⟨c, q + p, by rw [Spec.dist_self]; exact hr, hqs, ?_⟩
        rw [e, sub_add_cancel, Spec.dist_self]; exact heps
  unfold handlePair at h
  simp only at h
  by_cases hb : (bodyAt bs i1).isCircle = true ∧ (bodyAt bs i2).isCircle = true
  · rw [if_pos hb] at h
    injection h with h
    injection h with _ h
    subst h
    have hne' : circleCircle eps (bodyAt bs i1).rad (bodyAt bs i2).rad (bodyAt bs i1).pos (bodyAt bs i2).pos ≠ [] := by
      intro h0; rw [h0] at hne; exact hne rfl
    unfold circleCircle at hne'
    simp only at hne'
    by_cases hp : (bodyAt bs i1).rad + (bodyAt bs i2).rad - nrm ((bodyAt bs i1).pos - (bodyAt bs i2).pos) < -eps
    · rw [if_pos hp] at hne'; exact absurd rfl hne'
    · rw [nrm_eq_len] at hp
      obtain ⟨z, hz1, hz2⟩ := discs_meet (c1 := (bodyAt bs i1).pos) (c2 := (bodyAt bs i2).pos) r1
        (add_nonneg r2 heps) (by rw [Spec.dist]; linarith)
      obtain ⟨y, hy1, hy2⟩ := discs_meet (c1 := (bodyAt bs i2).pos) (c2 := z) r2 heps
        (by rw [Spec.dist_comm]; exact hz2)
      exact ⟨z, (circle_region hb.1 z).2 hz1, y, (circle_region hb.2 y).2 hy1,
        by rw [Spec.dist_comm]; exact hy2⟩
  · rw [if_neg hb, if_pos hcirc] at h
    generalize hr : circleHull fuel eps _ _ _ _ _ _ = r at h
    cases r with
    | running => cases h
    | raised e => cases h
    | done r =>
      simp only [Run.bind] at h
      injection h with h
      injection h with _ h
      have hn : r.1 ≠ none := by
        intro h0; rw [h0] at h; simp at h; exact hne h
      cases hb2 : (bodyAt bs i2).isCircle with
      | true =>
        have hb1 : (bodyAt bs i1).isCircle = false := by
          cases hb1 : (bodyAt bs i1).isCircle with
          | false => rfl
          | true => exact absurd ⟨hb1, hb2⟩ hb
        obtain ⟨hv, hreg⟩ := alive_verts h1 hb1
        simp only [hb2, if_true] at hr
        obtain ⟨x, y, hx, hy, hxy⟩ := key _ _ _ _ _ _ r r2 hv hr hn
        exact ⟨y, (hreg y).2 hy, x, (circle_region hb2 x).2 hx, by rw [Spec.dist_comm]; exact hxy⟩
      | false =>
        have hb1 : (bodyAt bs i1).isCircle = true := by simpa [hb2] using hcirc
        obtain ⟨hv, hreg⟩ := alive_verts h2 hb2
        simp only [hb2, Bool.false_eq_true, if_false] at hr
        obtain ⟨x, y, hx, hy, hxy⟩ := key _ _ _ _ _ _ r r1 hv hr hn
        exact ⟨x, (circle_region hb1 x).2 hx, y, (hreg y).2 hy, hxy⟩

/-- C09: if the narrow phase reports a contact for a pair with a circle, the broad phase presents the pair. -/
theorem C09_circle_contact_presented (fuel : ℕ) (eps : ℝ) (heps : 0 ≤ eps) (bs : List Body) (f f' : Finder)
    (i1 i2 : ℕ) (cs : List Contact) (h : handlePair fuel eps bs f i1 i2 = .done (f', cs)) (hne : cs ≠ [])
    (h1 : Alive (bodyAt bs i1)) (h2 : Alive (bodyAt bs i2)) (r1 : 0 ≤ (bodyAt bs i1).rad)
    (r2 : 0 ≤ (bodyAt bs i2).rad) (e1 : 0 ≤ (bodyAt bs i1).eps) (e2 : 0 ≤ (bodyAt bs i2).eps)
    (he : eps ≤ (bodyAt bs i1).eps + (bodyAt bs i2).eps)
    (hcirc : (bodyAt bs i1).isCircle = true ∨ (bodyAt bs i2).isCircle = true) :
    AabbOverlap (geomRegion (bodyAt bs i1).geom) (geomRegion (bodyAt bs i2).geom) := by
  obtain ⟨x1, hx1, x2, hx2, hd⟩ := C09_circle_contact_near fuel eps heps bs f f' i1 i2 cs h hne h1 h2 r1 r2 hcirc
  exact (C09_near_bodies_overlap _ _ h1 h2 e1 e2 x1 hx1 x2 hx2 (hd.trans he)).2

/-- Two rectangles that pass the separation test with margin `eps` meet after growing each by its own margin. -/
theorem rect_sat_grown {d1 d2 : V2} (p1 : 0 < d1.1) (p2 : 0 < d1.2) (q1 : 0 < d2.1) (q2 : 0 < d2.2) {t1 t2 : ℝ}
    {e1 e2 eps : ℝ} (h1 : 0 ≤ e1) (h2 : 0 ≤ e2) (he : eps ≤ e1 + e2) {pos1 pos2 : V2} {s1 s2 : ℕ} {r1 r2 : Sep}
    (k1 : test_separations eps pos1 pos2 ((rectCorners d1).map (rot t1)) ((rectCorners d2).map (rot t2)) s1 = .ok r1)
    (k2 : test_separations eps pos2 pos1 ((rectCorners d2).map (rot t2)) ((rectCorners d1).map (rot t1)) s2 = .ok r2)
    (hr1 : r1.dist ≤ eps) (hr2 : r2.dist ≤ eps) :
    ∃ x ∈ boxRegion (d1.1 + 2 * e1, d1.2 + 2 * e1), ∃ y ∈ boxRegion (d2.1 + 2 * e2, d2.2 + 2 * e2),
      rot t1 x + pos1 = rot t2 y + pos2 := by
  have key : ∀ {d1 d2 : V2} (_ : 0 < d1.1) (_ : 0 < d1.2) (_ : 0 < d2.1) (_ : 0 < d2.2) {t1 t2 : ℝ}
      {e1 e2 : ℝ} (_ : 0 ≤ e1) (_ : 0 ≤ e2) (_ : eps ≤ e1 + e2) {pos1 pos2 : V2} {s1 : ℕ} {r1 : Sep}
      (_ : test_separations eps pos1 pos2 ((rectCorners d1).map (rot t1)) ((rectCorners d2).map (rot t2)) s1 = .ok r1)
      (_ : r1.dist ≤ eps), ∀ i < 4, ∃ y ∈ solid ((rectCorners (d2.1 + 2 * e2, d2.2 + 2 * e2)).map (rot t2)),
        inner (outward (edgeVec ((rectCorners (d1.1 + 2 * e1, d1.2 + 2 * e1)).map (rot t1)) i))
          (y + (pos2 - pos1) - ((rectCorners (d1.1 + 2 * e1, d1.2 + 2 * e1)).map (rot t1)).getD i 0) ≤ 0 := by
    intro d1 d2 p1 p2 q1 q2 t1 t2 e1 e2 h1 h2 he pos1 pos2 s1 r1 k1 hr1 i hi
    have hf : RectForm ((rectCorners d1).map (rot t1)) := rot_rectForm (mul_pos p1 p2) t1
    have hl : ((rectCorners d1).map (rot t1)).length = 4 := rect_length hf
    rcases test_sep_spec k1 with ⟨d, j, rfl, _, _, hd, -⟩ | ⟨d, _, _, _, _, _, e, rfl, _, hg, -, hall⟩
    · exact absurd hr1 (not_le.2 hd)
    · obtain ⟨d', ⟨⟨y, hy, hyd⟩, -⟩, hle⟩ := hall i (by rw [hl]; exact hi)
      have hr1 : d ≤ eps := hr1
      simp only at hyd
      obtain ⟨n1, c1⟩ := corners_edge d1 p1 p2 t1 i hi
      obtain ⟨n2, c2⟩ := corners_edge (d1.1 + 2 * e1, d1.2 + 2 * e1) (by simp only; linarith) (by simp only; linarith)
        t1 i hi
      set n := edgeNormal ((rectCorners d1).map (rot t1)) i with hn
      have hn1 : len n = 1 := len_edgeNormal ((rect_convex hf).edge_ne i (by rw [hl]; exact hi))
      obtain ⟨w, ⟨hw1, hw2⟩, rfl⟩ := (corners_solid d2 q1 q2 t2 y).1 hy
      refine ⟨rot t2 w - e2 • n, ?_, ?_⟩
      · rw [corners_solid _ (by simp only; linarith) (by simp only; linarith)]
        set u := rot (-t2) (e2 • n) with hu
        have hlu : len u ≤ e2 := by rw [hu, rot_len, len_smul, hn1, abs_of_nonneg h2, mul_one]
        refine ⟨w - u, ⟨?_, ?_⟩, ?_⟩
        · have a1 := abs_sub w.1 u.1
          have a2 := abs_fst_le_len u
          simp only [Prod.fst_sub]; linarith
        · have a1 := abs_sub w.2 u.2
          have a2 := abs_snd_le_len u
          simp only [Prod.snd_sub]; linarith
        · rw [rot_map_sub, hu, rot_add, neg_add_cancel, rot_zero]
      · have hf' : RectForm ((rectCorners (d1.1 + 2 * e1, d1.2 + 2 * e1)).map (rot t1)) :=
          rot_rectForm (mul_pos (by simp only; linarith) (by simp only; linarith)) t1
        have hp : 0 < len (edgeVec ((rectCorners (d1.1 + 2 * e1, d1.2 + 2 * e1)).map (rot t1)) i) :=
          len_pos ((rect_convex hf').edge_ne i (by rw [rect_length hf']; exact hi))
        have hc : [(d1.2 + 2 * e1) / 2, (d1.1 + 2 * e1) / 2, (d1.2 + 2 * e1) / 2, (d1.1 + 2 * e1) / 2].getD i 0 =
            [d1.2 / 2, d1.1 / 2, d1.2 / 2, d1.1 / 2].getD i 0 + e1 := by
          interval_cases i <;> simp <;> ring
        rw [n2, ← n1] at c2
        simp only at c2
        rw [hc, ← c1] at c2
        have hv : inner n (rot t2 w - e2 • n + (pos2 - pos1) -
            ((rectCorners (d1.1 + 2 * e1, d1.2 + 2 * e1)).map (rot t1)).getD i 0) ≤ 0 := by
          have nn : inner n n = 1 := by rw [← len_sq, hn1, one_pow]
          rw [inner_sub_right, inner_add_right] at hyd ⊢
          rw [inner_sub_right, inner_smul_right, nn, c2]
          linarith
        have e3 := inner_edgeNormal ((rectCorners (d1.1 + 2 * e1, d1.2 + 2 * e1)).map (rot t1)) i
          (rot t2 w - e2 • n + (pos2 - pos1) -
            ((rectCorners (d1.1 + 2 * e1, d1.2 + 2 * e1)).map (rot t1)).getD i 0)
        rw [n2, ← n1] at e3
        rw [e3] at hv
        by_contra hcon
        exact absurd hv (not_le.2 (mul_pos (by positivity) (not_le.1 hcon)))
  have hP : RectForm ((rectCorners (d1.1 + 2 * e1, d1.2 + 2 * e1)).map (rot t1)) :=
    rot_rectForm (mul_pos (by simp only; linarith) (by simp only; linarith)) t1
  have hQ : RectForm ((rectCorners (d2.1 + 2 * e2, d2.2 + 2 * e2)).map (rot t2)) :=
    rot_rectForm (mul_pos (by simp only; linarith) (by simp only; linarith)) t2
  obtain ⟨x, hx, hy⟩ := sat_complete (rect_convex hP) (rect_noThreeCollinear hP) (rect_convex hQ)
    (rect_noThreeCollinear hQ) (pos2 - pos1)
    (by rw [rect_length hP]; exact key p1 p2 q1 q2 h1 h2 he k1 hr1)
    (by
      rw [rect_length hQ]
      intro j hj
      obtain ⟨x, hx, hle⟩ := key q1 q2 p1 p2 h2 h1 (by linarith) k2 hr2 j hj
      refine ⟨x, hx, ?_⟩
      rw [show x - (pos2 - pos1) = x + (pos1 - pos2) by abel]; exact hle)
  obtain ⟨w, hw, rfl⟩ := (corners_solid _ (by simp only; linarith) (by simp only; linarith) t1 x).1 hx
  obtain ⟨z, hz, hz'⟩ := (corners_solid _ (by simp only; linarith) (by simp only; linarith) t2 _).1 hy
  exact ⟨w, hw, z, hz, by rw [hz']; abel⟩

theorem hullHull_reported {eps : ℝ} {pos1 pos2 : V2} {P Q : List V2} {i1 i2 : ℕ} {f f' : Finder} {pts : List Pt}
    (h : hullHull eps pos1 pos2 P Q i1 i2 f = .ok (f', pts)) (hne : pts ≠ []) :
    ∃ s1 s2 r1 r2, test_separations eps pos1 pos2 P Q s1 = .ok r1 ∧ r1.dist ≤ eps ∧
      test_separations eps pos2 pos1 Q P s2 = .ok r2 ∧ r2.dist ≤ eps := by
  unfold hullHull at h
  cases h1 : test_separations eps pos1 pos2 P Q (f.sat i1) with
  | error e => rw [h1] at h; cases h
  | ok c1 =>
    rw [h1] at h
    simp only at h
    by_cases g1 : c1.dist > eps
    · rw [if_pos g1] at h
      injection h with h; injection h with _ h; exact absurd h.symm hne
    rw [if_neg g1] at h
    cases h2 : test_separations eps pos2 pos1 Q P ((f.setSat i1 c1.edge).sat i2) with
    | error e => rw [h2] at h; cases h
    | ok c2 =>
      rw [h2] at h
      simp only at h
      by_cases g2 : c2.dist > eps
      · rw [if_pos g2] at h
        injection h with h; injection h with _ h; exact absurd h.symm hne
      exact ⟨_, _, c1, c2, h1, not_lt.1 g1, h2, not_lt.1 g2⟩

/-- C09 for two rectangles, in any pose reached by any history: a reported contact means that the broad phase
presents the pair. -/
theorem C09_rect_contact_presented (q1 q2 : Arg) (dims1 dims2 : V2) (a1 a2 : Params) (b1 b2 : Body)
    (h1 : mkRect q1 dims1 a1 = .ok b1) (h2 : mkRect q2 dims2 a2 = .ok b2) (p1 : 0 < dims1.1) (p2 : 0 < dims1.2)
    (p3 : 0 < dims2.1) (p4 : 0 < dims2.2) (ops1 ops2 : List BodyOp) (eps : ℝ) (e1 : 0 ≤ a1.eps) (e2 : 0 ≤ a2.eps)
    (he : eps ≤ a1.eps + a2.eps) (i1 i2 : ℕ) (f f' : Finder) (pts : List Pt)
    (h : hullHull eps (b1.run ops1).pos (b2.run ops2).pos (b1.run ops1).verts (b2.run ops2).verts i1 i2 f =
      .ok (f', pts)) (hne : pts ≠ []) :
    AabbOverlap (geomRegion (b1.run ops1).geom) (geomRegion (b2.run ops2).geom) := by
  obtain ⟨s1, s2, r1, r2, k1, l1, k2, l2⟩ := hullHull_reported h hne
  rw [C05_rect_rigid q1 dims1 a1 b1 h1 ops1, C05_rect_rigid q2 dims2 a2 b2 h2 ops2] at k1 k2
  obtain ⟨x, hx, y, hy, hxy⟩ := rect_sat_grown p1 p2 p3 p4 e1 e2 he k1 k2 l1 l2
  refine aabb_of_common (z := rot (b1.run ops1).rot x + (b1.run ops1).pos) ?_ ?_
  · rw [rect_geomRegion h1 ops1]
    exact ⟨x, hx, (add_sub_cancel_right _ _).symm⟩
  · rw [hxy, rect_geomRegion h2 ops2]
    exact ⟨y, hy, (add_sub_cancel_right _ _).symm⟩

/-- C09: the proviso is needed: two circles with `eps = 0` of their own in a world with `eps = 1/10` get a
contact from the narrow phase, but their bounding boxes do not overlap, so it is never asked. -/
theorem C09_small_eps_hides_contact (fuel : ℕ) (f : Finder) :
    let bs := [mkCircle (.two (0, 0)) 1 { eps := 0 }, mkCircle (.two (2 + 1 / 20, 0)) 1 { eps := 0 }]
    (∃ f' c, handlePair fuel (1 / 10) bs f 0 1 = .done (f', [c])) ∧
      ¬ AabbOverlap (geomRegion (bodyAt bs 0).geom) (geomRegion (bodyAt bs 1).geom) := by
  intro bs
  have hl : nrm (((0 : ℝ), (0 : ℝ)) - (2 + 1 / 20, 0)) = 2 + 1 / 20 := by
    rw [nrm_eq_len, len]
    simp only [Prod.fst_sub, Prod.snd_sub]
    rw [show ((0 : ℝ) - (2 + 1 / 20)) ^ 2 + (0 - 0) ^ 2 = (2 + 1 / 20) ^ 2 by ring]
    exact Real.sqrt_sq (by norm_num)
  constructor
  · have h0 : (bodyAt bs 0).isCircle = true ∧ (bodyAt bs 1).isCircle = true := ⟨rfl, rfl⟩
    unfold handlePair
    simp only
    rw [if_pos h0]
    have : ∃ p, circleCircle (1 / 10) (bodyAt bs 0).rad (bodyAt bs 1).rad (bodyAt bs 0).pos (bodyAt bs 1).pos = [p] := by
      change ∃ p, circleCircle (1 / 10) 1 1 ((0 : ℝ), (0 : ℝ)) (2 + 1 / 20, 0) = [p]
      unfold circleCircle
      simp only [hl]
      rw [if_neg (by norm_num)]
      exact ⟨_, rfl⟩
    obtain ⟨p, hp⟩ := this
    rw [hp]
    exact ⟨_, _, rfl⟩
  · rintro ⟨⟨x, hx, y, hy, hxy⟩, -⟩
    have hx : Spec.dist x ((0 : ℝ), (0 : ℝ)) ≤ 1 + 0 := hx
    have hy : Spec.dist y ((2 + 1 / 20 : ℝ), (0 : ℝ)) ≤ 1 + 0 := hy
    have h1 := (abs_fst_le_len _).trans hx
    have h2 := (abs_fst_le_len _).trans hy
    simp only [Prod.fst_sub] at h1 h2
    have := (abs_le.1 h1).2
    have := (abs_le.1 h2).1
    linarith

theorem circle_pair_silent {fuel : ℕ} {eps : ℝ} (heps : 0 ≤ eps) {bs : List Body} {f : Finder} {i1 i2 : ℕ}
    (h1 : Alive (bodyAt bs i1)) (h2 : Alive (bodyAt bs i2)) (c1 : (bodyAt bs i1).isCircle = true)
    (c2 : (bodyAt bs i2).isCircle = true) (r1 : 0 ≤ (bodyAt bs i1).rad) (r2 : 0 ≤ (bodyAt bs i2).rad)
    (e1 : 0 ≤ (bodyAt bs i1).eps) (e2 : 0 ≤ (bodyAt bs i2).eps)
    (he : eps ≤ (bodyAt bs i1).eps + (bodyAt bs i2).eps)
    (ho : ¬ AabbOverlap (geomRegion (bodyAt bs i1).geom) (geomRegion (bodyAt bs i2).geom)) :
    handlePair fuel eps bs f i1 i2 = .done (f, []) := by
  have hd : ∃ cs, handlePair fuel eps bs f i1 i2 = .done (f, cs) := by
    unfold handlePair
    simp only
    rw [if_pos ⟨c1, c2⟩]
    exact ⟨_, rfl⟩
  obtain ⟨cs, hd⟩ := hd
  by_cases hn : cs = []
  · rw [hd, hn]
  · exact absurd (C09_circle_contact_presented fuel eps heps bs f f i1 i2 cs hd hn h1 h2 r1 r2 e1 e2 he (.inl c1)) ho

open Classical in
/-- C09 for a whole contact search among circles: testing only the pairs with overlapping bounding boxes gives
the same contacts, in the same order, as testing all pairs. -/
theorem C09_broad_phase_exact (fuel : ℕ) (nc : ℕ → List ℕ) (eps : ℝ) (heps : 0 ≤ eps) (bs : List Body)
    (hb : ∀ i < bs.length, Alive (bodyAt bs i) ∧ (bodyAt bs i).isCircle = true ∧ 0 ≤ (bodyAt bs i).rad ∧
      eps ≤ 2 * (bodyAt bs i).eps) : ∀ (ps : List (ℕ × ℕ)) (f : Finder),
    (∀ p ∈ ps, p.1 < bs.length ∧ p.2 < bs.length) →
    handleAll fuel nc eps bs (ps.filter fun p =>
      AabbOverlap (geomRegion (bodyAt bs p.1).geom) (geomRegion (bodyAt bs p.2).geom)) f =
    handleAll fuel nc eps bs ps f
  | [], f, _ => rfl
  | p :: ps, f, hps => by
    have ih := fun f => C09_broad_phase_exact fuel nc eps heps bs hb ps f
      fun q hq => hps q (List.mem_cons_of_mem _ hq)
    obtain ⟨h1, c1, r1, e1⟩ := hb p.1 (hps p (by simp)).1
    obtain ⟨h2, c2, r2, e2⟩ := hb p.2 (hps p (by simp)).2
    rw [List.filter_cons]
    by_cases ho : AabbOverlap (geomRegion (bodyAt bs p.1).geom) (geomRegion (bodyAt bs p.2).geom)
    · rw [if_pos (by simpa using ho)]
      unfold handleAll
      simp only [ih]
    · rw [if_neg (by simpa using ho), ih]
      have hs : handle fuel nc eps bs f p.1 p.2 = .done (f, []) := by
        unfold handle
        by_cases hx : p.1 ∈ nc p.2
        · rw [if_pos hx]
        · rw [if_neg hx]
          exact circle_pair_silent heps h1 h2 c1 c2 r1 r2 (by linarith) (by linarith) (by linarith) ho
      conv_rhs => unfold handleAll
      rw [hs]
      simp only [Run.bind, List.nil_append]
      cases handleAll fuel nc eps bs ps f <;> rfl

/-- Non-vacuity: a unit square and a unit disc 1/10 above it. -/
example : ∃ b, mkRect (.two 0) (1, 1) {} = .ok b ∧
    AabbOverlap (geomRegion b.geom) (geomRegion (mkCircle (.two (0, 8 / 5)) 1 {}).geom) := by
  obtain ⟨b, hb⟩ := (C06_rect_accepts_iff (.two 0) (1, 1) {}).2 (by norm_num)
  have hs := (mkRect_shape hb).1
  have hp : b.pos = 0 := by
    rw [mkRect_eq _ _ _ (by norm_num)] at hb
    simp only [Except.ok.injEq] at hb
    rw [← hb]; rfl
  have ha : Alive b := ⟨b, [], .rect _ _ _ _ hb (by norm_num) (by norm_num), rfl⟩
  have hc : b.isCircle = false := by obtain ⟨d, vs, h⟩ := hs; rw [Body.isCircle, h]
  have hz : ((0 : ℝ), (1 / 2 : ℝ)) ∈ bodyRegion b := by
    rw [(alive_verts ha hc).2, hp, sub_zero]
    have := C05_rect_rigid _ _ _ b hb []
    rw [show b.run [] = b from rfl] at this
    rw [this]
    have hr : b.rot = 0 := by
      rw [mkRect_eq _ _ _ (by norm_num)] at hb
      simp only [Except.ok.injEq] at hb
      rw [← hb]; rfl
    rw [hr]
    exact (corners_solid (1, 1) one_pos one_pos 0 _).2 ⟨(0, 1 / 2), by norm_num [boxRegion], rot_zero _⟩
  refine ⟨b, hb, (C09_near_bodies_overlap b _ ha ⟨_, [], .circle _ _ _, rfl⟩ ?_ ?_ (0, 1 / 2) hz (0, 3 / 5) ?_ ?_).2⟩
  · rw [(mkRect_shape hb).2]; norm_num
  · change (0 : ℝ) ≤ 0.1; norm_num
  · change Spec.dist (0, 3 / 5) (0, 8 / 5) ≤ 1
    norm_num [Spec.dist, len]
  · rw [(mkRect_shape hb).2]
    change Spec.dist (0, 1 / 2) (0, 3 / 5) ≤ (0.1 : ℝ) + 0.1
    have : Real.sqrt 100 = 10 := by
      rw [show (100 : ℝ) = 10 ^ 2 by norm_num]; exact Real.sqrt_sq (by norm_num)
    norm_num [Spec.dist, len, this]

open Classical in
/-- Example for `C09_broad_phase_exact`: of three circles in a row the search may skip the outer two. -/
example (fuel : ℕ) (f : Finder) : handleAll fuel (fun _ => []) (1 / 10)
      [mkCircle (.two (0, 0)) 1 {}, mkCircle (.two (2, 0)) 1 {}, mkCircle (.two (9, 0)) 1 {}]
      ([(0, 1), (0, 2), (1, 2)].filter fun p =>
        AabbOverlap (geomRegion (bodyAt
          [mkCircle (.two (0, 0)) 1 {}, mkCircle (.two (2, 0)) 1 {}, mkCircle (.two (9, 0)) 1 {}] p.1).geom)
          (geomRegion (bodyAt
          [mkCircle (.two (0, 0)) 1 {}, mkCircle (.two (2, 0)) 1 {}, mkCircle (.two (9, 0)) 1 {}] p.2).geom)) f =
    handleAll fuel (fun _ => []) (1 / 10)
      [mkCircle (.two (0, 0)) 1 {}, mkCircle (.two (2, 0)) 1 {}, mkCircle (.two (9, 0)) 1 {}] [(0, 1), (0, 2), (1, 2)] f := by
  refine C09_broad_phase_exact fuel _ (1 / 10) (by norm_num) _ ?_ _ f (by simp)
  intro i hi
  simp only [List.length_cons, List.length_nil] at hi
  interval_cases i
  all_goals
    refine ⟨⟨_, [], .circle _ _ _, rfl⟩, rfl, ?_, ?_⟩
    · change (0 : ℝ) ≤ 1; norm_num
    · change (1 / 10 : ℝ) ≤ 2 * 0.1; norm_num

end LcpPhysics
