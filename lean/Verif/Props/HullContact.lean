import Verif.Props.RectContact

/-! # C19, C67: general hulls, where the clip planes of the manifold are misplaced -/

noncomputable section

namespace LcpPhysics
open Spec

/-- A triangle with its centroid at the origin. -/
def tri : List V2 := [(-1, -1), (2, -1), (-1, 2)]

/-- An axis-parallel box with half sides `w`, `h`. -/
def box (w h : ℝ) : List V2 := [(w, h), (-w, h), (-w, -h), (w, -h)]

theorem edgeGap_le {P Q : List V2} {t y : V2} {i : ℕ} {d : ℝ} (h : EdgeGap P Q t i d) (hy : y ∈ Q) :
    d ≤ inner (edgeNormal P i) (y + t - P.getD i 0) := h.2 ⟨y, mem_solid hy, rfl⟩

theorem edgeGap_intro {P Q : List V2} {t : V2} {i : ℕ} {d : ℝ} {y : V2} (hy : y ∈ Q)
    (h : inner (edgeNormal P i) (y + t - P.getD i 0) = d)
    (hall : ∀ z ∈ Q, d ≤ inner (edgeNormal P i) (z + t - P.getD i 0)) : EdgeGap P Q t i d := by
  refine ⟨⟨y, mem_solid hy, h⟩, ?_⟩
  rintro _ ⟨z, hz, rfl⟩
  have := solid_inner_le (vs := Q) (d := -edgeNormal P i) (m := inner (edgeNormal P i) (t - P.getD i 0) - d)
    (fun v hv => by
      have := hall v hv
      simp only [inner_sub_right, inner_add_right, inner_comm _ (-edgeNormal P i), inner_neg_left] at this ⊢
      linarith) z hz
  simp only [inner_sub_right, inner_add_right, inner_comm _ (-edgeNormal P i), inner_neg_left] at this ⊢
  linarith

theorem len_axis1 (a : ℝ) : len (a, 0) = |a| := by
  rw [len]; simp [Real.sqrt_sq_eq_abs]

theorem len_axis2 (a : ℝ) : len (0, a) = |a| := by
  rw [len]; simp [Real.sqrt_sq_eq_abs]

theorem tri_edge0 : edgeVec tri 0 = (3, 0) := by norm_num [edgeVec, tri]
theorem tri_edge1 : edgeVec tri 1 = (-3, 3) := by norm_num [edgeVec, tri]
theorem tri_edge2 : edgeVec tri 2 = (0, -3) := by norm_num [edgeVec, tri]

theorem tri_normal0 : edgeNormal tri 0 = (0, -1) := by
  rw [edgeNormal, tri_edge0, len_axis1]; ext <;> norm_num [outward]

theorem tri_normal2 : edgeNormal tri 2 = (-1, 0) := by
  rw [edgeNormal, tri_edge2, len_axis2]; ext <;> norm_num [outward]

theorem tri_len1 : len (edgeVec tri 1) ≤ 5 := by
  rw [tri_edge1, len, show (5 : ℝ) = Real.sqrt (5 ^ 2) from (Real.sqrt_sq (by norm_num)).symm]
  exact Real.sqrt_le_sqrt (by norm_num)

theorem box_normal {w h : ℝ} (hw : 0 < w) (hh : 0 < h) : edgeNormal (box w h) 0 = (0, 1) ∧
    edgeNormal (box w h) 1 = (-1, 0) ∧ edgeNormal (box w h) 2 = (0, -1) ∧ edgeNormal (box w h) 3 = (1, 0) := by
  have e0 : edgeVec (box w h) 0 = (-2 * w, 0) := by ext <;> simp [edgeVec, box]; ring
  have e1 : edgeVec (box w h) 1 = (0, -2 * h) := by ext <;> simp [edgeVec, box]; ring
  have e2 : edgeVec (box w h) 2 = (2 * w, 0) := by ext <;> simp [edgeVec, box]; ring
  have e3 : edgeVec (box w h) 3 = (0, 2 * h) := by ext <;> simp [edgeVec, box]; ring
  have aw : |-2 * w| = 2 * w := by rw [abs_of_neg (by linarith)]; ring
  have ah : |-2 * h| = 2 * h := by rw [abs_of_neg (by linarith)]; ring
  have bw : |2 * w| = 2 * w := abs_of_pos (by linarith)
  have bh : |2 * h| = 2 * h := abs_of_pos (by linarith)
  refine ⟨?_, ?_, ?_, ?_⟩
  · rw [edgeNormal, e0, len_axis1, aw]; ext <;> simp [outward]; field_simp
  · rw [edgeNormal, e1, len_axis2, ah]; ext <;> simp [outward]; field_simp
  · rw [edgeNormal, e2, len_axis1, bw]; ext <;> simp [outward]; field_simp
  · rw [edgeNormal, e3, len_axis2, bh]; ext <;> simp [outward]; field_simp

theorem box_rectForm {w h : ℝ} (hw : 0 < w) (hh : 0 < h) : RectForm (box w h) := by
  refine ⟨(w, h), (-w, h), ?_, ?_, ?_⟩
  · simp [box]
  · simp only [inner]; ring
  · simp only [det]; nlinarith [mul_pos hw hh]

theorem tri_area : 0 < area2 tri := by
  norm_num [area2, edgeSum, tri, Finset.sum_range_succ, det]

theorem tri_centroid : get_centroid tri = 0 := by
  have hn : centroidNum tri = 0 := by
    ext <;> norm_num [tri, centroidNum, Finset.sum_range_succ, cross_2d, vget]
  rw [get_centroid, hn, smul_zero, smul_zero]

theorem tri_zero : (0 : V2) ∈ solid tri := by
  have := C04_centroid_in_hull (-1, -1) tri (mem_solid (by simp [tri])) (by
    intro i hi
    have : i = 0 ∨ i = 1 ∨ i = 2 := by simp [tri] at hi; omega
    rcases this with rfl | rfl | rfl <;> norm_num [det, tri]) tri_area
  rwa [tri_centroid] at this

theorem tri_edge_ne : ∀ i < tri.length, edgeVec tri i ≠ 0 := by
  intro i hi
  have : i = 0 ∨ i = 1 ∨ i = 2 := by simp [tri] at hi; omega
  rcases this with rfl | rfl | rfl
  · rw [tri_edge0]; simp
  · rw [tri_edge1]; simp
  · rw [tri_edge2]; simp

/-- A box whose upper side is a tenth above the lower side of the triangle: that lower side is
the reference edge, and the upper side of the box the incident one, whatever the cached edges. -/
theorem tri_box {eps w h px py : ℝ} (heps : 0 ≤ eps) (hw : 0 < w) (hh : 0 < h) (htop : py + h = -9 / 10)
    (hdiag : px - w + (py - h) < 5 / 6) (hright : -9 / 10 < px + w) (hleft : px - w ≤ 19 / 10)
    (i1 i2 : ℕ) (f : Finder) : ∃ f', hullHull eps 0 (px, py) tri (box w h) i1 i2 f =
      match clip_segment_to_line (px + w, -9 / 10) (px - w, -9 / 10) (-1, 0) (3 / 2) with
      | [some a, some b] => (emitPts eps (0, -1) (-1, -1) 0 (px, py) true
          (clip_segment_to_line a b (1, 0) (3 / 2))).map fun pts => (f', pts)
      | [_] => .ok (f', [])
      | [] => .ok (f', [])
      | _ => .error (.raised "nonfinite") := by
  obtain ⟨m0, m1, m2, m3⟩ := box_normal hw hh
  have hQ := box_rectForm hw hh
  have e1 : ((px, py) : V2) - 0 = (px, py) := sub_zero _
  have e2 : (0 : V2) - (px, py) = (-px, -py) := by ext <;> simp
  have g0 : EdgeGap tri (box w h) (px, py) 0 (-1 / 10) := by
    refine edgeGap_intro (y := (w, h)) (by simp [box]) ?_ ?_
    · rw [tri_normal0]; norm_num [inner, tri]; linarith
    · rw [tri_normal0]
      intro z hz
      simp only [box, List.mem_cons, List.not_mem_nil, or_false] at hz
      rcases hz with rfl | rfl | rfl | rfl <;> norm_num [inner, tri] <;> linarith
  have u1 : ∀ d, EdgeGap tri (box w h) (px, py) 1 d → d < -1 / 10 := by
    intro d hd
    have h1 := edgeGap_le hd (y := (-w, -h)) (by simp [box])
    rw [inner_edgeNormal] at h1
    have hl := tri_len1
    have hp := len_pos (tri_edge_ne 1 (by simp [tri]))
    have h2 : inner (outward (edgeVec tri 1)) ((-w, -h) + (px, py) - tri.getD 1 0) =
        3 * (px - w + (py - h) - 1) := by
      rw [tri_edge1]; simp [inner, outward, tri]; ring
    rw [h2] at h1
    have h3 : 1 / len (edgeVec tri 1) * (3 * (px - w + (py - h) - 1)) < -1 / 10 := by
      rw [one_div, inv_mul_lt_iff₀ hp]; linarith
    linarith
  have u2 : ∀ d, EdgeGap tri (box w h) (px, py) 2 d → d < -1 / 10 := by
    intro d hd
    have h1 := edgeGap_le hd (y := (w, h)) (by simp [box])
    rw [tri_normal2] at h1
    norm_num [inner, tri] at h1
    linarith
  have v : ∀ i < 4, ∀ d, EdgeGap (box w h) tri (-px, -py) i d → d ≤ -1 / 10 := by
    intro i hi d hd
    have ha := edgeGap_le hd (y := (-1, -1)) (by simp [tri])
    have hb := edgeGap_le hd (y := (2, -1)) (by simp [tri])
    have hc := edgeGap_le hd (y := (-1, 2)) (by simp [tri])
    interval_cases i
    · rw [m0] at ha; norm_num [inner, box] at ha; linarith
    · rw [m1] at hb; norm_num [inner, box] at hb; linarith
    · rw [m2] at hc; norm_num [inner, box] at hc; linarith
    · rw [m3] at ha; norm_num [inner, box] at ha; linarith
  have low : ∃ d, EdgeGap (box w h) tri (-px, -py) 0 d ∧ -10 ^ 10 < d := by
    refine ⟨-1 / 10, edgeGap_intro (y := (-1, -1)) (by simp [tri]) ?_ ?_, by norm_num⟩
    · rw [m0]; norm_num [inner, box]; linarith
    · rw [m0]
      intro z hz
      simp only [tri, List.mem_cons, List.not_mem_nil, or_false] at hz
      rcases hz with rfl | rfl | rfl <;> norm_num [inner, box] <;> linarith
  obtain ⟨c1, h1⟩ := C17_test_total eps tri (box w h) 0 (px, py) (f.sat i1) tri_edge_ne (rect_zero_mem hQ)
    ⟨0, by simp [tri], _, e1.symm ▸ g0, by norm_num⟩
  obtain ⟨c2, h2⟩ := C17_test_total eps (box w h) tri (px, py) 0 ((f.setSat i1 c1.edge).sat i2)
    (rect_convex hQ).edge_ne tri_zero
    ⟨0, by simp [box], by rw [e2]; exact low⟩
  have hd2 : c2.dist ≤ -1 / 10 := by
    rcases test_sep_spec h2 with ⟨d, i, rfl, hi, hg, -⟩ | ⟨d, _, _, _, _, _, i, rfl, hi, hg, -⟩
    · rw [e2] at hg; exact v i (by simpa [box] using hi) d hg
    · have hg := hg.edge
      rw [e2] at hg; exact v i (by simpa [box] using hi) d hg
  rcases test_sep_spec h1 with ⟨d, i, rfl, hi, hg, hlt, -⟩ | ⟨d, pt1, pt2, nn, vx, en, e, rfl, he, hg, -, hall⟩
  · rw [e1] at hg
    have : i = 0 ∨ i = 1 ∨ i = 2 := by simp [tri] at hi; omega
    rcases this with rfl | rfl | rfl
    · have := edgeGap_unique hg g0; linarith
    · have := u1 d hg; linarith
    · have := u2 d hg; linarith
  · rw [e1] at hall
    have hge := hg.edge
    rw [e1] at hge
    have hd1 : -1 / 10 ≤ d := by
      obtain ⟨d', ha, hb⟩ := hall 0 (by simp [tri])
      rw [edgeGap_unique ha g0] at hb; exact hb
    have he0 : e = 0 := by
      have : e = 0 ∨ e = 1 ∨ e = 2 := by simp [tri] at he; omega
      rcases this with rfl | rfl | rfl
      · rfl
      · have := u1 d hge; linarith
      · have := u2 d hge; linarith
    subst he0
    have hd : d = -1 / 10 := edgeGap_unique hge g0
    have hvx : vx = 0 ∨ vx = 1 := by
      have hv := hg.vx_gap
      have hlt := hg.vx_lt
      rw [e1, tri_normal0, hd] at hv
      have : vx = 0 ∨ vx = 1 ∨ vx = 2 ∨ vx = 3 := by simp [box] at hlt; omega
      rcases this with rfl | rfl | rfl | rfl
      · exact Or.inl rfl
      · exact Or.inr rfl
      · norm_num [inner, tri, box] at hv; linarith
      · norm_num [inner, tri, box] at hv; linarith
    have hinc : get_incident_edge (0, -1) (box w h) vx = 0 := by
      have step : ∀ (st : ℝ × ℕ) (i : ℕ), i < 4 → incStep (0, -1) (box w h) st i =
          if inner (0, -1) (edgeNormal (box w h) i) < st.1 then (inner (0, -1) (edgeNormal (box w h) i), i)
          else st := by
        intro st i hi
        unfold incStep
        simp only
        rw [if_neg, ← edgeNormal_eq]
        · rfl
        · rw [nrm_eq_len]
          intro hz
          exact (rect_convex hQ).edge_ne i (by simpa [box] using hi) (len_eq_zero.1 hz)
      have lb : (box w h).length = 4 := rfl
      unfold get_incident_edge
      rw [lb]
      rcases hvx with rfl | rfl
      · simp only [List.foldl_cons, List.foldl_nil]
        rw [step _ 0 (by norm_num), show (0 + 4 - 1) % 4 = 3 from rfl, step _ 3 (by norm_num), m0, m3]
        norm_num [inner]
      · simp only [List.foldl_cons, List.foldl_nil]
        rw [step _ 1 (by norm_num), show (1 + 4 - 1) % 4 = 0 from rfl, step _ 0 (by norm_num), m0, m1]
        norm_num [inner]
    refine ⟨(f.setSat i1 0).setSat i2 c2.edge, ?_⟩
    unfold hullHull
    rw [h1]
    simp only
    have g1 : ¬ (Sep.best d pt1 pt2 nn vx en 0).dist > eps := not_lt.2 (by simp only [Sep.dist]; linarith)
    have g2 : ¬ c2.dist > eps := not_lt.2 (by linarith)
    have g3 : ¬ c2.dist > (Sep.best d pt1 pt2 nn vx en 0).dist := not_lt.2 (hd2.trans hd1)
    rw [if_neg g1, h2]
    simp only
    rw [if_neg g2, if_neg g3, hg.nn_eq, hg.en_eq]
    unfold manifold
    have t3 : len (edgeVec tri 0) / 2 = 3 / 2 := by rw [tri_edge0, len_axis1]; norm_num
    have ea : vget (box w h) 0 + (px, py) - 0 = (px + w, -9 / 10) := by
      ext <;> simp [vget, box] <;> linarith
    have eb : vget (box w h) ((0 + 1) % (box w h).length) + (px, py) - 0 = (px - w, -9 / 10) := by
      ext <;> simp [vget, box] <;> linarith
    have ec : left_orthogonal ((0 : ℝ), (-1 : ℝ)) = (-1, 0) := by simp [left_orthogonal]
    have ed : -((-1 : ℝ), (0 : ℝ)) = (1, 0) := by simp
    have ev : vget tri 0 = (-1, -1) := rfl
    simp only [neg_neg, hinc, t3, ea, eb, tri_normal0, ec, ed, ev]
    generalize clip_segment_to_line (px + w, -9 / 10) (px - w, -9 / 10) (-1, 0) (3 / 2) = l
    split
    · rename_i e' he'
      split at he'
      · simp only; rw [he']; rfl
      · cases he'
      · cases he'
      · injection he' with he'
        rw [← he']
        split <;> first | rfl | grind
    · rename_i pts he'
      split at he'
      · simp only; rw [he']; rfl
      · injection he' with he'; rw [← he']; rename_i hd; cases hd <;> rfl
      · injection he' with he'; rw [← he']; rfl
      · cases he'

/-! ## The bodies of the two counterexamples -/

theorem tri_body : ∃ b, mkHull 0 tri {} = .ok b ∧ b.pos = 0 ∧ b.verts = tri := by
  obtain ⟨b, hb⟩ := (C03_hull_accepts_iff 0 tri {}).2 ⟨by simp [tri], tri_area⟩
  obtain ⟨-, -, hp, -⟩ := C03_hull_vertices_stay 0 tri {} b hb
  have hv := C05_hull_rigid 0 tri {} b hb []
  refine ⟨b, hb, by rw [hp, tri_centroid, add_zero], ?_⟩
  obtain ⟨_, _, _, hs, _⟩ := mkHull_ok hb
  have hv : b.verts = tri.map (fun v => v - get_centroid tri) := by unfold Body.verts; rw [hs]
  rw [hv, tri_centroid]; simp

theorem box_body {w h : ℝ} (hw : 0 < w) (hh : 0 < h) (p : V2) :
    ∃ b, mkRect (.two p) (2 * w, 2 * h) {} = .ok b ∧ b.pos = p ∧ b.verts = box w h := by
  obtain ⟨b, hb⟩ := (C06_rect_accepts_iff (.two p) (2 * w, 2 * h) {}).2 (by simp only; positivity)
  obtain ⟨hp, -⟩ := C06_rect_is_hull _ _ _ b hb
  refine ⟨b, hb, ?_, ?_⟩
  · rw [Body.pos, hp]; rfl
  · have hv := C05_rect_rigid _ _ _ b hb []
    have hr : b.rot = 0 := by rw [Body.rot, hp]; rfl
    have hb' : b.run [] = b := rfl
    rw [hb', hr] at hv
    rw [hv]
    simp [box, rot]

/-- Points of a box. -/
theorem box_mem {w h a b : ℝ} (hw : 0 < w) (hh : 0 < h) (ha : |a| ≤ w) (hb : |b| ≤ h) : (a, b) ∈ solid (box w h) := by
  have hQ := box_rectForm hw hh
  obtain ⟨m0, m1, m2, m3⟩ := box_normal hw hh
  obtain ⟨a1, a2⟩ := abs_le.1 ha
  obtain ⟨b1, b2⟩ := abs_le.1 hb
  rw [mem_solid_iff_edgeDist (rect_convex hQ) (rect_noThreeCollinear hQ)]
  intro i hi
  have hi : i < 4 := hi
  unfold edgeDist
  interval_cases i
  · rw [m0]; simp [inner, box]; linarith
  · rw [m1]; simp [inner, box]; linarith
  · rw [m2]; simp [inner, box]; linarith
  · rw [m3]; simp [inner, box]; linarith

/-- C67: two overlapping hulls - a triangle and a square across its lower side near a corner - get
no contact at all, whatever the cached edges. -/
theorem C67_overlap_without_contact : ∃ b1 b2 : Body, mkHull 0 [(-1, -1), (2, -1), (-1, 2)] {} = .ok b1 ∧
    mkRect (.two (17 / 10, -1)) (1 / 5, 1 / 5) {} = .ok b2 ∧
    (∀ u, len u ≤ 1 / 20 → ∃ x ∈ solid b1.verts, ∃ y ∈ solid b2.verts, x + b1.pos + u = y + b2.pos) ∧
    ∀ (f : Finder) (i1 i2 : ℕ) (eps : ℝ), 0 ≤ eps → ∃ f',
      hullHull eps b1.pos b2.pos b1.verts b2.verts i1 i2 f = .ok (f', []) := by
  obtain ⟨b1, h1, p1, v1⟩ := tri_body
  obtain ⟨b2, h2, p2, v2⟩ := box_body (w := 1 / 10) (h := 1 / 10) (by norm_num) (by norm_num) (17 / 10, -1)
  have e5 : ((2 * (1 / 10), 2 * (1 / 10)) : V2) = (1 / 5, 1 / 5) := by norm_num
  rw [e5] at h2
  refine ⟨b1, b2, h1, h2, ?_, ?_⟩
  · intro u hu
    obtain ⟨u1, u2⟩ := u
    have hu1 : |u1| ≤ 1 / 20 := by
      have := inner_abs_le (1, 0) (u1, u2)
      rw [len_axis1] at this
      simp only [inner, abs_one] at this
      norm_num at this; linarith
    have hu2 : |u2| ≤ 1 / 20 := by
      have := inner_abs_le (0, 1) (u1, u2)
      rw [len_axis2] at this
      simp only [inner, abs_one] at this
      norm_num at this; linarith
    rw [v1, v2, p1, p2]
    refine ⟨(17 / 10, -19 / 20), ?_, (u1, u2 + 1 / 20), box_mem (by norm_num) (by norm_num) (by linarith) ?_, ?_⟩
    · have := solid_combo3 (vs := tri) (a := (-1, -1)) (b := (2, -1)) (c := (-1, 2)) (mem_solid (by simp [tri]))
        (mem_solid (by simp [tri])) (mem_solid (by simp [tri])) (u := 1 / 12) (v := 9 / 10) (w := 1 / 60)
        (by norm_num) (by norm_num) (by norm_num) (by norm_num)
      convert this using 1
      ext <;> norm_num
    · rw [abs_le] at hu2 ⊢; constructor <;> linarith
    · ext <;> simp <;> ring
  · intro f i1 i2 eps heps
    obtain ⟨f', hf⟩ := tri_box (eps := eps) (w := 1 / 10) (h := 1 / 10) (px := 17 / 10) (py := -1) heps (by norm_num)
      (by norm_num) (by norm_num) (by norm_num) (by norm_num) (by norm_num) i1 i2 f
    refine ⟨f', ?_⟩
    rw [p1, p2, v1, v2, hf]
    norm_num [clip_segment_to_line, dot]

/-- C19: for general hulls it is false that contact points lie on a hull. Here a triangle and a rectangle overlap, the
contact's normal is that of the triangle's lower side, but its reported point is half a unit outside the
triangle. -/
theorem C19_hull_contact_off_edge : ∃ b1 b2 : Body, mkHull 0 [(-1, -1), (2, -1), (-1, 2)] {} = .ok b1 ∧
    mkRect (.two (-3 / 2, -7 / 5)) (3, 1) {} = .ok b2 ∧
    ∀ (f : Finder) (i1 i2 : ℕ) (eps : ℝ), 0 ≤ eps → ∃ f' pts,
      hullHull eps b1.pos b2.pos b1.verts b2.verts i1 i2 f = .ok (f', pts) ∧
      ∃ p ∈ pts, p.normal = (0, 1) ∧ p.p1 = (-3 / 2, -1) ∧ p.pen = 1 / 10 ∧ p.p1 ∉ solid b1.verts := by
  obtain ⟨b1, h1, p1, v1⟩ := tri_body
  obtain ⟨b2, h2, p2, v2⟩ := box_body (w := 3 / 2) (h := 1 / 2) (by norm_num) (by norm_num) (-3 / 2, -7 / 5)
  have e5 : ((2 * (3 / 2), 2 * (1 / 2)) : V2) = (3, 1) := by norm_num
  rw [e5] at h2
  refine ⟨b1, b2, h1, h2, fun f i1 i2 eps heps => ?_⟩
  obtain ⟨f', hf⟩ := tri_box (eps := eps) (w := 3 / 2) (h := 1 / 2) (px := -3 / 2) (py := -7 / 5) heps (by norm_num)
      (by norm_num) (by norm_num) (by norm_num) (by norm_num) (by norm_num) i1 i2 f
  have c1 : clip_segment_to_line (-3 / 2 + 3 / 2, -9 / 10) (-3 / 2 - 3 / 2, -9 / 10) (-1, 0) (3 / 2) =
      [some (0, -9 / 10), some (-3, -9 / 10)] := by
    norm_num [clip_segment_to_line, dot]
  have c2 : clip_segment_to_line (0, -9 / 10) (-3, -9 / 10) (1, 0) (3 / 2) =
      [some (0, -9 / 10), some (-3 / 2, -9 / 10)] := by
    norm_num [clip_segment_to_line, dot]
  rw [c1] at hf
  simp only at hf
  rw [c2] at hf
  obtain ⟨pts, hp, hm⟩ := emitPts_some eps (0, -1) (-1, -1) 0 (-3 / 2, -7 / 5) true [(0, -9 / 10), (-3 / 2, -9 / 10)]
  simp only [List.map_cons, List.map_nil] at hp
  rw [hp] at hf
  refine ⟨f', pts, by rw [p1, p2, v1, v2, hf]; rfl, _, (hm _).2 ⟨(-3 / 2, -9 / 10), by simp, ?_, rfl⟩, ?_, ?_, ?_, ?_⟩
  · norm_num [inner]; linarith
  · norm_num [emitOne]
  · norm_num [emitOne, inner]
  · norm_num [emitOne, inner]
  · rw [v1]
    intro hin
    have := solid_inner_le (vs := tri) (d := (-1, 0)) (m := 1)
      (by intro v hv; simp [tri] at hv; rcases hv with rfl | rfl | rfl <;> norm_num [inner]) _ hin
    norm_num [emitOne, inner] at this

end LcpPhysics
