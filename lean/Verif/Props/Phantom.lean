import Verif.Props.HullContact
import Verif.Props.StrictStep
import Verif.Props.FreeFlight
import Verif.Props.EngineExamples

/-!
# C102: two hulls that are not both rectangles can be reported to overlap while they are apart

The incident edge is clipped to a window of the length of the reference edge but centred at the foot of the
centroid, and an edge that lies outside of the window is extended to its border.
-/

noncomputable section

namespace LcpPhysics
open Spec

/-- A right-angled triangle with sides 9, 12, 15 and centroid at the origin. -/
def sail : List V2 := [(-6, -4), (3, -4), (3, 8)]

/-- Its copy, three times smaller. -/
def jib : List V2 := [(1, 8 / 3), (-2, -4 / 3), (1, -4 / 3)]

/-- Where the small triangle is when its tip is `g` below the long base of the large one. -/
def jibPos (g : ℝ) : V2 := (-6, -(20 / 3) - g)

/-- The contact reported then. -/
def jibPt (g : ℝ) : Pt where
  normal := (0, 1)
  p1 := (-9 / 2, -4)
  p2 := (-9 / 2, -4) - jibPos g
  pen := 2 / 3 - g

theorem len_of_sq {x y r : ℝ} (hr : 0 ≤ r) (h : x ^ 2 + y ^ 2 = r ^ 2) : len (x, y) = r := by
  rw [len, h, Real.sqrt_sq hr]

theorem sail_edge0 : edgeVec sail 0 = (9, 0) := by norm_num [edgeVec, sail]
theorem sail_edge1 : edgeVec sail 1 = (0, 12) := by norm_num [edgeVec, sail]
theorem sail_edge2 : edgeVec sail 2 = (-9, -12) := by norm_num [edgeVec, sail]
theorem jib_edge0 : edgeVec jib 0 = (-3, -4) := by norm_num [edgeVec, jib]
theorem jib_edge1 : edgeVec jib 1 = (3, 0) := by norm_num [edgeVec, jib]
theorem jib_edge2 : edgeVec jib 2 = (0, 4) := by norm_num [edgeVec, jib]

theorem sail_len0 : len (edgeVec sail 0) = 9 := by rw [sail_edge0]; exact len_of_sq (by norm_num) (by norm_num)

theorem sail_normal0 : edgeNormal sail 0 = (0, -1) := by
  rw [edgeNormal, sail_len0, sail_edge0]; ext <;> norm_num [outward]
theorem sail_normal1 : edgeNormal sail 1 = (1, 0) := by
  rw [edgeNormal, sail_edge1, len_of_sq (r := 12) (by norm_num) (by norm_num)]; ext <;> norm_num [outward]
theorem sail_normal2 : edgeNormal sail 2 = (-4 / 5, 3 / 5) := by
  rw [edgeNormal, sail_edge2, len_of_sq (r := 15) (by norm_num) (by norm_num)]; ext <;> norm_num [outward]
theorem jib_normal0 : edgeNormal jib 0 = (-4 / 5, 3 / 5) := by
  rw [edgeNormal, jib_edge0, len_of_sq (r := 5) (by norm_num) (by norm_num)]; ext <;> norm_num [outward]
theorem jib_normal1 : edgeNormal jib 1 = (0, -1) := by
  rw [edgeNormal, jib_edge1, len_of_sq (r := 3) (by norm_num) (by norm_num)]; ext <;> norm_num [outward]
theorem jib_normal2 : edgeNormal jib 2 = (1, 0) := by
  rw [edgeNormal, jib_edge2, len_of_sq (r := 4) (by norm_num) (by norm_num)]; ext <;> norm_num [outward]

theorem three_cases {i : ℕ} (h : i < 3) : i = 0 ∨ i = 1 ∨ i = 2 := by omega

theorem sail_edge_ne : ∀ i < sail.length, edgeVec sail i ≠ 0 := by
  intro i hi
  rcases three_cases hi with rfl | rfl | rfl
  · rw [sail_edge0]; simp
  · rw [sail_edge1]; simp
  · rw [sail_edge2]; simp

theorem jib_edge_ne : ∀ i < jib.length, edgeVec jib i ≠ 0 := by
  intro i hi
  rcases three_cases hi with rfl | rfl | rfl
  · rw [jib_edge0]; simp
  · rw [jib_edge1]; simp
  · rw [jib_edge2]; simp

theorem sail_area : 0 < area2 sail := by norm_num [area2, edgeSum, sail, Finset.sum_range_succ, det]
theorem jib_area : 0 < area2 jib := by norm_num [area2, edgeSum, jib, Finset.sum_range_succ, det]

theorem sail_centroid : get_centroid sail = 0 := by
  have hn : centroidNum sail = 0 := by
    ext <;> norm_num [sail, centroidNum, Finset.sum_range_succ, cross_2d, vget]
  rw [get_centroid, hn, smul_zero, smul_zero]

theorem jib_centroid : get_centroid jib = 0 := by
  have hn : centroidNum jib = 0 := by
    ext <;> norm_num [jib, centroidNum, Finset.sum_range_succ, cross_2d, vget]
  rw [get_centroid, hn, smul_zero, smul_zero]

theorem sail_zero : (0 : V2) ∈ solid sail := by
  have := C04_centroid_in_hull (-6, -4) sail (mem_solid (by simp [sail])) (by
    intro i hi
    rcases three_cases hi with rfl | rfl | rfl <;> norm_num [det, sail]) sail_area
  rwa [sail_centroid] at this

theorem jib_zero : (0 : V2) ∈ solid jib := by
  have := C04_centroid_in_hull (1, 8 / 3) jib (mem_solid (by simp [jib])) (by
    intro i hi
    rcases three_cases hi with rfl | rfl | rfl <;> norm_num [det, jib]) jib_area
  rwa [jib_centroid] at this

theorem sail_gap0 (g : ℝ) : EdgeGap sail jib (jibPos g) 0 g := by
  refine edgeGap_intro (y := (1, 8 / 3)) (by simp [jib]) ?_ ?_
  · rw [sail_normal0]; norm_num [Spec.inner, sail, jibPos]; ring
  · rw [sail_normal0]
    intro z hz
    simp only [jib, List.mem_cons, List.not_mem_nil, or_false] at hz
    rcases hz with rfl | rfl | rfl <;> norm_num [Spec.inner, sail, jibPos] <;> linarith

theorem sail_gap_lt {g : ℝ} (hg : -1 < g) {i : ℕ} (hi : i < 3) (h0 : i ≠ 0) {d : ℝ} (h : EdgeGap sail jib (jibPos g) i d) :
    d < g := by
  rcases three_cases hi with rfl | rfl | rfl
  · exact absurd rfl h0
  · have h1 := edgeGap_le h (y := (1, 8 / 3)) (by simp [jib])
    rw [sail_normal1] at h1
    norm_num [Spec.inner, sail, jibPos] at h1; linarith
  · have h1 := edgeGap_le h (y := (1, -4 / 3)) (by simp [jib])
    rw [sail_normal2] at h1
    norm_num [Spec.inner, sail, jibPos] at h1; linarith

theorem jib_gap_le {g : ℝ} (hg : -1 < g) {i : ℕ} (hi : i < 3) {d : ℝ} (h : EdgeGap jib sail (-jibPos g) i d) : d < g := by
  rcases three_cases hi with rfl | rfl | rfl
  · have h1 := edgeGap_le h (y := (3, -4)) (by simp [sail])
    rw [jib_normal0] at h1
    norm_num [Spec.inner, jib, jibPos] at h1; linarith
  · have h1 := edgeGap_le h (y := (3, 8)) (by simp [sail])
    rw [jib_normal1] at h1
    norm_num [Spec.inner, jib, jibPos] at h1; linarith
  · have h1 := edgeGap_le h (y := (-6, -4)) (by simp [sail])
    rw [jib_normal2] at h1
    norm_num [Spec.inner, jib, jibPos] at h1; linarith

theorem jib_gap2 (g : ℝ) : EdgeGap jib sail (-jibPos g) 2 (-1) := by
  refine edgeGap_intro (y := (-6, -4)) (by simp [sail]) ?_ ?_
  · rw [jib_normal2]; norm_num [Spec.inner, jib, jibPos]
  · rw [jib_normal2]
    intro z hz
    simp only [sail, List.mem_cons, List.not_mem_nil, or_false] at hz
    rcases hz with rfl | rfl | rfl <;> norm_num [Spec.inner, jib, jibPos]

/-- Further apart than the contact distance, nothing is reported. -/
theorem phantom_far {eps g : ℝ} (hg : -1 < g) (h : eps < g) (i1 i2 : ℕ) (f : Finder) :
    ∃ f', hullHull eps 0 (jibPos g) sail jib i1 i2 f = .ok (f', []) := by
  have e1 : jibPos g - 0 = jibPos g := sub_zero _
  obtain ⟨c1, h1⟩ := C17_test_total eps sail jib 0 (jibPos g) (f.sat i1) sail_edge_ne jib_zero
    ⟨0, by simp [sail], _, e1.symm ▸ sail_gap0 g, by linarith [(by norm_num : (1 : ℝ) < 10 ^ 10)]⟩
  refine ⟨f.setSat i1 c1.edge, ?_⟩
  have hd : c1.dist > eps := by
    rcases test_sep_spec h1 with ⟨d, i, rfl, hi, hgp, hlt, -⟩ | ⟨d, pt1, pt2, nn, vx, en, e, rfl, he, hgp, -, hall⟩
    · exact hlt
    · obtain ⟨d', ha, hb⟩ := hall 0 (by simp [sail])
      rw [e1] at ha
      rw [edgeGap_unique ha (sail_gap0 g)] at hb
      exact lt_of_lt_of_le h hb
  unfold hullHull
  rw [h1]
  simp only
  rw [if_pos hd]

/-- Within the contact distance, a contact is reported that is two thirds deeper than the bodies overlap. -/
theorem phantom_near {eps g : ℝ} (hg : -1 < g) (h : g ≤ eps) (i1 i2 : ℕ) (f : Finder) :
    ∃ f', hullHull eps 0 (jibPos g) sail jib i1 i2 f = .ok (f', [jibPt g]) := by
  have e1 : jibPos g - 0 = jibPos g := sub_zero _
  have e2 : 0 - jibPos g = -jibPos g := zero_sub _
  have hbig : (1 : ℝ) < 10 ^ 10 := by norm_num
  obtain ⟨c1, h1⟩ := C17_test_total eps sail jib 0 (jibPos g) (f.sat i1) sail_edge_ne jib_zero
    ⟨0, by simp [sail], _, e1.symm ▸ sail_gap0 g, by linarith⟩
  obtain ⟨c2, h2⟩ := C17_test_total eps jib sail (jibPos g) 0 ((f.setSat i1 c1.edge).sat i2) jib_edge_ne sail_zero
    ⟨2, by simp [jib], _, e2.symm ▸ jib_gap2 g, by linarith⟩
  have hd2 : c2.dist ≤ g := by
    rcases test_sep_spec h2 with ⟨d, i, rfl, hi, hgp, -⟩ | ⟨d, _, _, _, _, _, i, rfl, hi, hgp, -⟩
    · rw [e2] at hgp; exact (jib_gap_le hg hi hgp).le
    · have hgp := hgp.edge
      rw [e2] at hgp; exact (jib_gap_le hg hi hgp).le
  rcases test_sep_spec h1 with ⟨d, i, rfl, hi, hgp, hlt, -⟩ | ⟨d, pt1, pt2, nn, vx, en, e, rfl, he, hgp, -, hall⟩
  · rw [e1] at hgp
    exfalso
    by_cases h0 : i = 0
    · subst h0
      have := edgeGap_unique hgp (sail_gap0 g); linarith
    · have := sail_gap_lt hg hi h0 hgp; linarith
  · rw [e1] at hall
    have hge := hgp.edge
    rw [e1] at hge
    have hd1 : g ≤ d := by
      obtain ⟨d', ha, hb⟩ := hall 0 (by simp [sail])
      rw [edgeGap_unique ha (sail_gap0 g)] at hb; exact hb
    have he0 : e = 0 := by
      by_contra h0
      have := sail_gap_lt hg he h0 hge; linarith
    subst he0
    have hd : d = g := edgeGap_unique hge (sail_gap0 g)
    have hvx : vx = 0 := by
      have hv := hgp.vx_gap
      have hlt := hgp.vx_lt
      rw [e1, sail_normal0, hd] at hv
      rcases three_cases hlt with rfl | rfl | rfl
      · rfl
      · norm_num [Spec.inner, sail, jib, jibPos] at hv; linarith
      · norm_num [Spec.inner, sail, jib, jibPos] at hv; linarith
    have hinc : get_incident_edge (0, -1) jib vx = 0 := by
      have step : ∀ (st : ℝ × ℕ) (i : ℕ), i < 3 → incStep (0, -1) jib st i =
          if Spec.inner (0, -1) (edgeNormal jib i) < st.1 then (Spec.inner (0, -1) (edgeNormal jib i), i) else st := by
        intro st i hi
        unfold incStep
        simp only
        rw [if_neg, ← edgeNormal_eq]
        · rfl
        · rw [nrm_eq_len]
          intro hz
          exact jib_edge_ne i hi (len_eq_zero.1 hz)
      have lb : jib.length = 3 := rfl
      unfold get_incident_edge
      rw [lb, hvx]
      simp only [List.foldl_cons, List.foldl_nil]
      rw [step _ 0 (by norm_num), show (0 + 3 - 1) % 3 = 2 from rfl, step _ 2 (by norm_num), jib_normal0, jib_normal2]
      norm_num [Spec.inner]
    refine ⟨(f.setSat i1 0).setSat i2 c2.edge, ?_⟩
    unfold hullHull
    rw [h1]
    simp only
    have g1 : ¬ (Sep.best d pt1 pt2 nn vx en 0).dist > eps := not_lt.2 (by simp only [Sep.dist]; linarith)
    have g2 : ¬ c2.dist > eps := not_lt.2 (by linarith)
    have g3 : ¬ c2.dist > (Sep.best d pt1 pt2 nn vx en 0).dist := not_lt.2 (hd2.trans hd1)
    rw [if_neg g1, h2]
    simp only
    rw [if_neg g2, if_neg g3, hgp.nn_eq, hgp.en_eq]
    unfold manifold
    have t3 : len (edgeVec sail 0) / 2 = 9 / 2 := by rw [sail_len0]
    have ea : vget jib 0 + jibPos g - 0 = (-5, -4 - g) := by
      ext <;> norm_num [vget, jib, jibPos]; ring
    have eb : vget jib ((0 + 1) % jib.length) + jibPos g - 0 = (-8, -8 - g) := by
      ext <;> norm_num [vget, jib, jibPos]; ring
    have ec : left_orthogonal ((0 : ℝ), (-1 : ℝ)) = (-1, 0) := by simp [left_orthogonal]
    have ed : -((-1 : ℝ), (0 : ℝ)) = (1, 0) := by simp
    have ev : vget sail 0 = (-6, -4) := rfl
    have k1 : clip_segment_to_line (-5, -4 - g) (-8, -8 - g) (-1, 0) (9 / 2) =
        [some (-5, -4 - g), some (-8, -8 - g)] := by
      norm_num [clip_segment_to_line, dot]
    have k2 : clip_segment_to_line (-5, -4 - g) (-8, -8 - g) (1, 0) (9 / 2) = [some (-9 / 2, -10 / 3 - g)] := by
      norm_num [clip_segment_to_line, dot]
      ring
    simp only [neg_neg, hinc, t3, ea, eb, sail_normal0, ec, ed, ev, k1, k2]
    have k3 : emitPts eps (0, -1) (-6, -4) 0 (jibPos g) true [some (-9 / 2, -10 / 3 - g)] =
        .ok [jibPt g] := by
      have q : dot ((0, -1) : V2) ((-9 / 2, -10 / 3 - g) - (-6, -4)) = g - 2 / 3 := by norm_num [dot]; ring
      unfold emitPts
      unfold emitPts
      simp only [q]
      rw [if_pos (by linarith)]
      have r1 : ((-9 / 2, -10 / 3 - g) : V2) + (-(g - 2 / 3)) • ((0, -1) : V2) = (-9 / 2, -4) := by
        ext <;> norm_num
      rw [r1]
      simp [jibPt]
    rw [k3]
    rfl

/-! ## The bodies -/

theorem sail_body : ∃ b, mkHull 0 sail {} = .ok b ∧ b.pos = 0 ∧ b.verts = sail ∧ b.isCircle = false ∧ b.v = 0 ∧
    0 < b.mass ∧ 0 < b.ang_inertia := by
  obtain ⟨b, hb⟩ := (C03_hull_accepts_iff 0 sail {}).2 ⟨by simp [sail], sail_area⟩
  obtain ⟨-, -, hp, -⟩ := C03_hull_vertices_stay 0 sail {} b hb
  obtain ⟨_, _, _, hs, _, hm, hv, _⟩ := mkHull_ok hb
  refine ⟨b, hb, by rw [hp, sail_centroid, add_zero], ?_, by rw [Body.isCircle, hs], ?_, by rw [hm]; norm_num,
    C07_hull_inertia_pos 0 sail {} b (by norm_num) hb |>.1⟩
  · unfold Body.verts; rw [hs, sail_centroid]; simp
  · rw [hv]; rfl

theorem jib_body (g : ℝ) (u : V3) : ∃ b, mkHull (jibPos g) jib { vel := .three u } = .ok b ∧ b.pos = jibPos g ∧
    b.verts = jib ∧ b.isCircle = false ∧ b.v = u ∧ 0 < b.mass ∧ 0 < b.ang_inertia := by
  obtain ⟨b, hb⟩ := (C03_hull_accepts_iff (jibPos g) jib { vel := .three u }).2 ⟨by simp [jib], jib_area⟩
  obtain ⟨-, -, hp, -⟩ := C03_hull_vertices_stay _ jib _ b hb
  obtain ⟨_, _, _, hs, _, hm, hv, _⟩ := mkHull_ok hb
  refine ⟨b, hb, by rw [hp, jib_centroid, add_zero], ?_, by rw [Body.isCircle, hs], ?_, by rw [hm]; norm_num,
    C07_hull_inertia_pos _ jib _ b (by norm_num) hb |>.1⟩
  · unfold Body.verts; rw [hs, jib_centroid]; simp
  · rw [hv]; rfl

/-- The small triangle lies lower than the large one, by `g`. -/
theorem sail_above {b1 b2 : Body} {g : ℝ} (a1 : Alive b1) (a2 : Alive b2) (c1 : b1.isCircle = false)
    (c2 : b2.isCircle = false) (p1 : b1.pos = 0) (v1 : b1.verts = sail) (p2 : b2.pos = jibPos g) (v2 : b2.verts = jib) :
    ∀ x ∈ bodyRegion b1, ∀ y ∈ bodyRegion b2, y.2 + g ≤ x.2 := by
  intro x hx y hy
  rw [(alive_verts a1 c1).2, p1, v1] at hx
  rw [(alive_verts a2 c2).2, p2, v2] at hy
  have h1 := solid_inner_le (vs := sail) (d := (0, -1)) (m := 4)
    (by intro v hv; simp [sail] at hv; rcases hv with rfl | rfl | rfl <;> norm_num [Spec.inner]) _ hx
  have h2 := solid_inner_le (vs := jib) (d := (0, 1)) (m := 8 / 3)
    (by intro v hv; simp [jib] at hv; rcases hv with rfl | rfl | rfl <;> norm_num [Spec.inner]) _ hy
  simp [Spec.inner, jibPos] at h1 h2
  linarith

/-- The contact search on the two triangles. -/
theorem phantom_search {bs : List Body} (hl : bs.length = 2) (c1 : (bodyAt bs 0).isCircle = false)
    (c2 : (bodyAt bs 1).isCircle = false) (p1 : (bodyAt bs 0).pos = 0) (v1 : (bodyAt bs 0).verts = sail) {g : ℝ}
    (p2 : (bodyAt bs 1).pos = jibPos g) (v2 : (bodyAt bs 1).verts = jib) (hg : -1 < g) (fuel : ℕ) (eps : ℝ)
    (f : Finder) : ∃ f' cs, diffCollide fuel (fun _ => []) allPairs eps f bs = .ok (f', cs) ∧
      (eps < g → cs = []) ∧ (g ≤ eps → ∃ c, cs = [c] ∧ c.pen = 2 / 3 - g) := by
  have hall : allPairs bs = [(0, 1)] := by
    obtain ⟨x, y, rfl⟩ : ∃ x y, bs = [x, y] := List.length_eq_two.1 hl
    rfl
  have key : ∀ f' pts, hullHull eps 0 (jibPos g) sail jib 0 1 f = .ok (f', pts) →
      diffCollide fuel (fun _ => []) allPairs eps f bs = .ok (f', pts.map fun p => (Contact.mk p.normal p.p1 p.p2 p.pen
        0 1 p.nan)) := by
    intro f' pts h
    unfold diffCollide
    rw [hall]
    unfold handleAll handle
    rw [if_neg (by simp)]
    unfold handlePair
    simp only [c1, c2, Bool.false_eq_true, and_self, or_self, if_false, p1, p2, v1, v2, h]
    simp [Except.map, Run.ofExcept, Run.bind, handleAll, Run.toExcept]
  by_cases h : eps < g
  · obtain ⟨f', hf⟩ := phantom_far hg h 0 1 f
    exact ⟨f', _, key f' _ hf, fun _ => rfl, fun h' => absurd h (not_lt.2 h')⟩
  · obtain ⟨f', hf⟩ := phantom_near hg (not_lt.1 h) 0 1 f
    exact ⟨f', _, key f' _ hf, fun h' => absurd h' h, fun _ => ⟨_, rfl, rfl⟩⟩

/-- C102: for two hulls that are not both rectangles a contact with positive penetration need not be an overlap. A
triangle and its copy a third the size are apart by `g`, and as soon as `g` is within the contact distance a
penetration of `2/3 - g` is reported. -/
theorem C102_phantom_contact (g : ℝ) (hg : 0 < g) : ∃ b1 b2,
    mkHull 0 [(-6, -4), (3, -4), (3, 8)] {} = .ok b1 ∧
    mkHull (-6, -(20 / 3) - g) [(1, 8 / 3), (-2, -4 / 3), (1, -4 / 3)] {} = .ok b2 ∧
    (∀ x ∈ bodyRegion b1, ∀ y ∈ bodyRegion b2, y.2 + g ≤ x.2) ∧
    ∀ (fuel : ℕ) (eps : ℝ) (f : Finder), g ≤ eps → ∃ f' c,
      diffCollide fuel (fun _ => []) allPairs eps f [b1, b2] = .ok (f', [c]) ∧ c.pen = 2 / 3 - g := by
  obtain ⟨b1, h1, p1, v1, c1, -⟩ := sail_body
  obtain ⟨b2, h2, p2, v2, c2, -⟩ := jib_body g 0
  refine ⟨b1, b2, h1, h2, sail_above ⟨_, [], .hull _ _ _ _ h1, rfl⟩ ⟨_, [], .hull _ _ _ _ h2, rfl⟩ c1 c2 p1 v1 p2 v2, ?_⟩
  intro fuel eps f he
  obtain ⟨f', cs, hs, -, hc⟩ := phantom_search (bs := [b1, b2]) rfl c1 c2 p1 v1 p2 v2 (by linarith) fuel eps f
  obtain ⟨c, rfl, hpen⟩ := hc he
  exact ⟨f', c, hs, hpen⟩

/-! ## The invisible wall -/

theorem glide {b : Body} (hr : b.RectForm) (u : V3) (hu : u.r = 0) (d : ℝ) :
    ((b.op (.setV u)).op (.move d)).verts = b.verts ∧
      ((b.op (.setV u)).op (.move d)).pos = b.pos + d • u.xy ∧
      ((b.op (.setV u)).op (.move d)).v = u := by
  have hp : ((b.op (.setV u)).op (.move d)).p = b.p + d • u := C05_pose_after_op (b.op (.setV u)) (.move d)
  refine ⟨?_, ?_, ?_⟩
  · have h1 := set_p_verts (b.op (.setV u)) ((b.op (.setV u)).p + d • (b.op (.setV u)).v)
      (by unfold Body.RectForm at hr ⊢; exact hr)
    have h2 : ((b.op (.setV u)).p + d • (b.op (.setV u)).v).r - (b.op (.setV u)).p.r = 0 := by
      simp [Body.op, hu]
    rw [h2] at h1
    have h3 : (b.op (.setV u)).verts = b.verts := rfl
    rw [h3] at h1
    refine h1.trans ?_
    conv_rhs => rw [← List.map_id b.verts]
    exact List.map_congr_left fun x _ => rot_zero x
  · unfold Body.pos; rw [hp]; ext <;> simp [V3.xy]
  · change ((b.op (.setV u)).set_p _).v = u
    unfold Body.set_p
    have h3 : (b.op (.setV u)).shape = b.shape := rfl
    rw [h3]
    cases b.shape <;> rfl

/-- The two triangles: the large one at rest, the small one rising towards it at speed 1; at time `t` the gap is
`1/5 - t`. -/
structure Wall (tol dt : ℝ) (w : World (Option Mat) Finder) : Prop where
  good : w.Good
  cache : CacheInv w
  joints : w.joints = []
  contacts : w.contacts = []
  strict : w.strict_no_pen = true
  nostab : w.post_stab = false
  eps : w.eps = 1 / 10
  tol : w.tol = tol
  dt : w.dt = dt
  mass : ∀ b ∈ w.bodies, 0 < b.mass ∧ 0 < b.ang_inertia
  len : w.bodies.length = 2
  alive : ∀ i < 2, Alive (bodyAt w.bodies i)
  hull : ∀ i < 2, (bodyAt w.bodies i).isCircle = false
  pos0 : (bodyAt w.bodies 0).pos = 0
  verts0 : (bodyAt w.bodies 0).verts = sail
  vel0 : (bodyAt w.bodies 0).v = 0
  pos1 : (bodyAt w.bodies 1).pos = jibPos (1 / 5 - w.t)
  verts1 : (bodyAt w.bodies 1).verts = jib
  vel1 : (bodyAt w.bodies 1).v = ⟨0, 0, 1⟩
  time : w.t < 1 / 10

theorem wall_solve {tol dt : ℝ} {w : World (Option Mat) Finder} (h : Wall tol dt w) (lcp : LcpSolver) (mi : ℕ)
    (collide : ℝ → Finder → List Body → Except Err (Finder × List Contact)) (d : ℝ) :
    ∃ e v, (pdipmEnv 2 noForces lcp mi collide).solve_dynamics w d = .ok (e, v) ∧ slice3 v 0 = 0 ∧
      slice3 v 1 = ⟨0, 0, 1⟩ := by
  obtain ⟨e, v, hs, hv⟩ := C36_free_flight 2 noForces lcp mi w d h.joints h.contacts h.cache.ok h.mass _
    (noForces_cat w.t w.bodies.length)
  have hl := h.len
  have b0 : bodyAt w.bodies 0 = w.bodies[0] := by simp [bodyAt, List.getD_eq_getElem?_getD, hl]
  have b1 : bodyAt w.bodies 1 = w.bodies[1] := by simp [bodyAt, List.getD_eq_getElem?_getD, hl]
  have g0 := h.good.vel 0 (by omega)
  have g1 := h.good.vel 1 (by omega)
  rw [← b0, h.vel0] at g0
  rw [← b1, h.vel1] at g1
  obtain ⟨x0, x1, x2⟩ := hv 0 (by omega) (by simp; omega)
  obtain ⟨y0, y1, y2⟩ := hv 1 (by omega) (by simp; omega)
  refine ⟨e, v, hs, ?_, ?_⟩
  · rw [g0]
    apply V3.ext <;> simp [slice3] at x0 x1 x2 ⊢ <;> assumption
  · rw [g1]
    apply V3.ext <;> simp [slice3] at y0 y1 y2 ⊢ <;> assumption

theorem wall_moved {tol dt : ℝ} {w : World (Option Mat) Finder} (h : Wall tol dt w) (e : Option Mat) {v : Vec}
    (v0 : slice3 v 0 = 0) (v1 : slice3 v 1 = ⟨0, 0, 1⟩) (d : ℝ) :
    let bs := (({ w with eng := e } : World (Option Mat) Finder).set_v v).bodies.map fun b => b.move d
    bs.length = 2 ∧ (∀ i < 2, Alive (bodyAt bs i)) ∧ (∀ i < 2, (bodyAt bs i).isCircle = false) ∧
      (bodyAt bs 0).pos = 0 ∧ (bodyAt bs 0).verts = sail ∧ (bodyAt bs 0).v = 0 ∧
      (bodyAt bs 1).pos = jibPos (1 / 5 - (w.t + d)) ∧ (bodyAt bs 1).verts = jib ∧ (bodyAt bs 1).v = ⟨0, 0, 1⟩ := by
  intro bs
  obtain ⟨hlen, ht⟩ := tried_bodies w e v d
  have hl := h.len
  have hal : ∀ i < 2, Alive (bodyAt bs i) := by
    intro i hi
    obtain ⟨b, ops, hb, he⟩ := h.alive i hi
    refine ⟨b, ops ++ [.setV (slice3 v i), .move d], hb, ?_⟩
    rw [ht i (by omega), he]
    simp [Body.run, List.foldl_append]
  obtain ⟨a1, a2, a3⟩ := glide (alive_rectForm (h.alive 0 (by omega))) 0 rfl d
  obtain ⟨c1, c2, c3⟩ := glide (alive_rectForm (h.alive 1 (by omega))) ⟨0, 0, 1⟩ rfl d
  have e0 : bodyAt bs 0 = ((bodyAt w.bodies 0).op (.setV 0)).op (.move d) := by rw [ht 0 (by omega), v0]
  have e1 : bodyAt bs 1 = ((bodyAt w.bodies 1).op (.setV ⟨0, 0, 1⟩)).op (.move d) := by rw [ht 1 (by omega), v1]
  have hcirc : ∀ i < 2, (bodyAt bs i).isCircle = false := by
    intro i hi
    have hv : (bodyAt bs i).verts ≠ [] := by
      rcases (by omega : i = 0 ∨ i = 1) with rfl | rfl
      · rw [e0, a1, h.verts0]; simp [sail]
      · rw [e1, c1, h.verts1]; simp [jib]
    unfold Body.verts at hv
    unfold Body.isCircle
    cases hs : (bodyAt bs i).shape with
    | circle r => rw [hs] at hv; exact absurd rfl hv
    | hull vs => rfl
    | rect d vs => rfl
  refine ⟨hlen.trans hl, hal, hcirc, ?_, by rw [e0, a1, h.verts0], by rw [e0, a3], ?_, by rw [e1, c1, h.verts1],
    by rw [e1, c3]⟩
  · rw [e0, a2, h.pos0]; ext <;> simp [V3.xy]
  · rw [e1, c2, h.pos1]; ext <;> simp [V3.xy, jibPos]; ring

theorem wall_step {tol dt : ℝ} (htol : tol ≤ 1 / 2) (hdt : 0 < dt) (hdt1 : dt ≤ 1) {w w' : World (Option Mat) Finder}
    (h : Wall tol dt w) {fuel : ℕ} {lcp : LcpSolver} {mi n : ℕ}
    (hs : w.step_dt (pdipmEnv 2 noForces lcp mi (diffCollide fuel (fun _ => []) allPairs)) n dt = .done w') :
    Wall tol dt w' := by
  obtain ⟨p1, p2, p3, p4, p5, p6, p7⟩ := step_dt_params h.good hs
  have hg' := step_dt_good h.good hs
  have hst := step_dt_statics h.good hs
  have hcache : CacheInv w' := by
    obtain ⟨v2, hv2⟩ := step_dt_eng h.good hs
    exact solve_cacheInv hst h.cache hv2
  have hmass : ∀ b ∈ w'.bodies, 0 < b.mass ∧ 0 < b.ang_inertia := by
    intro b hb
    have : b.consts ∈ w.bodies.map Body.consts := hst.1 ▸ List.mem_map.2 ⟨b, hb, rfl⟩
    obtain ⟨b0, hb0, he⟩ := List.mem_map.1 this
    simp only [Body.consts, Prod.mk.injEq] at he
    rw [← he.1, ← he.2.1]
    exact h.mass b0 hb0
  have hj : w'.joints = [] := by
    rw [h.joints] at p7
    exact List.length_eq_zero_iff.1 p7
  obtain ⟨e', v', hsol, sv0, sv1⟩ := wall_solve h lcp mi (diffCollide fuel (fun _ => []) allPairs) dt
  obtain ⟨e, v, k, w1, w2, hsol', _, hw1, hg1, ⟨fk, f', cs, hcs, ha, hw2⟩, _, hend⟩ := step_dt_done h.good hs
  rw [hsol] at hsol'
  injection hsol' with hsol'
  injection hsol' with he hv
  subst he hv
  have hbod : w'.bodies = (({ w with eng := e' } : World (Option Mat) Finder).set_v v').bodies.map
      fun b => b.move (dt / 2 ^ k) := by
    rcases hend with ⟨_, rfl⟩ | ⟨hp', _⟩
    · subst hw2 hw1; rfl
    · rw [h.nostab] at hp'; cases hp'
  have ht : w'.t = w.t + dt / 2 ^ k ∧ w'.contacts = cs := by
    rcases hend with ⟨_, rfl⟩ | ⟨hp', _⟩
    · subst hw2 hw1; exact ⟨rfl, rfl⟩
    · rw [h.nostab] at hp'; cases hp'
  have hd1 : dt / 2 ^ k ≤ 1 := (div_le_self hdt.le (one_le_pow₀ (by norm_num))).trans hdt1
  obtain ⟨m1, m2, m3, m4, m5, m6, m7, m8, m9⟩ := wall_moved h e' sv0 sv1 (dt / 2 ^ k)
  have hgap : -1 < 1 / 5 - (w.t + dt / 2 ^ k) := by linarith [h.time]
  rw [hw1] at hcs ha
  obtain ⟨f2, cs2, hd, far, near⟩ := phantom_search m1 (m3 0 (by omega)) (m3 1 (by omega)) m4 m5 m7 m8 hgap fuel w.eps fk
  change diffCollide fuel (fun _ => []) allPairs w.eps fk _ = _ at hcs
  rw [hd] at hcs
  injection hcs with hcs
  injection hcs with hf' hcs
  subst hf' hcs
  have hfar : 1 / 10 < 1 / 5 - (w.t + dt / 2 ^ k) := by
    by_contra hn
    push Not at hn
    obtain ⟨c, rfl, hpen⟩ := near (by rw [h.eps]; exact hn)
    have hacc : c.pen ≤ w.tol := by
      rcases ha with ha | ⟨hf, _⟩
      · exact ha c (by simp)
      · have : w.strict_no_pen = false := hf
        rw [h.strict] at this; cases this
    rw [hpen, h.tol] at hacc
    linarith
  have hcs := far (by rw [h.eps]; exact hfar)
  rw [← hbod] at m1 m2 m3 m4 m5 m6 m7 m8 m9
  exact ⟨hg', hcache, hj, ht.2.trans hcs, p5.trans h.strict, p4.trans h.nostab, p2.trans h.eps, p3.trans h.tol,
    p1.trans h.dt, hmass, m1, m2, m3, m4, m5, m6, by rw [ht.1]; exact m7, m8, m9, by rw [ht.1]; linarith⟩

theorem specLoop_ends {σ φ : Type} {env : Env σ φ} {w : World σ φ} : ∀ (n : ℕ) (f : φ) (d s : ℝ),
    (∀ f, ∀ j ≤ n, ∃ r, env.collide w.eps f (w.bodies.map fun b => b.move (d / 2 ^ j)) = .ok r) →
    (∀ f r, env.collide w.eps f (w.bodies.map fun b => b.move (d / 2 ^ n)) = .ok r → w.accepts (d / 2 ^ n) r.2) →
    ∃ r, specLoop env w (n + 1) f d s = .done r := by
  intro n
  induction n with
  | zero =>
    intro f d s h1 h2
    obtain ⟨r, hr⟩ := h1 f 0 le_rfl
    have h3 := h2 f r hr
    simp only [pow_zero, div_one] at hr h3
    unfold specLoop
    rw [hr]
    simp only
    rw [if_pos h3]
    exact ⟨_, rfl⟩
  | succ n ih =>
    intro f d s h1 h2
    obtain ⟨r, hr⟩ := h1 f 0 (by omega)
    simp only [pow_zero, div_one] at hr
    unfold specLoop
    rw [hr]
    simp only
    have e : ∀ j : ℕ, d / 2 / 2 ^ j = d / 2 ^ (j + 1) := fun j => by rw [pow_succ]; field_simp
    split_ifs
    · exact ⟨_, rfl⟩
    · refine ih r.1 (d / 2) (s + d) (fun f j hj => ?_) (fun f r hr => ?_)
      · rw [e]; exact h1 f (j + 1) (by omega)
      · rw [e] at hr ⊢; exact h2 f r hr

theorem wall_steps {tol dt : ℝ} (hdt : 0 < dt) (hdt1 : dt ≤ 1) {w : World (Option Mat) Finder}
    (h : Wall tol dt w) (fuel : ℕ) (lcp : LcpSolver) (mi : ℕ) :
    ∃ n w', w.step_dt (pdipmEnv 2 noForces lcp mi (diffCollide fuel (fun _ => []) allPairs)) n dt = .done w' := by
  obtain ⟨e, v, hsol, sv0, sv1⟩ := wall_solve h lcp mi (diffCollide fuel (fun _ => []) allPairs) dt
  have hroom : 0 < 1 / 10 - w.t := by linarith [h.time]
  obtain ⟨n, hn⟩ : ∃ n : ℕ, dt / (1 / 10 - w.t) < 2 ^ n := pow_unbounded_of_one_lt _ (by norm_num)
  have hd1 : ∀ j : ℕ, dt / 2 ^ j ≤ 1 := fun j => (div_le_self hdt.le (one_le_pow₀ (by norm_num))).trans hdt1
  obtain ⟨r, hr⟩ := specLoop_ends (env := pdipmEnv 2 noForces lcp mi (diffCollide fuel (fun _ => []) allPairs))
    (w := ({ w with eng := e } : World (Option Mat) Finder).set_v v) n w.fnd dt 0 (by
      intro f j _
      obtain ⟨m1, m2, m3, m4, m5, m6, m7, m8, m9⟩ := wall_moved h e sv0 sv1 (dt / 2 ^ j)
      obtain ⟨f2, cs2, hd, -⟩ := phantom_search m1 (m3 0 (by omega)) (m3 1 (by omega)) m4 m5 m7 m8
        (by linarith [h.time, hd1 j]) fuel w.eps f
      exact ⟨_, hd⟩) (by
      intro f r hr
      obtain ⟨m1, m2, m3, m4, m5, m6, m7, m8, m9⟩ := wall_moved h e sv0 sv1 (dt / 2 ^ n)
      obtain ⟨f2, cs2, hd, hfar, -⟩ := phantom_search m1 (m3 0 (by omega)) (m3 1 (by omega)) m4 m5 m7 m8
        (by linarith [h.time, hd1 n]) fuel w.eps f
      change diffCollide fuel (fun _ => []) allPairs w.eps f _ = _ at hr
      rw [hd] at hr
      injection hr with hr
      subst hr
      have hlt : dt / 2 ^ n < 1 / 10 - w.t := by
        rw [div_lt_iff₀ hroom] at hn
        rw [div_lt_iff₀ (by positivity)]
        linarith
      left
      rw [hfar (by rw [h.eps]; linarith)]
      simp)
  refine ⟨n + 1, { r.1 with t := r.1.t + r.2 }, ?_⟩
  rw [step_dt_eq _ (n + 1) w h.good, hsol]
  simp only [Run.ofExcept, Run.bind_done]
  rw [hr]
  obtain ⟨k, _, _, ⟨_, _, _, _, _, h3⟩, _⟩ := specLoop_done hr
  have hps : r.1.post_stab = false := by rw [h3]; exact h.nostab
  simp only [Run.bind_done, hps, Bool.false_eq_true, ↓reduceIte]

theorem specLoop_no_raise {σ φ : Type} {env : Env σ φ} {w : World σ φ} {er : Err} : ∀ (n : ℕ) (f : φ) (d s : ℝ),
    (∀ f (j : ℕ), ∃ r, env.collide w.eps f (w.bodies.map fun b => b.move (d / 2 ^ j)) = .ok r) →
    specLoop env w n f d s ≠ .raised er := by
  intro n
  induction n with
  | zero => intro f d s _ h; cases h
  | succ n ih =>
    intro f d s h1 h
    obtain ⟨r, hr⟩ := h1 f 0
    simp only [pow_zero, div_one] at hr
    unfold specLoop at h
    rw [hr] at h
    simp only at h
    have e : ∀ j : ℕ, d / 2 / 2 ^ j = d / 2 ^ (j + 1) := fun j => by rw [pow_succ]; field_simp
    split_ifs at h
    exact ih r.1 (d / 2) (s + d) (fun f j => by rw [e]; exact h1 f (j + 1)) h

theorem wall_run {tol dt T : ℝ} (htol : tol ≤ 1 / 2) (hdt : 0 < dt) (hdt1 : dt ≤ 1) (hT : 1 / 10 ≤ T) (fuel : ℕ)
    (lcp : LcpSolver) (mi n : ℕ) : ∀ (m : ℕ) {w : World (Option Mat) Finder}, Wall tol dt w →
      runWorld (pdipmEnv 2 noForces lcp mi (diffCollide fuel (fun _ => []) allPairs)) n T m w = .running := by
  intro m
  induction m with
  | zero =>
    intro w h
    unfold runWorld
    rw [if_pos (lt_of_lt_of_le h.time hT)]
  | succ m ih =>
    intro w h
    unfold runWorld
    rw [if_pos (lt_of_lt_of_le h.time hT)]
    simp only
    have hstep : w.step (pdipmEnv 2 noForces lcp mi (diffCollide fuel (fun _ => []) allPairs)) n 0 false =
        w.step_dt (pdipmEnv 2 noForces lcp mi (diffCollide fuel (fun _ => []) allPairs)) n dt := by
      unfold World.step
      rw [if_neg (by simp), h.dt]
    rw [hstep]
    cases hd : w.step_dt (pdipmEnv 2 noForces lcp mi (diffCollide fuel (fun _ => []) allPairs)) n dt with
    | running => rfl
    | done w1 => exact ih (wall_step htol hdt hdt1 h hd)
    | raised er =>
      exfalso
      obtain ⟨e, v, hsol, sv0, sv1⟩ := wall_solve h lcp mi (diffCollide fuel (fun _ => []) allPairs) dt
      have hno := specLoop_no_raise (env := pdipmEnv 2 noForces lcp mi (diffCollide fuel (fun _ => []) allPairs))
        (w := ({ w with eng := e } : World (Option Mat) Finder).set_v v) (er := er) n w.fnd dt 0 (by
          intro f j
          obtain ⟨m1, m2, m3, m4, m5, m6, m7, m8, m9⟩ := wall_moved h e sv0 sv1 (dt / 2 ^ j)
          have hd1 : dt / 2 ^ j ≤ 1 := (div_le_self hdt.le (one_le_pow₀ (by norm_num))).trans hdt1
          obtain ⟨f2, cs2, hd, -⟩ := phantom_search m1 (m3 0 (by omega)) (m3 1 (by omega)) m4 m5 m7 m8
            (by linarith [h.time]) fuel w.eps f
          exact ⟨_, hd⟩)
      rw [step_dt_eq _ n w h.good, hsol] at hd
      simp only [Run.ofExcept, Run.bind_done] at hd
      cases hsl : specLoop (pdipmEnv 2 noForces lcp mi (diffCollide fuel (fun _ => []) allPairs))
          (({ w with eng := e } : World (Option Mat) Finder).set_v v) n w.fnd dt 0 with
      | running => rw [hsl] at hd; cases hd
      | raised er' => rw [hsl] at hd; injection hd with hd; rw [hd] at hsl; exact hno hsl
      | done r =>
        rw [hsl] at hd
        obtain ⟨k, _, _, ⟨_, _, _, _, _, h3⟩, _⟩ := specLoop_done hsl
        have hps : r.1.post_stab = false := by rw [h3]; exact h.nostab
        simp only [Run.bind_done, hps, Bool.false_eq_true, ↓reduceIte] at hd
        cases hd

/-- C102: a strict world whose bodies are apart is refused by the constructor. -/
theorem C102_phantom_refused (g eps tol dt : ℝ) (hg : 0 < g) (he : g ≤ eps) (htol : tol < 2 / 3 - g)
    {σ : Type} (fuel : ℕ) (env : Env σ Finder) (hc : env.collide = diffCollide fuel (fun _ => []) allPairs)
    (eng : σ) (fnd : Finder) : ∃ b1 b2,
    mkHull 0 [(-6, -4), (3, -4), (3, 8)] {} = .ok b1 ∧
    mkHull (-6, -(20 / 3) - g) [(1, 8 / 3), (-2, -4 / 3), (1, -4 / 3)] {} = .ok b2 ∧
    (∀ x ∈ bodyRegion b1, ∀ y ∈ bodyRegion b2, y.2 + g ≤ x.2) ∧
    mkWorld env eng fnd [b1, b2] [] dt eps tol false true = .raised .assertion := by
  obtain ⟨b1, b2, h1, h2, h3, h4⟩ := C102_phantom_contact g hg
  refine ⟨b1, b2, h1, h2, h3, ?_⟩
  obtain ⟨f', c, hs, hpen⟩ := h4 fuel eps fnd he
  have hcol : env.collide (initWorld eng fnd [b1, b2] [] dt eps tol false true).eps
      (initWorld eng fnd [b1, b2] [] dt eps tol false true).fnd
      (initWorld eng fnd [b1, b2] [] dt eps tol false true).bodies = .ok (f', [c]) := by
    rw [initWorld_bodies, hc]; exact hs
  unfold mkWorld
  rw [if_neg (by simp), if_pos (by simp)]
  unfold World.find_contacts
  rw [hcol]
  simp only [Run.bind, if_true]
  rw [if_neg]
  intro hn
  have : c.pen ≤ tol := hn c (by simp)
  rw [hpen] at this
  linarith

/-- C102: an invisible wall. The small triangle rises towards the large one at speed 1 from a gap of 1/5, without
forces. The constructor accepts the strict world and every step returns, but however many steps are made the time
stays below 1/10, the bodies more than 1/10 apart and no contact in force: `run_world` never gets to a later time. -/
theorem C102_phantom_wall (tol dt : ℝ) (htol : tol ≤ 1 / 2) (hdt : 0 < dt) (hdt1 : dt ≤ 1) (fuel : ℕ)
    (lcp : LcpSolver) (mi : ℕ) (fnd : Finder) : ∃ b1 b2 w,
    mkHull 0 [(-6, -4), (3, -4), (3, 8)] {} = .ok b1 ∧
    mkHull (-6, -(20 / 3) - 1 / 5) [(1, 8 / 3), (-2, -4 / 3), (1, -4 / 3)] { vel := .three ⟨0, 0, 1⟩ } = .ok b2 ∧
    mkWorld (pdipmEnv 2 noForces lcp mi (diffCollide fuel (fun _ => []) allPairs)) none fnd [b1, b2] [] dt (1 / 10) tol
      false true = .done w ∧
    (∀ n T m, 1 / 10 ≤ T →
      runWorld (pdipmEnv 2 noForces lcp mi (diffCollide fuel (fun _ => []) allPairs)) n T m w = .running) ∧
    ∀ w', Relation.ReflTransGen (fun a b => ∃ n, a.step_dt (pdipmEnv 2 noForces lcp mi
        (diffCollide fuel (fun _ => []) allPairs)) n dt = .done b) w w' →
      w'.t < 1 / 10 ∧ w'.contacts = [] ∧
        (∀ x ∈ bodyRegion (bodyAt w'.bodies 0), ∀ y ∈ bodyRegion (bodyAt w'.bodies 1), y.2 + 1 / 10 < x.2) ∧
        ∃ n w'', w'.step_dt (pdipmEnv 2 noForces lcp mi (diffCollide fuel (fun _ => []) allPairs)) n dt = .done w'' := by
  obtain ⟨b1, h1, p1, v1, c1, u1, m1, i1⟩ := sail_body
  obtain ⟨b2, h2, p2, v2, c2, u2, m2, i2⟩ := jib_body (1 / 5) ⟨0, 0, 1⟩
  have a1 : Alive b1 := ⟨_, [], .hull _ _ _ _ h1, rfl⟩
  have a2 : Alive b2 := ⟨_, [], .hull _ _ _ _ h2, rfl⟩
  set env := pdipmEnv 2 noForces lcp mi (diffCollide fuel (fun _ => []) allPairs) with henv
  obtain ⟨f', cs, hs, hfar, -⟩ := phantom_search (bs := [b1, b2]) rfl c1 c2 p1 v1 p2 v2 (by norm_num) fuel (1 / 10) fnd
  rw [hfar (by norm_num)] at hs
  have hcol : env.collide (initWorld (none : Option Mat) fnd [b1, b2] [] dt (1 / 10) tol false true).eps
      (initWorld (none : Option Mat) fnd [b1, b2] [] dt (1 / 10) tol false true).fnd
      (initWorld (none : Option Mat) fnd [b1, b2] [] dt (1 / 10) tol false true).bodies = .ok (f', []) := by
    rw [initWorld_bodies]; exact hs
  have hw : ∃ w, mkWorld env none fnd [b1, b2] [] dt (1 / 10) tol false true = .done w ∧ w.bodies = [b1, b2] ∧
      w.t = 0 ∧ w.dt = dt ∧ w.eps = 1 / 10 ∧ w.tol = tol ∧ w.strict_no_pen = true ∧ w.post_stab = false ∧
      w.joints = [] ∧ w.contacts = [] ∧ w.eng = none := by
    unfold mkWorld
    rw [if_neg (by simp), if_pos (by simp)]
    unfold World.find_contacts
    rw [hcol]
    simp only [Run.bind, if_true]
    rw [if_pos (by intro c hc; cases hc)]
    exact ⟨_, rfl, initWorld_bodies _ _ _ _ _ _ _ _ _, rfl, rfl, rfl, rfl, rfl, rfl, rfl, rfl, rfl⟩
  obtain ⟨w, hw, wb, wt, wdt, weps, wtol, wst, wps, wj, wc, we⟩ := hw
  have hgood := C30_mkWorld_good env none fnd [b1, b2] [] dt (1 / 10) tol false true w (by
    intro b hb
    simp only [List.mem_cons, List.not_mem_nil, or_false] at hb
    rcases hb with rfl | rfl
    · exact alive_rectForm a1
    · exact alive_rectForm a2) (by simp) hw
  have hwall : Wall tol dt w := by
    refine ⟨hgood, fun inv hi => ?_, wj, wc, wst, wps, weps, wtol, wdt, ?_, by rw [wb]; rfl, ?_, ?_, ?_, ?_, ?_, ?_, ?_,
      ?_, ?_⟩
    · rw [we] at hi; cases hi
    · rw [wb]
      intro b hb
      simp only [List.mem_cons, List.not_mem_nil, or_false] at hb
      rcases hb with rfl | rfl
      · exact ⟨m1, i1⟩
      · exact ⟨m2, i2⟩
    · rw [wb]; intro i hi
      rcases (by omega : i = 0 ∨ i = 1) with rfl | rfl
      · exact a1
      · exact a2
    · rw [wb]; intro i hi
      rcases (by omega : i = 0 ∨ i = 1) with rfl | rfl
      · exact c1
      · exact c2
    · rw [wb]; exact p1
    · rw [wb]; exact v1
    · rw [wb]; exact u1
    · rw [wb, wt, sub_zero]; exact p2
    · rw [wb]; exact v2
    · rw [wb]; exact u2
    · rw [wt]; norm_num
  refine ⟨b1, b2, w, h1, h2, hw, ?_, ?_⟩
  · intro n T m hT
    exact wall_run htol hdt hdt1 hT fuel lcp mi n m hwall
  · intro w' hr
    have hwall' : Wall tol dt w' := by
      induction hr with
      | refl => exact hwall
      | tail _ hstep ih => obtain ⟨n, hn⟩ := hstep; exact wall_step htol hdt hdt1 ih hn
    refine ⟨hwall'.time, hwall'.contacts, fun x hx y hy => ?_, wall_steps hdt hdt1 hwall' fuel lcp mi⟩
    have := sail_above (hwall'.alive 0 (by omega)) (hwall'.alive 1 (by omega)) (hwall'.hull 0 (by omega))
      (hwall'.hull 1 (by omega)) hwall'.pos0 hwall'.verts0 hwall'.pos1 hwall'.verts1 x hx y hy
    linarith [hwall'.time]

end LcpPhysics
