import Verif.Props.RectContact

/-! # Contacts between two level rectangles, one above the other -/

noncomputable section

namespace LcpPhysics
open Spec

/-- Vertices of a level rectangle of width `w` and height `h`. -/
def levelBox (w h : ℝ) : List V2 := [(w / 2, h / 2), (-(w / 2), h / 2), (-(w / 2), -(h / 2)), (w / 2, -(h / 2))]

theorem levelBox_form {w h : ℝ} (hw : 0 < w) (hh : 0 < h) : RectForm (levelBox w h) := by
  refine ⟨(w / 2, h / 2), (-(w / 2), h / 2), ?_, ?_, ?_⟩
  · simp [levelBox]
  · simp [Spec.inner]
  · simp only [Spec.det]
    nlinarith [mul_pos hw hh]

theorem levelBox_mid (w h : ℝ) : midEdge (levelBox w h) 0 = (0, h / 2) ∧ midEdge (levelBox w h) 1 = (-(w / 2), 0) ∧
    midEdge (levelBox w h) 2 = (0, -(h / 2)) ∧ midEdge (levelBox w h) 3 = (w / 2, 0) := by
  refine ⟨?_, ?_, ?_, ?_⟩ <;> ext <;> simp [midEdge, levelBox] <;> ring

theorem levelBox_half (w h : ℝ) : halfEdge (levelBox w h) 0 = (-(w / 2), 0) ∧
    halfEdge (levelBox w h) 1 = (0, -(h / 2)) ∧
    halfEdge (levelBox w h) 2 = (w / 2, 0) ∧ halfEdge (levelBox w h) 3 = (0, h / 2) := by
  refine ⟨?_, ?_, ?_, ?_⟩ <;> ext <;> simp [halfEdge, levelBox] <;> ring

theorem len_x (x : ℝ) : len (x, 0) = |x| := by
  unfold len
  simp only
  rw [show x ^ 2 + (0 : ℝ) ^ 2 = x ^ 2 by ring, Real.sqrt_sq_eq_abs]

theorem len_y (y : ℝ) : len (0, y) = |y| := by
  unfold len
  simp only
  rw [show (0 : ℝ) ^ 2 + y ^ 2 = y ^ 2 by ring, Real.sqrt_sq_eq_abs]

theorem levelBox_normal {w h : ℝ} (hw : 0 < w) (hh : 0 < h) : edgeNormal (levelBox w h) 0 = (0, 1) ∧
    edgeNormal (levelBox w h) 1 = (-1, 0) ∧ edgeNormal (levelBox w h) 2 = (0, -1) ∧
    edgeNormal (levelBox w h) 3 = (1, 0) := by
  have hf := levelBox_form hw hh
  obtain ⟨m0, m1, m2, m3⟩ := levelBox_mid w h
  have a1 : |w| = w := abs_of_pos hw
  have a2 : |h| = h := abs_of_pos hh
  rw [rect_edgeNormal hf (by norm_num), rect_edgeNormal hf (by norm_num), rect_edgeNormal hf (by norm_num),
    rect_edgeNormal hf (by norm_num), m0, m1, m2, m3, len_x, len_y, len_x, len_y]
  refine ⟨?_, ?_, ?_, ?_⟩ <;> ext <;> simp [abs_div, a1, a2, hw.ne', hh.ne']

theorem levelGap {w h W H : ℝ} (hw : 0 < w) (hh : 0 < h) (hW : 0 < W) (hH : 0 < H) {D : V2} {i : ℕ} {d : ℝ}
    (hd : EdgeGap (levelBox w h) (levelBox W H) D i d) :
    (i = 0 → d = D.2 - (h + H) / 2) ∧ (i = 1 → d = -D.1 - (w + W) / 2) ∧ (i = 2 → d = -D.2 - (h + H) / 2) ∧
      (i = 3 → d = D.1 - (w + W) / 2) := by
  have hf := levelBox_form hw hh
  have hF := levelBox_form hW hH
  obtain ⟨m0, m1, m2, m3⟩ := levelBox_mid w h
  obtain ⟨n0, n1, n2, n3⟩ := levelBox_normal hw hh
  obtain ⟨M0, -⟩ := levelBox_mid W H
  obtain ⟨H0, -⟩ := levelBox_half W H
  have a1 : |w| = w := abs_of_pos hw
  have a2 : |h| = h := abs_of_pos hh
  have a3 : |W| = W := abs_of_pos hW
  have a4 : |H| = H := abs_of_pos hH
  refine ⟨?_, ?_, ?_, ?_⟩ <;> rintro rfl <;>
    (have := rect_gap_value hf hF (by norm_num) (by norm_num : (0 : ℕ) < 4) hd
     rw [this]
     simp only [n0, n1, n2, n3, m0, m1, m2, m3, M0, H0, len_x, len_y, Spec.inner]
     simp [abs_div, a1, a2, a3, a4]
     ring)

/-- The edge of a box that faces in direction `(0, s)`. -/
def faceEdge (s : ℝ) : ℕ := if 0 < s then 0 else 2

/-- Separation test of two level boxes one of which is further in direction `(0, s)`. -/
theorem level_test {w h W H : ℝ} (hw : 0 < w) (hh : 0 < h) (hW : 0 < W) (hH : 0 < H) {eps s : ℝ} {pos1 pos2 : V2}
    (hs : s = 1 ∨ s = -1) (hD : 0 < s * (pos2 - pos1).2)
    (hg : s * (pos2 - pos1).2 - (h + H) / 2 ≤ eps)
    (hk : |(pos2 - pos1).1| - (w + W) / 2 < s * (pos2 - pos1).2 - (h + H) / 2) {start : ℕ} {c : Sep}
    (hc : test_separations eps pos1 pos2 (levelBox w h) (levelBox W H) start = .ok c) :
    ∃ pt1 pt2 vx, vx < 4 ∧
      c = .best (s * (pos2 - pos1).2 - (h + H) / 2) pt1 pt2 (0, -s) vx w (faceEdge s) ∧
      Spec.inner (0, s) ((levelBox W H).getD vx 0) = -(H / 2) := by
  set D := pos2 - pos1 with hDdef
  have hf := levelBox_form hw hh
  have hF := levelBox_form hW hH
  have lf : (levelBox w h).length = 4 := rfl
  have hval : ∀ i < 4, ∀ d, EdgeGap (levelBox w h) (levelBox W H) D i d →
      d ≤ s * D.2 - (h + H) / 2 ∧ (d = s * D.2 - (h + H) / 2 → i = faceEdge s) := by
    intro i hi d hd
    obtain ⟨g0, g1, g2, g3⟩ := levelGap hw hh hW hH hd
    have b1 := neg_abs_le D.1
    have b2 := le_abs_self D.1
    interval_cases i
    · rw [g0 rfl]
      rcases hs with rfl | rfl
      · simp [faceEdge]
      · refine ⟨by linarith, fun h => ?_⟩
        exfalso; linarith
    · rw [g1 rfl]
      exact ⟨by linarith, fun h => by exfalso; linarith⟩
    · rw [g2 rfl]
      rcases hs with rfl | rfl
      · refine ⟨by linarith, fun h => ?_⟩
        exfalso; linarith
      · simp [faceEdge]
    · rw [g3 rfl]
      exact ⟨by linarith, fun h => by exfalso; linarith⟩
  have hface : faceEdge s < 4 := by unfold faceEdge; split <;> norm_num
  have hgapface : ∀ d, EdgeGap (levelBox w h) (levelBox W H) D (faceEdge s) d → d = s * D.2 - (h + H) / 2 := by
    intro d hd
    obtain ⟨g0, g1, g2, g3⟩ := levelGap hw hh hW hH hd
    rcases hs with rfl | rfl
    · rw [g0 (by simp [faceEdge])]; ring
    · rw [g2 (by norm_num [faceEdge])]; ring
  rcases test_sep_spec hc with ⟨d, i, rfl, hi, hgap, hgt, -⟩ | ⟨d, pt1, pt2, nn, vx, en, e, rfl, he, hgb, -, hall⟩
  · exfalso
    have := (hval i (by rw [lf] at hi; exact hi) d hgap).1
    linarith
  · have he4 : e < 4 := by rw [lf] at he; exact he
    obtain ⟨d', hd', hle⟩ := hall (faceEdge s) (by rw [lf]; exact hface)
    rw [hgapface d' hd'] at hle
    obtain ⟨h1, h2⟩ := hval e he4 d hgb.edge
    have hde : d = s * D.2 - (h + H) / 2 := le_antisymm h1 hle
    have hee := h2 hde
    obtain ⟨n0, -, n2, -⟩ := levelBox_normal hw hh
    have hn : edgeNormal (levelBox w h) (faceEdge s) = (0, s) := by
      rcases hs with rfl | rfl
      · simp [faceEdge, n0]
      · rw [faceEdge, if_neg (by norm_num), n2]
    have hen : en = w := by
      obtain ⟨H0, -, H2, -⟩ := levelBox_half w h
      rw [hgb.en_eq, hee]
      obtain ⟨-, -, -, -, -, -, hv, -⟩ := rect_frame hf hface
      rw [hv, len_smul]
      rcases hs with rfl | rfl
      · simp [faceEdge, H0, len_x, abs_div, abs_of_pos hw]; ring
      · rw [faceEdge, if_neg (by norm_num), H2, len_x]; simp [abs_div, abs_of_pos hw]; ring
    refine ⟨pt1, pt2, vx, hgb.vx_lt, ?_, ?_⟩
    · rw [hen, hee, ← hde]
      congr 1
      rw [hgb.nn_eq, hee, hn]
      simp
    · have hvg := hgb.vx_gap
      rw [hee, hn, ← hDdef, hde] at hvg
      have hP : s * ((levelBox w h).getD (faceEdge s) 0).2 = h / 2 := by
        rcases hs with rfl | rfl
        · simp [faceEdge, levelBox]
        · rw [faceEdge, if_neg (by norm_num)]; simp [levelBox]
      simp only [Spec.inner, Prod.fst_sub, Prod.snd_sub, Prod.fst_add, Prod.snd_add] at hvg ⊢
      nlinarith

/-- The contact points between a level box and another one further in direction `(0, s)`: they have the vertical normal,
lie on the facing edge of the first box within the overlap of the two, and both ends of the overlap are among them. -/
structure LevelPts (s w h W H : ℝ) (D : V2) (pts : List Pt) : Prop where
  all : ∀ p ∈ pts, p.normal = (0, -s) ∧ p.nan = false ∧ p.pen = -(s * D.2 - (h + H) / 2) ∧ p.p1.2 = s * (h / 2) ∧
    p.p2 = p.p1 - D ∧ max (-(w / 2)) (D.1 - W / 2) ≤ p.p1.1 ∧ p.p1.1 ≤ min (w / 2) (D.1 + W / 2)
  left : ∃ p ∈ pts, p.p1.1 = max (-(w / 2)) (D.1 - W / 2)
  right : ∃ p ∈ pts, p.p1.1 = min (w / 2) (D.1 + W / 2)

theorem seg_horizontal {a b z : V2} {y : ℝ} (ha : a.2 = y) (hb : b.2 = y) (hz : z ∈ segment ℝ a b) :
    z.2 = y ∧ min a.1 b.1 ≤ z.1 ∧ z.1 ≤ max a.1 b.1 := by
  obtain ⟨u, v, hu, hv, huv, rfl⟩ := hz
  simp only [Prod.fst_add, Prod.snd_add, Prod.smul_fst, Prod.smul_snd, smul_eq_mul, ha, hb]
  have hv' : v = 1 - u := by linarith
  subst hv'
  refine ⟨by ring, ?_, ?_⟩
  · have h1 := mul_le_mul_of_nonneg_left (min_le_left a.1 b.1) hu
    have h2 := mul_le_mul_of_nonneg_left (min_le_right a.1 b.1) hv
    linarith
  · have h1 := mul_le_mul_of_nonneg_left (le_max_left a.1 b.1) hu
    have h2 := mul_le_mul_of_nonneg_left (le_max_right a.1 b.1) hv
    linarith

theorem mem_seg_horizontal {a b z : V2} (hab : a.1 ≤ b.1) (h1 : a.1 ≤ z.1) (h2 : z.1 ≤ b.1) (ha : a.2 = z.2)
    (hb : b.2 = z.2) : z ∈ segment ℝ a b := by
  rcases hab.eq_or_lt with h | h
  · have : z = a := by ext <;> [linarith; exact ha.symm]
    rw [this]
    exact left_mem_segment ℝ a b
  · have hp : 0 < b.1 - a.1 := by linarith
    refine ⟨(b.1 - z.1) / (b.1 - a.1), (z.1 - a.1) / (b.1 - a.1), by apply div_nonneg <;> linarith,
      by apply div_nonneg <;> linarith, ?_, ?_⟩
    · field_simp; ring
    · ext
      · simp only [Prod.fst_add, Prod.smul_fst, smul_eq_mul]; field_simp; ring
      · simp only [Prod.snd_add, Prod.smul_snd, smul_eq_mul, ha, hb]; field_simp; ring

/-- The manifold of two level boxes. -/
theorem level_manifold {w h W H : ℝ} (hw : 0 < w) (hW : 0 < W) (hH : 0 < H) {eps s : ℝ} {pos1 pos2 : V2}
    (hs : s = 1 ∨ s = -1) (hg : s * (pos2 - pos1).2 - (h + H) / 2 ≤ eps)
    (hk : |(pos2 - pos1).1| ≤ (w + W) / 2) {vx : ℕ} (hvx : vx < 4)
    (hv : Spec.inner (0, s) ((levelBox W H).getD vx 0) = -(H / 2)) {pts : List Pt}
    (hm : manifold eps pos1 pos2 (levelBox w h) (levelBox W H) (0, -s) vx w (faceEdge s) true = .ok pts) :
    LevelPts s w h W H (pos2 - pos1) pts := by
  have hF := levelBox_form hW hH
  have hn1 : len ((0, s) : V2) = 1 := by rw [len_y]; rcases hs with rfl | rfl <;> simp
  have hmin : ∀ v ∈ levelBox W H, Spec.inner (0, s) ((levelBox W H).getD vx 0) ≤ Spec.inner (0, s) v := by
    intro v hvm
    rw [hv]
    simp only [levelBox, List.mem_cons, List.not_mem_nil, or_false] at hvm
    rcases hs with rfl | rfl <;> rcases hvm with rfl | rfl | rfl | rfl <;> simp [Spec.inner] <;> linarith
  obtain ⟨inc, hinc, hinc4, hcc⟩ := rect_incident hF hn1 hvx hmin
  obtain ⟨n0, n1, n2, n3⟩ := levelBox_normal hW hH
  obtain ⟨H0, H1, H2, H3⟩ := levelBox_half W H
  have hinc' : inc = faceEdge (-s) := by
    have aW : |W| = W := abs_of_pos hW
    have aH : |H| = H := abs_of_pos hH
    interval_cases inc
    · rcases hs with rfl | rfl
      · exfalso
        rw [n0, H0, len_x] at hcc
        simp [Spec.inner] at hcc
        linarith
      · simp [faceEdge]
    · exfalso
      rw [n1, H1, len_y] at hcc
      rcases hs with rfl | rfl <;> simp [Spec.inner, abs_div, aH, hH.ne'] at hcc <;> linarith
    · rcases hs with rfl | rfl
      · rw [faceEdge, if_neg (by norm_num)]
      · exfalso
        rw [n2, H2, len_x] at hcc
        simp [Spec.inner] at hcc
        linarith
    · exfalso
      rw [n3, H3, len_y] at hcc
      rcases hs with rfl | rfl <;> simp [Spec.inner, abs_div, aH, hH.ne'] at hcc <;> linarith
  set D := pos2 - pos1 with hDdef
  have qa : (levelBox W H).getD inc 0 = (-(s * (W / 2)), -(s * (H / 2))) ∧
      (levelBox W H).getD ((inc + 1) % 4) 0 = (s * (W / 2), -(s * (H / 2))) := by
    rw [hinc']
    rcases hs with rfl | rfl
    · rw [faceEdge, if_neg (by norm_num)]; simp [levelBox]
    · rw [faceEdge, if_pos (by norm_num)]; simp [levelBox]
  have ea : vget (levelBox W H) inc + pos2 - pos1 = (D.1 - s * (W / 2), D.2 - s * (H / 2)) := by
    rw [add_sub_assoc, ← hDdef]
    change (levelBox W H).getD inc 0 + D = _
    rw [qa.1]; ext <;> simp <;> ring
  have eb : vget (levelBox W H) ((inc + 1) % (levelBox W H).length) + pos2 - pos1 =
      (D.1 + s * (W / 2), D.2 - s * (H / 2)) := by
    rw [add_sub_assoc, ← hDdef]
    change (levelBox W H).getD ((inc + 1) % 4) 0 + D = _
    rw [qa.2]; ext <;> simp <;> ring
  set a : V2 := (D.1 - s * (W / 2), D.2 - s * (H / 2)) with hadef
  set b : V2 := (D.1 + s * (W / 2), D.2 - s * (H / 2)) with hbdef
  set lo := max (-(w / 2)) (D.1 - W / 2) with hlo
  set hi := min (w / 2) (D.1 + W / 2) with hhi
  obtain ⟨k1, k2⟩ := abs_le.1 hk
  have lohi : lo ≤ hi := by
    rw [hlo, hhi, max_le_iff, le_min_iff, le_min_iff]
    exact ⟨⟨by linarith, by linarith⟩, ⟨by linarith, by linarith⟩⟩
  have bl1 : -(w / 2) ≤ lo := le_max_left _ _
  have bl2 : D.1 - W / 2 ≤ lo := le_max_right _ _
  have bh1 : hi ≤ w / 2 := min_le_left _ _
  have bh2 : hi ≤ D.1 + W / 2 := min_le_right _ _
  have inseg : ∀ x, lo ≤ x → x ≤ hi → ((x, D.2 - s * (H / 2)) : V2) ∈ segment ℝ a b := by
    intro x h1 h2
    rcases hs with rfl | rfl
    · exact mem_seg_horizontal (by simp only [hadef, hbdef]; linarith) (by simp only [hadef]; linarith)
        (by simp only [hbdef]; linarith) rfl rfl
    · rw [segment_symm]
      exact mem_seg_horizontal (by simp only [hadef, hbdef]; linarith) (by simp only [hbdef]; linarith)
        (by simp only [hadef]; linarith) rfl rfl
  have hld : ∀ z : V2, lineDist (s, 0) (w / 2) z = s * z.1 + w / 2 := by intro z; simp [lineDist, Spec.inner]
  have hld' : ∀ z : V2, lineDist (-(s, 0)) (w / 2) z = -(s * z.1) + w / 2 := by
    intro z; simp [lineDist, Spec.inner]
  have inside : ∀ x, lo ≤ x → x ≤ hi → 0 ≤ s * x + w / 2 ∧ 0 ≤ -(s * x) + w / 2 := by
    intro x h1 h2
    rcases hs with rfl | rfl <;> constructor <;> linarith
  obtain ⟨a1, b1, e1, p1, -, q1⟩ := C18_clip_inside a b (s, 0) (w / 2)
    (seg_some (inseg lo le_rfl lohi) (by rw [hld]; exact (inside lo le_rfl lohi).1))
  have on1 : ∀ x, lo ≤ x → x ≤ hi → ((x, D.2 - s * (H / 2)) : V2) ∈ segment ℝ a1 b1 := fun x h1 h2 =>
    q1 _ (inseg x h1 h2) (by rw [hld]; exact (inside x h1 h2).1)
  obtain ⟨a2, b2, e2, p2, -, q2⟩ := C18_clip_inside a1 b1 (-(s, 0)) (w / 2)
    (seg_some (on1 lo le_rfl lohi) (by rw [hld']; exact (inside lo le_rfl lohi).2))
  have on2 : ∀ x, lo ≤ x → x ≤ hi → ((x, D.2 - s * (H / 2)) : V2) ∈ segment ℝ a2 b2 := fun x h1 h2 =>
    q2 _ (on1 x h1 h2) (by rw [hld']; exact (inside x h1 h2).2)
  have hr : ∀ x ∈ [a2, b2], x.2 = D.2 - s * (H / 2) ∧ lo ≤ x.1 ∧ x.1 ≤ hi := by
    intro x hx
    obtain ⟨h3, h4⟩ := p2 x hx
    have ha := p1 a1 (by simp)
    have hb := p1 b1 (by simp)
    have hsub := (convex_segment (𝕜 := ℝ) a b).segment_subset ha.1 hb.1 h3
    have h5 : 0 ≤ lineDist (s, 0) (w / 2) x := by
      obtain ⟨u, v, hu, hv, huv, he⟩ := seg_combo h3 (s, 0) (w / 2)
      rw [he]
      exact add_nonneg (mul_nonneg hu ha.2) (mul_nonneg hv hb.2)
    rw [hld'] at h4
    rw [hld] at h5
    obtain ⟨hy, hx1, hx2⟩ := seg_horizontal (y := D.2 - s * (H / 2)) rfl rfl hsub
    refine ⟨hy, ?_, ?_⟩
    · rw [hlo, max_le_iff]
      rcases hs with rfl | rfl
      · refine ⟨by linarith, le_trans ?_ hx1⟩
        simp only [hadef, hbdef, le_min_iff]; constructor <;> linarith
      · refine ⟨by linarith, le_trans ?_ hx1⟩
        simp only [hadef, hbdef, le_min_iff]; constructor <;> linarith
    · rw [hhi, le_min_iff]
      rcases hs with rfl | rfl
      · refine ⟨by linarith, le_trans hx2 ?_⟩
        simp only [hadef, hbdef, max_le_iff]; constructor <;> linarith
      · refine ⟨by linarith, le_trans hx2 ?_⟩
        simp only [hadef, hbdef, max_le_iff]; constructor <;> linarith
  obtain ⟨pts', hp, hmem⟩ := emitPts_some eps ((0, s) : V2) ((levelBox w h).getD (faceEdge s) 0) pos1 pos2 true [a2, b2]
  have hpts : pts = pts' := by
    unfold manifold at hm
    have e0 : -((0, -s) : V2) = (0, s) := by ext <;> simp
    have e0' : left_orthogonal ((0, s) : V2) = (s, 0) := by ext <;> simp [left_orthogonal]
    simp only [e0, hinc, ea, eb, e0', e1, e2] at hm
    rw [show [some a2, some b2] = [a2, b2].map some from rfl] at hm
    change emitPts eps (0, s) ((levelBox w h).getD (faceEdge s) 0) pos1 pos2 true _ = _ at hm
    rw [hp] at hm
    exact (Except.ok.inj hm).symm
  have hss : s * s = 1 := by rcases hs with rfl | rfl <;> norm_num
  have hP : s * ((levelBox w h).getD (faceEdge s) 0).2 = h / 2 := by
    rcases hs with rfl | rfl
    · simp [faceEdge, levelBox]
    · rw [faceEdge, if_neg (by norm_num)]; simp [levelBox]
  have hdist : ∀ v : V2, v.2 = D.2 - s * (H / 2) →
      Spec.inner (0, s) (v - (levelBox w h).getD (faceEdge s) 0) = s * D.2 - (h + H) / 2 := by
    intro v hv
    simp only [Spec.inner, Prod.fst_sub, Prod.snd_sub, hv]
    linear_combination -hP - (H / 2) * hss
  have hone : ∀ v ∈ [a2, b2], emitOne ((0, s) : V2) ((levelBox w h).getD (faceEdge s) 0) pos1 pos2 true v ∈ pts := by
    intro v hv
    rw [hpts, hmem]
    exact ⟨v, hv, by rw [hdist v (hr v hv).1]; exact hg, rfl⟩
  have hfst : ∀ v ∈ [a2, b2], (emitOne ((0, s) : V2) ((levelBox w h).getD (faceEdge s) 0) pos1 pos2 true v).p1.1 = v.1 := by
    intro v hv
    simp [emitOne]
  have ends : ∀ x, lo ≤ x → x ≤ hi → min a2.1 b2.1 ≤ x ∧ x ≤ max a2.1 b2.1 := by
    intro x h1 h2
    exact (seg_horizontal (hr a2 (by simp)).1 (hr b2 (by simp)).1 (on2 x h1 h2)).2
  obtain ⟨-, ra1, ra2⟩ := hr a2 (by simp)
  obtain ⟨-, rb1, rb2⟩ := hr b2 (by simp)
  refine ⟨?_, ?_, ?_⟩
  · intro p hp'
    rw [hpts, hmem] at hp'
    obtain ⟨v, hv, -, rfl⟩ := hp'
    obtain ⟨r1, r2, r3⟩ := hr v hv
    have hd := hdist v r1
    simp only [emitOne, hd, if_true]
    refine ⟨by ext <;> simp, trivial, trivial, ?_, ?_,
      by simpa only [Prod.fst_add, Prod.smul_fst, smul_eq_mul, mul_zero, add_zero] using r2,
      by simpa only [Prod.fst_add, Prod.smul_fst, smul_eq_mul, mul_zero, add_zero] using r3⟩
    · simp only [Prod.snd_add, Prod.smul_snd, smul_eq_mul, r1]
      linear_combination (-D.2) * hss
    · rw [hDdef]; abel
  · rcases min_choice a2.1 b2.1 with hmn | hmn
    · refine ⟨_, hone a2 (by simp), ?_⟩
      rw [hfst a2 (by simp)]
      have := (ends lo le_rfl lohi).1
      rw [hmn] at this
      linarith
    · refine ⟨_, hone b2 (by simp), ?_⟩
      rw [hfst b2 (by simp)]
      have := (ends lo le_rfl lohi).1
      rw [hmn] at this
      linarith
  · rcases max_choice a2.1 b2.1 with hmn | hmn
    · refine ⟨_, hone a2 (by simp), ?_⟩
      rw [hfst a2 (by simp)]
      have := (ends hi lohi le_rfl).2
      rw [hmn] at this
      linarith
    · refine ⟨_, hone b2 (by simp), ?_⟩
      rw [hfst b2 (by simp)]
      have := (ends hi lohi le_rfl).2
      rw [hmn] at this
      linarith

/-- The hull-hull test of two level boxes one above the other. -/
theorem level_hullHull {w h W H : ℝ} (hw : 0 < w) (hh : 0 < h) (hW : 0 < W) (hH : 0 < H) {eps s : ℝ} {pos1 pos2 : V2}
    (hs : s = 1 ∨ s = -1) (hD : 0 < s * (pos2 - pos1).2) (hg : s * (pos2 - pos1).2 - (h + H) / 2 ≤ eps)
    (hk : |(pos2 - pos1).1| - (w + W) / 2 < s * (pos2 - pos1).2 - (h + H) / 2)
    (hk' : |(pos2 - pos1).1| ≤ (w + W) / 2) {i1 i2 : ℕ} {f f' : Finder} {pts : List Pt}
    (hc : hullHull eps pos1 pos2 (levelBox w h) (levelBox W H) i1 i2 f = .ok (f', pts)) :
    LevelPts s w h W H (pos2 - pos1) pts := by
  unfold hullHull at hc
  cases hc1 : test_separations eps pos1 pos2 (levelBox w h) (levelBox W H) (f.sat i1) with
  | error e => rw [hc1] at hc; cases hc
  | ok c1 =>
    obtain ⟨pt1, pt2, vx, hvx, rfl, hv⟩ := level_test hw hh hW hH hs hD hg hk hc1
    rw [hc1] at hc
    simp only at hc
    rw [if_neg (by exact not_lt.2 hg : ¬ (Sep.best (s * (pos2 - pos1).2 - (h + H) / 2) pt1 pt2 (0, -s) vx w
      (faceEdge s)).dist > eps)] at hc
    have e1 : (pos1 - pos2).1 = -(pos2 - pos1).1 := by simp
    have e2 : (pos1 - pos2).2 = -(pos2 - pos1).2 := by simp
    cases hc2 : test_separations eps pos2 pos1 (levelBox W H) (levelBox w h) 
        ((f.setSat i1 (Sep.best (s * (pos2 - pos1).2 - (h + H) / 2) pt1 pt2 (0, -s) vx w (faceEdge s)).edge).sat i2) with
    | error e => rw [hc2] at hc; cases hc
    | ok c2 =>
      obtain ⟨pt1', pt2', vx', hvx', rfl, hv'⟩ := level_test (s := -s) hW hH hw hh
        (by rcases hs with rfl | rfl <;> norm_num) (by rw [e2]; linarith) (by rw [e2]; linarith)
        (by rw [e1, e2, abs_neg]; linarith) hc2
      rw [hc2] at hc
      simp only at hc
      have hd2 : (-s) * (pos1 - pos2).2 - (H + h) / 2 = s * (pos2 - pos1).2 - (h + H) / 2 := by rw [e2]; ring
      rw [if_neg (by exact not_lt.2 (by change (-s) * (pos1 - pos2).2 - (H + h) / 2 ≤ eps; rw [hd2]; exact hg)),
        if_neg (by
          exact not_lt.2 (by
            change (-s) * (pos1 - pos2).2 - (H + h) / 2 ≤ s * (pos2 - pos1).2 - (h + H) / 2; rw [hd2]))] at hc
      cases hmf : manifold eps pos1 pos2 (levelBox w h) (levelBox W H) (0, -s) vx w (faceEdge s) true with
      | error e => rw [hmf] at hc; cases hc
      | ok pts' =>
        rw [hmf] at hc
        have : pts' = pts := (Prod.mk.inj (Except.ok.inj hc)).2
        rw [← this]
        exact level_manifold hw hW hH hs hg hk' hvx hv hmf

end LcpPhysics
