import Verif.Lemmas.RectFrame
import Verif.Props.Contacts
import Verif.Props.Bodies

/-! # C19, C66: contact points between hulls and rectangles -/

noncomputable section

namespace LcpPhysics
open Spec

/-- The contact point made from a clipped vertex. -/
def emitOne (n rv rp ip : V2) (first : Bool) (v : V2) : Pt :=
  let pt1 := v + (-inner n (v - rv)) • n
  if first then { normal := -n, p1 := pt1, p2 := pt1 + rp - ip, pen := -inner n (v - rv) }
  else { normal := n, p1 := pt1 + rp - ip, p2 := pt1, pen := -inner n (v - rv) }

theorem emitPts_some (eps : ℝ) (n rv rp ip : V2) (first : Bool) : ∀ vs : List V2,
    ∃ pts, emitPts eps n rv rp ip first (vs.map some) = .ok pts ∧
      ∀ p, p ∈ pts ↔ ∃ v ∈ vs, inner n (v - rv) ≤ eps ∧ p = emitOne n rv rp ip first v
  | [] => ⟨[], rfl, by simp⟩
  | v :: vs => by
    obtain ⟨pts, h, hm⟩ := emitPts_some eps n rv rp ip first vs
    rw [List.map_cons, emitPts, h]
    simp only
    by_cases hd : dot n (v - rv) ≤ eps
    · rw [if_pos hd]
      refine ⟨_, rfl, fun p => ?_⟩
      rw [List.mem_cons, hm]
      constructor
      · rintro (h | ⟨w, hw, h1, h2⟩)
        · exact ⟨v, by simp, hd, by rw [h]; cases first <;> rfl⟩
        · exact ⟨w, by simp [hw], h1, h2⟩
      · rintro ⟨w, hw, h1, h2⟩
        rcases List.mem_cons.1 hw with rfl | hw
        · left; rw [h2]; cases first <;> rfl
        · exact Or.inr ⟨w, hw, h1, h2⟩
    · rw [if_neg hd]
      refine ⟨_, rfl, fun p => ?_⟩
      rw [hm]
      constructor
      · rintro ⟨w, hw, h1, h2⟩; exact ⟨w, by simp [hw], h1, h2⟩
      · rintro ⟨w, hw, h1, h2⟩
        rcases List.mem_cons.1 hw with rfl | hw
        · exact absurd h1 hd
        · exact ⟨w, hw, h1, h2⟩

theorem seg_combo {a b z : V2} (h : z ∈ segment ℝ a b) (n : V2) (o : ℝ) :
    ∃ u v : ℝ, 0 ≤ u ∧ 0 ≤ v ∧ u + v = 1 ∧ lineDist n o z = u * lineDist n o a + v * lineDist n o b := by
  obtain ⟨u, v, hu, hv, huv, rfl⟩ := h
  refine ⟨u, v, hu, hv, huv, ?_⟩
  simp only [lineDist, inner_add_right, inner_smul_right]
  linear_combination -o * huv

theorem seg_some {a b z n : V2} {o : ℝ} (h : z ∈ segment ℝ a b) (hz : 0 ≤ lineDist n o z) :
    0 ≤ lineDist n o a ∨ 0 ≤ lineDist n o b := by
  obtain ⟨u, v, hu, hv, huv, he⟩ := seg_combo h n o
  by_contra hc
  push Not at hc
  have h1 := mul_nonpos_of_nonneg_of_nonpos hu hc.1.le
  have h2 := mul_nonpos_of_nonneg_of_nonpos hv hc.2.le
  rcases hu.eq_or_lt with h0 | h0
  · have : v = 1 := by linarith
    rw [this] at he h2
    linarith [hc.2]
  · have := mul_neg_of_pos_of_neg h0 hc.1
    linarith

/-- Both clips, when the segment has a point within both planes. -/
theorem clip_both {a b z n : V2} {o : ℝ} (h : z ∈ segment ℝ a b) (h1 : 0 ≤ lineDist n o z)
    (h2 : 0 ≤ lineDist (-n) o z) : ∃ a1 b1 a2 b2, clip_segment_to_line a b n o = [some a1, some b1] ∧
      clip_segment_to_line a1 b1 (-n) o = [some a2, some b2] ∧
      (∀ x ∈ [a2, b2], x ∈ segment ℝ a b ∧ 0 ≤ lineDist n o x ∧ 0 ≤ lineDist (-n) o x) ∧
      z ∈ segment ℝ a2 b2 := by
  obtain ⟨a1, b1, e1, p1, -, q1⟩ := C18_clip_inside a b n o (seg_some h h1)
  have hz1 := q1 z h h1
  obtain ⟨a2, b2, e2, p2, -, q2⟩ := C18_clip_inside a1 b1 (-n) o (seg_some hz1 h2)
  refine ⟨a1, b1, a2, b2, e1, e2, fun x hx => ?_, q2 z hz1 h2⟩
  obtain ⟨h3, h4⟩ := p2 x hx
  have ha := p1 a1 (by simp)
  have hb := p1 b1 (by simp)
  have hsub := (convex_segment (𝕜 := ℝ) a b).segment_subset ha.1 hb.1 h3
  refine ⟨hsub, ?_, h4⟩
  obtain ⟨u, v, hu, hv, huv, he⟩ := seg_combo h3 n o
  rw [he]
  exact add_nonneg (mul_nonneg hu ha.2) (mul_nonneg hv hb.2)

/-- The manifold of two rectangles when the reference edge has the largest separation, not
positive: the deepest reported point is exactly at that depth. -/
theorem rect_manifold {P Q : List V2} (hP : RectForm P) (hQ : RectForm Q) {eps : ℝ} (heps : 0 ≤ eps)
    {rp ip : V2} {e vx : ℕ} (he : e < 4) (hvx : vx < 4) {d : ℝ} (hd : EdgeGap P Q (ip - rp) e d) (hd0 : d ≤ 0)
    (hall : ∀ j < 4, ∃ d', EdgeGap Q P (rp - ip) j d' ∧ d' ≤ d)
    (hv : inner (edgeNormal P e) (Q.getD vx 0 + (ip - rp) - P.getD e 0) = d) (first : Bool) :
    ∃ pts, manifold eps rp ip P Q (-edgeNormal P e) vx (len (edgeVec P e)) e first = .ok pts ∧
      (∃ p ∈ pts, p.pen = -d) ∧ ∀ p ∈ pts, p.pen ≤ -d ∧
        p.normal = if first then -edgeNormal P e else edgeNormal P e := by
  have hcon := rect_convex hP
  have hl := rect_length hP
  have hlQ := rect_length hQ
  have hn1 : len (edgeNormal P e) = 1 := len_edgeNormal (hcon.edge_ne e (hl ▸ he))
  have least : ∀ y ∈ solid Q, d ≤ inner (edgeNormal P e) (y + (ip - rp) - P.getD e 0) :=
    fun y hy => hd.2 ⟨y, hy, rfl⟩
  have hmin : ∀ v ∈ Q, inner (edgeNormal P e) (Q.getD vx 0) ≤ inner (edgeNormal P e) v := by
    intro v hvQ
    have h1 := least v (mem_solid hvQ)
    rw [← hv] at h1
    simp only [inner_sub_right, inner_add_right] at h1
    linarith
  obtain ⟨inc, hinc, hinc4, hc⟩ := rect_incident hQ hn1 hvx hmin
  have hall' : ∀ j < 4, ∃ d', EdgeGap Q P (-(ip - rp)) j d' ∧ d' ≤ d := by
    rw [neg_sub]; exact hall
  obtain ⟨z, hz, hz1, hz2⟩ := rect_overlap_point hP hQ he hinc4 hd hd0 hall' hc
  obtain ⟨p0, pd, -, -, -, -, hev, -⟩ := rect_frame hP he
  obtain ⟨nn, -, en, eτ, -, -, -, hh⟩ := unit_frame p0 pd
  have hnn : edgeNormal P e = nn := by rw [rect_edgeNormal hP he, en]
  have hhalf : len (edgeVec P e) / 2 = len (halfEdge P e) := by
    rw [hev, len_smul, abs_of_pos two_pos]; ring
  rw [eτ] at hz1
  obtain ⟨hz3, hz4⟩ := abs_le.1 hz1
  set h := len (halfEdge P e) with hhdef
  have ea : vget Q inc + ip - rp = Q.getD inc 0 + (ip - rp) := by rw [add_sub_assoc]; rfl
  have eb : vget Q ((inc + 1) % Q.length) + ip - rp = Q.getD ((inc + 1) % 4) 0 + (ip - rp) := by
    rw [add_sub_assoc, hlQ]; rfl
  have hl1 : 0 ≤ lineDist (left_orthogonal (edgeNormal P e)) h z := by
    rw [hnn]
    simp only [lineDist, left_orthogonal, inner] at hz4 ⊢
    linarith
  have hl2 : 0 ≤ lineDist (-left_orthogonal (edgeNormal P e)) h z := by
    rw [hnn]
    simp only [lineDist, left_orthogonal, inner, Prod.fst_neg, Prod.snd_neg] at hz3 ⊢
    linarith
  obtain ⟨a1, b1, a2, b2, c1, c2, hpts, hseg⟩ := clip_both hz hl1 hl2
  have hin : ∀ x ∈ segment ℝ (Q.getD inc 0 + (ip - rp)) (Q.getD ((inc + 1) % 4) 0 + (ip - rp)),
      d ≤ inner (edgeNormal P e) (x - P.getD e 0) := by
    rintro x ⟨u, v, hu, hv', huv, rfl⟩
    have hq1 : Q.getD inc 0 ∈ Q := vget_mem (hlQ ▸ hinc4)
    have hq2 : Q.getD ((inc + 1) % 4) 0 ∈ Q := vget_mem (by rw [hlQ]; exact Nat.mod_lt _ (by norm_num))
    have hy := solid_combo2 (mem_solid hq1) (mem_solid hq2) hu hv' huv
    have := least _ hy
    have ex : u • (Q.getD inc 0 + (ip - rp)) + v • (Q.getD ((inc + 1) % 4) 0 + (ip - rp)) =
        u • Q.getD inc 0 + v • Q.getD ((inc + 1) % 4) 0 + (u + v) • (ip - rp) := by module
    rw [ex, huv, one_smul]
    exact this
  obtain ⟨pts, hp, hm⟩ := emitPts_some eps (edgeNormal P e) (P.getD e 0) rp ip first [a2, b2]
  refine ⟨pts, ?_, ?_, ?_⟩
  · unfold manifold
    simp only [neg_neg, hinc, ea, eb, hhalf, c1, c2]
    exact hp
  · have hex : ∃ x ∈ [a2, b2], inner (edgeNormal P e) (x - P.getD e 0) = d := by
      have k1 := hin a2 (hpts a2 (by simp)).1
      have k2 := hin b2 (hpts b2 (by simp)).1
      obtain ⟨u, v, hu, hv', huv, he'⟩ := seg_combo hseg (edgeNormal P e) (-inner (edgeNormal P e) (P.getD e 0))
      simp only [lineDist, ← sub_eq_add_neg, ← inner_sub_right] at he'
      rw [hz2] at he'
      by_contra hno
      push Not at hno
      have k3 := lt_of_le_of_ne k1 (hno a2 (by simp)).symm
      have k4 := lt_of_le_of_ne k2 (hno b2 (by simp)).symm
      have hv0 : v = 1 - u := by linarith
      subst hv0
      rcases hu.eq_or_lt with h0 | h0
      · rw [← h0] at he'; linarith
      · have := mul_lt_mul_of_pos_left k3 h0
        have := mul_le_mul_of_nonneg_left k4.le hv'
        nlinarith
    obtain ⟨x, hx, hxd⟩ := hex
    refine ⟨_, (hm _).2 ⟨x, hx, by rw [hxd]; linarith, rfl⟩, ?_⟩
    cases first <;> simp only [emitOne, hxd, if_true, Bool.false_eq_true, if_false]
  · intro p hp
    obtain ⟨v, hv, hle, rfl⟩ := (hm p).1 hp
    have := hin v (hpts v hv).1
    cases first <;> simp only [emitOne] <;> exact ⟨by simpa using this, by simp⟩

theorem rot_rectForm {dims : V2} (hd : 0 < dims.1 * dims.2) (θ : ℝ) :
    RectForm ([((dims.1 / 2, dims.2 / 2) : V2), (-(dims.1 / 2), dims.2 / 2),
       (-(dims.1 / 2), -(dims.2 / 2)), (dims.1 / 2, -(dims.2 / 2))].map (rot θ)) := by
  refine ⟨rot θ (dims.1 / 2, dims.2 / 2), rot θ (-(dims.1 / 2), dims.2 / 2), ?_, ?_, ?_⟩
  · simp only [List.map_cons, List.map_nil, ← rot_map_neg]
    simp
  · rw [rot_inner, rot_inner]; simp only [inner]; ring
  · rw [rot_det]; simp only [det]; linarith

/-- The vertices of every rectangle body, after any history. -/
theorem rect_body_form {pos : Arg} {dims : V2} {a : Params} {b : Body} (h : mkRect pos dims a = .ok b)
    (ops : List BodyOp) : RectForm (b.run ops).verts := by
  rw [C05_rect_rigid pos dims a b h ops]
  exact rot_rectForm ((C06_rect_accepts_iff pos dims a).1 ⟨b, h⟩) _

/-- The hull-hull test on rectangles, given that both separation tests return. -/
theorem rect_hullHull {P Q : List V2} (hP : RectForm P) (hQ : RectForm Q) {eps : ℝ} (heps : 0 ≤ eps)
    {pos1 pos2 : V2} (i1 i2 : ℕ) (f : Finder) {c1 c2 : Sep}
    (h1 : test_separations eps pos1 pos2 P Q (f.sat i1) = .ok c1)
    (h2 : test_separations eps pos2 pos1 Q P ((f.setSat i1 c1.edge).sat i2) = .ok c2)
    (hov : ∃ x ∈ solid P, ∃ y ∈ solid Q, x + pos1 = y + pos2) :
    ∃ f' pts, hullHull eps pos1 pos2 P Q i1 i2 f = .ok (f', pts) ∧
      ∃ p ∈ pts, 0 ≤ p.pen ∧ (∀ p' ∈ pts, p'.pen ≤ p.pen ∧ p'.normal = p.normal) ∧
        (∀ u, len u ≤ p.pen → ∃ x ∈ solid P, ∃ y ∈ solid Q, x + pos1 + u = y + pos2) ∧
        ∀ x ∈ solid P, ∀ y ∈ solid Q, 0 ≤ inner p.normal (x + pos1 + p.pen • p.normal - (y + pos2)) := by
  have hPc := rect_convex hP
  have hQc := rect_convex hQ
  have lP := rect_length hP
  have lQ := rect_length hQ
  obtain ⟨x0, hx0, y0, hy0, hxy⟩ := hov
  have nogap1 : ∀ d i, EdgeGap P Q (pos2 - pos1) i d → i < P.length → d ≤ 0 := by
    intro d i hg hi
    have := edgeGap_dist hPc hi hg hx0 hy0
    have e : y0 + (pos2 - pos1) - x0 = 0 := by
      have : y0 + (pos2 - pos1) - x0 = (y0 + pos2) - (x0 + pos1) := by abel
      rw [this, hxy, sub_self]
    rwa [Spec.dist, e, len_eq_zero.2 rfl] at this
  have nogap2 : ∀ d i, EdgeGap Q P (pos1 - pos2) i d → i < Q.length → d ≤ 0 := by
    intro d i hg hi
    have := edgeGap_dist hQc hi hg hy0 hx0
    have e : x0 + (pos1 - pos2) - y0 = 0 := by
      have : x0 + (pos1 - pos2) - y0 = (x0 + pos1) - (y0 + pos2) := by abel
      rw [this, hxy, sub_self]
    rwa [Spec.dist, e, len_eq_zero.2 rfl] at this
  rcases test_sep_spec h1 with ⟨d, i, rfl, hi, hg, hgt, -⟩ | ⟨d1, a1, b1, n1, v1, l1, e1, rfl, he1, hg1, -, hall1⟩
  · exact absurd (nogap1 d i hg hi) (not_le.2 (lt_of_le_of_lt heps hgt))
  rcases test_sep_spec h2 with ⟨d, i, rfl, hi, hg, hgt, -⟩ | ⟨d2, a2, b2, n2, v2, l2, e2, rfl, he2, hg2, -, hall2⟩
  · exact absurd (nogap2 d i hg hi) (not_le.2 (lt_of_le_of_lt heps hgt))
  have hd1 := nogap1 _ _ hg1.edge he1
  have hd2 := nogap2 _ _ hg2.edge he2
  obtain ⟨dep, sep1, sep2⟩ := C64_penetration_depth eps P Q hPc (rect_noThreeCollinear hP) hQc
    (rect_noThreeCollinear hQ) pos1 pos2 _ _ d1 d2 a1 b1 n1 a2 b2 n2 v1 e1 v2 e2 l1 l2 h1 h2 _ rfl
  have g1 : ¬ (Sep.best d1 a1 b1 n1 v1 l1 e1).dist > eps := not_lt.2 (by simp only [Sep.dist]; linarith)
  have g2 : ¬ (Sep.best d2 a2 b2 n2 v2 l2 e2).dist > eps := not_lt.2 (by simp only [Sep.dist]; linarith)
  have dep' : ∀ u, len u ≤ -max d1 d2 → ∃ x ∈ solid P, ∃ y ∈ solid Q, x + pos1 + u = y + pos2 := by
    intro u hu
    obtain ⟨x, hx, y, hy, h⟩ := dep (-u) (by rw [len_neg]; exact hu)
    exact ⟨x, hx, y, hy, by rw [h]; abel⟩
  unfold hullHull
  rw [h1]
  simp only
  rw [if_neg g1, h2]
  simp only
  rw [if_neg g2]
  by_cases g3 : d2 > d1
  · have hmax : max d1 d2 = d2 := max_eq_right g3.le
    obtain ⟨pts, hm, ⟨p, hp, hpen⟩, hbound⟩ := rect_manifold hQ hP heps (rp := pos2) (ip := pos1)
      (lQ ▸ he2) (lP ▸ hg2.vx_lt) hg2.edge hd2 (fun j hj => by
        obtain ⟨d', a, b⟩ := hall1 j (lP.symm ▸ hj); exact ⟨d', a, b.trans g3.le⟩) hg2.vx_gap false
    rw [if_pos (by exact g3 : (Sep.best d2 a2 b2 n2 v2 l2 e2).dist > (Sep.best d1 a1 b1 n1 v1 l1 e1).dist)]
    rw [hg2.nn_eq, hg2.en_eq, hm]
    refine ⟨_, pts, rfl, p, hp, by rw [hpen]; linarith, fun p' hp' => ?_, ?_, ?_⟩
    · obtain ⟨ha, hb⟩ := hbound p' hp'
      rw [hpen, hb, (hbound p hp).2]; exact ⟨ha, rfl⟩
    · rw [hpen, ← hmax]; exact dep'
    · intro x hx y hy
      have := sep2 g3 x hx y hy
      rw [hmax] at this
      have hnn : p.normal = -n2 := by rw [(hbound p hp).2, hg2.nn_eq]; simp
      rw [hpen, hnn]
      have e : x + pos1 + (-d2) • -n2 - (y + pos2) = x + pos1 - (y + pos2 + (-d2) • n2) := by
        rw [smul_neg]; abel
      rw [e]; exact this
  · have hle := not_lt.1 g3
    have hmax : max d1 d2 = d1 := max_eq_left hle
    obtain ⟨pts, hm, ⟨p, hp, hpen⟩, hbound⟩ := rect_manifold hP hQ heps (rp := pos1) (ip := pos2)
      (lP ▸ he1) (lQ ▸ hg1.vx_lt) hg1.edge hd1 (fun j hj => by
        obtain ⟨d', a, b⟩ := hall2 j (lQ.symm ▸ hj); exact ⟨d', a, b.trans hle⟩) hg1.vx_gap true
    rw [if_neg (by exact g3 : ¬ (Sep.best d2 a2 b2 n2 v2 l2 e2).dist > (Sep.best d1 a1 b1 n1 v1 l1 e1).dist)]
    rw [hg1.nn_eq, hg1.en_eq, hm]
    refine ⟨_, pts, rfl, p, hp, by rw [hpen]; linarith, fun p' hp' => ?_, ?_, ?_⟩
    · obtain ⟨ha, hb⟩ := hbound p' hp'
      rw [hpen, hb, (hbound p hp).2]; exact ⟨ha, rfl⟩
    · rw [hpen, ← hmax]; exact dep'
    · intro x hx y hy
      have := sep1 hle x hx y hy
      rw [hmax] at this
      have hnn : p.normal = n1 := by rw [(hbound p hp).2, hg1.nn_eq]; simp
      rw [hpen, hnn]
      have e : x + pos1 + (-d1) • n1 - (y + pos2) = -(y + pos2 + (-d1) • -n1 - (x + pos1)) := by
        rw [smul_neg]; abel
      rw [e, inner_neg_right, ← inner_neg_left]; exact this

theorem inner_abs_le (a b : V2) : |inner a b| ≤ len a * len b := by
  rw [abs_le]
  refine ⟨?_, inner_le_len_mul a b⟩
  have := inner_le_len_mul a (-b)
  rw [inner_neg_right, len_neg] at this
  linarith

/-- The separation test of two rectangles returns when they are not astronomically large. -/
theorem rect_test_total {P Q : List V2} (hP : RectForm P) (hQ : RectForm Q) {r s : ℝ}
    (hr : ∀ v ∈ P, len v ≤ r) (hs : ∀ v ∈ Q, len v ≤ s) (hrs : r + 2 * s < 10 ^ 10) (eps : ℝ) (pos1 pos2 : V2)
    (start : ℕ) : ∃ c, test_separations eps pos1 pos2 P Q start = .ok c := by
  have lP := rect_length hP
  have lQ := rect_length hQ
  apply C17_test_total eps P Q pos1 pos2 start (rect_convex hP).edge_ne (rect_zero_mem hQ)
  have gapEx : ∀ i < 4, ∃ d, EdgeGap P Q (pos2 - pos1) i d := by
    intro i hi
    obtain ⟨y, k, hk⟩ := get_support_total Q (-edgeNormal P i) (rect_zero_mem hQ)
    exact ⟨_, (support_edgeGap hk).1⟩
  obtain ⟨d0, h0⟩ := gapEx 0 (by norm_num)
  obtain ⟨d2, h2⟩ := gapEx 2 (by norm_num)
  have v0 := rect_gap_value hP hQ (by norm_num : (0 : ℕ) < 4) (by norm_num : (0 : ℕ) < 4) h0
  have v2 := rect_gap_value hP hQ (by norm_num : (2 : ℕ) < 4) (by norm_num : (0 : ℕ) < 4) h2
  obtain ⟨-, -, -, -, m1, f1, -⟩ := rect_frame hP (by norm_num : (0 : ℕ) < 4)
  obtain ⟨-, -, -, -, m2, -⟩ := rect_frame hP (by norm_num : (1 : ℕ) < 4)
  have m02 : midEdge P 2 = -midEdge P 0 := by
    have e1 : (1 + 1) % 4 = 2 := rfl
    have e0 : (0 + 1) % 4 = 1 := rfl
    rw [e1] at m2; rw [e0] at f1
    rw [m2, f1]
  have n02 : edgeNormal P 2 = -edgeNormal P 0 := by
    rw [rect_edgeNormal hP (by norm_num), rect_edgeNormal hP (by norm_num), m02, len_neg, smul_neg]
  rw [n02, m02, len_neg, inner_neg_left, inner_neg_left, inner_neg_left, abs_neg, abs_neg] at v2
  have hn : len (edgeNormal P 0) = 1 := len_edgeNormal ((rect_convex hP).edge_ne 0 (by omega))
  have half : ∀ a b : V2, ∀ r : ℝ, len a ≤ r → len b ≤ r → len ((1 / 2 : ℝ) • (a + b)) ≤ r ∧
      len ((1 / 2 : ℝ) • (b - a)) ≤ r := by
    intro a b r ha hb
    rw [len_smul, len_smul, abs_of_pos (by norm_num : (0 : ℝ) < 1 / 2)]
    have h1 := len_add_le a b
    have h2 := len_add_le b (-a)
    rw [len_neg, ← sub_eq_add_neg] at h2
    constructor <;> linarith
  have g : ∀ {P : List V2}, P.length = 4 → ∀ i < 4, P.getD i 0 ∈ P := fun h i hi => vget_mem (h ▸ hi)
  have hA : len (midEdge P 0) ≤ r :=
    (half _ _ r (hr _ (g lP 0 (by norm_num))) (hr _ (g lP 1 (by norm_num)))).1
  have hC : len (midEdge Q 0) ≤ s ∧ len (halfEdge Q 0) ≤ s :=
    half _ _ s (hs _ (g lQ 0 (by norm_num))) (hs _ (g lQ 1 (by norm_num)))
  have a1 := inner_abs_le (edgeNormal P 0) (midEdge Q 0)
  have a2 := inner_abs_le (edgeNormal P 0) (halfEdge Q 0)
  rw [hn, one_mul] at a1 a2
  by_cases hsgn : 0 ≤ inner (edgeNormal P 0) (pos2 - pos1)
  · exact ⟨0, by omega, d0, h0, by linarith⟩
  · exact ⟨2, by omega, d2, h2, by linarith⟩

/-- C66: two overlapping rectangles, in any pose reached by any history, always get a contact. All
its points share one normal, and the deepest one reports exactly the penetration depth: moving the
first rectangle along the normal by that much separates them, and they still meet after every
displacement that is not longer. -/
theorem C66_rect_contact_depth (q1 q2 : Arg) (dims1 dims2 : V2) (a1 a2 : Params) (b1 b2 : Body)
    (h1 : mkRect q1 dims1 a1 = .ok b1) (h2 : mkRect q2 dims2 a2 = .ok b2) (ops1 ops2 : List BodyOp)
    (hbig : len dims1 + len dims2 < 10 ^ 10) (eps : ℝ) (heps : 0 ≤ eps) (i1 i2 : ℕ) (f : Finder)
    (hov : ∃ x ∈ solid (b1.run ops1).verts, ∃ y ∈ solid (b2.run ops2).verts,
      x + (b1.run ops1).pos = y + (b2.run ops2).pos) :
    ∃ f' pts, hullHull eps (b1.run ops1).pos (b2.run ops2).pos (b1.run ops1).verts (b2.run ops2).verts
        i1 i2 f = .ok (f', pts) ∧
      ∃ p ∈ pts, 0 ≤ p.pen ∧ (∀ p' ∈ pts, p'.pen ≤ p.pen ∧ p'.normal = p.normal) ∧
        (∀ u, len u ≤ p.pen → ∃ x ∈ solid (b1.run ops1).verts, ∃ y ∈ solid (b2.run ops2).verts,
          x + (b1.run ops1).pos + u = y + (b2.run ops2).pos) ∧
        ∀ x ∈ solid (b1.run ops1).verts, ∀ y ∈ solid (b2.run ops2).verts,
          0 ≤ inner p.normal (x + (b1.run ops1).pos + p.pen • p.normal - (y + (b2.run ops2).pos)) := by
  have size : ∀ {q : Arg} {dims : V2} {a : Params} {b : Body} (_ : mkRect q dims a = .ok b)
      (ops : List BodyOp), ∀ v ∈ (b.run ops).verts, len v ≤ len dims / 2 := by
    intro q dims a b h ops v hv
    rw [C05_rect_rigid q dims a b h ops] at hv
    obtain ⟨w, hw, rfl⟩ := List.mem_map.1 hv
    rw [rot_len]
    have e : len dims / 2 = len ((dims.1 / 2, dims.2 / 2) : V2) := by
      have : ((dims.1 / 2, dims.2 / 2) : V2) = (1 / 2 : ℝ) • dims := by ext <;> simp <;> ring
      rw [this, len_smul, abs_of_pos (by norm_num)]; ring
    rw [e]
    simp only [List.mem_cons, List.not_mem_nil, or_false] at hw
    rcases hw with rfl | rfl | rfl | rfl <;> simp [len]
  have hP := rect_body_form h1 ops1
  have hQ := rect_body_form h2 ops2
  have n1 := len_nonneg dims1
  have n2 := len_nonneg dims2
  obtain ⟨c1, hc1⟩ := rect_test_total hP hQ (size h1 ops1) (size h2 ops2) (by linarith) eps
    (b1.run ops1).pos (b2.run ops2).pos (f.sat i1)
  obtain ⟨c2, hc2⟩ := rect_test_total hQ hP (size h2 ops2) (size h1 ops1) (by linarith) eps
    (b2.run ops2).pos (b1.run ops1).pos ((f.setSat i1 c1.edge).sat i2)
  exact rect_hullHull hP hQ heps i1 i2 f hc1 hc2 hov

/-- Non-vacuity: two unit squares at the same place. -/
example (f : Finder) : ∃ b, mkRect (.two 0) (1, 1) {} = .ok b ∧
    ∃ f' pts, hullHull 0 b.pos b.pos b.verts b.verts 0 1 f = .ok (f', pts) ∧ ∃ p ∈ pts, 0 ≤ p.pen := by
  obtain ⟨b, hb⟩ := (C06_rect_accepts_iff (.two 0) (1, 1) {}).2 (by norm_num)
  have hz := rect_zero_mem (rect_body_form hb [])
  have hl : len ((1 : ℝ), (1 : ℝ)) ≤ 2 := by
    rw [len, show (2 : ℝ) = Real.sqrt (2 ^ 2) from (Real.sqrt_sq (by norm_num)).symm]
    exact Real.sqrt_le_sqrt (by norm_num)
  obtain ⟨f', pts, h, p, hp, h0, -⟩ := C66_rect_contact_depth _ _ _ _ _ _ b b hb hb [] []
    (by linarith [(by norm_num : (4 : ℝ) < 10 ^ 10)]) 0 le_rfl 0 1 f ⟨0, hz, 0, hz, rfl⟩
  exact ⟨b, hb, f', pts, h, p, hp, h0⟩

/-! ## C19 -/

/-- Every point of a clipped segment is an end point on the inner side or lies on the line. -/
theorem clip_mem {v0 v1 n v : V2} {o : ℝ} (h : some v ∈ clip_segment_to_line v0 v1 n o) :
    ((v = v0 ∨ v = v1) ∧ 0 ≤ lineDist n o v) ∨ lineDist n o v = 0 := by
  have e0 : dot n v0 + o = lineDist n o v0 := rfl
  have e1 : dot n v1 + o = lineDist n o v1 := rfl
  unfold clip_segment_to_line at h
  simp only [e0, e1] at h
  set d0 := lineDist n o v0 with hd0
  set d1 := lineDist n o v1 with hd1
  have kept : some v ∈ (if d0 ≥ 0 then [some v0] else []) ++ (if d1 ≥ 0 then [some v1] else []) →
      ((v = v0 ∨ v = v1) ∧ 0 ≤ lineDist n o v) ∨ lineDist n o v = 0 := by
    intro h
    left
    rcases List.mem_append.1 h with h | h
    · by_cases h0 : d0 ≥ 0
      · rw [if_pos h0] at h
        have : v = v0 := by simpa using h
        exact ⟨Or.inl this, by rw [this]; exact h0⟩
      · rw [if_neg h0] at h; simp at h
    · by_cases h0 : d1 ≥ 0
      · rw [if_pos h0] at h
        have : v = v1 := by simpa using h
        exact ⟨Or.inr this, by rw [this]; exact h0⟩
      · rw [if_neg h0] at h; simp at h
  generalize ((if d0 ≥ 0 then [some v0] else []) ++ (if d1 ≥ 0 then [some v1] else []) : List (Option V2)) = L
    at h kept
  by_cases hc : d0 * d1 < 0 ∨ L.length < 2
  · rw [if_pos hc] at h
    by_cases hz : d0 - d1 = 0
    · rw [if_pos hz] at h
      exact kept (by simpa using h)
    · rw [if_neg hz] at h
      rcases List.mem_append.1 h with h | h
      · exact kept h
      · right
        have hv : v = v0 + (d0 / (d0 - d1)) • (v1 - v0) := by simpa using h
        rw [hv, lineDist_combo, ← hd0, ← hd1]
        field_simp; ring
  · rw [if_neg hc] at h
    exact kept h

/-- The points of an emitted manifold come from finite clipped vertices. -/
theorem emitPts_origin {eps : ℝ} {n rv rp ip : V2} {first : Bool} : ∀ {vs : List (Option V2)} {pts : List Pt},
    emitPts eps n rv rp ip first vs = .ok pts →
      ∀ p ∈ pts, ∃ v, some v ∈ vs ∧ inner n (v - rv) ≤ eps ∧ p = emitOne n rv rp ip first v
  | [], pts, h, p, hp => by simp only [emitPts] at h; injection h with h; subst h; simp at hp
  | none :: vs, pts, h, p, hp => by simp [emitPts] at h
  | some v :: vs, pts, h, p, hp => by
    unfold emitPts at h
    cases hr : emitPts eps n rv rp ip first vs with
    | error e => rw [hr] at h; cases h
    | ok rest =>
      rw [hr] at h
      simp only at h
      have ih := emitPts_origin hr
      by_cases hd : dot n (v - rv) ≤ eps
      · rw [if_pos hd] at h
        injection h with h
        subst h
        rcases List.mem_cons.1 hp with rfl | hp
        · exact ⟨v, by simp, hd, by cases first <;> rfl⟩
        · obtain ⟨w, h1, h2⟩ := ih p hp
          exact ⟨w, by simp [h1], h2⟩
      · rw [if_neg hd] at h
        injection h with h
        subst h
        obtain ⟨w, h1, h2⟩ := ih p hp
        exact ⟨w, by simp [h1], h2⟩

/-- A manifold on a reference edge whose two ends are equally far from the origin: every point lies
on the reference edge. -/
theorem manifold_on_edge {eps : ℝ} {rp ip : V2} {P Q : List V2} {vx e : ℕ} {first : Bool} {pts : List Pt}
    (hne : edgeVec P e ≠ 0) (hmid : len (P.getD e 0) = len (P.getD ((e + 1) % P.length) 0))
    (h : manifold eps rp ip P Q (-edgeNormal P e) vx (len (edgeVec P e)) e first = .ok pts) :
    ∀ p ∈ pts, ∃ z ∈ segment ℝ (P.getD e 0) (P.getD ((e + 1) % P.length) 0),
      (if first then p.p1 else p.p2) = z ∧
      p.normal = if first then -edgeNormal P e else edgeNormal P e := by
  have hl := len_pos hne
  set E := edgeVec P e with hE
  set a := P.getD e 0 with ha
  have hb : P.getD ((e + 1) % P.length) 0 = a + E := by rw [hE, edgeVec]; abel
  rw [hb] at hmid ⊢
  have hmid' : 2 * inner a E + inner E E = 0 := by
    have : inner a a = inner (a + E) (a + E) := by rw [← len_mul_self, ← len_mul_self, hmid]
    simp only [inner_add_left, inner_add_right, inner_comm E a] at this
    linarith
  set n := edgeNormal P e with hn
  have hnE : n = (1 / len E) • outward E := rfl
  -- the clip plane is minus the unit edge direction
  have hcp : left_orthogonal n = -((1 / len E) • E) := by
    rw [hnE]; ext <;> simp [left_orthogonal, outward]
  unfold manifold at h
  simp only [neg_neg] at h
  split at h
  · rename_i a1 b1 hclip
    intro p hp
    obtain ⟨v, hv, -, rfl⟩ := emitPts_origin h p hp
    have hsum : lineDist (left_orthogonal n) (len E / 2) v + lineDist (-left_orthogonal n) (len E / 2) v =
        len E := by
      simp only [lineDist, inner_neg_left]; ring
    have hfirst : ∀ x, x = a1 ∨ x = b1 → 0 ≤ lineDist (left_orthogonal n) (len E / 2) x := by
      intro x hx
      have hx' : some x ∈ clip_segment_to_line (vget Q (get_incident_edge n Q vx) + ip - rp)
          (vget Q ((get_incident_edge n Q vx + 1) % Q.length) + ip - rp) (left_orthogonal n) (len E / 2) := by
        rw [hclip]; rcases hx with rfl | rfl <;> simp
      rcases clip_mem hx' with h1 | h1
      · exact h1.2
      · exact h1.ge
    have hboth : 0 ≤ lineDist (left_orthogonal n) (len E / 2) v ∧
        0 ≤ lineDist (-left_orthogonal n) (len E / 2) v := by
      rcases clip_mem hv with ⟨h1, h2⟩ | h1
      · exact ⟨hfirst v h1, h2⟩
      · rw [h1] at hsum ⊢
        exact ⟨by linarith, le_rfl⟩
    rw [hcp] at hboth
    simp only [lineDist, neg_neg, inner_neg_left, inner_smul_left] at hboth
    obtain ⟨hb1, hb2⟩ := hboth
    have hlE : inner E E = len E * len E := (len_mul_self E).symm
    -- coordinate along the edge
    set k := inner E (v - a) / inner E E with hk
    have hEE : 0 < inner E E := by rw [hlE]; positivity
    have hEv : inner E (v - a) = inner E v + inner E E / 2 := by
      rw [inner_sub_right, inner_comm E a]; linarith
    have hEv1 : inner E v ≤ inner E E / 2 := by
      have : 1 / len E * inner E v ≤ len E / 2 := by linarith
      rw [one_div, inv_mul_le_iff₀ hl] at this
      rw [hlE]; linarith
    have hEv2 : -(inner E E / 2) ≤ inner E v := by
      have : 1 / len E * (-inner E v) ≤ len E / 2 := by linarith
      rw [one_div, inv_mul_le_iff₀ hl] at this
      rw [hlE]; linarith
    have hk0 : 0 ≤ k := div_nonneg (by linarith) hEE.le
    have hk1 : k ≤ 1 := by rw [hk, div_le_one hEE]; linarith
    have hz : v + (-inner n (v - a)) • n = a + k • E := by
      have key : v - a = k • E + inner n (v - a) • n := by
        have hdec : inner E E • (v - a) = inner E (v - a) • E + inner (outward E) (v - a) • outward E := by
          ext <;> simp [inner, outward] <;> ring
        have h2 : inner n (v - a) • n = (1 / inner E E * inner (outward E) (v - a)) • outward E := by
          rw [hnE, inner_smul_left, smul_smul, hlE]; congr 1; field_simp
        calc v - a = (1 / inner E E) • (inner E E • (v - a)) := by
              rw [smul_smul, one_div_mul_cancel hEE.ne', one_smul]
          _ = k • E + inner n (v - a) • n := by
              rw [hdec, h2, smul_add, smul_smul, smul_smul, hk]
              congr 2; ring
      have : v = a + (k • E + inner n (v - a) • n) := by rw [← key]; abel
      nth_rewrite 1 [this]
      rw [neg_smul]; abel
    refine ⟨a + k • E, ⟨1 - k, k, by linarith, hk0, by ring, by module⟩, ?_, ?_⟩
    · cases first <;> exact hz
    · cases first <;> rfl
  · injection h with h; subst h; simp
  · injection h with h; subst h; simp
  · cases h

/-- C19: if all vertices of a hull are equally far from its centre of mass (rectangles, regular polygons), every
contact point of a manifold with that hull as reference lies on one of its edges, with the outward normal of
that edge. -/
theorem C19_contact_on_reference_edge (eps : ℝ) (pos1 pos2 : V2) (P Q : List V2) (i1 i2 : ℕ) (f f' : Finder)
    (pts : List Pt) (r1 r2 : ℝ) (h1 : ∀ v ∈ P, len v = r1) (h2 : ∀ v ∈ Q, len v = r2)
    (h : hullHull eps pos1 pos2 P Q i1 i2 f = .ok (f', pts)) (p : Pt) (hp : p ∈ pts) :
    (∃ e < P.length, p.normal = -edgeNormal P e ∧
      p.p1 ∈ segment ℝ (P.getD e 0) (P.getD ((e + 1) % P.length) 0)) ∨
    (∃ e < Q.length, p.normal = edgeNormal Q e ∧
      p.p2 ∈ segment ℝ (Q.getD e 0) (Q.getD ((e + 1) % Q.length) 0)) := by
  unfold hullHull at h
  cases ht1 : test_separations eps pos1 pos2 P Q (f.sat i1) with
  | error e => rw [ht1] at h; cases h
  | ok c1 =>
    rw [ht1] at h
    simp only at h
    by_cases g1 : c1.dist > eps
    · rw [if_pos g1] at h
      injection h with h; injection h with _ h; subst h; simp at hp
    rw [if_neg g1] at h
    cases ht2 : test_separations eps pos2 pos1 Q P ((f.setSat i1 c1.edge).sat i2) with
    | error e => rw [ht2] at h; cases h
    | ok c2 =>
      rw [ht2] at h
      simp only at h
      by_cases g2 : c2.dist > eps
      · rw [if_pos g2] at h
        injection h with h; injection h with _ h; subst h; simp at hp
      rw [if_neg g2] at h
      by_cases g3 : c2.dist > c1.dist
      · rw [if_pos g3] at h
        rcases test_sep_spec ht2 with ⟨_, _, rfl, _⟩ | ⟨d, _, _, nn, vx, en, e, rfl, he, hg, _⟩
        · cases h
        · simp only at h
          rw [hg.nn_eq, hg.en_eq] at h
          cases hm : manifold eps pos2 pos1 Q P (-edgeNormal Q e) vx (len (edgeVec Q e)) e false with
          | error e => rw [hm] at h; cases h
          | ok pts' =>
            rw [hm] at h
            injection h with h; injection h with _ h; subst h
            have hpos : 0 < Q.length := by omega
            obtain ⟨z, hz, e1, e2⟩ := manifold_on_edge hg.edge_ne (
              (h2 _ (vget_mem he)).trans (h2 _ (vget_mem (Nat.mod_lt _ hpos))).symm) hm p hp
            simp only [Bool.false_eq_true, if_false] at e1 e2
            exact Or.inr ⟨e, he, e2, e1 ▸ hz⟩
      · rw [if_neg g3] at h
        rcases test_sep_spec ht1 with ⟨_, _, rfl, _⟩ | ⟨d, _, _, nn, vx, en, e, rfl, he, hg, _⟩
        · cases h
        · simp only at h
          rw [hg.nn_eq, hg.en_eq] at h
          cases hm : manifold eps pos1 pos2 P Q (-edgeNormal P e) vx (len (edgeVec P e)) e true with
          | error e => rw [hm] at h; cases h
          | ok pts' =>
            rw [hm] at h
            injection h with h; injection h with _ h; subst h
            have hpos : 0 < P.length := by omega
            obtain ⟨z, hz, e1, e2⟩ := manifold_on_edge hg.edge_ne (
              (h1 _ (vget_mem he)).trans (h1 _ (vget_mem (Nat.mod_lt _ hpos))).symm) hm p hp
            simp only [if_true] at e1 e2
            exact Or.inl ⟨e, he, e2, e1 ▸ hz⟩

/-- C19 for rectangle bodies after any history. -/
theorem C19_rect_contact_on_edge (q1 q2 : Arg) (dims1 dims2 : V2) (a1 a2 : Params) (b1 b2 : Body)
    (h1 : mkRect q1 dims1 a1 = .ok b1) (h2 : mkRect q2 dims2 a2 = .ok b2) (ops1 ops2 : List BodyOp)
    (eps : ℝ) (i1 i2 : ℕ) (f f' : Finder) (pts : List Pt)
    (h : hullHull eps (b1.run ops1).pos (b2.run ops2).pos (b1.run ops1).verts (b2.run ops2).verts
        i1 i2 f = .ok (f', pts)) (p : Pt) (hp : p ∈ pts) :
    p.p1 ∈ solid (b1.run ops1).verts ∨ p.p2 ∈ solid (b2.run ops2).verts := by
  have size : ∀ {q : Arg} {dims : V2} {a : Params} {b : Body} (_ : mkRect q dims a = .ok b)
      (ops : List BodyOp), ∀ v ∈ (b.run ops).verts, len v = len dims / 2 := by
    intro q dims a b h ops v hv
    rw [C05_rect_rigid q dims a b h ops] at hv
    obtain ⟨w, hw, rfl⟩ := List.mem_map.1 hv
    rw [rot_len]
    have e : len dims / 2 = len ((dims.1 / 2, dims.2 / 2) : V2) := by
      have : ((dims.1 / 2, dims.2 / 2) : V2) = (1 / 2 : ℝ) • dims := by ext <;> simp <;> ring
      rw [this, len_smul, abs_of_pos (by norm_num)]; ring
    rw [e]
    simp only [List.mem_cons, List.not_mem_nil, or_false] at hw
    rcases hw with rfl | rfl | rfl | rfl <;> simp [len]
  have seg : ∀ (P : List V2) (e : ℕ) (x : V2), e < P.length →
      x ∈ segment ℝ (P.getD e 0) (P.getD ((e + 1) % P.length) 0) → x ∈ solid P := by
    intro P e x he hx
    exact (solid_convex P).segment_subset (mem_solid (vget_mem he))
      (mem_solid (vget_mem (Nat.mod_lt _ (by omega)))) hx
  rcases C19_contact_on_reference_edge eps _ _ _ _ i1 i2 f f' pts _ _ (size h1 ops1) (size h2 ops2) h p hp with
    ⟨e, he, _, hz⟩ | ⟨e, he, _, hz⟩
  · exact Or.inl (seg _ e _ he hz)
  · exact Or.inr (seg _ e _ he hz)

end LcpPhysics
