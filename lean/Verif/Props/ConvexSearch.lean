import Verif.Props.SearchTotal
import Verif.Props.NoOverlap
import Verif.Props.Frame
import Verif.Props.Lamina

/-!
# C121: the contact search returns on all circles and convex hulls
-/

noncomputable section

namespace LcpPhysics
open Spec

/-- A circle or a convex polygon with the origin of its frame inside, not astronomically large. -/
def SearchBody (b : Body) : Prop :=
  b.RectForm ∧ ((b.isCircle = true ∧ b.rad ≤ 10 ^ 9) ∨
    (b.isCircle = false ∧ ConvexPolygon b.verts ∧ NoThreeCollinear b.verts ∧ (0 : V2) ∈ solid b.verts ∧
      ∀ v ∈ b.verts, len v ≤ 10 ^ 9))

/-- The outward normals of a polygon look in all directions. -/
theorem exists_normal {P : List V2} (h : ConvexPolygon P) (d : V2) : ∃ i < P.length, 0 ≤ inner (edgeNormal P i) d := by
  by_contra hno
  push Not at hno
  have hs : ∑ i ∈ Finset.range P.length, inner (outward (edgeVec P i)) d = 0 := by
    have := edgeSum_telescope P (fun v => inner (outward v) d)
    unfold edgeSum at this
    rw [← this]
    refine Finset.sum_congr rfl fun i _ => ?_
    simp only [edgeVec, outward, Spec.inner, Prod.fst_sub, Prod.snd_sub]
    ring
  have hneg : ∀ i ∈ Finset.range P.length, inner (outward (edgeVec P i)) d < 0 := by
    intro i hi
    have hi := Finset.mem_range.1 hi
    have h1 := hno i hi
    have h2 := len_pos (h.edge_ne i hi)
    unfold edgeNormal at h1
    rw [inner_smul_left] at h1
    by_contra h3
    push Not at h3
    exact absurd (mul_nonneg (one_div_pos.2 h2).le h3) (not_le.2 h1)
  have h3 := h.three
  have := Finset.sum_neg hneg ⟨0, Finset.mem_range.2 (by omega)⟩
  linarith

/-- The separation test of two convex polygons returns when they are not astronomically large. -/
theorem convex_test_total {P Q : List V2} (hP : ConvexPolygon P) (hQ : (0 : V2) ∈ solid Q) {r s : ℝ}
    (hr : ∀ v ∈ P, len v ≤ r) (hs : ∀ v ∈ Q, len v ≤ s) (hrs : r + s < 10 ^ 10) (eps : ℝ) (pos1 pos2 : V2)
    (start : ℕ) : ∃ c, test_separations eps pos1 pos2 P Q start = .ok c := by
  apply C17_test_total eps P Q pos1 pos2 start hP.edge_ne hQ
  obtain ⟨i, hi, hn⟩ := exists_normal hP (pos2 - pos1)
  obtain ⟨y, k, hk⟩ := get_support_total Q (-edgeNormal P i) hQ
  have hg := (support_edgeGap (t := pos2 - pos1) hk).1
  refine ⟨i, hi, _, hg, ?_⟩
  obtain ⟨z, hz, he⟩ := hg.1
  rw [← he]
  have h1 := len_edgeNormal (hP.edge_ne i hi)
  have a1 := (abs_le.1 (inner_abs_le (edgeNormal P i) z)).1
  have a2 := (abs_le.1 (inner_abs_le (edgeNormal P i) (P.getD i 0))).2
  rw [h1, one_mul] at a1 a2
  have b1 := solid_len_le hs z hz
  have b2 := hr _ (getD_mem hi)
  simp only [inner_sub_right, inner_add_right] at hn ⊢
  linarith

/-- The incident edge of a convex polygon is never parallel to the reference normal. -/
theorem convex_incident {Q : List V2} (hQ : ConvexPolygon Q) (hc : NoThreeCollinear Q) {n : V2} (hn : len n = 1) {vx : ℕ}
    (hvx : vx < Q.length) (hmin : ∀ v ∈ Q, inner n (Q.getD vx 0) ≤ inner n v) :
    get_incident_edge n Q vx < Q.length ∧ inner n (edgeNormal Q (get_incident_edge n Q vx)) < 0 := by
  have h3 := hQ.three
  have step : ∀ (st : ℝ × ℕ) (i : ℕ), i < Q.length → incStep n Q st i =
      if inner n (edgeNormal Q i) < st.1 then (inner n (edgeNormal Q i), i) else st := by
    intro st i hi
    unfold incStep
    simp only
    rw [if_neg, ← edgeNormal_eq]
    · rfl
    · rw [nrm_eq_len]
      intro hz
      exact hQ.edge_ne i hi (len_eq_zero.1 hz)
  have hsmall : ∀ i < Q.length, inner n (edgeNormal Q i) < 10 ^ 10 := by
    intro i hi
    have := inner_le_len n (edgeNormal Q i) hn
    rw [len_edgeNormal (hQ.edge_ne i hi)] at this
    linarith [(by norm_num : (1 : ℝ) < 10 ^ 10)]
  have hpred : (vx + Q.length - 1) % Q.length < Q.length := Nat.mod_lt _ (by omega)
  have hsucc : ((vx + Q.length - 1) % Q.length + 1) % Q.length = vx := by
    rw [Nat.mod_add_mod, show vx + Q.length - 1 + 1 = vx + Q.length by omega, Nat.add_mod_right, Nat.mod_eq_of_lt hvx]
  set u := (vx + Q.length - 1) % Q.length with hu
  have hg : get_incident_edge n Q vx = if inner n (edgeNormal Q vx) < inner n (edgeNormal Q u) then vx else u := by
    unfold get_incident_edge
    simp only [List.foldl_cons, List.foldl_nil]
    rw [← hu, step _ _ hpred, if_pos (hsmall _ hpred), step _ _ hvx]
    split_ifs <;> rfl
  have ht := turn_pos hQ hc hpred
  rw [hsucc] at ht
  have ha : inner n (edgeVec Q u) ≤ 0 := by
    have := hmin _ (getD_mem hpred)
    unfold edgeVec
    rw [hsucc, inner_sub_right]
    linarith
  have hb : 0 ≤ inner n (edgeVec Q vx) := by
    have := hmin _ (getD_mem (Nat.mod_lt (vx + 1) (show 0 < Q.length by omega)))
    unfold edgeVec
    rw [inner_sub_right]
    linarith
  have hone : inner n (edgeNormal Q vx) < 0 ∨ inner n (edgeNormal Q u) < 0 := by
    by_contra hno
    push Not at hno
    obtain ⟨c1, c2⟩ := hno
    have l1 := len_pos (hQ.edge_ne vx hvx)
    have l2 := len_pos (hQ.edge_ne u hpred)
    unfold edgeNormal at c1 c2
    rw [inner_smul_right] at c1 c2
    have d1 : 0 ≤ inner n (outward (edgeVec Q vx)) := by
      by_contra h; push Not at h
      exact absurd (mul_neg_of_pos_of_neg (one_div_pos.2 l1) h) (not_lt.2 c1)
    have d2 : 0 ≤ inner n (outward (edgeVec Q u)) := by
      by_contra h; push Not at h
      exact absurd (mul_neg_of_pos_of_neg (one_div_pos.2 l2) h) (not_lt.2 c2)
    have hnn : inner n n = 1 := by rw [← len_mul_self, hn, one_mul]
    have e : inner n n * det (edgeVec Q u) (edgeVec Q vx) =
        inner n (edgeVec Q u) * inner n (outward (edgeVec Q vx)) - inner n (outward (edgeVec Q u)) * inner n (edgeVec Q vx) := by
      simp only [Spec.inner, det, outward]; ring
    rw [hnn, one_mul] at e
    have := mul_nonneg (neg_nonneg.2 ha) d1
    have := mul_nonneg d2 hb
    linarith
  rw [hg]
  split_ifs with hlt
  · exact ⟨hvx, by rcases hone with h | h <;> linarith⟩
  · exact ⟨hpred, by rcases hone with h | h <;> linarith⟩

/-- The manifold of two convex polygons is always finite. -/
theorem convex_manifold_total {P Q : List V2} (hP : ConvexPolygon P) (hQ : ConvexPolygon Q) (hQc : NoThreeCollinear Q) (eps : ℝ)
    {rp ip : V2} {e vx : ℕ} (he : e < P.length) (hvx : vx < Q.length) {d : ℝ} (hd : EdgeGap P Q (ip - rp) e d)
    (hv : inner (edgeNormal P e) (Q.getD vx 0 + (ip - rp) - P.getD e 0) = d) (first : Bool) :
    ∃ pts, manifold eps rp ip P Q (-edgeNormal P e) vx (len (edgeVec P e)) e first = .ok pts := by
  have hne := hP.edge_ne e he
  have hn1 : len (edgeNormal P e) = 1 := len_edgeNormal hne
  have hmin : ∀ v ∈ Q, inner (edgeNormal P e) (Q.getD vx 0) ≤ inner (edgeNormal P e) v := by
    intro v hvQ
    have h1 : d ≤ inner (edgeNormal P e) (v + (ip - rp) - P.getD e 0) := hd.2 ⟨v, mem_solid hvQ, rfl⟩
    rw [← hv] at h1
    simp only [inner_sub_right, inner_add_right] at h1
    linarith
  obtain ⟨hinc, hlt⟩ := convex_incident hQ hQc hn1 hvx hmin
  set n := edgeNormal P e with hn
  set inc := get_incident_edge n Q vx with hi
  set o := len (edgeVec P e) / 2 with ho
  have ho0 : 0 < o := by
    have := len_pos hne
    rw [ho]; linarith
  have ea : vget Q inc + ip - rp = Q.getD inc 0 + (ip - rp) := by rw [add_sub_assoc]; rfl
  have eb : vget Q ((inc + 1) % Q.length) + ip - rp = Q.getD ((inc + 1) % Q.length) 0 + (ip - rp) := by
    rw [add_sub_assoc]; rfl
  have hdiff : lineDist (left_orthogonal n) o (Q.getD inc 0 + (ip - rp)) ≠
      lineDist (left_orthogonal n) o (Q.getD ((inc + 1) % Q.length) 0 + (ip - rp)) := by
    intro h
    have h3 : inner (left_orthogonal n) (edgeVec Q inc) = 0 := by
      unfold edgeVec
      simp only [lineDist, inner_add_right, inner_sub_right] at h ⊢
      linarith
    have h4 : inner n (outward (edgeVec Q inc)) = 0 := by
      simp only [left_orthogonal, Spec.inner, outward] at h3 ⊢
      linarith
    unfold edgeNormal at hlt
    rw [inner_smul_right, h4, mul_zero] at hlt
    exact lt_irrefl _ hlt
  unfold manifold
  simp only [neg_neg, ← hi, ea, eb]
  rcases clip_two hdiff with ⟨a, h1⟩ | ⟨a, b, h1, h2⟩
  · rw [h1]
    exact ⟨_, rfl⟩
  · rw [h1]
    simp only
    have hflip : ∀ x, lineDist (-left_orthogonal n) o x = 2 * o - lineDist (left_orthogonal n) o x := by
      intro x
      simp only [lineDist, inner_neg_left]
      ring
    have : ∃ l : List V2, clip_segment_to_line a b (-left_orthogonal n) o = l.map some := by
      rcases h2 with h2 | ⟨ha, hb⟩
      · exact clip_some (by rw [hflip, hflip]; intro h; exact h2 (by linarith))
      · exact ⟨[a, b], clip_inside (by rw [hflip, ha]; linarith) (by rw [hflip, hb]; linarith)⟩
    obtain ⟨l, hl⟩ := this
    rw [hl]
    obtain ⟨pts, hp, -⟩ := emitPts_some eps n (P.getD e 0) rp ip first l
    exact ⟨pts, hp⟩

/-- Convex polygon against convex polygon always returns. -/
theorem convex_hullHull_total {P Q : List V2} (hP : ConvexPolygon P) (hPc : NoThreeCollinear P) (hQ : ConvexPolygon Q)
    (hQc : NoThreeCollinear Q) (hP0 : (0 : V2) ∈ solid P) (hQ0 : (0 : V2) ∈ solid Q) {r s : ℝ}
    (hr : ∀ v ∈ P, len v ≤ r) (hs : ∀ v ∈ Q, len v ≤ s) (hrs : r + s < 10 ^ 10)
    (eps : ℝ) (pos1 pos2 : V2) (i1 i2 : ℕ) (f : Finder) : ∃ x, hullHull eps pos1 pos2 P Q i1 i2 f = .ok x := by
  obtain ⟨c1, h1⟩ := convex_test_total hP hQ0 hr hs hrs eps pos1 pos2 (f.sat i1)
  obtain ⟨c2, h2⟩ := convex_test_total hQ hP0 hs hr (by linarith) eps pos2 pos1 ((f.setSat i1 c1.edge).sat i2)
  unfold hullHull
  rw [h1]
  simp only
  by_cases g1 : c1.dist > eps
  · rw [if_pos g1]; exact ⟨_, rfl⟩
  rw [if_neg g1, h2]
  simp only
  by_cases g2 : c2.dist > eps
  · rw [if_pos g2]; exact ⟨_, rfl⟩
  rw [if_neg g2]
  by_cases g3 : c2.dist > c1.dist
  · rw [if_pos g3]
    rcases test_sep_spec h2 with ⟨d, i, rfl, hi, hg, hgt, -⟩ | ⟨d2, a2, b2, n2, v2, l2, e2, rfl, he2, hg2, -⟩
    · exact absurd hgt g2
    · obtain ⟨pts, hm⟩ := convex_manifold_total hQ hP hPc eps (rp := pos2) (ip := pos1) he2 hg2.vx_lt hg2.edge hg2.vx_gap false
      simp only
      rw [hg2.nn_eq, hg2.en_eq, hm]
      exact ⟨_, rfl⟩
  · rw [if_neg g3]
    rcases test_sep_spec h1 with ⟨d, i, rfl, hi, hg, hgt, -⟩ | ⟨d1, a1, b1, n1, v1, l1, e1, rfl, he1, hg1, -⟩
    · exact absurd hgt g1
    · obtain ⟨pts, hm⟩ := convex_manifold_total hP hQ hQc eps (rp := pos1) (ip := pos2) he1 hg1.vx_lt hg1.edge hg1.vx_gap true
      simp only
      rw [hg1.nn_eq, hg1.en_eq, hm]
      exact ⟨_, rfl⟩

/-- Circle against convex polygon always returns. -/
theorem convex_circleHull_total {P : List V2} (hP : ConvexPolygon P) (hc : NoThreeCollinear P) (h0 : (0 : V2) ∈ solid P) {r rad : ℝ}
    (hr : ∀ v ∈ P, len v ≤ r) (hrr : r + rad < 10 ^ 10) (fuel : ℕ) (hfuel : P.length ^ 3 + 2 ≤ fuel) (eps : ℝ) (c p : V2)
    (seed last : ℕ) : ∃ x, circleHull fuel eps rad c p P seed last = .done x := by
  refine C65_total fuel eps rad c p P seed last hP hc h0 hfuel ?_
  obtain ⟨i, hi, hn⟩ := exists_normal hP (c - p)
  refine ⟨i, hi, ?_⟩
  have a2 := (abs_le.1 (inner_abs_le (edgeNormal P i) (P.getD i 0))).2
  rw [len_edgeNormal (hP.edge_ne i hi), one_mul] at a2
  have b2 := hr _ (getD_mem hi)
  rw [inner_sub_right]
  linarith

/-! ## Which bodies qualify -/

theorem rot_mem_solid {vs : List V2} (t : ℝ) (h : (0 : V2) ∈ solid vs) : (0 : V2) ∈ solid (vs.map (rot t)) := by
  rw [solid_rot]
  exact ⟨0, h, by ext <;> simp [rot]⟩

theorem convex_turned (t : ℝ) {vs : List V2} (h : ConvexPolygon vs) : ConvexPolygon (vs.map (rot t)) := by
  have := convex_moved t 0 h
  simpa using this

theorem noThree_turned (t : ℝ) {vs : List V2} (h : NoThreeCollinear vs) : NoThreeCollinear (vs.map (rot t)) := by
  have := noThree_moved t 0 h
  simpa using this

/-- Moving and turning a body changes nothing. -/
theorem search_run {b : Body} (h : SearchBody b) (ops : List BodyOp) : SearchBody (b.run ops) := by
  obtain ⟨hf, h⟩ := h
  refine ⟨run_rectForm b ops hf, ?_⟩
  rw [run_shape]
  rcases h with ⟨hc, hr⟩ | ⟨hc, h1, h2, h3, h4⟩
  · left
    refine ⟨hc, ?_⟩
    unfold Body.isCircle at hc
    cases hs : b.shape with
    | circle r =>
      unfold Body.rad at hr ⊢
      rw [run_circle b hs ops]
      rw [hs] at hr
      exact hr
    | hull vs => rw [hs] at hc; cases hc
    | rect d vs => rw [hs] at hc; cases hc
  · right
    rw [run_verts b ops hf]
    refine ⟨hc, convex_turned _ h1, noThree_turned _ h2, rot_mem_solid _ h3, fun v hv => ?_⟩
    obtain ⟨u, hu, rfl⟩ := List.mem_map.1 hv
    rw [rot_len]
    exact h4 u hu

/-- C121: a hull made from a convex polygon, no three of whose corners are in line, qualifies: its constructor accepts it (up to the
order of the corners) and puts the origin of its frame inside, whatever the polygon. -/
theorem C121_hull_qualifies (ref : V2) (vs : List V2) (a : Params) (h1 : ConvexPolygon vs) (h2 : NoThreeCollinear vs)
    (hd : ∀ u ∈ vs, ∀ v ∈ vs, len (u - v) ≤ 10 ^ 9) (ops : List BodyOp) :
    ∃ b, mkHull ref vs a = .ok b ∧ SearchBody (b.run ops) := by
  have hL := allLeft_of_convex h1 h2
  have h3 := h1.three
  have hq : vs.getD 0 0 ∈ solid vs := mem_solid (getD_mem (by omega))
  have hstar : ∀ i < vs.length, 0 ≤ det (vs.getD i 0 - vs.getD 0 0) (vs.getD ((i + 1) % vs.length) 0 - vs.getD 0 0) := by
    intro i hi
    have := h1.inside i hi _ (getD_mem (show 0 < vs.length by omega))
    rw [inner_outward] at this
    unfold edgeVec at this
    simp only [det, Prod.fst_sub, Prod.snd_sub] at this ⊢
    linarith
  have harea : 0 < area2 vs := by
    rw [← area2_fan (vs.getD 0 0) vs]
    refine Finset.sum_pos' (fun i hi => hstar i (Finset.mem_range.1 hi)) ⟨1, Finset.mem_range.2 (by omega), ?_⟩
    have := hL 0 1 2 (by norm_num) (by norm_num) h3
    rw [Nat.mod_eq_of_lt (by omega : 1 + 1 < vs.length)]
    exact this
  obtain ⟨b, hb⟩ := (C03_hull_accepts_iff ref vs a).2 ⟨h3, harea⟩
  refine ⟨b, hb, search_run ?_ ops⟩
  have hc := C04_centroid_in_hull _ _ hq hstar harea
  obtain ⟨-, -, -, hs, -⟩ := mkHull_ok hb
  have hv : b.verts = vs.map (fun v => v - get_centroid vs) := by unfold Body.verts; rw [hs]
  refine ⟨mkHull_rectForm hb, Or.inr ⟨by unfold Body.isCircle; rw [hs], ?_⟩⟩
  have e0 : (vs.map fun v => v - get_centroid vs).map (rot 0) = vs.map fun v => v - get_centroid vs := map_rot_zero _
  rw [hv]
  refine ⟨e0 ▸ convex_moved 0 _ h1, e0 ▸ noThree_moved 0 _ h2, ?_, ?_⟩
  · have := solid_translate vs (-get_centroid vs)
    have e : (vs.map fun v => -get_centroid vs + v) = vs.map fun v => v - get_centroid vs := by
      refine List.map_congr_left fun v _ => ?_
      abel
    rw [e] at this
    rw [this]
    exact ⟨_, hc, by abel_nf⟩
  · intro w hw
    obtain ⟨u, hu, rfl⟩ := List.mem_map.1 hw
    have key : ∀ x ∈ solid vs, len (u - x) ≤ 10 ^ 9 := by
      have := solid_len_le (vs := vs.map fun v => -u + v) (R := 10 ^ 9) (by
        intro w hw
        obtain ⟨v, hv, rfl⟩ := List.mem_map.1 hw
        rw [show -u + v = -(u - v) by abel, len_neg]
        exact hd u hu v hv)
      rw [solid_translate] at this
      intro x hx
      have := this _ ⟨x, hx, rfl⟩
      rwa [show (fun y => -u + y) x = -(u - x) by simp only; abel, len_neg] at this
    exact key _ hc

/-- C121: circles and rectangles qualify as well. -/
theorem C121_plain_qualifies (b : Body) (h : PlainBody b) : SearchBody b := by
  refine ⟨?_, ?_⟩
  · rcases h with ⟨pos, rad, a, ops, rfl, -⟩ | ⟨pos, dims, a, b0, ops, hb, rfl, -⟩
    · exact run_rectForm _ ops trivial
    · exact run_rectForm _ ops (mkRect_rectForm hb)
  · rcases plain_cases h with h | ⟨h1, h2, h3⟩
    · exact Or.inl h
    · exact Or.inr ⟨h1, rect_convex h2, rect_noThreeCollinear h2, rect_zero_mem h2, h3⟩

/-! ## The search -/

/-- One pair of bodies. -/
theorem search_pair_total {fuel : ℕ} (eps : ℝ) {bs : List Body} {i1 i2 : ℕ} (h1 : SearchBody (bodyAt bs i1))
    (h2 : SearchBody (bodyAt bs i2)) (f1 : (bodyAt bs i1).verts.length ^ 3 + 2 ≤ fuel)
    (f2 : (bodyAt bs i2).verts.length ^ 3 + 2 ≤ fuel) (f : Finder) : ∃ r, handlePair fuel eps bs f i1 i2 = .done r := by
  have big2 : (10 : ℝ) ^ 9 + 10 ^ 9 < 10 ^ 10 := by norm_num
  unfold handlePair
  simp only
  rcases h1.2 with ⟨c1, r1⟩ | ⟨c1, v1, n1, o1, s1⟩ <;> rcases h2.2 with ⟨c2, r2⟩ | ⟨c2, v2, n2, o2, s2⟩
  · rw [if_pos ⟨c1, c2⟩]; exact ⟨_, rfl⟩
  · rw [if_neg (by simp [c2]), if_pos (Or.inl c1)]
    simp only [c2, Bool.false_eq_true, if_false]
    obtain ⟨x, hx⟩ := convex_circleHull_total v2 n2 o2 s2 (rad := (bodyAt bs i1).rad) (by linarith) fuel f2 eps (bodyAt bs i1).pos
      (bodyAt bs i2).pos (f.rnd 0) (f.sat i2)
    rw [hx]
    exact ⟨_, rfl⟩
  · rw [if_neg (by simp [c1]), if_pos (Or.inr c2)]
    simp only [c2, if_true]
    obtain ⟨x, hx⟩ := convex_circleHull_total v1 n1 o1 s1 (rad := (bodyAt bs i2).rad) (by linarith) fuel f1 eps (bodyAt bs i2).pos
      (bodyAt bs i1).pos (f.rnd 0) (f.sat i1)
    rw [hx]
    exact ⟨_, rfl⟩
  · rw [if_neg (by simp [c1]), if_neg (by simp [c1, c2])]
    obtain ⟨x, hx⟩ := convex_hullHull_total v1 n1 v2 n2 o1 o2 s1 s2 big2 eps (bodyAt bs i1).pos (bodyAt bs i2).pos i1 i2 f
    rw [hx]
    exact ⟨_, rfl⟩

/-- C121: on circles and convex polygons in any poses, with any broad phase, exclusions and history, the contact search returns: GJK
ends within a number of rounds bounded by the number of corners, no support query fails, every separation test finds an edge, the
incident edge is never parallel to the reference normal, and no clipping divides by zero. -/
theorem C121_search_total (fuel : ℕ) (nc : ℕ → List ℕ) (pairs : List Body → List (ℕ × ℕ)) (eps : ℝ)
    (f : Finder) (bs : List Body) (hp : ∀ p ∈ pairs bs, p.1 < bs.length ∧ p.2 < bs.length) (hb : ∀ b ∈ bs, SearchBody b)
    (hfuel : ∀ b ∈ bs, b.verts.length ^ 3 + 2 ≤ fuel) :
    ∃ r, diffCollide fuel nc pairs eps f bs = .ok r := by
  have key : ∀ (ps : List (ℕ × ℕ)) (f : Finder), (∀ p ∈ ps, p.1 < bs.length ∧ p.2 < bs.length) →
      ∃ r, handleAll fuel nc eps bs ps f = .done r := by
    intro ps
    induction ps with
    | nil => intro f _; exact ⟨_, rfl⟩
    | cons p ps ih =>
      intro f hps
      have hp := hps p (List.mem_cons_self ..)
      have h1 : ∃ r, handle fuel nc eps bs f p.1 p.2 = .done r := by
        unfold handle
        split_ifs
        · exact ⟨_, rfl⟩
        · exact search_pair_total eps (hb _ (bodyAt_mem hp.1)) (hb _ (bodyAt_mem hp.2)) (hfuel _ (bodyAt_mem hp.1))
            (hfuel _ (bodyAt_mem hp.2)) f
      obtain ⟨r, hr⟩ := h1
      obtain ⟨s, hs⟩ := ih r.1 fun q hq => hps q (List.mem_cons_of_mem _ hq)
      refine ⟨(s.1, r.2 ++ s.2), ?_⟩
      unfold handleAll
      rw [hr]
      simp only [Run.bind]
      rw [hs]
  obtain ⟨r, hr⟩ := key (pairs bs) f hp
  exact ⟨r, by unfold diffCollide; rw [hr]; rfl⟩

theorem search_verts {b : Body} (h : SearchBody b) (hc : b.isCircle = false) : b.verts ≠ [] := by
  rcases h.2 with ⟨h1, -⟩ | ⟨-, h1, -⟩
  · rw [hc] at h1; cases h1
  · intro h2
    have := h1.three
    rw [h2] at this
    simp at this

theorem search_posed {bs bs' : List Body} (h : Posed bs bs') {fuel : ℕ} (hb : ∀ b ∈ bs, SearchBody b)
    (hfuel : ∀ b ∈ bs, b.verts.length ^ 3 + 2 ≤ fuel) :
    ∀ b ∈ bs', SearchBody b ∧ b.verts.length ^ 3 + 2 ≤ fuel := by
  intro b hm
  obtain ⟨i, hi, rfl⟩ := List.getElem_of_mem hm
  have hi' : i < bs.length := by rw [← h.1]; exact hi
  obtain ⟨ops, ho⟩ := h.2 i hi'
  have e : bodyAt bs' i = bs'[i] := by simp [bodyAt, List.getD_eq_getElem?_getD, hi]
  have hs := hb _ (bodyAt_mem hi')
  rw [← e, ho]
  refine ⟨search_run hs ops, ?_⟩
  rw [run_verts _ ops hs.1, List.length_map]
  exact hfuel _ (bodyAt_mem hi')

/-- C121: NaN normals counted as failures, the search fails only in a degenerate pose. -/
theorem C121_search_fails (fuel : ℕ) (nc : ℕ → List ℕ) (pairs : List Body → List (ℕ × ℕ)) (eps : ℝ)
    (f : Finder) (bs : List Body) (hp : ∀ p ∈ pairs bs, p.1 < bs.length ∧ p.2 < bs.length) (hb : ∀ b ∈ bs, SearchBody b)
    (hfuel : ∀ b ∈ bs, b.verts.length ^ 3 + 2 ≤ fuel) (e : Err)
    (h : rejectNan (diffCollide fuel nc pairs) eps f bs = .error e) :
    e = .raised "nonfinite" ∧ ∃ i j, (i, j) ∈ pairs bs ∧ i ∉ nc j ∧ Degenerate (bodyAt bs i) (bodyAt bs j) := by
  obtain ⟨⟨f', cs⟩, hr⟩ := C121_search_total fuel nc pairs eps f bs hp hb hfuel
  unfold rejectNan at h
  rw [hr] at h
  simp only at h
  split_ifs at h with hall
  injection h with h
  refine ⟨h.symm, ?_⟩
  obtain ⟨c, hcm, hcn⟩ : ∃ c ∈ cs, c.nan = true := by
    by_contra hno
    push Not at hno
    refine hall (List.all_eq_true.2 fun c hcm => ?_)
    cases hn : c.nan with
    | false => rfl
    | true => exact absurd hn (hno c hcm)
  have := C94_nan_contact fuel nc pairs eps f f' bs cs hp (fun b hm hc => search_verts (hb b hm) hc) hr c hcm hcn
  exact ⟨c.i1, c.i2, this⟩

/-- C121: a step of a frictionless world of circles and convex polygons, with independent constraints and the library's solver and
contact search, raises only if it tries a degenerate pose. -/
theorem C121_step_raises (f : Btrifact) (hf : BtrifactOk f) (eps : ℝ) (lim mi : ℕ) (hm : mi ≠ 0) (H : ForceHeap)
    (cfuel : ℕ) (nc : ℕ → List ℕ) (pairs : List Body → List (ℕ × ℕ))
    (hp : ∀ bs, ∀ p ∈ pairs bs, p.1 < bs.length ∧ p.2 < bs.length ∧ p.1 ≠ p.2)
    (w : World (Option Mat) Finder) (h : Regular w) (hb : ∀ b ∈ w.bodies, SearchBody b)
    (hcf : ∀ b ∈ w.bodies, b.verts.length ^ 3 + 2 ≤ cfuel)
    (hH : ∀ t, ∃ fl, forceCat H t w.bodies.length = .ok fl) (fuel : ℕ) (dt : ℝ) (e : Err)
    (he : w.step_dt (pdipmEnv 2 H (libraryLcp f eps lim) mi (rejectNan (diffCollide cfuel nc pairs))) fuel dt = .raised e) :
    e = .raised "nonfinite" ∧ ∃ bs i j, Posed w.bodies bs ∧ (i, j) ∈ pairs bs ∧ i ∉ nc j ∧
      Degenerate (bodyAt bs i) (bodyAt bs j) := by
  obtain ⟨f', bs, hpos, hc⟩ := (regular_step (eps := eps) (lim := lim) hf hm (C12_finder_ok cfuel nc pairs hp) h hH fuel dt).1 e he
  obtain ⟨h1, i, j, h2⟩ := C121_search_fails cfuel nc pairs w.eps f' bs (fun p hpm => ⟨(hp bs p hpm).1, (hp bs p hpm).2.1⟩)
    (fun b hb' => (search_posed hpos hb hcf b hb').1) (fun b hb' => (search_posed hpos hb hcf b hb').2) e hc
  exact ⟨h1, bs, i, j, hpos, h2⟩

/-- C121: in particular a frictionless world of convex hulls without circles never raises. -/
theorem C121_hulls_never_raise (f : Btrifact) (hf : BtrifactOk f) (eps : ℝ) (lim mi : ℕ) (hm : mi ≠ 0) (H : ForceHeap)
    (cfuel : ℕ) (nc : ℕ → List ℕ) (pairs : List Body → List (ℕ × ℕ))
    (hp : ∀ bs, ∀ p ∈ pairs bs, p.1 < bs.length ∧ p.2 < bs.length ∧ p.1 ≠ p.2)
    (w : World (Option Mat) Finder) (h : Regular w) (hb : ∀ b ∈ w.bodies, SearchBody b ∧ b.isCircle = false)
    (hcf : ∀ b ∈ w.bodies, b.verts.length ^ 3 + 2 ≤ cfuel)
    (hH : ∀ t, ∃ fl, forceCat H t w.bodies.length = .ok fl) (fuel : ℕ) (dt : ℝ) (e : Err) :
    w.step_dt (pdipmEnv 2 H (libraryLcp f eps lim) mi (rejectNan (diffCollide cfuel nc pairs))) fuel dt ≠ .raised e := by
  intro he
  obtain ⟨-, bs, i, j, hpos, hpm, -, hd⟩ := C121_step_raises f hf eps lim mi hm H cfuel nc pairs hp w h (fun b hb' => (hb b hb').1) hcf
    hH fuel dt e he
  have hc : ∀ k < bs.length, (bodyAt bs k).isCircle = false := by
    intro k hk
    have hk' : k < w.bodies.length := by rw [← hpos.1]; exact hk
    obtain ⟨ops, ho⟩ := hpos.2 k hk'
    rw [ho, run_shape]
    exact (hb _ (bodyAt_mem hk')).2
  obtain ⟨v1, v2, -⟩ := hp bs _ hpm
  rcases hd with ⟨a, -⟩ | ⟨a, -⟩ | ⟨-, a, -⟩
  · rw [hc _ v1] at a; cases a
  · rw [hc _ v1] at a; cases a
  · rw [hc _ v2] at a; cases a

/-- C121: with convex hulls only, the search returns finite numbers in every pose of the bodies. -/
theorem C121_hulls_search (cfuel : ℕ) (nc : ℕ → List ℕ) (pairs : List Body → List (ℕ × ℕ))
    (hp : ∀ bs, ∀ p ∈ pairs bs, p.1 < bs.length ∧ p.2 < bs.length ∧ p.1 ≠ p.2) (bs0 bs : List Body)
    (hb : ∀ b ∈ bs0, SearchBody b ∧ b.isCircle = false) (hcf : ∀ b ∈ bs0, b.verts.length ^ 3 + 2 ≤ cfuel) (hpos : Posed bs0 bs)
    (eps : ℝ) (fnd : Finder) : ∃ r, rejectNan (diffCollide cfuel nc pairs) eps fnd bs = .ok r := by
  cases hres : rejectNan (diffCollide cfuel nc pairs) eps fnd bs with
  | ok r => exact ⟨r, rfl⟩
  | error e =>
    have hsp := search_posed hpos (fun b hb' => (hb b hb').1) hcf
    obtain ⟨-, i, j, hij, -, hd⟩ := C121_search_fails cfuel nc pairs eps fnd bs (fun p hpm => ⟨(hp bs p hpm).1, (hp bs p hpm).2.1⟩)
      (fun b hb => (hsp b hb).1) (fun b hb => (hsp b hb).2) e hres
    have hcn : ∀ k < bs.length, (bodyAt bs k).isCircle = false := by
      intro k hk
      have hk' : k < bs0.length := by rw [← hpos.1]; exact hk
      obtain ⟨ops, ho⟩ := hpos.2 k hk'
      rw [ho, run_shape]
      exact (hb _ (bodyAt_mem hk')).2
    obtain ⟨v1, v2, -⟩ := hp bs _ hij
    rcases hd with ⟨a, -⟩ | ⟨a, -⟩ | ⟨-, a, -⟩
    · rw [hcn _ v1] at a; cases a
    · rw [hcn _ v1] at a; cases a
    · rw [hcn _ v2] at a; cases a

/-- C121: a whole non-strict run of a frictionless world of convex hulls, joined by a tree of constraints, with the library's engine,
solver and contact search, returns, at a time in `[T, T + dt)`: nothing in it raises, loops for ever or yields a number that is not
finite. -/
theorem C121_hulls_run (f : Btrifact) (hf : BtrifactOk f) (eps : ℝ) (lim mi : ℕ) (hm : mi ≠ 0) (H : ForceHeap)
    (cfuel : ℕ) (nc : ℕ → List ℕ) (pairs : List Body → List (ℕ × ℕ))
    (hp : ∀ bs, ∀ p ∈ pairs bs, p.1 < bs.length ∧ p.2 < bs.length ∧ p.1 ≠ p.2)
    (w : World (Option Mat) Finder) (h : Regular w) (hb : ∀ b ∈ w.bodies, SearchBody b ∧ b.isCircle = false)
    (hcf : ∀ b ∈ w.bodies, b.verts.length ^ 3 + 2 ≤ cfuel)
    (hH : ∀ t, ∃ fl, forceCat H t w.bodies.length = .ok fl) (hs : w.strict_no_pen = false) (hdt : 0 < w.dt) (T : ℝ)
    (hstart : w.t < T) (n : ℕ) (hn : 8 * (T - w.t) / w.dt ≤ n) (fuel : ℕ) (hfuel : 4 ≤ fuel) :
    ∃ w', runWorld (pdipmEnv 2 H (libraryLcp f eps lim) mi (rejectNan (diffCollide cfuel nc pairs))) fuel T n w = .done w' ∧
      T ≤ w'.t ∧ w'.t < T + w.dt ∧ Regular w' :=
  C71_run_returns (eps := eps) (lim := lim) hf hm (C12_finder_ok cfuel nc pairs hp) w h
    (fun fnd bs hpos => C121_hulls_search cfuel nc pairs hp w.bodies bs hb hcf hpos w.eps fnd) hH hs hdt T hstart n hn fuel hfuel

end LcpPhysics
