import Verif.Lemmas.Sat
import Verif.Props.Gjk

/-! # C17, C64: separating axis test -/

noncomputable section

namespace LcpPhysics
open Spec

/-! ## C17 -/

/-- C17: an early exit of `test_separations` is sound: every point of one hull is more than `eps`
away from every point of the other. -/
theorem C17_gap_sound (eps : ℝ) (P Q : List V2) (hP : ConvexPolygon P) (pos1 pos2 : V2) (start : ℕ)
    (d : ℝ) (i : ℕ) (h : test_separations eps pos1 pos2 P Q start = .ok (.gap d i)) :
    eps < d ∧ ∀ x ∈ solid P, ∀ y ∈ solid Q, d ≤ Spec.dist (y + pos2) (x + pos1) := by
  rcases test_sep_spec h with ⟨d', i', he, hi, hg, hd, -⟩ | ⟨_, _, _, _, _, _, _, he, _⟩
  · injection he with e1 e2
    subst e1 e2
    refine ⟨hd, fun x hx y hy => ?_⟩
    have := edgeGap_dist hP hi hg hx hy
    have e : y + pos2 - (x + pos1) = y + (pos2 - pos1) - x := by abel
    unfold Spec.dist at this ⊢
    rw [e]; exact this
  · cases he

/-- C17: without an exit the result is the largest separation over all edges of the first hull, with
the edge, its outward unit normal and length, and a deepest vertex of the second hull. -/
theorem C17_best_separation (eps : ℝ) (P Q : List V2) (pos1 pos2 : V2) (start : ℕ) (d : ℝ)
    (pt1 pt2 nn : V2) (vx : ℕ) (en : ℝ) (e : ℕ)
    (h : test_separations eps pos1 pos2 P Q start = .ok (.best d pt1 pt2 nn vx en e)) :
    d ≤ eps ∧ e < P.length ∧ EdgeGap P Q (pos2 - pos1) e d ∧
      (∀ i < P.length, ∃ d', EdgeGap P Q (pos2 - pos1) i d' ∧ d' ≤ d) ∧
      nn = -edgeNormal P e ∧ en = len (edgeVec P e) ∧ vx < Q.length ∧
      inner (edgeNormal P e) (Q.getD vx 0 + (pos2 - pos1) - P.getD e 0) = d ∧
      inner (edgeNormal P e) (pt1 - P.getD e 0) = 0 ∧ pt1 + pos1 = pt2 + pos2 := by
  rcases test_sep_spec h with ⟨_, _, he, _⟩ | ⟨d', _, _, _, _, _, _, he, hlt, hg, -, hall⟩
  · cases he
  · injection he with e1 e2 e3 e4 e5 e6 e7
    subst e1 e2 e3 e4 e5 e6 e7
    refine ⟨hg.le, hlt, hg.edge, hall, hg.nn_eq, hg.en_eq, hg.vx_lt, hg.vx_gap, ?_, hg.pt2_eq⟩
    have h1 : inner (edgeNormal P e) (edgeNormal P e) = 1 := by
      rw [← len_mul_self, len_edgeNormal hg.edge_ne, one_mul]
    have := hg.vx_gap
    rw [hg.pt1_eq]
    have e : Q.getD vx 0 + (pos2 - pos1) - d • edgeNormal P e - P.getD e 0 =
        (Q.getD vx 0 + (pos2 - pos1) - P.getD e 0) - d • edgeNormal P e := by abel
    rw [e, inner_sub_right, inner_smul_right, h1, this]; ring

/-- C17: the cached start edge is unobservable: it changes neither whether a gap is reported nor
the best separation. -/
theorem C17_warm_start_unobservable (eps : ℝ) (P Q : List V2) (pos1 pos2 : V2) (start start' : ℕ)
    (r r' : Sep) (h : test_separations eps pos1 pos2 P Q start = .ok r)
    (h' : test_separations eps pos1 pos2 P Q start' = .ok r') :
    (eps < r.dist ↔ eps < r'.dist) ∧ (r.dist ≤ eps → r.dist = r'.dist) := by
  rcases test_sep_spec h with ⟨d, i, rfl, hi, hg, hd, -⟩ | ⟨d, _, _, _, _, _, e, rfl, he, hg, -, hall⟩ <;>
  rcases test_sep_spec h' with ⟨d', i', rfl, hi', hg', hd', -⟩ | ⟨d', _, _, _, _, _, e', rfl, he', hg', -, hall'⟩
  · exact ⟨⟨fun _ => hd', fun _ => hd⟩, fun h => absurd hd (not_lt.2 h)⟩
  · exfalso
    obtain ⟨d'', h1, h2⟩ := hall' i hi
    have := edgeGap_unique h1 hg
    linarith [hg'.le]
  · exfalso
    obtain ⟨d'', h1, h2⟩ := hall i' hi'
    have := edgeGap_unique h1 hg'
    linarith [hg.le]
  · obtain ⟨a, h1, h2⟩ := hall' e he
    obtain ⟨b, h3, h4⟩ := hall e' he'
    have e1 := edgeGap_unique h1 hg.edge
    have e2 := edgeGap_unique h3 hg'.edge
    have : d = d' := by linarith
    exact ⟨by simp only [Sep.dist, this], fun _ => this⟩

/-- C17: the test returns normally for polygons with non-degenerate edges around their origins,
unless every separation is below the initial `-1e10`. -/
theorem C17_test_total (eps : ℝ) (P Q : List V2) (pos1 pos2 : V2) (start : ℕ)
    (hne : ∀ i < P.length, edgeVec P i ≠ 0) (h0 : (0 : V2) ∈ solid Q)
    (hbig : ∃ i < P.length, ∃ d, EdgeGap P Q (pos2 - pos1) i d ∧ -10 ^ 10 < d) :
    ∃ r, test_separations eps pos1 pos2 P Q start = .ok r := by
  have inv := sepFold_inv (eps := eps) (P := P) (Q := Q) (pos1 := pos1) (pos2 := pos2)
    (satOrder P.length start) [] (st := .go none (-10 ^ 10)) ⟨rfl, by simp⟩
  rw [List.nil_append] at inv
  have nofail : ∀ (l : List ℕ) (st : SepRun), (∀ i ∈ l, i < P.length) → (∀ e, st ≠ .fail e) →
      ∀ e, l.foldl (sepStep eps pos1 pos2 P Q) st ≠ .fail e := by
    intro l
    induction l with
    | nil => intro st _ h; exact h
    | cons i l ih =>
      intro st hl hst
      rw [List.foldl_cons]
      apply ih _ fun j hj => hl j (List.mem_cons_of_mem _ hj)
      intro e he
      cases st with
      | fail e' => exact hst e' rfl
      | gap d j => cases he
      | go best bd =>
        unfold sepStep at he
        simp only at he
        have h1 : nrm (vget P ((i + 1) % P.length) - vget P i) ≠ 0 := by
          rw [nrm_eq_len]
          intro hz
          exact hne i (hl i (by simp)) (len_eq_zero.1 hz)
        rw [if_neg h1] at he
        obtain ⟨s, k, hs⟩ := get_support_total Q (-((1 / nrm (vget P ((i + 1) % P.length) - vget P i)) •
          left_orthogonal (vget P ((i + 1) % P.length) - vget P i))) h0
        rw [hs] at he
        simp only at he
        split_ifs at he
  unfold test_separations
  cases hf : (satOrder P.length start).foldl (sepStep eps pos1 pos2 P Q) (.go none (-10 ^ 10)) with
  | fail e => exact absurd hf (nofail _ _ (fun i hi => mem_satOrder.1 hi) (by intro e h; cases h) e)
  | gap d i => exact ⟨_, rfl⟩
  | go best bd =>
    cases best with
    | some s => exact ⟨_, rfl⟩
    | none =>
      exfalso
      rw [hf] at inv
      obtain ⟨i, hi, d, hd, hgt⟩ := hbig
      obtain ⟨d', hd', hle⟩ := inv.2 i (mem_satOrder.2 hi)
      have := edgeGap_unique hd hd'
      have := inv.1
      linarith

theorem triangle_convex : ConvexPolygon triangle := by
  refine ⟨by simp [triangle], fun i hi => ?_, fun i hi w hw => ?_⟩
  · simp only [triangle, List.length_cons, List.length_nil] at hi
    interval_cases i <;> norm_num [triangle, edgeVec]
  · simp only [triangle, List.length_cons, List.length_nil] at hi
    simp only [triangle, List.mem_cons, List.not_mem_nil, or_false] at hw
    interval_cases i <;> rcases hw with rfl | rfl | rfl <;> norm_num [triangle, edgeVec, outward, inner]

theorem triangle_edgeNormal : edgeNormal triangle 1 = (-1, 0) := by
  have : edgeVec triangle 1 = (0, -2) := by norm_num [edgeVec, triangle]
  have hl : len ((0 : ℝ), (-2 : ℝ)) = 2 := by
    rw [len, show (0 : ℝ) ^ 2 + (-2 : ℝ) ^ 2 = 2 ^ 2 by norm_num, Real.sqrt_sq (by norm_num)]
  rw [edgeNormal, this, hl]
  ext <;> norm_num [outward]

/-- The separation along the left edge of the triangle. -/
theorem triangle_edgeGap (a : ℝ) : EdgeGap triangle triangle (a, 0) 1 (-2 - a) := by
  have hn := triangle_edgeNormal
  refine ⟨⟨(1, 0), mem_solid (by simp [triangle]), ?_⟩, ?_⟩
  · simp only [hn]
    norm_num [inner, triangle]; ring
  · rintro _ ⟨y, hy, rfl⟩
    simp only [hn]
    have := solid_inner_le (vs := triangle) (d := (1, 0)) (m := 1)
      (by intro v hv; simp [triangle] at hv; rcases hv with rfl | rfl | rfl <;> norm_num [inner]) _ hy
    norm_num [inner, triangle] at this ⊢
    linarith

/-- Two triangles ten apart: the test reports a gap. -/
example (start : ℕ) : ∃ d i, test_separations (1 / 10) 0 (-10, 0) triangle triangle start = .ok (.gap d i) := by
  have e : ((-10 : ℝ), (0 : ℝ)) - 0 = (-10, 0) := sub_zero _
  have hg := triangle_edgeGap (-10)
  obtain ⟨r, hr⟩ := C17_test_total (1 / 10) triangle triangle 0 (-10, 0) start triangle_convex.edge_ne
    triangle_zero ⟨1, by simp [triangle], _, e ▸ hg, by norm_num⟩
  cases r with
  | gap d i => exact ⟨d, i, hr⟩
  | best d _ _ _ _ _ _ =>
    obtain ⟨hd, -, -, hall, -⟩ := C17_best_separation _ _ _ _ _ _ _ _ _ _ _ _ _ hr
    obtain ⟨d', h1, h2⟩ := hall 1 (by simp [triangle])
    rw [e] at h1
    have := edgeGap_unique h1 hg
    norm_num at this
    linarith

/-- Two coinciding triangles: no gap, and the best separation is not positive. -/
theorem triangle_self_test (start : ℕ) :
    ∃ r, test_separations 0 0 0 triangle triangle start = .ok r ∧ r.dist ≤ 0 := by
  have e : (0 : V2) - 0 = (0, 0) := sub_zero _
  have hg := triangle_edgeGap 0
  obtain ⟨r, hr⟩ := C17_test_total 0 triangle triangle 0 0 start triangle_convex.edge_ne
    triangle_zero ⟨1, by simp [triangle], _, e ▸ hg, by norm_num⟩
  refine ⟨r, hr, ?_⟩
  cases r with
  | gap d i =>
    obtain ⟨hd, hall⟩ := C17_gap_sound _ _ _ triangle_convex _ _ _ _ _ hr
    have := hall 0 triangle_zero 0 triangle_zero
    rw [Spec.dist, sub_self, len_eq_zero.2 rfl] at this
    exact this
  | best d _ _ _ _ _ _ => exact (C17_best_separation _ _ _ _ _ _ _ _ _ _ _ _ _ hr).1

/-! ## C64: completeness of the separating axis test -/

/-- C64: with `eps = 0`, if the hull-hull test finds no separating edge, in either direction, the
two (strictly convex) hulls share a point. -/
theorem C64_sat_complete (P Q : List V2) (hP : ConvexPolygon P) (hPc : NoThreeCollinear P)
    (hQ : ConvexPolygon Q) (hQc : NoThreeCollinear Q) (pos1 pos2 : V2) (s1 s2 : ℕ) (r1 r2 : Sep)
    (h1 : test_separations 0 pos1 pos2 P Q s1 = .ok r1) (h2 : test_separations 0 pos2 pos1 Q P s2 = .ok r2)
    (hr1 : r1.dist ≤ 0) (hr2 : r2.dist ≤ 0) : ∃ x ∈ solid P, ∃ y ∈ solid Q, x + pos1 = y + pos2 := by
  have key : ∀ (P Q : List V2) (pos1 pos2 : V2) (s : ℕ) (r : Sep) (_ : ConvexPolygon P)
      (_ : test_separations 0 pos1 pos2 P Q s = .ok r) (_ : r.dist ≤ 0), ∀ i < P.length,
      ∃ y ∈ solid Q, inner (outward (edgeVec P i)) (y + (pos2 - pos1) - P.getD i 0) ≤ 0 := by
    intro P Q pos1 pos2 s r hP h hr i hi
    rcases test_sep_spec h with ⟨d, j, rfl, _, _, hd, -⟩ | ⟨d, _, _, _, _, _, e, rfl, he, hg, -, hall⟩
    · exact absurd hr (not_le.2 hd)
    · obtain ⟨d', ⟨⟨y, hy, he⟩, -⟩, hle⟩ := hall i hi
      refine ⟨y, hy, ?_⟩
      simp only [inner_edgeNormal] at he
      have hp : 0 < len (edgeVec P i) := lt_of_le_of_ne (len_nonneg _)
        fun h0 => hP.edge_ne i hi (len_eq_zero.1 h0.symm)
      have h0 : 1 / len (edgeVec P i) * inner (outward (edgeVec P i)) (y + (pos2 - pos1) - P.getD i 0) ≤ 0 := by
        have hr : d ≤ 0 := hr
        rw [he]; linarith
      by_contra hc
      exact absurd h0 (not_le.2 (mul_pos (by positivity) (not_le.1 hc)))
  obtain ⟨x, hx, hy⟩ := sat_complete hP hPc hQ hQc (pos2 - pos1) (key P Q pos1 pos2 s1 r1 hP h1 hr1) (by
    intro j hj
    obtain ⟨x, hx, hle⟩ := key Q P pos2 pos1 s2 r2 hQ h2 hr2 j hj
    refine ⟨x, hx, ?_⟩
    have e : x - (pos2 - pos1) - Q.getD j 0 = x + (pos1 - pos2) - Q.getD j 0 := by abel
    rw [e]; exact hle)
  exact ⟨x, hx, _, hy, by abel⟩

/-- Non-vacuity of `C64_sat_complete`. -/
example : ∃ x ∈ solid triangle, ∃ y ∈ solid triangle, x + 0 = y + 0 := by
  obtain ⟨r, h, hr⟩ := triangle_self_test 0
  exact C64_sat_complete triangle triangle triangle_convex triangle_noThreeCollinear triangle_convex
    triangle_noThreeCollinear 0 0 0 0 r r h h hr hr

/-- C64: so with `eps = 0` two disjoint hulls never produce a contact. -/
theorem C64_disjoint_no_contact (P Q : List V2) (hP : ConvexPolygon P) (hPc : NoThreeCollinear P)
    (hQ : ConvexPolygon Q) (hQc : NoThreeCollinear Q) (pos1 pos2 : V2)
    (hdis : ∀ x ∈ solid P, ∀ y ∈ solid Q, x + pos1 ≠ y + pos2) (i1 i2 : ℕ) (f f' : Finder) (pts : List Pt)
    (h : hullHull 0 pos1 pos2 P Q i1 i2 f = .ok (f', pts)) : pts = [] := by
  unfold hullHull at h
  cases h1 : test_separations 0 pos1 pos2 P Q (f.sat i1) with
  | error e => rw [h1] at h; cases h
  | ok c1 =>
    rw [h1] at h
    simp only at h
    by_cases g1 : c1.dist > 0
    · rw [if_pos g1] at h
      injection h with h; injection h with _ h; exact h.symm
    rw [if_neg g1] at h
    cases h2 : test_separations 0 pos2 pos1 Q P ((f.setSat i1 c1.edge).sat i2) with
    | error e => rw [h2] at h; cases h
    | ok c2 =>
      rw [h2] at h
      simp only at h
      by_cases g2 : c2.dist > 0
      · rw [if_pos g2] at h
        injection h with h; injection h with _ h; exact h.symm
      · exfalso
        obtain ⟨x, hx, y, hy, he⟩ := C64_sat_complete P Q hP hPc hQ hQc pos1 pos2 _ _ c1 c2 h1 h2
          (not_lt.1 g1) (not_lt.1 g2)
        exact hdis x hx y hy he

/-- The separation after a further displacement `u`. -/
theorem edgeGap_shift {P Q : List V2} {t u : V2} {i : ℕ} {d : ℝ} (h : EdgeGap P Q t i d) :
    ∃ y ∈ solid Q, inner (edgeNormal P i) (y + (t + u) - P.getD i 0) = d + inner (edgeNormal P i) u := by
  obtain ⟨⟨y, hy, he⟩, -⟩ := h
  refine ⟨y, hy, ?_⟩
  simp only at he
  rw [← he, ← inner_add_right]; congr 1; abel

/-- C64: the larger of the two best separations, when not positive, is minus the penetration depth
of the two hulls: they still meet after any displacement of length at most the depth, and displacing
the second hull by the depth along the normal of the chosen edge leaves a line between them. -/
theorem C64_penetration_depth (eps : ℝ) (P Q : List V2) (hP : ConvexPolygon P) (hPc : NoThreeCollinear P)
    (hQ : ConvexPolygon Q) (hQc : NoThreeCollinear Q) (pos1 pos2 : V2) (s1 s2 : ℕ)
    (d1 d2 : ℝ) (a1 b1 n1 a2 b2 n2 : V2) (v1 e1 v2 e2 : ℕ) (l1 l2 : ℝ)
    (h1 : test_separations eps pos1 pos2 P Q s1 = .ok (.best d1 a1 b1 n1 v1 l1 e1))
    (h2 : test_separations eps pos2 pos1 Q P s2 = .ok (.best d2 a2 b2 n2 v2 l2 e2))
    (D : ℝ) (hD : D = max d1 d2) :
    (∀ u, len u ≤ -D → ∃ x ∈ solid P, ∃ y ∈ solid Q, x + pos1 = y + pos2 + u) ∧
    (d2 ≤ d1 → ∀ x ∈ solid P, ∀ y ∈ solid Q,
      0 ≤ inner (-n1) (y + pos2 + (-D) • (-n1) - (x + pos1))) ∧
    (d1 < d2 → ∀ x ∈ solid P, ∀ y ∈ solid Q,
      0 ≤ inner (-n2) (x + pos1 - (y + pos2 + (-D) • n2))) := by
  obtain ⟨-, he1, hg1, hall1, hn1, -⟩ := C17_best_separation _ _ _ _ _ _ _ _ _ _ _ _ _ h1
  obtain ⟨-, he2, hg2, hall2, hn2, -⟩ := C17_best_separation _ _ _ _ _ _ _ _ _ _ _ _ _ h2
  have key : ∀ (P Q : List V2) (t u : V2) (d : ℝ) (_ : ConvexPolygon P)
      (_ : ∀ i < P.length, ∃ d', EdgeGap P Q t i d' ∧ d' ≤ d) (_ : len u ≤ -d), ∀ i < P.length,
      ∃ y ∈ solid Q, inner (outward (edgeVec P i)) (y + (t + u) - P.getD i 0) ≤ 0 := by
    intro P Q t u d hP hall hu i hi
    obtain ⟨d', hg, hle⟩ := hall i hi
    obtain ⟨y, hy, he⟩ := edgeGap_shift (u := u) hg
    refine ⟨y, hy, ?_⟩
    have hb := inner_le_len (edgeNormal P i) u (len_edgeNormal (hP.edge_ne i hi))
    have h0 : inner (edgeNormal P i) (y + (t + u) - P.getD i 0) ≤ 0 := by linarith
    rw [inner_edgeNormal] at h0
    have hp : 0 < len (edgeVec P i) := len_pos (hP.edge_ne i hi)
    by_contra hc
    exact absurd h0 (not_le.2 (mul_pos (by positivity) (not_le.1 hc)))
  have hd1 : d1 ≤ D := hD ▸ le_max_left _ _
  have hd2 : d2 ≤ D := hD ▸ le_max_right _ _
  have inside : ∀ (P : List V2) (_ : ConvexPolygon P) (i : ℕ) (_ : i < P.length) (x : V2) (_ : x ∈ solid P),
      inner (edgeNormal P i) (x - P.getD i 0) ≤ 0 := by
    intro P hP i hi x hx
    have := solid_inner_le (vs := P) (d := outward (edgeVec P i))
      (m := inner (P.getD i 0) (outward (edgeVec P i)))
      (fun w hw => by
        have := hP.inside i hi w hw
        rw [inner_sub_right] at this
        rw [inner_comm w, inner_comm (P.getD i 0)]; linarith) x hx
    rw [inner_edgeNormal, inner_sub_right, inner_comm _ x, inner_comm _ (P.getD i 0)]
    exact mul_nonpos_of_nonneg_of_nonpos (by have := len_nonneg (edgeVec P i); positivity) (by linarith)
  refine ⟨fun u hu => ?_, fun hle x hx y hy => ?_, fun hlt x hx y hy => ?_⟩
  · obtain ⟨x, hx, hy⟩ := sat_complete hP hPc hQ hQc (pos2 - pos1 + u)
      (key P Q _ u D hP (fun i hi => by
        obtain ⟨d', a, b⟩ := hall1 i hi; exact ⟨d', a, b.trans hd1⟩) hu)
      (by
        intro j hj
        obtain ⟨x, hx, hle⟩ := key Q P (pos1 - pos2) (-u) D hQ (fun i hi => by
          obtain ⟨d', a, b⟩ := hall2 i hi; exact ⟨d', a, b.trans hd2⟩) (by rw [len_neg]; exact hu) j hj
        refine ⟨x, hx, ?_⟩
        have e : x - (pos2 - pos1 + u) - Q.getD j 0 = x + (pos1 - pos2 + -u) - Q.getD j 0 := by abel
        rw [e]; exact hle)
    exact ⟨x, hx, _, hy, by abel⟩
  · have hDe : D = d1 := by rw [hD, max_eq_left hle]
    rw [hn1, neg_neg, hDe]
    have h3 : d1 ≤ inner (edgeNormal P e1) (y + (pos2 - pos1) - P.getD e1 0) := hg1.2 ⟨y, hy, rfl⟩
    have h4 := inside P hP e1 he1 x hx
    have e : y + pos2 + (-d1) • edgeNormal P e1 - (x + pos1) =
      (y + (pos2 - pos1) - P.getD e1 0) - (x - P.getD e1 0) + (-d1) • edgeNormal P e1 := by abel
    rw [e, inner_add_right, inner_sub_right, inner_smul_right, ← len_mul_self,
      len_edgeNormal (hP.edge_ne e1 he1)]
    linarith
  · have hDe : D = d2 := by rw [hD, max_eq_right hlt.le]
    rw [hn2, neg_neg, hDe]
    have h3 : d2 ≤ inner (edgeNormal Q e2) (x + (pos1 - pos2) - Q.getD e2 0) := hg2.2 ⟨x, hx, rfl⟩
    have h4 := inside Q hQ e2 he2 y hy
    have e : x + pos1 - (y + pos2 + (-d2) • -edgeNormal Q e2) =
      (x + (pos1 - pos2) - Q.getD e2 0) - (y - Q.getD e2 0) + (-d2) • edgeNormal Q e2 := by
      rw [smul_neg]; abel
    rw [e, inner_add_right, inner_sub_right, inner_smul_right, ← len_mul_self,
      len_edgeNormal (hQ.edge_ne e2 he2)]
    linarith

end LcpPhysics
