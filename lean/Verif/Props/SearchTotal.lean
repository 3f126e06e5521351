import Verif.Props.Deep
import Verif.Props.RectContact
import Verif.Props.GameEngine

/-!
# C94: the contact search returns on all circles and rectangles
-/

noncomputable section

namespace LcpPhysics
open Spec

/-- A circle or a rectangle the constructors make, not astronomically large, after any moves and placements. -/
def PlainBody (b : Body) : Prop :=
  (∃ pos rad a ops, b = (mkCircle pos rad a).run ops ∧ rad ≤ 10 ^ 9) ∨
  ∃ pos dims a b0 ops, mkRect pos dims a = .ok b0 ∧ b = b0.run ops ∧ len dims ≤ 10 ^ 9

/-- A segment that is not parallel to the line is clipped without a division by zero. -/
theorem clip_some {v0 v1 n : V2} {o : ℝ} (h : lineDist n o v0 ≠ lineDist n o v1) :
    ∃ l : List V2, clip_segment_to_line v0 v1 n o = l.map some := by
  have e0 : dot n v0 + o = lineDist n o v0 := rfl
  have e1 : dot n v1 + o = lineDist n o v1 := rfl
  unfold clip_segment_to_line
  simp only [e0, e1, if_neg (sub_ne_zero.2 h)]
  by_cases h0 : lineDist n o v0 ≥ 0 <;> by_cases h1 : lineDist n o v1 ≥ 0
  · simp only [if_pos h0, if_pos h1]
    split_ifs
    · exact ⟨[_, _, _], rfl⟩
    · exact ⟨[_, _], rfl⟩
  · simp only [if_pos h0, if_neg h1]
    rw [if_pos (Or.inr (by simp))]
    exact ⟨[_, _], rfl⟩
  · simp only [if_neg h0, if_pos h1]
    rw [if_pos (Or.inr (by simp))]
    exact ⟨[_, _], rfl⟩
  · simp only [if_neg h0, if_neg h1]
    rw [if_pos (Or.inr (by simp))]
    exact ⟨[_], rfl⟩

/-- If both ends are on the inner side, nothing is divided at all. -/
theorem clip_inside {v0 v1 n : V2} {o : ℝ} (h0 : 0 ≤ lineDist n o v0) (h1 : 0 ≤ lineDist n o v1) :
    clip_segment_to_line v0 v1 n o = [some v0, some v1] := by
  have e0 : dot n v0 + o = lineDist n o v0 := rfl
  have e1 : dot n v1 + o = lineDist n o v1 := rfl
  unfold clip_segment_to_line
  simp only [e0, e1]
  rw [if_pos h0, if_pos h1, if_neg]
  · rfl
  · push Not
    exact ⟨mul_nonneg h0 h1, by simp⟩

/-- Length of the clipped segment: never more than two points if the segment is not parallel to the line; two points
mean that they differ along the clip direction or lie on the line. -/
theorem clip_two {v0 v1 n : V2} {o : ℝ} (h : lineDist n o v0 ≠ lineDist n o v1) :
    (∃ a, clip_segment_to_line v0 v1 n o = [some a]) ∨
    ∃ a b, clip_segment_to_line v0 v1 n o = [some a, some b] ∧
      (lineDist n o a ≠ lineDist n o b ∨ (lineDist n o a = 0 ∧ lineDist n o b = 0)) := by
  have e0 : dot n v0 + o = lineDist n o v0 := rfl
  have e1 : dot n v1 + o = lineDist n o v1 := rfl
  have hcut : lineDist n o (v0 + (lineDist n o v0 / (lineDist n o v0 - lineDist n o v1)) • (v1 - v0)) = 0 := by
    rw [lineDist_combo]
    have := sub_ne_zero.2 h
    field_simp
    ring
  unfold clip_segment_to_line
  simp only [e0, e1, if_neg (sub_ne_zero.2 h)]
  by_cases h0 : lineDist n o v0 ≥ 0 <;> by_cases h1 : lineDist n o v1 ≥ 0
  · simp only [if_pos h0, if_pos h1]
    rw [if_neg (by push Not; exact ⟨mul_nonneg h0 h1, by simp⟩)]
    exact Or.inr ⟨_, _, rfl, Or.inl h⟩
  · simp only [if_pos h0, if_neg h1]
    rw [if_pos (Or.inr (by simp))]
    refine Or.inr ⟨v0, _, rfl, ?_⟩
    rw [hcut]
    by_cases hz : lineDist n o v0 = 0
    · exact Or.inr ⟨hz, rfl⟩
    · exact Or.inl hz
  · simp only [if_neg h0, if_pos h1]
    rw [if_pos (Or.inr (by simp))]
    refine Or.inr ⟨v1, _, rfl, ?_⟩
    rw [hcut]
    by_cases hz : lineDist n o v1 = 0
    · exact Or.inr ⟨hz, rfl⟩
    · exact Or.inl hz
  · simp only [if_neg h0, if_neg h1]
    rw [if_pos (Or.inr (by simp))]
    exact Or.inl ⟨_, rfl⟩

/-- The manifold of two rectangles is always finite. -/
theorem rect_manifold_total {P Q : List V2} (hP : RectForm P) (hQ : RectForm Q) (eps : ℝ)
    {rp ip : V2} {e vx : ℕ} (he : e < 4) (hvx : vx < 4) {d : ℝ} (hd : EdgeGap P Q (ip - rp) e d)
    (hv : inner (edgeNormal P e) (Q.getD vx 0 + (ip - rp) - P.getD e 0) = d) (first : Bool) :
    ∃ pts, manifold eps rp ip P Q (-edgeNormal P e) vx (len (edgeVec P e)) e first = .ok pts := by
  have hcon := rect_convex hP
  have hl := rect_length hP
  have hlQ := rect_length hQ
  have hne := hcon.edge_ne e (hl ▸ he)
  have hn1 : len (edgeNormal P e) = 1 := len_edgeNormal hne
  have hmin : ∀ v ∈ Q, inner (edgeNormal P e) (Q.getD vx 0) ≤ inner (edgeNormal P e) v := by
    intro v hvQ
    have h1 : d ≤ inner (edgeNormal P e) (v + (ip - rp) - P.getD e 0) := hd.2 ⟨v, mem_solid hvQ, rfl⟩
    rw [← hv] at h1
    simp only [inner_sub_right, inner_add_right] at h1
    linarith
  obtain ⟨inc, hinc, hinc4, hc⟩ := rect_incident hQ hn1 hvx hmin
  obtain ⟨q0, qd, qa, qb, -, -, -, -⟩ := rect_frame hQ hinc4
  obtain ⟨m, mm, em, eτ, -, eB, -, hB⟩ := unit_frame q0 qd
  have hqn : edgeNormal Q inc = m := by rw [rect_edgeNormal hQ hinc4, em]
  set n := edgeNormal P e with hn
  have hnn : inner n n = 1 := by
    rw [← len_mul_self, hn1, one_mul]
  rw [eτ, hqn] at hc
  have hdot : inner n m ≠ 0 := by
    intro hz
    rw [hz, neg_zero] at hc
    have h2 : inner n (-m.2, m.1) = 0 := abs_eq_zero.1 (le_antisymm hc (abs_nonneg _))
    simp only [Spec.inner] at hz h2 hnn mm
    have : (n.1 * n.1 + n.2 * n.2) * (m.1 * m.1 + m.2 * m.2) = (n.1 * m.1 + n.2 * m.2) ^ 2 + (n.1 * -m.2 + n.2 * m.1) ^ 2 := by
      ring
    rw [hz, h2, hnn, mm] at this
    norm_num at this
  set o := len (edgeVec P e) / 2 with ho
  have ho0 : 0 < o := by
    have := len_pos hne
    rw [ho]; linarith
  have ea : vget Q inc + ip - rp = Q.getD inc 0 + (ip - rp) := by rw [add_sub_assoc]; rfl
  have eb : vget Q ((inc + 1) % Q.length) + ip - rp = Q.getD ((inc + 1) % 4) 0 + (ip - rp) := by
    rw [add_sub_assoc, hlQ]; rfl
  have hdiff : lineDist (left_orthogonal n) o (Q.getD inc 0 + (ip - rp)) ≠
      lineDist (left_orthogonal n) o (Q.getD ((inc + 1) % 4) 0 + (ip - rp)) := by
    rw [qa, qb]
    intro h
    apply hdot
    have h3 : inner (left_orthogonal n) (halfEdge Q inc) = 0 := by
      simp only [lineDist, inner_add_right, inner_sub_right] at h
      linarith
    rw [eB, inner_smul_right] at h3
    have h4 := (mul_eq_zero.1 h3).resolve_left hB.ne'
    simp only [left_orthogonal, Spec.inner] at h4 ⊢
    linarith
  unfold manifold
  simp only [neg_neg, hinc, ea, eb]
  rcases clip_two hdiff with ⟨a, h1⟩ | ⟨a, b, h1, h2⟩
  · rw [h1]
    exact ⟨_, rfl⟩
  · rw [h1]
    simp only
    have hflip : ∀ x, lineDist (-left_orthogonal n) o x = 2 * o - lineDist (left_orthogonal n) o x := by
      intro x
      simp only [lineDist, inner_neg_left]
      ring
    have : ∃ l : List V2, clip_segment_to_line a b (-left_orthogonal n) o = l.map some := by
      rcases h2 with h2 | ⟨ha, hb⟩
      · exact clip_some (by rw [hflip, hflip]; intro h; exact h2 (by linarith))
      · exact ⟨[a, b], clip_inside (by rw [hflip, ha]; linarith) (by rw [hflip, hb]; linarith)⟩
    obtain ⟨l, hl⟩ := this
    rw [hl]
    obtain ⟨pts, hp, -⟩ := emitPts_some eps n (P.getD e 0) rp ip first l
    exact ⟨pts, hp⟩

/-- Rectangle against rectangle always returns. -/
theorem rect_hullHull_total {P Q : List V2} (hP : RectForm P) (hQ : RectForm Q) {r s : ℝ}
    (hr : ∀ v ∈ P, len v ≤ r) (hs : ∀ v ∈ Q, len v ≤ s) (hrs : r + 2 * s < 10 ^ 10) (hrs' : s + 2 * r < 10 ^ 10)
    (eps : ℝ) (pos1 pos2 : V2) (i1 i2 : ℕ) (f : Finder) : ∃ x, hullHull eps pos1 pos2 P Q i1 i2 f = .ok x := by
  have lP := rect_length hP
  have lQ := rect_length hQ
  obtain ⟨c1, h1⟩ := rect_test_total hP hQ hr hs hrs eps pos1 pos2 (f.sat i1)
  obtain ⟨c2, h2⟩ := rect_test_total hQ hP hs hr hrs' eps pos2 pos1 ((f.setSat i1 c1.edge).sat i2)
  unfold hullHull
  rw [h1]
  simp only
  by_cases g1 : c1.dist > eps
  · rw [if_pos g1]; exact ⟨_, rfl⟩
  rw [if_neg g1, h2]
  simp only
  by_cases g2 : c2.dist > eps
  · rw [if_pos g2]; exact ⟨_, rfl⟩
  rw [if_neg g2]
  by_cases g3 : c2.dist > c1.dist
  · rw [if_pos g3]
    rcases test_sep_spec h2 with ⟨d, i, rfl, hi, hg, hgt, -⟩ | ⟨d2, a2, b2, n2, v2, l2, e2, rfl, he2, hg2, -⟩
    · exact absurd hgt g2
    · obtain ⟨pts, hm⟩ := rect_manifold_total hQ hP eps (rp := pos2) (ip := pos1) (lQ ▸ he2) (lP ▸ hg2.vx_lt) hg2.edge
        hg2.vx_gap false
      simp only
      rw [hg2.nn_eq, hg2.en_eq, hm]
      exact ⟨_, rfl⟩
  · rw [if_neg g3]
    rcases test_sep_spec h1 with ⟨d, i, rfl, hi, hg, hgt, -⟩ | ⟨d1, a1, b1, n1, v1, l1, e1, rfl, he1, hg1, -⟩
    · exact absurd hgt g1
    · obtain ⟨pts, hm⟩ := rect_manifold_total hP hQ eps (rp := pos1) (ip := pos2) (lP ▸ he1) (lQ ▸ hg1.vx_lt) hg1.edge
        hg1.vx_gap true
      simp only
      rw [hg1.nn_eq, hg1.en_eq, hm]
      exact ⟨_, rfl⟩

/-- Circle against rectangle always returns. -/
theorem rect_circleHull_total {P : List V2} (hP : RectForm P) {r rad : ℝ} (hr : ∀ v ∈ P, len v ≤ r)
    (hrr : r + rad < 10 ^ 10) (fuel : ℕ) (hfuel : 66 ≤ fuel) (eps : ℝ) (c p : V2) (seed last : ℕ) :
    ∃ x, circleHull fuel eps rad c p P seed last = .done x := by
  have lP := rect_length hP
  refine C65_total fuel eps rad c p P seed last (rect_convex hP) (rect_noThreeCollinear hP) (rect_zero_mem hP)
    (by rw [lP]; omega) ?_
  have g : ∀ i < 4, P.getD i 0 ∈ P := fun i hi => vget_mem (lP ▸ hi)
  have hn : ∀ i < 4, len (edgeNormal P i) = 1 := fun i hi => len_edgeNormal ((rect_convex hP).edge_ne i (by omega))
  obtain ⟨-, -, -, -, -, f1, -⟩ := rect_frame hP (by norm_num : (0 : ℕ) < 4)
  obtain ⟨-, -, -, -, m2, -⟩ := rect_frame hP (by norm_num : (1 : ℕ) < 4)
  have m02 : midEdge P 2 = -midEdge P 0 := by
    have e1 : (1 + 1) % 4 = 2 := rfl
    have e0 : (0 + 1) % 4 = 1 := rfl
    rw [e1] at m2; rw [e0] at f1
    rw [m2, f1]
  have n02 : edgeNormal P 2 = -edgeNormal P 0 := by
    rw [rect_edgeNormal hP (by norm_num), rect_edgeNormal hP (by norm_num), m02, len_neg, smul_neg]
  have a0 := inner_abs_le (edgeNormal P 0) (P.getD 0 0)
  have a2 := inner_abs_le (edgeNormal P 2) (P.getD 2 0)
  rw [hn 0 (by norm_num), one_mul] at a0
  rw [hn 2 (by norm_num), one_mul] at a2
  have b0 := (abs_le.1 (a0.trans (hr _ (g 0 (by norm_num))))).2
  have b2 := (abs_le.1 (a2.trans (hr _ (g 2 (by norm_num))))).2
  by_cases hsgn : 0 ≤ inner (edgeNormal P 0) (c - p)
  · refine ⟨0, by omega, ?_⟩
    rw [inner_sub_right]
    linarith
  · refine ⟨2, by omega, ?_⟩
    rw [inner_sub_right]
    have : inner (edgeNormal P 2) (c - p) = -inner (edgeNormal P 0) (c - p) := by rw [n02, inner_neg_left]
    rw [this]
    linarith

theorem plain_cases {b : Body} (h : PlainBody b) :
    (b.isCircle = true ∧ b.rad ≤ 10 ^ 9) ∨
    (b.isCircle = false ∧ RectForm b.verts ∧ ∀ v ∈ b.verts, len v ≤ 10 ^ 9) := by
  rcases h with ⟨pos, rad, a, ops, rfl, hr⟩ | ⟨pos, dims, a, b0, ops, hb, rfl, h1⟩
  · left
    have hs : ((mkCircle pos rad a).run ops).shape = .circle rad := by
      rw [run_circle _ rfl ops]
    unfold Body.isCircle Body.rad
    rw [hs]
    exact ⟨rfl, hr⟩
  · right
    have hv := C05_rect_rigid pos dims a b0 hb ops
    refine ⟨?_, rect_body_form hb ops, ?_⟩
    · by_contra hc
      have : (b0.run ops).verts = [] := by
        unfold Body.isCircle at hc
        unfold Body.verts
        cases hs : (b0.run ops).shape <;> simp_all
      rw [this] at hv
      simp at hv
    · intro v hv'
      rw [hv] at hv'
      obtain ⟨u, hu, rfl⟩ := List.mem_map.1 hv'
      rw [rot_len]
      have e : len dims / 2 = len ((dims.1 / 2, dims.2 / 2) : V2) := by
        have : ((dims.1 / 2, dims.2 / 2) : V2) = (1 / 2 : ℝ) • dims := by ext <;> simp <;> ring
        rw [this, len_smul, abs_of_pos (by norm_num)]; ring
      have hle : len u ≤ len dims / 2 := by
        rw [e]
        simp only [List.mem_cons, List.not_mem_nil, or_false] at hu
        rcases hu with rfl | rfl | rfl | rfl <;> simp [len]
      have := len_nonneg dims
      linarith

/-- One pair of bodies. -/
theorem pair_total {fuel : ℕ} (hfuel : 66 ≤ fuel) (eps : ℝ) {bs : List Body} {i1 i2 : ℕ} (h1 : PlainBody (bodyAt bs i1))
    (h2 : PlainBody (bodyAt bs i2)) (f : Finder) : ∃ r, handlePair fuel eps bs f i1 i2 = .done r := by
  have big : (10 : ℝ) ^ 9 + 2 * 10 ^ 9 < 10 ^ 10 := by norm_num
  have big2 : (10 : ℝ) ^ 9 + 10 ^ 9 < 10 ^ 10 := by norm_num
  unfold handlePair
  simp only
  rcases plain_cases h1 with ⟨c1, r1⟩ | ⟨c1, f1, s1⟩ <;> rcases plain_cases h2 with ⟨c2, r2⟩ | ⟨c2, f2, s2⟩
  · rw [if_pos ⟨c1, c2⟩]; exact ⟨_, rfl⟩
  · rw [if_neg (by simp [c2]), if_pos (Or.inl c1)]
    simp only [c2, Bool.false_eq_true, if_false]
    obtain ⟨x, hx⟩ := rect_circleHull_total f2 s2 (rad := (bodyAt bs i1).rad) (by linarith) fuel hfuel eps (bodyAt bs i1).pos
      (bodyAt bs i2).pos (f.rnd 0) (f.sat i2)
    rw [hx]
    exact ⟨_, rfl⟩
  · rw [if_neg (by simp [c1]), if_pos (Or.inr c2)]
    simp only [c2, if_true]
    obtain ⟨x, hx⟩ := rect_circleHull_total f1 s1 (rad := (bodyAt bs i2).rad) (by linarith) fuel hfuel eps (bodyAt bs i2).pos
      (bodyAt bs i1).pos (f.rnd 0) (f.sat i1)
    rw [hx]
    exact ⟨_, rfl⟩
  · rw [if_neg (by simp [c1]), if_neg (by simp [c1, c2])]
    obtain ⟨x, hx⟩ := rect_hullHull_total f1 f2 s1 s2 big big eps (bodyAt bs i1).pos (bodyAt bs i2).pos i1 i2 f
    rw [hx]
    exact ⟨_, rfl⟩

/-- C94: on circles and rectangles in any poses, with any broad phase, exclusions and history, the contact search
returns: GJK terminates, no support query fails, every separation test finds an edge, and no clipping divides by zero. -/
theorem C94_search_total (fuel : ℕ) (hfuel : 66 ≤ fuel) (nc : ℕ → List ℕ) (pairs : List Body → List (ℕ × ℕ)) (eps : ℝ)
    (f : Finder) (bs : List Body) (hp : ∀ p ∈ pairs bs, p.1 < bs.length ∧ p.2 < bs.length) (hb : ∀ b ∈ bs, PlainBody b) :
    ∃ r, diffCollide fuel nc pairs eps f bs = .ok r := by
  have key : ∀ (ps : List (ℕ × ℕ)) (f : Finder), (∀ p ∈ ps, p.1 < bs.length ∧ p.2 < bs.length) →
      ∃ r, handleAll fuel nc eps bs ps f = .done r := by
    intro ps
    induction ps with
    | nil => intro f _; exact ⟨_, rfl⟩
    | cons p ps ih =>
      intro f hps
      have hp := hps p (List.mem_cons_self ..)
      have h1 : ∃ r, handle fuel nc eps bs f p.1 p.2 = .done r := by
        unfold handle
        split_ifs
        · exact ⟨_, rfl⟩
        · exact pair_total hfuel eps (hb _ (bodyAt_mem hp.1)) (hb _ (bodyAt_mem hp.2)) f
      obtain ⟨r, hr⟩ := h1
      obtain ⟨s, hs⟩ := ih r.1 fun q hq => hps q (List.mem_cons_of_mem _ hq)
      refine ⟨(s.1, r.2 ++ s.2), ?_⟩
      unfold handleAll
      rw [hr]
      simp only [Run.bind]
      rw [hs]
  obtain ⟨r, hr⟩ := key (pairs bs) f hp
  exact ⟨r, by unfold diffCollide; rw [hr]; rfl⟩

/-- The centre of the circle lies on the segment between two vertices of the other body. -/
def OnSide (c h : Body) : Prop := ∃ u ∈ h.verts, ∃ v ∈ h.verts, c.pos - h.pos ∈ segment ℝ u v

theorem combo_segment {pts : List V2} {q : V2} (h : PosCombo pts q) (hl : pts.length < 3) :
    ∃ u ∈ pts, ∃ v ∈ pts, q ∈ segment ℝ u v := by
  obtain ⟨ws, hlen, hpos, hsum, he⟩ := h
  match pts, ws, hlen, hl with
  | [], [], _, _ => simp at hsum
  | [a], [w], _, _ =>
    refine ⟨a, by simp, a, by simp, ?_⟩
    have hw : w = 1 := by simpa using hsum
    have : q = a := by rw [← he, hw]; simp
    rw [this]
    exact left_mem_segment ℝ a a
  | [a, b], [w, x], _, _ =>
    refine ⟨a, by simp, b, by simp, w, x, (hpos w (by simp)).le, (hpos x (by simp)).le, by simpa using hsum, ?_⟩
    rw [← he]
    simp

/-- A NaN normal of circle against hull: the centre is on a segment between two vertices. -/
theorem circleHull_nan {fuel : ℕ} {eps rad : ℝ} {c p : V2} {P : List V2} (hP : 0 < P.length) {seed last last' : ℕ} {k : CHull}
    (h : circleHull fuel eps rad c p P seed last = .done (some k, last')) (hn : k.nan = true) :
    ∃ u ∈ P, ∃ v ∈ P, c - p ∈ segment ℝ u v := by
  unfold circleHull at h
  rw [Run.bind_eq_done] at h
  obtain ⟨⟨q, used⟩, hg, h⟩ := h
  obtain ⟨-, hin, hcomb, -, -⟩ := C15_gjk_correct P (c - p) fuel _ (by simpa using Nat.mod_lt seed hP) q used hg
  simp only at h
  split_ifs at h with hl
  · injection h with h
    injection h with h _
    unfold shallowContact at h
    simp only at h
    split_ifs at h with hd
    injection h with h
    subst h
    simp only [decide_eq_true_eq] at hn
    have hq : q = c - p := by
      have := len_eq_zero.1 (show len (q + p - c) = 0 by rw [← nrm_eq_len]; exact hn)
      rw [eq_sub_iff_add_eq, ← sub_eq_zero]
      exact this
    obtain ⟨u, hu, v, hv, hs⟩ := combo_segment hcomb (by simpa using hl)
    obtain ⟨i, hi, rfl⟩ := List.mem_map.1 hu
    obtain ⟨j, hj, rfl⟩ := List.mem_map.1 hv
    exact ⟨_, vget_mem (hin i hi), _, vget_mem (hin j hj), hq ▸ hs⟩
  · exfalso
    have inv := satCircle_inv eps rad P c p last
    cases hs : satCircle eps rad c p P last with
    | gap i => rw [hs] at h; cases h
    | go b d l =>
      cases b with
      | none => rw [hs] at h; cases h
      | some k' =>
        rw [hs] at h
        injection h with h
        injection h with h _
        injection h with h
        subst h
        rw [hs] at inv
        have := inv.2.1.nan
        rw [hn] at this
        cases this

/-- The poses in which a contact has a NaN normal: two concentric circles, or a circle whose centre is on the segment
between two vertices of the other body. -/
def Degenerate (a b : Body) : Prop :=
  (a.isCircle = true ∧ b.isCircle = true ∧ a.pos = b.pos) ∨
  (a.isCircle = true ∧ b.isCircle = false ∧ OnSide a b) ∨ (a.isCircle = false ∧ b.isCircle = true ∧ OnSide b a)

/-- C94: a NaN normal arises only in such a pose. -/
theorem C94_nan_contact (fuel : ℕ) (nc : ℕ → List ℕ) (pairs : List Body → List (ℕ × ℕ)) (eps : ℝ)
    (f f' : Finder) (bs : List Body) (cs : List Contact) (hp : ∀ p ∈ pairs bs, p.1 < bs.length ∧ p.2 < bs.length)
    (hb : ∀ b ∈ bs, b.isCircle = false → b.verts ≠ []) (h : diffCollide fuel nc pairs eps f bs = .ok (f', cs))
    (c : Contact) (hc : c ∈ cs) (hn : c.nan = true) :
    (c.i1, c.i2) ∈ pairs bs ∧ c.i1 ∉ nc c.i2 ∧ Degenerate (bodyAt bs c.i1) (bodyAt bs c.i2) := by
  unfold diffCollide at h
  cases hr : handleAll fuel nc eps bs (pairs bs) f with
  | running => rw [hr] at h; cases h
  | raised e => rw [hr] at h; cases h
  | done r =>
    rw [hr] at h
    injection h with h
    subst h
    obtain ⟨p, hpm, g, g', cs', hx, hpair, hc'⟩ := handleAll_mem hr c hc
    have hpos : ∀ b ∈ bs, b.isCircle = false → 0 < b.verts.length := fun b hm hc => List.length_pos_iff.2 (hb b hm hc)
    have m1 := bodyAt_mem (hp p hpm).1
    have m2 := bodyAt_mem (hp p hpm).2
    obtain ⟨j1, j2, -, -, -, -⟩ := C12_pair_wellformed fuel eps bs g g' p.1 p.2 cs' hpair c hc'
    rw [j1, j2]
    refine ⟨hpm, hx, ?_⟩
    unfold handlePair at hpair
    simp only at hpair
    cases c1 : (bodyAt bs p.1).isCircle <;> cases c2 : (bodyAt bs p.2).isCircle
    · exfalso
      rw [if_neg (by simp [c1]), if_neg (by simp [c1, c2])] at hpair
      cases hh : hullHull eps (bodyAt bs p.1).pos (bodyAt bs p.2).pos (bodyAt bs p.1).verts
          (bodyAt bs p.2).verts p.1 p.2 g with
      | error e => rw [hh] at hpair; cases hpair
      | ok r =>
        obtain ⟨f1, pts⟩ := r
        rw [hh] at hpair
        simp only [Except.map, Run.ofExcept] at hpair
        injection hpair with hpair
        injection hpair with _ hpair
        subst hpair
        obtain ⟨q, hq, rfl⟩ := List.mem_map.1 hc'
        have := (hullHull_ok hh q hq).2
        simp only at hn
        rw [hn] at this
        cases this
    · right; right
      rw [if_neg (by simp [c1]), if_pos (Or.inr c2)] at hpair
      simp only [c2, if_true] at hpair
      rw [Run.bind_eq_done] at hpair
      obtain ⟨⟨o, l⟩, hch, hpair⟩ := hpair
      injection hpair with hpair
      injection hpair with _ hpair
      subst hpair
      obtain ⟨q, hq, rfl⟩ := List.mem_map.1 hc'
      obtain ⟨k, hk, rfl⟩ := List.mem_map.1 hq
      have hk' : o = some k := Option.mem_toList.1 hk
      subst hk'
      exact ⟨c1, c2, circleHull_nan (hpos _ m1 c1) hch (by simpa [CHull.toPt] using hn)⟩
    · right; left
      rw [if_neg (by simp [c2]), if_pos (Or.inl c1)] at hpair
      simp only [c2, Bool.false_eq_true, if_false] at hpair
      rw [Run.bind_eq_done] at hpair
      obtain ⟨⟨o, l⟩, hch, hpair⟩ := hpair
      injection hpair with hpair
      injection hpair with _ hpair
      subst hpair
      obtain ⟨q, hq, rfl⟩ := List.mem_map.1 hc'
      obtain ⟨k, hk, rfl⟩ := List.mem_map.1 hq
      have hk' : o = some k := Option.mem_toList.1 hk
      subst hk'
      exact ⟨c1, c2, circleHull_nan (hpos _ m2 c2) hch (by simpa [CHull.toPt] using hn)⟩
    · left
      rw [if_pos ⟨c1, c2⟩] at hpair
      injection hpair with hpair
      injection hpair with _ hpair
      subst hpair
      obtain ⟨q, hq, rfl⟩ := List.mem_map.1 hc'
      refine ⟨c1, c2, ?_⟩
      unfold circleCircle at hq
      simp only at hq
      split_ifs at hq
      · simp at hq
      · simp only [List.mem_singleton] at hq
        subst hq
        simp only [decide_eq_true_eq, nrm_eq_len] at hn
        exact sub_eq_zero.1 (len_eq_zero.1 hn)

theorem plain_verts {b : Body} (h : PlainBody b) (hc : b.isCircle = false) : b.verts ≠ [] := by
  rcases plain_cases h with ⟨h1, -⟩ | ⟨-, h1, -⟩
  · rw [hc] at h1; cases h1
  · intro h2
    have := rect_length h1
    rw [h2] at this
    cases this

theorem run_append (b : Body) (o1 o2 : List BodyOp) : (b.run o1).run o2 = b.run (o1 ++ o2) := by
  unfold Body.run
  rw [List.foldl_append]

theorem plain_posed {bs bs' : List Body} (h : Posed bs bs') (hb : ∀ b ∈ bs, PlainBody b) : ∀ b ∈ bs', PlainBody b := by
  intro b hm
  obtain ⟨i, hi, rfl⟩ := List.getElem_of_mem hm
  have hi' : i < bs.length := by rw [← h.1]; exact hi
  obtain ⟨ops, ho⟩ := h.2 i hi'
  have e : bodyAt bs' i = bs'[i] := by simp [bodyAt, List.getD_eq_getElem?_getD, hi]
  rw [← e, ho]
  rcases hb _ (bodyAt_mem hi') with ⟨pos, rad, a, ops', h1, h2⟩ | ⟨pos, dims, a, b0, ops', h1, h2, h3⟩
  · exact Or.inl ⟨pos, rad, a, ops' ++ ops, by rw [h1, run_append], h2⟩
  · exact Or.inr ⟨pos, dims, a, b0, ops' ++ ops, h1, by rw [h2, run_append], h3⟩

/-- C94: hence, NaN normals counted as failures, the search fails only in a degenerate pose. -/
theorem C94_search_fails (fuel : ℕ) (hfuel : 66 ≤ fuel) (nc : ℕ → List ℕ) (pairs : List Body → List (ℕ × ℕ)) (eps : ℝ)
    (f : Finder) (bs : List Body) (hp : ∀ p ∈ pairs bs, p.1 < bs.length ∧ p.2 < bs.length) (hb : ∀ b ∈ bs, PlainBody b)
    (e : Err) (h : rejectNan (diffCollide fuel nc pairs) eps f bs = .error e) :
    e = .raised "nonfinite" ∧ ∃ i j, (i, j) ∈ pairs bs ∧ i ∉ nc j ∧ Degenerate (bodyAt bs i) (bodyAt bs j) := by
  obtain ⟨⟨f', cs⟩, hr⟩ := C94_search_total fuel hfuel nc pairs eps f bs hp hb
  unfold rejectNan at h
  rw [hr] at h
  simp only at h
  split_ifs at h with hall
  injection h with h
  refine ⟨h.symm, ?_⟩
  obtain ⟨c, hcm, hcn⟩ : ∃ c ∈ cs, c.nan = true := by
    by_contra hno
    push Not at hno
    refine hall (List.all_eq_true.2 fun c hcm => ?_)
    cases hn : c.nan with
    | false => rfl
    | true => exact absurd hn (hno c hcm)
  have := C94_nan_contact fuel nc pairs eps f f' bs cs hp (fun b hm hc => plain_verts (hb b hm) hc) hr c hcm hcn
  exact ⟨c.i1, c.i2, this⟩

/-- C94: a step of a frictionless world of circles and rectangles, with independent constraints and the library's solver
and contact search, raises only if it tries a degenerate pose. -/
theorem C94_step_raises (f : Btrifact) (hf : BtrifactOk f) (eps : ℝ) (lim mi : ℕ) (hm : mi ≠ 0) (H : ForceHeap)
    (cfuel : ℕ) (hcf : 66 ≤ cfuel) (nc : ℕ → List ℕ) (pairs : List Body → List (ℕ × ℕ))
    (hp : ∀ bs, ∀ p ∈ pairs bs, p.1 < bs.length ∧ p.2 < bs.length ∧ p.1 ≠ p.2)
    (w : World (Option Mat) Finder) (h : Regular w) (hb : ∀ b ∈ w.bodies, PlainBody b)
    (hH : ∀ t, ∃ fl, forceCat H t w.bodies.length = .ok fl) (fuel : ℕ) (dt : ℝ) (e : Err)
    (he : w.step_dt (pdipmEnv 2 H (libraryLcp f eps lim) mi (rejectNan (diffCollide cfuel nc pairs))) fuel dt = .raised e) :
    e = .raised "nonfinite" ∧ ∃ bs i j, Posed w.bodies bs ∧ (i, j) ∈ pairs bs ∧ i ∉ nc j ∧
      Degenerate (bodyAt bs i) (bodyAt bs j) := by
  obtain ⟨f', bs, hpos, hc⟩ := (regular_step (eps := eps) (lim := lim) hf hm (C12_finder_ok cfuel nc pairs hp) h hH fuel dt).1 e he
  obtain ⟨h1, i, j, h2⟩ := C94_search_fails cfuel hcf nc pairs w.eps f' bs (fun p hpm => ⟨(hp bs p hpm).1, (hp bs p hpm).2.1⟩)
    (plain_posed hpos hb) e hc
  exact ⟨h1, bs, i, j, hpos, h2⟩

/-! ## The Breakout game -/

open Breakout

theorem plate_plain (e : ℝ) (b : BoxParams) (h : 0 < b.w * b.h) (hl : len (b.w, b.h) ≤ 10 ^ 9) : PlainBody (plate e b) :=
  Or.inr ⟨_, _, _, _, [], boxBody_ok e b h, rfl, hl⟩

theorem len_le_of {a : V2} {k : ℝ} (hk : 0 ≤ k) (h : a.1 ^ 2 + a.2 ^ 2 ≤ k ^ 2) : len a ≤ k := by
  unfold len
  exact Real.sqrt_le_iff.2 ⟨hk, by simpa [Spec.inner, sq] using h⟩

/-- The bodies of the game. -/
theorem game_plain {paddle : BoxParams} {blocks : List BoxParams} {ball : BallParams} {vel : V2} (hr' : ball.rad ≤ 10 ^ 9)
    (hpl : len (paddle.w, paddle.h) ≤ 10 ^ 9) (hbl : ∀ b ∈ blocks, len (b.w, b.h) ≤ 10 ^ 9)
    (hp : 0 < paddle.w * paddle.h) (hb : ∀ b ∈ blocks, GoodBlock b) :
    ∀ b ∈ gameBodies paddle blocks ball vel, PlainBody b := by
  intro b h
  simp only [gameBodies, List.mem_append, List.mem_cons, List.not_mem_nil, or_false, List.mem_map] at h
  have hsmall : ∀ x y : ℝ, x ^ 2 + y ^ 2 ≤ (10 ^ 9) ^ 2 → len (x, y) ≤ 10 ^ 9 := fun x y h =>
    len_le_of (by norm_num) h
  rcases h with (h | h | h | h | h | h | h) | ⟨x, hx, h⟩
  · exact Or.inl ⟨_, _, _, [], h, hr'⟩
  · rw [h]; exact plate_plain _ _ hp hpl
  · rw [h]; exact plate_plain _ _ (by norm_num [leftWall]) (hsmall _ _ (by norm_num [leftWall]))
  · rw [h]; exact plate_plain _ _ (by norm_num [rightWall]) (hsmall _ _ (by norm_num [rightWall]))
  · rw [h]; exact plate_plain _ _ (by norm_num [roof]) (hsmall _ _ (by norm_num [roof]))
  · rw [h]; exact plate_plain _ _ (by norm_num [leftStopper]) (hsmall _ _ (by norm_num [leftStopper]))
  · rw [h]; exact plate_plain _ _ (by norm_num [rightStopper]) (hsmall _ _ (by norm_num [rightStopper]))
  · rw [← h]; exact plate_plain _ _ (hb x hx).2 (hbl x hx)

theorem run_shape (b : Body) (ops : List BodyOp) : (b.run ops).isCircle = b.isCircle := by
  induction ops using List.reverseRecOn with
  | nil => rfl
  | append_singleton ops o ih =>
    rw [← run_append, ← ih]
    generalize b.run ops = c
    cases o <;> (unfold Body.run Body.isCircle; simp only [List.foldl_cons, List.foldl_nil]) <;>
      cases hs : c.shape <;> simp [Body.op, Body.move, Body.set_p, Body.baseSetP, hs]

/-- The ball is the only circle of the game. -/
theorem game_circles {paddle : BoxParams} {blocks : List BoxParams} {ball : BallParams} {vel : V2} (i : ℕ) (hi : i ≠ 0)
    (hl : i < (gameBodies paddle blocks ball vel).length) : (bodyAt (gameBodies paddle blocks ball vel) i).isCircle = false := by
  have hm : bodyAt (gameBodies paddle blocks ball vel) i ∈ (gameBodies paddle blocks ball vel).drop 1 := by
    have e : bodyAt (gameBodies paddle blocks ball vel) i = ((gameBodies paddle blocks ball vel).drop 1)[i - 1]'(by
        rw [List.length_drop]; omega) := by
      rw [List.getElem_drop]
      simp only [bodyAt, List.getD_eq_getElem?_getD, List.getElem?_eq_getElem hl, Option.getD_some]
      congr 1
      omega
    rw [e]
    exact List.getElem_mem _
  generalize bodyAt (gameBodies paddle blocks ball vel) i = b at hm ⊢
  have hpl : ∀ e x, (plate e x).isCircle = false := fun e x => rfl
  simp only [gameBodies, List.cons_append, List.nil_append, List.drop_succ_cons, List.drop_zero, List.mem_cons,
    List.mem_map] at hm
  rcases hm with h | h | h | h | h | h | ⟨x, -, h⟩
  all_goals first | (rw [h]; rfl) | (rw [← h]; rfl)

/-- C93: a game with the library's solver and contact search raises only if the centre of the ball, in a tried pose, is
exactly on the segment between two vertices of a wall, the paddle or a block. -/
theorem C93_game_raises (f : Btrifact) (hb : BtrifactOk f) (eps : ℝ) (lim mi : ℕ) (hm : mi ≠ 0) (cfuel : ℕ) (hcf : 66 ≤ cfuel)
    (pairs : List Body → List (ℕ × ℕ)) (hp : ∀ bs, ∀ p ∈ pairs bs, p.1 < bs.length ∧ p.2 < bs.length ∧ p.1 ≠ p.2)
    (fnd : Finder) (paddle : BoxParams) (blocks : List BoxParams) (ball : BallParams) (vel : V2) (hr : ball.rad ≠ 0)
    (hr' : ball.rad ≤ 10 ^ 9) (hpl : len (paddle.w, paddle.h) ≤ 10 ^ 9) (hbl : ∀ b ∈ blocks, len (b.w, b.h) ≤ 10 ^ 9)
    (w0 w : World (Option Mat) Finder)
    (h : make_world (libraryLcp f eps lim) mi (rejectNan (diffCollide cfuel (breakoutNc blocks.length) pairs)) fnd paddle
      blocks ball vel = .done w0)
    (hpy : Play (breakoutEnv (libraryLcp f eps lim) mi (rejectNan (diffCollide cfuel (breakoutNc blocks.length) pairs))) 1
      (fun _ => True) w0 w) (fuel : ℕ) (dt : ℝ) (e : Err)
    (he : w.step_dt (breakoutEnv (libraryLcp f eps lim) mi (rejectNan (diffCollide cfuel (breakoutNc blocks.length) pairs)))
      fuel dt = .raised e) :
    e = .raised "nonfinite" ∧ ∃ bs, Posed w.bodies bs ∧ ∃ i < bs.length, i ≠ 0 ∧ OnSide (bodyAt bs 0) (bodyAt bs i) := by
  set collide := rejectNan (diffCollide cfuel (breakoutNc blocks.length) pairs) with hcol
  have hfd : GameFinder blocks.length collide := C76_library_search cfuel blocks.length pairs hp
  have hbod : w0.bodies = gameBodies paddle blocks ball vel := (C76_constructed _ _ _ _ _ _ _ _ w0 hr hfd h).2.2.2.2
  have hgood : 0 < paddle.w * paddle.h ∧ ∀ b ∈ blocks, GoodBlock b := by
    unfold make_world at h
    cases hb : breakoutBodies paddle blocks ball vel with
    | error e => rw [hb] at h; cases h
    | ok bs => exact ((C76_bodies _ _ _ _ _).1 hb).1
  have hreg := (C93_game_regular _ _ _ _ _ _ _ _ hr hfd w0 w h hpy).1
  have hposed : Posed w0.bodies w.bodies := by
    clear he hreg
    induction hpy with
    | refl => exact Posed.refl _
    | tail hp0 hs ih =>
      have hreg := (C93_game_regular _ _ _ _ _ _ _ _ hr hfd w0 _ h hp0).1
      rcases hs with ⟨-, fuel, dt, hs⟩ | ⟨v, -, rfl⟩
      · exact ih.trans (posed_step hreg.inv.good hs)
      · exact ih.trans (posed_set_v _ v)
  have hplain := plain_posed hposed (hbod ▸ game_plain hr' hpl hbl hgood.1 hgood.2)
  obtain ⟨h1, bs, i, j, h2, h3, -, h5⟩ := C94_step_raises f hb eps lim mi hm breakoutForces cfuel hcf
    (breakoutNc blocks.length) pairs hp w hreg hplain (fun _ => ⟨_, breakoutForces_cat _ _⟩) fuel dt e he
  obtain ⟨v1, v2, v3⟩ := hp bs _ h3
  have hpb := hposed.trans h2
  have hcirc : ∀ k, k < bs.length → k ≠ 0 → (bodyAt bs k).isCircle = false := by
    intro k hk hk0
    have hk' : k < w0.bodies.length := by rw [← hpb.1]; exact hk
    obtain ⟨ops, ho⟩ := hpb.2 k hk'
    rw [ho, run_shape, hbod]
    exact game_circles k hk0 (hbod ▸ hk')
  refine ⟨h1, bs, h2, ?_⟩
  simp only at v1 v2 v3
  rcases h5 with ⟨a, b, -⟩ | ⟨a, b, c⟩ | ⟨a, b, c⟩
  · exfalso
    by_cases hi : i = 0
    · rw [hcirc j v2 (by omega)] at b; cases b
    · rw [hcirc i v1 hi] at a; cases a
  · have hi : i = 0 := by
      by_contra hi
      rw [hcirc i v1 hi] at a; cases a
    subst hi
    exact ⟨j, v2, by omega, c⟩
  · have hj : j = 0 := by
      by_contra hj
      rw [hcirc j v2 hj] at b; cases b
    subst hj
    exact ⟨i, v1, by omega, c⟩

end LcpPhysics
