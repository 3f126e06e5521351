import Verif.Lemmas.Closest
import Verif.Spec.Convex
import Verif.Lemmas.Support

/-! # Lemmas on closest points of simplices and the GJK loop -/

noncomputable section

namespace LcpPhysics
open Spec

theorem posCombo_one (a : V2) : PosCombo [a] a := ⟨[1], rfl, by simp, by simp, by simp⟩

theorem posCombo_two {a b : V2} {u v : ℝ} (hu : 0 < u) (hv : 0 < v) (h : u + v = 1) :
    PosCombo [a, b] (u • a + v • b) :=
  ⟨[u, v], rfl, by simp [hu, hv], by simp [h], by simp⟩

theorem posCombo_three {a b c : V2} {u v w : ℝ} (hu : 0 < u) (hv : 0 < v) (hw : 0 < w)
    (h : u + v + w = 1) : PosCombo [a, b, c] (u • a + v • b + w • c) :=
  ⟨[u, v, w], rfl, by simp [hu, hv, hw], by simp [← h, add_assoc], by simp [add_assoc]⟩

/-- A vertex whose two inequalities hold is nearest; generic form. -/
theorem nearest_vertex {s : List V2} {p a : V2} (ha : a ∈ s)
    (h : ∀ x ∈ s, inner (p - a) (x - a) ≤ 0) : IsNearest (solid s) p a :=
  nearest_of_verts (mem_solid ha) fun w hw => by rw [inner_comm]; exact h w hw

/-- Projection on an edge of the simplex. -/
theorem nearest_edge {s : List V2} {p a b : V2} (ha : a ∈ s) (hb : b ∈ s) (hab : a ≠ b)
    (hu : 0 < (bary2 p a b).1) (hv : 0 < (bary2 p a b).2)
    (h : ∀ x ∈ s, x = a ∨ x = b ∨ inner (x - ((bary2 p a b).1 • a + (bary2 p a b).2 • b))
      (p - ((bary2 p a b).1 • a + (bary2 p a b).2 • b)) ≤ 0) :
    IsNearest (solid s) p ((bary2 p a b).1 • a + (bary2 p a b).2 • b) := by
  have hsum := bary2_sum p a b hab
  have hperp := bary2_perp p a b hab
  apply nearest_of_verts (solid_combo2 (mem_solid ha) (mem_solid hb) hu.le hv.le hsum)
  intro w hw
  rcases h w hw with rfl | rfl | h
  · have e : w - ((bary2 p w b).1 • w + (bary2 p w b).2 • b) = (-(bary2 p w b).2) • (b - w) := by
      have : (bary2 p w b).1 = 1 - (bary2 p w b).2 := by linarith
      rw [this]; module
    rw [e, inner_smul_left, inner_comm, hperp, mul_zero]
  · have e : w - ((bary2 p a w).1 • a + (bary2 p a w).2 • w) = ((bary2 p a w).1) • (w - a) := by
      have : (bary2 p a w).2 = 1 - (bary2 p a w).1 := by linarith
      rw [this]; module
    rw [e, inner_smul_left, inner_comm, hperp, mul_zero]
  · exact h

theorem distinct_of_det {a b c : V2} (h : det (b - a) (c - a) ≠ 0) : a ≠ b ∧ b ≠ c ∧ c ≠ a := by
  refine ⟨?_, ?_, ?_⟩ <;> rintro rfl <;> apply h <;> simp [det]; ring

/-- Whatever `get_closest` returns is the nearest point of the simplex, and the returned
indices are distinct simplex points whose open convex hull contains it. -/
theorem closest_nearest (p : V2) (s : List V2) (q : V2) (ids : List ℕ)
    (h : get_closest p s = .ok (q, ids)) :
    IsNearest (solid s) p q ∧ (∀ i ∈ ids, i < s.length) ∧ ids.Nodup ∧
      PosCombo (ids.map fun i => s.getD i 0) q := by
  match s, h with
  | [], h => cases h
  | [a], h =>
    injection h with h
    simp only [Prod.mk.injEq] at h
    obtain ⟨rfl, rfl⟩ := h
    exact ⟨nearest_vertex (by simp) (by simp [inner]), by simp, by simp, posCombo_one _⟩
  | [a, b], h =>
    unfold get_closest at h
    by_cases hab : a = b
    · simp only [if_pos hab] at h; cases h
    · simp only [if_neg hab] at h
      by_cases h1 : (bary2 p a b).1 ≤ 0
      · simp only [if_pos h1] at h
        injection h with h
        simp only [Prod.mk.injEq] at h
        obtain ⟨rfl, rfl⟩ := h
        rw [bary2_fst_nonpos p a b hab] at h1
        exact ⟨nearest_vertex (by simp) (by simp [h1]; simp [inner]), by simp, by simp, posCombo_one _⟩
      · simp only [if_neg h1] at h
        by_cases h2 : (bary2 p a b).2 ≤ 0
        · simp only [if_pos h2] at h
          injection h with h
          simp only [Prod.mk.injEq] at h
          obtain ⟨rfl, rfl⟩ := h
          rw [bary2_snd_nonpos p a b hab] at h2
          exact ⟨nearest_vertex (by simp) (by simp [h2]; simp [inner]), by simp, by simp,
            posCombo_one _⟩
        · simp only [if_neg h2] at h
          injection h with h
          simp only [Prod.mk.injEq] at h
          obtain ⟨rfl, rfl⟩ := h
          exact ⟨nearest_edge (by simp) (by simp) hab (not_le.1 h1) (not_le.1 h2) (by simp),
            by simp, by simp, posCombo_two (not_le.1 h1) (not_le.1 h2) (bary2_sum p a b hab)⟩
  | [a, b, c], h =>
    unfold get_closest at h
    simp only at h
    cases hb : bary3 p a b c with
    | error e => rw [hb] at h; cases h
    | ok r =>
      obtain ⟨u, v, w⟩ := r
      rw [hb] at h
      simp only at h
      obtain ⟨hd, hp, hs⟩ := bary3_spec p a b c hb
      obtain ⟨hab, hbc, hca⟩ := distinct_of_det hd
      by_cases c1 : (bary2 p a b).2 ≤ 0 ∧ (bary2 p c a).1 ≤ 0
      · rw [if_pos c1] at h
        injection h with h
        simp only [Prod.mk.injEq] at h
        obtain ⟨rfl, rfl⟩ := h
        rw [bary2_snd_nonpos p a b hab, bary2_fst_nonpos p c a hca] at c1
        exact ⟨nearest_vertex (by simp) (by simp [c1]; simp [inner]), by simp, by simp, posCombo_one _⟩
      rw [if_neg c1] at h
      by_cases c2 : (bary2 p b c).2 ≤ 0 ∧ (bary2 p a b).1 ≤ 0
      · rw [if_pos c2] at h
        injection h with h
        simp only [Prod.mk.injEq] at h
        obtain ⟨rfl, rfl⟩ := h
        rw [bary2_snd_nonpos p b c hbc, bary2_fst_nonpos p a b hab] at c2
        exact ⟨nearest_vertex (by simp) (by simp [c2]; simp [inner]), by simp, by simp, posCombo_one _⟩
      rw [if_neg c2] at h
      by_cases c3 : (bary2 p c a).2 ≤ 0 ∧ (bary2 p b c).1 ≤ 0
      · rw [if_pos c3] at h
        injection h with h
        simp only [Prod.mk.injEq] at h
        obtain ⟨rfl, rfl⟩ := h
        rw [bary2_snd_nonpos p c a hca, bary2_fst_nonpos p b c hbc] at c3
        exact ⟨nearest_vertex (by simp) (by simp [c3]; simp [inner]), by simp, by simp, posCombo_one _⟩
      rw [if_neg c3] at h
      by_cases c4 : (bary2 p a b).1 > 0 ∧ (bary2 p a b).2 > 0 ∧ w ≤ 0
      · rw [if_pos c4] at h
        injection h with h
        simp only [Prod.mk.injEq] at h
        obtain ⟨rfl, rfl⟩ := h
        exact ⟨nearest_edge (by simp) (by simp) hab c4.1 c4.2.1
          (by simp; exact Or.inr (Or.inr (edge_other_side p a b c hab hp hs c4.2.2))), by simp, by simp,
          posCombo_two c4.1 c4.2.1 (bary2_sum p a b hab)⟩
      rw [if_neg c4] at h
      by_cases c5 : (bary2 p b c).1 > 0 ∧ (bary2 p b c).2 > 0 ∧ u ≤ 0
      · rw [if_pos c5] at h
        injection h with h
        simp only [Prod.mk.injEq] at h
        obtain ⟨rfl, rfl⟩ := h
        refine ⟨nearest_edge (by simp) (by simp) hbc c5.1 c5.2.1 ?_, by simp, by simp,
          posCombo_two c5.1 c5.2.1 (bary2_sum p b c hbc)⟩
        simp
        exact Or.inr (Or.inr (edge_other_side p b c a hbc (u := v) (v := w) (w := u)
          (by rw [← hp]; abel) (by linarith) c5.2.2))
      rw [if_neg c5] at h
      by_cases c6 : (bary2 p c a).1 > 0 ∧ (bary2 p c a).2 > 0 ∧ v ≤ 0
      · rw [if_pos c6] at h
        injection h with h
        simp only [Prod.mk.injEq] at h
        obtain ⟨rfl, rfl⟩ := h
        refine ⟨nearest_edge (by simp) (by simp) hca c6.1 c6.2.1 ?_, by simp, by simp,
          posCombo_two c6.1 c6.2.1 (bary2_sum p c a hca)⟩
        simp
        exact Or.inr (Or.inr (edge_other_side p c a b hca (u := w) (v := u) (w := v)
          (by rw [← hp]; abel) (by linarith) c6.2.2))
      rw [if_neg c6] at h
      by_cases c7 : u > 0 ∧ v > 0 ∧ w > 0
      · rw [if_pos c7] at h
        injection h with h
        simp only [Prod.mk.injEq] at h
        obtain ⟨rfl, rfl⟩ := h
        have hcombo := posCombo_three (a := a) (b := b) (c := c) c7.1 c7.2.1 c7.2.2 hs
        rw [hp] at hcombo
        have hmem := solid_combo3 (vs := [a, b, c]) (mem_solid (by simp)) (mem_solid (by simp))
          (mem_solid (by simp)) (a := a) (b := b) (c := c) c7.1.le c7.2.1.le c7.2.2.le hs
        rw [hp] at hmem
        exact ⟨nearest_of_inner hmem (by simp [inner]), by simp, by simp, hcombo⟩
      rw [if_neg c7] at h
      cases h
  | _ :: _ :: _ :: _ :: _, h => cases h

/-- It never raises on one point, two distinct points or three non-collinear points; in
particular the error `Point does not satisfy any condition` is unreachable. -/
theorem closest_total (p : V2) (s : List V2)
    (hs : (∃ a, s = [a]) ∨ (∃ a b, s = [a, b] ∧ a ≠ b) ∨
      ∃ a b c, s = [a, b, c] ∧ det (b - a) (c - a) ≠ 0) :
    ∃ q ids, get_closest p s = .ok (q, ids) := by
  rcases hs with ⟨a, rfl⟩ | ⟨a, b, rfl, hab⟩ | ⟨a, b, c, rfl, hd⟩
  · exact ⟨_, _, rfl⟩
  · unfold get_closest
    simp only [if_neg hab]
    split_ifs <;> exact ⟨_, _, rfl⟩
  · obtain ⟨u, v, w, hb⟩ := bary3_ok p a b c hd
    obtain ⟨-, hp, hs⟩ := bary3_spec p a b c hb
    obtain ⟨hab, hbc, hca⟩ := distinct_of_det hd
    unfold get_closest
    simp only [hb]
    have key : ((bary2 p a b).2 ≤ 0 ∧ (bary2 p c a).1 ≤ 0) ∨ ((bary2 p b c).2 ≤ 0 ∧ (bary2 p a b).1 ≤ 0) ∨
        ((bary2 p c a).2 ≤ 0 ∧ (bary2 p b c).1 ≤ 0) ∨
        ((bary2 p a b).1 > 0 ∧ (bary2 p a b).2 > 0 ∧ w ≤ 0) ∨
        ((bary2 p b c).1 > 0 ∧ (bary2 p b c).2 > 0 ∧ u ≤ 0) ∨
        ((bary2 p c a).1 > 0 ∧ (bary2 p c a).2 > 0 ∧ v ≤ 0) ∨ (u > 0 ∧ v > 0 ∧ w > 0) := by
      have hac := hca.symm
      have hba := hab.symm
      have hcb := hbc.symm
      simp only [gt_iff_lt]
      rw [← not_le, ← not_le (a := (bary2 p a b).2), ← not_le (a := (bary2 p b c).1),
        ← not_le (a := (bary2 p b c).2), ← not_le (a := (bary2 p c a).1), ← not_le (a := (bary2 p c a).2)]
      rw [bary2_snd_nonpos p a b hab, bary2_fst_nonpos p a b hab, bary2_snd_nonpos p b c hbc,
        bary2_fst_nonpos p b c hbc, bary2_snd_nonpos p c a hca, bary2_fst_nonpos p c a hca]
      by_cases hw : w ≤ 0
      · have r1 := region_cover p a b c (u := u) (v := v) (w := w) hp hs hw
        have r2 := region_cover p b a c (u := v) (v := u) (w := w) (by rw [← hp]; abel) (by linarith) hw
        grind
      by_cases hu : u ≤ 0
      · have r1 := region_cover p b c a (u := v) (v := w) (w := u) (by rw [← hp]; abel) (by linarith) hu
        have r2 := region_cover p c b a (u := w) (v := v) (w := u) (by rw [← hp]; abel) (by linarith) hu
        grind
      by_cases hv : v ≤ 0
      · have r1 := region_cover p c a b (u := w) (v := u) (w := v) (by rw [← hp]; abel) (by linarith) hv
        have r2 := region_cover p a c b (u := u) (v := w) (w := v) (by rw [← hp]; abel) (by linarith) hv
        grind
      grind
    split_ifs with h1 h2 h3 h4 h5 h6 h7
    any_goals exact ⟨_, _, rfl⟩
    exact absurd key (not_or.2 ⟨h1, not_or.2 ⟨h2, not_or.2 ⟨h3, not_or.2 ⟨h4, not_or.2 ⟨h5,
      not_or.2 ⟨h6, h7⟩⟩⟩⟩⟩⟩)

/-- Shape of the result of `get_closest`. -/
theorem get_closest_cases (p : V2) (s : List V2) (q : V2) (ids : List ℕ)
    (h : get_closest p s = .ok (q, ids)) :
    (∃ i, ids = [i] ∧ i < s.length ∧ q = s.getD i 0) ∨
    (∃ i j, ids = [i, j] ∧ i < s.length ∧ j < s.length ∧
      (i = 0 ∧ j = 1 ∨ i = 1 ∧ j = 2 ∨ i = 2 ∧ j = 0) ∧ s.getD i 0 ≠ s.getD j 0) ∨
    (ids = [0, 1, 2] ∧ s.length = 3 ∧ q = p) := by
  match s, h with
  | [], h => cases h
  | [a], h =>
    injection h with h
    simp only [Prod.mk.injEq] at h
    obtain ⟨rfl, rfl⟩ := h
    exact Or.inl ⟨0, rfl, by simp, rfl⟩
  | [a, b], h =>
    unfold get_closest at h
    by_cases hab : a = b
    · simp only [if_pos hab] at h; cases h
    simp only [if_neg hab] at h
    split_ifs at h <;> injection h with h <;> simp only [Prod.mk.injEq] at h <;>
      obtain ⟨rfl, rfl⟩ := h
    · exact Or.inl ⟨1, rfl, by simp, rfl⟩
    · exact Or.inl ⟨0, rfl, by simp, rfl⟩
    · exact Or.inr (Or.inl ⟨0, 1, rfl, by simp, by simp, by simp, by simpa using hab⟩)
  | [a, b, c], h =>
    unfold get_closest at h
    simp only at h
    cases hb : bary3 p a b c with
    | error e => rw [hb] at h; cases h
    | ok r =>
      obtain ⟨u, v, w⟩ := r
      rw [hb] at h
      simp only at h
      obtain ⟨hd, hp, hs⟩ := bary3_spec p a b c hb
      obtain ⟨hab, hbc, hca⟩ := distinct_of_det hd
      split_ifs at h <;> injection h with h <;> simp only [Prod.mk.injEq] at h <;>
        obtain ⟨rfl, rfl⟩ := h
      · exact Or.inl ⟨0, rfl, by simp, rfl⟩
      · exact Or.inl ⟨1, rfl, by simp, rfl⟩
      · exact Or.inl ⟨2, rfl, by simp, rfl⟩
      · exact Or.inr (Or.inl ⟨0, 1, rfl, by simp, by simp, by simp, by simpa using hab⟩)
      · exact Or.inr (Or.inl ⟨1, 2, rfl, by simp, by simp, by simp, by simpa using hbc⟩)
      · exact Or.inr (Or.inl ⟨2, 0, rfl, by simp, by simp, by simp, by simpa using hca⟩)
      · exact Or.inr (Or.inr ⟨rfl, rfl, rfl⟩)
  | _ :: _ :: _ :: _ :: _, h => cases h

theorem posCombo_one_iff {a q : V2} : PosCombo [a] q ↔ q = a := by
  constructor
  · rintro ⟨ws, hl, hp, hs, hq⟩
    match ws, hl with
    | [w], _ => simp at hs hq; rw [← hq, hs, one_smul]
  · rintro rfl; exact posCombo_one _

theorem posCombo_two_elim {a b q : V2} (h : PosCombo [a, b] q) :
    ∃ u v : ℝ, 0 < u ∧ 0 < v ∧ u + v = 1 ∧ q = u • a + v • b := by
  obtain ⟨ws, hl, hp, hs, hq⟩ := h
  match ws, hl with
  | [u, v], _ => exact ⟨u, v, hp u (by simp), hp v (by simp), by simpa using hs, by simpa using hq.symm⟩

/-- The search direction after a step on an edge is a non-zero normal of that edge, on the side of
the query point. -/
theorem gjkDir_edge (tp a b q : V2) (hab : a ≠ b) (u v : ℝ) (huv : u + v = 1) (hq : q = u • a + v • b)
    (hperp : inner (b - a) (tp - q) = 0) (d : V2)
    (hd : d = if dot (left_orthogonal (a - b)) (tp - a) < 0 then -left_orthogonal (a - b)
      else left_orthogonal (a - b)) :
    d ≠ 0 ∧ ∃ k : ℝ, 0 ≤ k ∧ tp - q = k • d := by
  set n := left_orthogonal (a - b) with hn
  have hn1 : n.1 = a.2 - b.2 := by simp [hn, left_orthogonal]
  have hn2 : n.2 = -(a.1 - b.1) := by simp [hn, left_orthogonal]
  have hnn : inner n n = inner (b - a) (b - a) := by
    simp only [inner, hn1, hn2, Prod.fst_sub, Prod.snd_sub]; ring
  have hpos : 0 < inner (b - a) (b - a) := inner_self_pos (sub_ne_zero.2 hab.symm)
  have hn0 : n ≠ 0 := by
    rintro h0
    rw [h0] at hnn
    rw [← hnn] at hpos
    simp [inner] at hpos
  have hq1 : q.1 = u * a.1 + v * b.1 := by rw [hq]; simp
  have hq2 : q.2 = u * a.2 + v * b.2 := by rw [hq]; simp
  have hperp' : (b.1 - a.1) * (tp.1 - q.1) + (b.2 - a.2) * (tp.2 - q.2) = 0 := by
    simpa [inner] using hperp
  have hu : u = 1 - v := by linarith
  have ek : inner n (tp - q) = dot n (tp - a) := by
    rw [dot_eq_inner]
    simp only [inner, hn1, hn2, Prod.fst_sub, Prod.snd_sub, hq1, hq2, hu]; ring
  have hkey : inner (b - a) (b - a) • (tp - q) = inner n (tp - q) • n := by
    ext
    · simp only [inner, Prod.smul_fst, smul_eq_mul, Prod.fst_sub, Prod.snd_sub, hn1, hn2]
      linear_combination (b.1 - a.1) * hperp'
    · simp only [inner, Prod.smul_snd, smul_eq_mul, Prod.fst_sub, Prod.snd_sub, hn1, hn2]
      linear_combination (b.2 - a.2) * hperp'
  have htq : tp - q = (inner n (tp - q) / inner (b - a) (b - a)) • n := by
    rw [div_eq_inv_mul, mul_smul, ← hkey, smul_smul, inv_mul_cancel₀ hpos.ne', one_smul]
  by_cases hc : dot n (tp - a) < 0
  · rw [if_pos hc] at hd
    subst hd
    refine ⟨neg_ne_zero.2 hn0, -(inner n (tp - q) / inner (b - a) (b - a)), ?_, ?_⟩
    · rw [ek, neg_nonneg]; exact div_nonpos_of_nonpos_of_nonneg hc.le hpos.le
    · rw [neg_smul_neg]; exact htq
  · rw [if_neg hc] at hd
    subst hd
    refine ⟨hn0, _, ?_, htq⟩
    rw [ek]; exact div_nonneg (not_lt.1 hc) hpos.le

/-- What one iteration knows about its search direction: fewer than three ids, the remaining vector
to the query point is a non-negative multiple of it, and it vanishes only at the query point. -/
theorem gjkDir_spec (tp : V2) (s : List V2) (q : V2) (ids : List ℕ)
    (h : get_closest tp s = .ok (q, ids)) (h3 : ids.length ≠ 3) :
    (∃ k : ℝ, 0 ≤ k ∧ tp - q = k • gjkDir tp s q ids) ∧ (gjkDir tp s q ids = 0 → q = tp) := by
  obtain ⟨hn, hlt, hnd, hpc⟩ := closest_nearest tp s q ids h
  rcases get_closest_cases tp s q ids h with ⟨i, rfl, hi, hq⟩ | ⟨i, j, rfl, hi, hj, hij, hne⟩ | ⟨rfl, _, _⟩
  · have e : gjkDir tp s q [i] = tp - q := rfl
    rw [e]
    exact ⟨⟨1, zero_le_one, (one_smul _ _).symm⟩, fun h0 => (sub_eq_zero.1 h0).symm⟩
  · obtain ⟨u, v, hu, hv, huv, hq⟩ := posCombo_two_elim hpc
    have mi : s.getD i 0 ∈ s := by
      rw [List.getD_eq_getElem?_getD, List.getElem?_eq_getElem hi]; exact List.getElem_mem hi
    have mj : s.getD j 0 ∈ s := by
      rw [List.getD_eq_getElem?_getD, List.getElem?_eq_getElem hj]; exact List.getElem_mem hj
    have n1 := nearest_inner (solid_convex s) hn _ (mem_solid mi)
    have n2 := nearest_inner (solid_convex s) hn _ (mem_solid mj)
    have e1 : s.getD i 0 - q = (-v) • (s.getD j 0 - s.getD i 0) := by
      have : u = 1 - v := by linarith
      rw [hq, this]; module
    have e2 : s.getD j 0 - q = u • (s.getD j 0 - s.getD i 0) := by
      have : v = 1 - u := by linarith
      rw [hq, this]; module
    rw [e1, inner_smul_left] at n1
    rw [e2, inner_smul_left] at n2
    have hperp : inner (s.getD j 0 - s.getD i 0) (tp - q) = 0 := by
      apply le_antisymm
      · by_contra hc; nlinarith [mul_pos hu (not_le.1 hc)]
      · by_contra hc; nlinarith [mul_pos hv (neg_pos.2 (not_le.1 hc))]
    have := gjkDir_edge tp _ _ q hne u v huv hq hperp (gjkDir tp s q [i, j]) (by
      unfold gjkDir vget; rfl)
    exact ⟨this.2, fun h0 => absurd h0 this.1⟩
  · simp at h3

/-- If the support point in the search direction does not improve on the closest point of the
simplex, that point is nearest in the whole hull. -/
theorem gjk_optimal (verts : List V2) (tp q : V2) (hq : q ∈ solid verts) (d : V2) (k : ℝ) (hk : 0 ≤ k)
    (hd : tp - q = k • d) (w : V2) (hmax : ∀ x ∈ solid verts, inner x d ≤ inner w d)
    (hw : inner (w - q) (tp - q) ≤ 0) : IsNearest (solid verts) tp q := by
  apply nearest_of_inner hq
  intro x hx
  rw [hd, inner_smul_right] at *
  rcases hk.eq_or_lt with h0 | h0
  · rw [← h0, zero_mul]
  · have h1 : inner (w - q) d ≤ 0 := by
      by_contra hc; nlinarith [mul_pos h0 (not_le.1 hc)]
    have := hmax x hx
    rw [inner_sub_left] at h1 ⊢
    nlinarith

theorem vget_mem {verts : List V2} {i : ℕ} (h : i < verts.length) : vget verts i ∈ verts := by
  unfold vget
  rw [List.getD_eq_getElem?_getD, List.getElem?_eq_getElem h]; exact List.getElem_mem h

/-- Whenever the GJK loop stops it returns the nearest point of the whole hull, for any
vertex list and any start simplex; and if three vertices are used it is the query point itself. -/
theorem gjk_correct (verts : List V2) (tp : V2) : ∀ (fuel : ℕ) (simplex : List ℕ)
    (_ : ∀ i ∈ simplex, i < verts.length) (q : V2) (used : List ℕ)
    (_ : gjkLoop verts tp fuel simplex = .done (q, used)),
    IsNearest (solid verts) tp q ∧ (∀ i ∈ used, i < verts.length) ∧
      PosCombo (used.map fun i => verts.getD i 0) q ∧ (used.length = 3 → q = tp) ∧ used.length ≤ 3
  | 0, simplex, _, q, used, h => by cases h
  | fuel + 1, simplex, hval, q, used, h => by
    unfold gjkLoop at h
    simp only at h
    cases hc : get_closest tp (simplex.map (vget verts)) with
    | error e => rw [hc] at h; cases h
    | ok r =>
      obtain ⟨c, ids⟩ := r
      rw [hc] at h
      simp only at h
      obtain ⟨hn, hlt, hnd, hpc⟩ := closest_nearest _ _ _ _ hc
      rw [List.length_map] at hlt
      have hsub : ∀ i ∈ ids.map fun k => simplex.getD k 0, i < verts.length := by
        intro i hi
        obtain ⟨k, hk, rfl⟩ := List.mem_map.1 hi
        apply hval
        have := hlt k hk
        rw [List.getD_eq_getElem?_getD, List.getElem?_eq_getElem this]; exact List.getElem_mem this
      have hpc' : PosCombo ((ids.map fun k => simplex.getD k 0).map fun i => verts.getD i 0) c := by
        have e : (ids.map fun k => simplex.getD k 0).map (fun i => verts.getD i 0) =
            ids.map fun i => (simplex.map (vget verts)).getD i 0 := by
          rw [List.map_map]
          apply List.map_congr_left
          intro k hk
          have := hlt k hk
          simp [List.getD_eq_getElem?_getD, this, vget]
        rw [e]; exact hpc
      have hss : solid (simplex.map (vget verts)) ⊆ solid verts := by
        apply solid_mono
        intro v hv
        obtain ⟨k, hk, rfl⟩ := List.mem_map.1 hv
        exact vget_mem (hval k hk)
      have hle : ids.length ≤ 3 := by
        rcases get_closest_cases _ _ _ _ hc with ⟨i, rfl, _⟩ | ⟨i, j, rfl, _⟩ | ⟨rfl, _, rfl⟩ <;> simp
      by_cases h3 : ids.length = 3
      · rw [if_pos h3] at h
        injection h with h
        simp only [Prod.mk.injEq] at h
        obtain ⟨rfl, rfl⟩ := h
        rcases get_closest_cases _ _ _ _ hc with ⟨i, rfl, _⟩ | ⟨i, j, rfl, _⟩ | ⟨rfl, _, rfl⟩
        · simp at h3
        · simp at h3
        · exact ⟨nearest_of_inner (hss hn.1) (by simp [inner]), hsub, hpc', fun _ => rfl, by simpa using hle⟩
      rw [if_neg h3] at h
      obtain ⟨⟨k, hk, hkd⟩, hz⟩ := gjkDir_spec _ _ _ _ hc h3
      have h3' : (ids.map fun k => simplex.getD k 0).length ≠ 3 := by simpa using h3
      set d := gjkDir tp (simplex.map (vget verts)) c ids with hd
      by_cases h0 : d.1 = 0 ∧ d.2 = 0
      · rw [if_pos h0] at h
        injection h with h
        simp only [Prod.mk.injEq] at h
        obtain ⟨rfl, rfl⟩ := h
        have := hz (Prod.ext h0.1 h0.2)
        subst this
        exact ⟨nearest_of_inner (hss hn.1) (by simp [inner]), hsub, hpc', fun _ => rfl, by simpa using hle⟩
      rw [if_neg h0] at h
      cases hg : get_support verts d with
      | error e => rw [hg] at h; cases h
      | ok r =>
        obtain ⟨w, s⟩ := r
        rw [hg] at h
        simp only at h
        obtain ⟨hs, hw, hmax, -⟩ := get_support_argmax _ _ _ _ hg
        by_cases hin : s ∈ simplex
        · rw [if_pos hin] at h
          injection h with h
          simp only [Prod.mk.injEq] at h
          obtain ⟨rfl, rfl⟩ := h
          refine ⟨?_, hsub, hpc', fun h => absurd h h3', by simpa using hle⟩
          apply gjk_optimal verts tp c (hss hn.1) d k hk hkd w hmax
          apply nearest_inner (solid_convex _) hn
          apply mem_solid
          rw [hw]
          refine List.mem_map.2 ⟨s, hin, ?_⟩
          simp [vget, List.getD_eq_getElem?_getD, hs]
        · rw [if_neg hin] at h
          refine gjk_correct verts tp fuel _ ?_ q used h
          intro i hi
          rcases List.mem_append.1 hi with hi | hi
          · exact hsub i hi
          · rw [List.mem_singleton.1 hi]; exact hs

/-! ## Termination -/

/-- Distance of `p` from a set that has a nearest point. -/
def nearDist (p : V2) (S : Set V2) : ℝ :=
  open Classical in if h : ∃ q, IsNearest S p q then Spec.dist p h.choose else 0

theorem nearDist_eq {p q : V2} {S : Set V2} (h : IsNearest S p q) : nearDist p S = Spec.dist p q := by
  have hex : ∃ q, IsNearest S p q := ⟨q, h⟩
  unfold nearDist
  rw [dif_pos hex]
  exact le_antisymm (hex.choose_spec.2 q h.1) (h.2 _ hex.choose_spec.1)

/-- A simplex the GJK loop can be in. -/
structure ValidSimplex (verts : List V2) (s : List ℕ) : Prop where
  pos : s ≠ []
  le : s.length ≤ 3
  nodup : s.Nodup
  lt : ∀ i ∈ s, i < verts.length

theorem vert_ne {verts : List V2} (h3 : 3 ≤ verts.length) (hc : NoThreeCollinear verts) {i j : ℕ}
    (hi : i < verts.length) (hj : j < verts.length) (hij : i ≠ j) : vget verts i ≠ vget verts j := by
  obtain ⟨k, hk, hki, hkj⟩ : ∃ k, k < verts.length ∧ i ≠ k ∧ j ≠ k := by
    by_cases h0 : i ≠ 0 ∧ j ≠ 0
    · exact ⟨0, by omega, h0.1, h0.2⟩
    · by_cases h1 : i ≠ 1 ∧ j ≠ 1
      · exact ⟨1, by omega, h1.1, h1.2⟩
      · exact ⟨2, by omega, by omega, by omega⟩
  intro he
  apply hc i j k hi hj hk hij hkj hki
  have : verts.getD i 0 = verts.getD j 0 := he
  rw [this]; simp [det]

theorem closest_valid (verts : List V2) (h3 : 3 ≤ verts.length) (hc : NoThreeCollinear verts) (tp : V2)
    (s : List ℕ) (hs : ValidSimplex verts s) :
    ∃ q ids, get_closest tp (s.map (vget verts)) = .ok (q, ids) := by
  obtain ⟨hp, hl, hn, hv⟩ := hs
  apply closest_total
  match s, hp, hl, hn, hv with
  | [a], _, _, _, _ => exact Or.inl ⟨_, rfl⟩
  | [a, b], _, _, hn, hv =>
    exact Or.inr (Or.inl ⟨_, _, rfl, vert_ne h3 hc (hv a (by simp)) (hv b (by simp)) (by simpa using hn)⟩)
  | [a, b, c], _, _, hn, hv =>
    simp at hn
    exact Or.inr (Or.inr ⟨_, _, _, rfl, hc a b c (hv a (by simp)) (hv b (by simp)) (hv c (by simp))
      hn.1.1 hn.2 hn.1.2⟩)

/-- A point with two different affine representations over a triangle makes it degenerate. -/
theorem affine_unique {a b s : V2} {u v u' v' w' : ℝ} (h : u + v = 1) (h' : u' + v' + w' = 1)
    (he : u • a + v • b = u' • a + v' • b + w' • s) (hw : w' ≠ 0) : det (b - a) (s - a) = 0 := by
  have e1 := congrArg Prod.fst he
  have e2 := congrArg Prod.snd he
  simp only [Prod.fst_add, Prod.snd_add, Prod.smul_fst, Prod.smul_snd, smul_eq_mul] at e1 e2
  have hu : u = 1 - v := by linarith
  have hu' : u' = 1 - v' - w' := by linarith
  subst hu hu'
  have : w' * det (b - a) (s - a) = 0 := by
    simp only [det, Prod.fst_sub, Prod.snd_sub]
    linear_combination (b.2 - a.2) * e1 - (b.1 - a.1) * e2
  exact (mul_eq_zero.1 this).resolve_left hw

theorem posCombo_three_elim {a b c q : V2} (h : PosCombo [a, b, c] q) :
    ∃ u v w : ℝ, 0 < u ∧ 0 < v ∧ 0 < w ∧ u + v + w = 1 ∧ q = u • a + v • b + w • c := by
  obtain ⟨ws, hl, hp, hs, hq⟩ := h
  match ws, hl with
  | [u, v, w], _ =>
    exact ⟨u, v, w, hp u (by simp), hp v (by simp), hp w (by simp), by simpa [add_assoc] using hs,
      by simpa [add_assoc] using hq.symm⟩

/-- If adding the support point leaves the closest point where it was, the same features are used
again. -/
theorem closest_stall (verts : List V2) (h3 : 3 ≤ verts.length) (hc : NoThreeCollinear verts) (tp q : V2)
    (S : List ℕ) (hS : ValidSimplex verts S) (ids : List ℕ)
    (h : get_closest tp (S.map (vget verts)) = .ok (q, ids)) (hids : ids.length ≠ 3) (s : ℕ)
    (hs : s < verts.length) (hsS : s ∉ S) (ids' : List ℕ)
    (h' : get_closest tp (((ids.map fun k => S.getD k 0) ++ [s]).map (vget verts)) = .ok (q, ids')) :
    ids' = List.range ids.length ∧
      gjkDir tp (((ids.map fun k => S.getD k 0) ++ [s]).map (vget verts)) q ids' =
        gjkDir tp (S.map (vget verts)) q ids := by
  obtain ⟨-, hlt, hnd, hpc⟩ := closest_nearest _ _ _ _ h
  obtain ⟨-, hlt', hnd', hpc'⟩ := closest_nearest _ _ _ _ h'
  rw [List.length_map] at hlt
  have hget : ∀ k < S.length, (S.map (vget verts)).getD k 0 = vget verts (S.getD k 0) := by
    intro k hk; simp [List.getD_eq_getElem?_getD, hk]
  have hmem : ∀ k < S.length, S.getD k 0 ∈ S := by
    intro k hk
    rw [List.getD_eq_getElem?_getD, List.getElem?_eq_getElem hk]; exact List.getElem_mem hk
  rcases get_closest_cases _ _ _ _ h with ⟨i, rfl, hi, hq⟩ | ⟨i, j, rfl, hi, hj, hij, hne⟩ | ⟨rfl, _, _⟩
  · rw [List.length_map] at hi
    rw [hget i hi] at hq
    have hane : vget verts (S.getD i 0) ≠ vget verts s :=
      vert_ne h3 hc (hS.lt _ (hmem i hi)) hs fun he => hsS (he ▸ hmem i hi)
    simp only [List.map_cons, List.map_nil, List.cons_append, List.nil_append] at h' hpc' hlt' ⊢
    rcases get_closest_cases _ _ _ _ h' with ⟨i', rfl, hi', hq'⟩ | ⟨i', j', rfl, hi', hj', hij', hne'⟩ | ⟨_, hl, _⟩
    · have : i' = 0 ∨ i' = 1 := by simp at hi'; omega
      rcases this with rfl | rfl
      · exact ⟨rfl, rfl⟩
      · exfalso; apply hane; rw [← hq, hq']; rfl
    · exfalso
      have : i' = 0 ∧ j' = 1 := by simp at hi' hj'; omega
      obtain ⟨rfl, rfl⟩ := this
      obtain ⟨u, v, hu, hv, huv, he⟩ := posCombo_two_elim hpc'
      have he : vget verts (S.getD i 0) = u • vget verts (S.getD i 0) + v • vget verts s :=
        hq.symm.trans he
      apply hane
      have e : v • (vget verts s - vget verts (S.getD i 0)) = 0 := by
        have hu1 : u = 1 - v := by linarith
        rw [hu1] at he
        have : v • (vget verts s - vget verts (S.getD i 0)) =
          ((1 - v) • vget verts (S.getD i 0) + v • vget verts s) - vget verts (S.getD i 0) := by module
        rw [this, ← he, sub_self]
      rcases smul_eq_zero.1 e with h0 | h0
      · linarith
      · exact (sub_eq_zero.1 h0).symm
    · simp at hl
  · rw [List.length_map] at hi hj
    have hij0 : i ≠ j := by omega
    rw [hget i hi, hget j hj] at hne
    simp only [List.map_cons, List.map_nil] at hpc
    rw [hget i hi, hget j hj] at hpc
    obtain ⟨u, v, hu, hv, huv, hq⟩ := posCombo_two_elim hpc
    have hSij : S.getD i 0 ≠ S.getD j 0 := fun he => hne (by rw [he])
    have hdet : det (vget verts (S.getD j 0) - vget verts (S.getD i 0)) (vget verts s - vget verts (S.getD i 0)) ≠ 0 :=
      hc _ _ _ (hS.lt _ (hmem i hi)) (hS.lt _ (hmem j hj)) hs hSij
        (fun he => hsS (he ▸ hmem j hj)) (fun he => hsS (he ▸ hmem i hi))
    simp only [List.map_cons, List.map_nil, List.cons_append, List.nil_append] at h' hpc' hlt' ⊢
    have hdir : gjkDir tp [vget verts (S.getD i 0), vget verts (S.getD j 0), vget verts s] q [0, 1] =
        gjkDir tp (S.map (vget verts)) q [i, j] := by
      have e1 : vget (S.map (vget verts)) i = vget verts (S.getD i 0) := hget i hi
      have e2 : vget (S.map (vget verts)) j = vget verts (S.getD j 0) := hget j hj
      simp only [gjkDir, e1, e2]
      rfl
    rcases get_closest_cases _ _ _ _ h' with ⟨i', rfl, hi', hq'⟩ | ⟨i', j', rfl, hi', hj', hij', hne'⟩ | ⟨rfl, hl, _⟩
    · exfalso
      have : i' = 0 ∨ i' = 1 ∨ i' = 2 := by simp at hi'; omega
      rcases this with rfl | rfl | rfl
      · have hq' : q = vget verts (S.getD i 0) := hq'
        have e : v • (vget verts (S.getD j 0) - vget verts (S.getD i 0)) = 0 := by
          have hu1 : u = 1 - v := by linarith
          rw [hu1] at hq
          have : v • (vget verts (S.getD j 0) - vget verts (S.getD i 0)) =
            ((1 - v) • vget verts (S.getD i 0) + v • vget verts (S.getD j 0)) - vget verts (S.getD i 0) := by module
          rw [this, ← hq, ← hq', sub_self]
        rcases smul_eq_zero.1 e with h0 | h0
        · linarith
        · exact hne (sub_eq_zero.1 h0).symm
      · have hq' : q = vget verts (S.getD j 0) := hq'
        have e : u • (vget verts (S.getD i 0) - vget verts (S.getD j 0)) = 0 := by
          have hu1 : v = 1 - u := by linarith
          rw [hu1] at hq
          have : u • (vget verts (S.getD i 0) - vget verts (S.getD j 0)) =
            (u • vget verts (S.getD i 0) + (1 - u) • vget verts (S.getD j 0)) - vget verts (S.getD j 0) := by module
          rw [this, ← hq, ← hq', sub_self]
        rcases smul_eq_zero.1 e with h0 | h0
        · linarith
        · exact hne (sub_eq_zero.1 h0)
      · have hq' : q = vget verts s := hq'
        apply hdet
        apply affine_unique (u := u) (v := v) (u' := 0) (v' := 0) (w' := 1) huv (by norm_num) _ one_ne_zero
        rw [← hq, hq']; module
    · rcases hij' with ⟨rfl, rfl⟩ | ⟨rfl, rfl⟩ | ⟨rfl, rfl⟩
      · exact ⟨rfl, hdir⟩
      · exfalso
        obtain ⟨u', v', hu', hv', huv', he⟩ := posCombo_two_elim hpc'
        apply hdet
        apply affine_unique (u := u) (v := v) (u' := 0) (v' := u') (w' := v') huv (by linarith) _ hv'.ne'
        rw [← hq, he]
        simp
      · exfalso
        obtain ⟨u', v', hu', hv', huv', he⟩ := posCombo_two_elim hpc'
        apply hdet
        apply affine_unique (u := u) (v := v) (u' := v') (v' := 0) (w' := u') huv (by linarith) _ hu'.ne'
        rw [← hq, he]
        simp [add_comm]
    · exfalso
      obtain ⟨u', v', w', hu', hv', hw', huv', he⟩ := posCombo_three_elim hpc'
      apply hdet
      apply affine_unique (u := u) (v := v) (u' := u') (v' := v') (w' := w') huv huv' _ hw'.ne'
      rw [← hq, he]
      simp
  · simp at hids

theorem posCombo_mem {pts : List V2} {q : V2} (hl : pts.length = 1 ∨ pts.length = 2)
    (h : PosCombo pts q) : q ∈ solid pts := by
  match pts, hl with
  | [a], _ => rw [posCombo_one_iff.1 h]; exact mem_solid (by simp)
  | [a, b], _ =>
    obtain ⟨u, v, hu, hv, huv, rfl⟩ := posCombo_two_elim h
    exact solid_combo2 (mem_solid (by simp)) (mem_solid (by simp)) hu.le hv.le huv

/-- All distances the loop can see. -/
def nearDists (verts : List V2) (tp : V2) : Finset ℝ :=
  ((Finset.range verts.length) ×ˢ (Finset.range verts.length) ×ˢ (Finset.range verts.length)).image
    fun t => nearDist tp (solid [vget verts t.1, vget verts t.2.1, vget verts t.2.2])

theorem nearDists_mem {verts : List V2} {tp q : V2} {S : List ℕ} (hS : ValidSimplex verts S)
    (h : IsNearest (solid (S.map (vget verts))) tp q) : Spec.dist tp q ∈ nearDists verts tp := by
  obtain ⟨hp, hl, hn, hv⟩ := hS
  unfold nearDists
  have key : ∃ i j k, i < verts.length ∧ j < verts.length ∧ k < verts.length ∧
      solid (S.map (vget verts)) = solid [vget verts i, vget verts j, vget verts k] := by
    match S, hp, hl, hv with
    | [a], _, _, hv =>
      refine ⟨a, a, a, hv a (by simp), hv a (by simp), hv a (by simp), ?_⟩
      apply Set.Subset.antisymm <;> apply solid_mono <;> simp
    | [a, b], _, _, hv =>
      refine ⟨a, b, b, hv a (by simp), hv b (by simp), hv b (by simp), ?_⟩
      apply Set.Subset.antisymm <;> apply solid_mono <;> simp
    | [a, b, c], _, _, hv => exact ⟨a, b, c, hv a (by simp), hv b (by simp), hv c (by simp), rfl⟩
  obtain ⟨i, j, k, hi, hj, hk, he⟩ := key
  rw [he] at h
  refine Finset.mem_image.2 ⟨(i, j, k), ?_, nearDist_eq h⟩
  simp [hi, hj, hk]

theorem nearDists_card (verts : List V2) (tp : V2) : (nearDists verts tp).card ≤ verts.length ^ 3 := by
  refine Finset.card_image_le.trans ?_
  rw [Finset.card_product, Finset.card_product, Finset.card_range]
  exact le_of_eq (by ring)

theorem gjk_terminates_aux (verts : List V2) (h3 : 3 ≤ verts.length) (hc : NoThreeCollinear verts)
    (h0 : (0 : V2) ∈ solid verts) (tp : V2) : ∀ (m : ℕ) (S : List ℕ) (_ : ValidSimplex verts S) (q : V2)
    (ids : List ℕ) (_ : get_closest tp (S.map (vget verts)) = .ok (q, ids))
    (_ : ((nearDists verts tp).filter (· < Spec.dist tp q)).card ≤ m) (fuel : ℕ) (_ : m + 2 ≤ fuel),
    ∃ r, gjkLoop verts tp fuel S = .done r := by
  intro m
  induction m using Nat.strong_induction_on with
  | _ m ih =>
  intro S hS q ids hcl hcard fuel hf
  obtain ⟨fuel, rfl⟩ : ∃ f, fuel = f + 1 := ⟨fuel - 1, by omega⟩
  rw [gjkLoop]
  simp only [hcl]
  obtain ⟨hn, hlt, hnd, hpc⟩ := closest_nearest _ _ _ _ hcl
  rw [List.length_map] at hlt
  by_cases hl3 : ids.length = 3
  · rw [if_pos hl3]; exact ⟨_, rfl⟩
  rw [if_neg hl3]
  set d := gjkDir tp (S.map (vget verts)) q ids with hd
  by_cases hz : d.1 = 0 ∧ d.2 = 0
  · rw [if_pos hz]; exact ⟨_, rfl⟩
  rw [if_neg hz]
  obtain ⟨w, s, hg⟩ := get_support_total verts d h0
  simp only [hg]
  obtain ⟨hs, hw, hmax, -⟩ := get_support_argmax _ _ _ _ hg
  by_cases hin : s ∈ S
  · rw [if_pos hin]; exact ⟨_, rfl⟩
  rw [if_neg hin]
  set used := ids.map fun k => S.getD k 0 with hused
  have hmem : ∀ k < S.length, S.getD k 0 ∈ S := by
    intro k hk
    rw [List.getD_eq_getElem?_getD, List.getElem?_eq_getElem hk]; exact List.getElem_mem hk
  have hum : ∀ i ∈ used, i ∈ S := by
    intro i hi
    obtain ⟨k, hk, rfl⟩ := List.mem_map.1 hi
    exact hmem k (hlt k hk)
  have hlen : ids.length = 1 ∨ ids.length = 2 := by
    rcases get_closest_cases _ _ _ _ hcl with ⟨i, rfl, _⟩ | ⟨i, j, rfl, _⟩ | ⟨rfl, _⟩
    · simp
    · simp
    · simp at hl3
  have hund : used.Nodup := by
    rw [hused]
    apply List.Nodup.map_on _ hnd
    intro x hx y hy hxy
    have hx := hlt x hx
    have hy := hlt y hy
    simp only [List.getD_eq_getElem?_getD, List.getElem?_eq_getElem hx, List.getElem?_eq_getElem hy,
      Option.getD_some] at hxy
    exact (List.Nodup.getElem_inj_iff hS.nodup).1 hxy
  have hS' : ValidSimplex verts (used ++ [s]) := by
    refine ⟨by simp, ?_, ?_, ?_⟩
    · simp only [List.length_append, hused, List.length_map, List.length_singleton]; omega
    · rw [List.nodup_append]
      refine ⟨hund, by simp, ?_⟩
      intro a ha b hb hab
      rw [List.mem_singleton] at hb
      exact hin (hb ▸ hab ▸ hum a ha)
    · intro i hi
      rcases List.mem_append.1 hi with hi | hi
      · exact hS.lt _ (hum i hi)
      · rw [List.mem_singleton.1 hi]; exact hs
  obtain ⟨q', ids', hcl'⟩ := closest_valid verts h3 hc tp _ hS'
  obtain ⟨hn', -, -, -⟩ := closest_nearest _ _ _ _ hcl'
  by_cases hqq : q' = q
  · subst hqq
    obtain ⟨rfl, hdir⟩ := closest_stall verts h3 hc tp q' S hS ids hcl hl3 s hs hin ids' hcl'
    obtain ⟨fuel, rfl⟩ : ∃ f, fuel = f + 1 := ⟨fuel - 1, by omega⟩
    rw [gjkLoop]
    simp only [hcl']
    rw [if_neg (by simpa using hl3 : ¬ (List.range ids.length).length = 3), hdir, if_neg hz]
    simp only [← hd, hg]
    rw [if_pos (by simp)]
    exact ⟨_, rfl⟩
  · -- strictly closer
    have hq_mem : q ∈ solid ((used ++ [s]).map (vget verts)) := by
      have e : used.map (vget verts) = ids.map fun i => (S.map (vget verts)).getD i 0 := by
        rw [hused, List.map_map]
        apply List.map_congr_left
        intro k hk
        have := hlt k hk
        simp [List.getD_eq_getElem?_getD, this]
      rw [← e] at hpc
      have : q ∈ solid (used.map (vget verts)) := posCombo_mem (by simpa [hused] using hlen) hpc
      exact solid_mono (by intro v hv; rw [List.map_append]; exact List.mem_append_left _ hv) this
    have hlt' : Spec.dist tp q' < Spec.dist tp q := by
      refine lt_of_le_of_ne (hn'.2 q hq_mem) fun he => hqq ?_
      exact nearest_unique (solid_convex _) hn' ⟨hq_mem, fun w hw => he ▸ hn'.2 w hw⟩
    have hcard' : ((nearDists verts tp).filter (· < Spec.dist tp q')).card <
        ((nearDists verts tp).filter (· < Spec.dist tp q)).card := by
      apply Finset.card_lt_card
      rw [Finset.ssubset_iff_of_subset]
      · exact ⟨Spec.dist tp q', by simp [nearDists_mem hS' hn', hlt'], by simp⟩
      · intro x hx
        simp only [Finset.mem_filter] at hx ⊢
        exact ⟨hx.1, hx.2.trans hlt'⟩
    exact ih _ (lt_of_lt_of_le hcard' hcard) _ hS' q' ids' hcl' le_rfl fuel (by omega)

theorem gjk_terminates (verts : List V2) (h3 : 3 ≤ verts.length) (hc : NoThreeCollinear verts)
    (h0 : (0 : V2) ∈ solid verts) (tp : V2) (s0 : ℕ) (hs0 : s0 < verts.length) (fuel : ℕ)
    (hf : verts.length ^ 3 + 2 ≤ fuel) : ∃ q used, gjkLoop verts tp fuel [s0] = .done (q, used) := by
  have hv : ValidSimplex verts [s0] := ⟨by simp, by simp, by simp, by simpa using hs0⟩
  obtain ⟨q, ids, hcl⟩ := closest_valid verts h3 hc tp _ hv
  obtain ⟨⟨q, used⟩, hr⟩ := gjk_terminates_aux verts h3 hc h0 tp (verts.length ^ 3) _ hv q ids hcl
    ((Finset.card_filter_le _ _).trans (nearDists_card verts tp)) fuel hf
  exact ⟨q, used, hr⟩

end LcpPhysics
