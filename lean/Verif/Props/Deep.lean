import Verif.Lemmas.SatCircle
import Verif.Props.Sat

/-! # C65: penetration depth of a circle against a hull -/

noncomputable section

namespace LcpPhysics
open Spec

/-- C65: the reported penetration of a circle in a hull is the penetration depth, whether the centre
is outside or inside. Moving the circle along the normal by the penetration makes its open disc
disjoint from the hull, and no shorter displacement does. -/
theorem C65_penetration_depth (fuel : ℕ) (eps rad : ℝ) (hr : 0 < rad) (c p : V2) (verts : List V2)
    (seed last last' : ℕ) (hP : ConvexPolygon verts) (hc : NoThreeCollinear verts) (k : CHull)
    (h : circleHull fuel eps rad c p verts seed last = .done (some k, last')) (hn : k.nan = false) :
    len k.normal = 1 ∧ (∀ x ∈ solid verts, rad ≤ Spec.dist (c + (-k.dist) • k.normal) (x + p)) ∧
      (∀ u, len u < -k.dist → ∃ x ∈ solid verts, Spec.dist (c + u) (x + p) < rad) := by
  unfold circleHull at h
  cases hg : gjkLoop verts (c - p) fuel [seed % verts.length] with
  | running => rw [hg] at h; cases h
  | raised e => rw [hg] at h; cases h
  | done g =>
    obtain ⟨q, used⟩ := g
    rw [hg] at h
    simp only [Run.bind] at h
    have hpos : 0 < verts.length := by have := hP.three; omega
    obtain ⟨hnear, -, -, h3, hle⟩ := C15_gjk_correct verts (c - p) fuel _
      (by simpa using Nat.mod_lt seed hpos) q used hg
    by_cases hl : used.length < 3
    · rw [if_pos hl] at h
      injection h with h
      simp only [Prod.mk.injEq] at h
      obtain ⟨h, rfl⟩ := h
      have e : q + p - c = -(c - p - q) := by abel
      have hlen : len (q + p - c) = Spec.dist (c - p) q := by rw [e, len_neg]; rfl
      unfold shallowContact at h
      simp only [nrm_eq_len, hlen] at h
      by_cases hcc : Spec.dist (c - p) q - rad > eps
      · rw [if_pos hcc] at h; cases h
      rw [if_neg hcc] at h
      injection h with h
      subst h
      simp only [decide_eq_false_iff_not] at hn
      have hd : 0 < Spec.dist (c - p) q := lt_of_le_of_ne (len_nonneg _) (Ne.symm hn)
      set d := Spec.dist (c - p) q with hdd
      have hnorm : ((1 / d) • -(q + p - c) : V2) = (1 / d) • (c - p - q) := by rw [e, neg_neg]
      simp only [hnorm]
      have hunit : len ((1 / d) • (c - p - q)) = 1 := by
        rw [len_smul, abs_of_pos (by positivity)]
        exact one_div_mul_cancel hn
      refine ⟨hunit, fun x hx => ?_, fun u hu => ⟨q, hnear.1, ?_⟩⟩
      · have h1 := nearest_inner (solid_convex verts) hnear x hx
        have h2 := inner_le_len ((1 / d) • (c - p - q))
          (c + (-(d - rad)) • ((1 / d) • (c - p - q)) - (x + p)) hunit
        have e2 : c + (-(d - rad)) • ((1 / d) • (c - p - q)) - (x + p) =
            (c - p - q) - (x - q) + (-(d - rad)) • ((1 / d) • (c - p - q)) := by abel
        have h4 : inner ((1 / d) • (c - p - q)) ((1 / d) • (c - p - q)) = 1 := by
          rw [← len_mul_self, hunit, one_mul]
        have h5 : inner (c - p - q) (c - p - q) = d * d := by rw [← len_mul_self]; rfl
        have h6 : inner (c - p - q) (x - q) ≤ 0 := by rw [inner_comm]; exact h1
        unfold Spec.dist
        refine le_trans ?_ h2
        rw [e2, inner_add_right, inner_smul_right, h4, inner_smul_left, inner_sub_right, h5]
        have h7 : 1 / d * (d * d - inner (c - p - q) (x - q)) ≥ 1 / d * (d * d) := by
          apply mul_le_mul_of_nonneg_left _ (by positivity); linarith
        have h8 : 1 / d * (d * d) = d := by field_simp
        linarith
      · have e3 : c + u - (q + p) = (c - p - q) + u := by abel
        have := len_add_le (c - p - q) u
        unfold Spec.dist
        rw [e3]
        have h9 : len (c - p - q) = d := rfl
        linarith
    · rw [if_neg hl] at h
      have hq : q = c - p := h3 (by omega)
      have hin : c - p ∈ solid verts := hq ▸ hnear.1
      have inv := satCircle_inv eps rad verts c p last
      cases hs : satCircle eps rad c p verts last with
      | gap i => rw [hs] at h; cases h
      | go best bd l =>
        rw [hs] at h inv
        cases best with
        | none => cases h
        | some k' =>
          simp only at h
          injection h with h
          simp only [Prod.mk.injEq, Option.some.injEq] at h
          obtain ⟨rfl, rfl⟩ := h
          obtain ⟨hl', hgood, hbd, hall⟩ := inv
          have hil := mem_satOrder.1 hl'
          set m := edgeDist verts l (c - p) with hm
          have hkd : k'.dist = m - rad := hgood.dist
          have hm0 : m ≤ 0 := (mem_solid_iff_edgeDist hP hc _).1 hin l hil
          have hall' : ∀ i < verts.length, edgeDist verts i (c - p) ≤ - -m := by
            intro i hi
            have := hall i (mem_satOrder.2 hi) (hP.edge_ne i hi)
            rw [← hbd, hkd] at this
            linarith
          rw [hgood.normal, hkd]
          have hunit := len_edgeNormal (hP.edge_ne l hil)
          refine ⟨hunit, fun x hx => ?_, fun u hu => ?_⟩
          · have h1 := (mem_solid_iff_edgeDist hP hc _).1 hx l hil
            have h2 := inner_le_len (edgeNormal verts l)
              (c + (-(m - rad)) • edgeNormal verts l - (x + p)) hunit
            unfold Spec.dist
            refine le_trans ?_ h2
            have e2 : c + (-(m - rad)) • edgeNormal verts l - (x + p) =
              (c - p - verts.getD l 0) - (x - verts.getD l 0) + (-(m - rad)) • edgeNormal verts l := by abel
            rw [e2, inner_add_right, inner_smul_right, inner_sub_right,
              edgeNormal_self (hP.edge_ne l hil)]
            have h3 : inner (edgeNormal verts l) (c - p - verts.getD l 0) = m := rfl
            have h4 : inner (edgeNormal verts l) (x - verts.getD l 0) ≤ 0 := h1
            linarith
          · by_cases hs : len u ≤ -m
            · refine ⟨c - p + u, ball_subset_solid hP hc hall' hs, ?_⟩
              have e : c + u - (c - p + u + p) = 0 := by abel
              unfold Spec.dist
              rw [e, len_eq_zero.2 rfl]; exact hr
            · have hup : 0 < len u := by linarith
              have hk : 0 ≤ -m / len u := div_nonneg (by linarith) hup.le
              have hk1 : -m / len u ≤ 1 := by rw [div_le_one hup]; linarith
              have hlen : len ((-m / len u) • u) ≤ -m := by
                rw [len_smul, abs_of_nonneg hk, div_mul_cancel₀ _ hup.ne']
              refine ⟨c - p + (-m / len u) • u, ball_subset_solid hP hc hall' hlen, ?_⟩
              have e : c + u - (c - p + (-m / len u) • u + p) = (1 - -m / len u) • u := by
                rw [sub_smul, one_smul]; abel
              unfold Spec.dist
              rw [e, len_smul, abs_of_nonneg (by linarith), sub_mul, one_mul, div_mul_cancel₀ _ hup.ne']
              linarith

/-- C65: for a centre inside the hull and on no segment between two vertices, an outcome comes from
the separating axis loop: never NaN, the edge with the largest signed distance, and the contact point
is a point of the hull on that edge line. -/
theorem C65_deep_contact (fuel : ℕ) (eps rad : ℝ) (heps : 0 ≤ eps) (hr : 0 < rad) (c p : V2)
    (verts : List V2) (seed last last' : ℕ) (hP : ConvexPolygon verts) (hc : NoThreeCollinear verts)
    (hin : c - p ∈ solid verts) (hdiag : ∀ a ∈ verts, ∀ b ∈ verts, c - p ∉ segment ℝ a b)
    (r : Option CHull) (h : circleHull fuel eps rad c p verts seed last = .done (r, last')) :
    ∃ k, r = some k ∧ k.nan = false ∧ last' < verts.length ∧ k.normal = edgeNormal verts last' ∧
      k.dist = inner (edgeNormal verts last') (c - p - verts.getD last' 0) - rad ∧
      (∀ i < verts.length, inner (edgeNormal verts i) (c - p - verts.getD i 0) - rad ≤ k.dist) ∧
      k.pt2 ∈ solid verts ∧ inner (edgeNormal verts last') (k.pt2 - verts.getD last' 0) = 0 ∧
      c + k.pt1 = p + k.pt2 := by
  unfold circleHull at h
  cases hg : gjkLoop verts (c - p) fuel [seed % verts.length] with
  | running => rw [hg] at h; cases h
  | raised e => rw [hg] at h; cases h
  | done g =>
    obtain ⟨q, used⟩ := g
    rw [hg] at h
    simp only [Run.bind] at h
    have hpos : 0 < verts.length := by have := hP.three; omega
    obtain ⟨hnear, hused, hpc, h3, hle⟩ := C15_gjk_correct verts (c - p) fuel _
      (by simpa using Nat.mod_lt seed hpos) q used hg
    have hq : q = c - p := by
      have := hnear.2 _ hin
      rw [Spec.dist_self] at this
      exact (Spec.dist_eq_zero.1 (le_antisymm this (len_nonneg _))).symm
    have hl : ¬ used.length < 3 := by
      intro hl
      rw [hq] at hpc
      match used, hl, hused, hpc with
      | [], _, _, ⟨ws, hw, _, hs, _⟩ =>
        have : ws = [] := List.length_eq_zero_iff.1 (by simpa using hw)
        subst this; simp at hs
      | [i], _, hu, hpc =>
        have := posCombo_one_iff.1 hpc
        have hi := vget_mem (hu i (by simp))
        exact hdiag _ hi _ hi (this ▸ left_mem_segment ℝ _ _)
      | [i, j], _, hu, hpc =>
        obtain ⟨u, v, h1, h2, h4, h5⟩ := posCombo_two_elim hpc
        exact hdiag _ (vget_mem (hu i (by simp))) _ (vget_mem (hu j (by simp)))
          ⟨u, v, h1.le, h2.le, h4, h5.symm⟩
      | _ :: _ :: _ :: _, hl, _, _ => simp at hl; omega
    rw [if_neg hl] at h
    have inv := satCircle_inv eps rad verts c p last
    cases hs : satCircle eps rad c p verts last with
    | gap i =>
      rw [hs] at inv
      obtain ⟨hi, hne, hgt⟩ := inv
      have := (mem_solid_iff_edgeDist hP hc _).1 hin i (mem_satOrder.1 hi)
      linarith
    | go best bd l =>
      rw [hs] at h inv
      cases best with
      | none => cases h
      | some k =>
        simp only at h
        injection h with h
        simp only [Prod.mk.injEq] at h
        obtain ⟨rfl, rfl⟩ := h
        obtain ⟨hl', hgood, hbd, hall⟩ := inv
        have hil := mem_satOrder.1 hl'
        have hunit := len_edgeNormal (hP.edge_ne l hil)
        set m := edgeDist verts l (c - p) with hm
        have hkd : k.dist = m - rad := hgood.dist
        have hm0 : m ≤ 0 := (mem_solid_iff_edgeDist hP hc _).1 hin l hil
        have hall' : ∀ i < verts.length, edgeDist verts i (c - p) - rad ≤ k.dist := by
          intro i hi
          rw [hbd]
          exact hall i (mem_satOrder.2 hi) (hP.edge_ne i hi)
        refine ⟨k, rfl, hgood.nan, hil, hgood.normal, hkd, hall', ?_, ?_, hgood.pt1⟩
        · rw [hgood.pt2, ← hm, sub_eq_add_neg, ← neg_smul]
          refine ball_subset_solid hP hc (ρ := -m) (fun i hi => ?_) ?_
          · have := hall' i hi
            linarith
          · rw [len_smul, hunit, mul_one, abs_of_nonneg (by linarith)]
        · rw [hgood.pt2, ← hm]
          have e : c - p - m • edgeNormal verts l - verts.getD l 0 =
            (c - p - verts.getD l 0) - m • edgeNormal verts l := by abel
          rw [e, inner_sub_right, inner_smul_right, edgeNormal_self (hP.edge_ne l hil), mul_one]
          exact sub_self m

/-- C65: an outcome exists for every start vertex, provided the hull is not deeper than the initial
best of `-1e10`. -/
theorem C65_total (fuel : ℕ) (eps rad : ℝ) (c p : V2) (verts : List V2) (seed last : ℕ)
    (hP : ConvexPolygon verts) (hc : NoThreeCollinear verts) (h0 : (0 : V2) ∈ solid verts)
    (hf : verts.length ^ 3 + 2 ≤ fuel)
    (hbig : ∃ i < verts.length, -10 ^ 10 < inner (edgeNormal verts i) (c - p - verts.getD i 0) - rad) :
    ∃ r, circleHull fuel eps rad c p verts seed last = .done r := by
  have h3 : 3 ≤ verts.length := hP.three
  obtain ⟨q, used, hg⟩ := C15_gjk_terminates verts h3 hc h0 (c - p) (seed % verts.length)
    (Nat.mod_lt seed (by omega)) fuel hf
  unfold circleHull
  rw [hg]
  simp only [Run.bind]
  by_cases hl : used.length < 3
  · rw [if_pos hl]; exact ⟨_, rfl⟩
  rw [if_neg hl]
  have inv := satCircle_inv eps rad verts c p last
  cases hs : satCircle eps rad c p verts last with
  | gap i => exact ⟨_, rfl⟩
  | go best bd l =>
    cases best with
    | some k => exact ⟨_, rfl⟩
    | none =>
      exfalso
      rw [hs] at inv
      obtain ⟨i, hi, hgt⟩ := hbig
      have h1 := inv.2 i (mem_satOrder.2 hi) (hP.edge_ne i hi)
      have h2 := inv.1
      unfold edgeDist at h1
      linarith

/-- The square with corners `(±1, ±1)`. -/
def square : List V2 := [(1, -1), (1, 1), (-1, 1), (-1, -1)]

/-- C65: the hypothesis about diagonals is needed. A circle concentric with a square gets a contact
with NaN normal when the random start vertex is the first one, although it overlaps the square
deeply. -/
theorem C65_concentric_nan (fuel : ℕ) (eps rad : ℝ) (heps : 0 ≤ eps) (hr : 0 ≤ rad) (p : V2) (last : ℕ) :
    ∃ k, circleHull (fuel + 3) eps rad p p square 0 last = .done (some k, last) ∧ k.nan = true := by
  have e : p - p = (0 : V2) := sub_self p
  have hz : (0 : V2) = (0, 0) := rfl
  have g1 : get_closest 0 ([0].map (vget square)) = .ok ((1, -1), [0]) := rfl
  have s1 : get_support square (-1, 1) = .ok ((-1, 1), 2) := by
    norm_num [get_support, square, supportLoop, dot]
  have hb : bary2 0 (1, -1) (-1, 1) = (1 / 2, 1 / 2) := by
    rw [bary2_eq _ _ _ (by norm_num)]
    norm_num [inner]
  have g2 : get_closest 0 ([0, 2].map (vget square)) = .ok (0, [0, 1]) := by
    have : [0, 2].map (vget square) = [(1, -1), (-1, 1)] := rfl
    rw [this]
    unfold get_closest
    simp only [hb]
    norm_num
  have hb2 : bary2 0 (-1, 1) (-1, -1) = (1 / 2, 1 / 2) := by
    rw [bary2_eq _ _ _ (by norm_num)]
    norm_num [inner]
  have hb3 : bary2 0 (-1, -1) (1, -1) = (1 / 2, 1 / 2) := by
    rw [bary2_eq _ _ _ (by norm_num)]
    norm_num [inner]
  have ht : bary3 0 (1, -1) (-1, 1) (-1, -1) = .ok (1 / 2, 1 / 2, 0) := by
    obtain ⟨u, v, w, h⟩ := bary3_ok 0 (1, -1) (-1, 1) (-1, -1) (by norm_num [det])
    obtain ⟨-, h1, h2⟩ := bary3_spec _ _ _ _ h
    have e1 := congrArg Prod.fst h1
    have e2 := congrArg Prod.snd h1
    simp at e1 e2
    rw [h, show u = 1 / 2 by linarith, show v = 1 / 2 by linarith, show w = 0 by linarith]
  have g3 : get_closest 0 ([0, 2, 3].map (vget square)) = .ok (0, [0, 1]) := by
    have : [0, 2, 3].map (vget square) = [(1, -1), (-1, 1), (-1, -1)] := rfl
    rw [this]
    unfold get_closest
    simp only [hb, hb2, hb3, ht]
    norm_num
  have s2 : get_support square (-2, -2) = .ok ((-1, -1), 3) := by
    norm_num [get_support, square, supportLoop, dot]
  have d1 : gjkDir 0 ([0].map (vget square)) (1, -1) [0] = (-1, 1) := by norm_num [gjkDir]
  have d2 : gjkDir 0 ([0, 2].map (vget square)) 0 [0, 1] = (-2, -2) := by
    have e0 : vget ([0, 2].map (vget square)) 0 = (1, -1) := rfl
    have e1 : vget ([0, 2].map (vget square)) 1 = (-1, 1) := rfl
    simp only [gjkDir, e0, e1]
    norm_num [left_orthogonal, dot]
  have d3 : gjkDir 0 ([0, 2, 3].map (vget square)) 0 [0, 1] = (-2, -2) := by
    have e0 : vget ([0, 2, 3].map (vget square)) 0 = (1, -1) := rfl
    have e1 : vget ([0, 2, 3].map (vget square)) 1 = (-1, 1) := rfl
    simp only [gjkDir, e0, e1]
    norm_num [left_orthogonal, dot]
  have hl : gjkLoop square 0 (fuel + 3) [0] = .done (0, [0, 2]) := by
    rw [gjkLoop]
    simp only [g1, d1, s1]
    rw [if_neg (by norm_num), if_neg (by norm_num), if_neg (by norm_num)]
    have u1 : ([0].map fun k => [0].getD k 0) ++ [2] = [0, 2] := rfl
    rw [u1, gjkLoop]
    simp only [g2, d2, s2]
    rw [if_neg (by norm_num), if_neg (by norm_num), if_neg (by norm_num)]
    have u2 : ([0, 1].map fun k => [0, 2].getD k 0) ++ [3] = [0, 2, 3] := rfl
    rw [u2, gjkLoop]
    simp only [g3, d3, s2]
    rw [if_neg (by norm_num), if_neg (by norm_num), if_pos (by norm_num)]
    rfl
  unfold circleHull
  rw [e]
  have : 0 % square.length = 0 := rfl
  rw [this, hl]
  simp only [Run.bind]
  rw [if_pos (by simp)]
  have h0 : (0 : V2) + p - p = 0 := by abel
  have hn : nrm (0 : V2) = 0 := by rw [nrm_eq_len]; exact len_eq_zero.2 rfl
  refine ⟨{ normal := (1 / 0 : ℝ) • -(0 : V2), pt1 := 0, pt2 := 0, dist := 0 - rad, nan := true }, ?_, rfl⟩
  unfold shallowContact
  simp only [h0, hn]
  rw [if_neg (by linarith)]
  simp

/-- Non-vacuity: a circle around an interior point of the triangle has a finite contact, and its
penetration is the depth. -/
example (seed last : ℕ) : ∃ k l, circleHull 29 0 1 (-1 / 2, 1 / 10) 0 triangle seed last = .done (some k, l) ∧
    k.nan = false ∧ ∀ u, len u < -k.dist → ∃ x ∈ solid triangle, Spec.dist ((-1 / 2, 1 / 10) + u) (x + 0) < 1 := by
  have hin : ((-1 / 2 : ℝ), (1 / 10 : ℝ)) - 0 ∈ solid triangle := by
    rw [sub_zero, mem_solid_iff triangle_convex triangle_noThreeCollinear]
    intro i hi
    simp only [triangle, List.length_cons, List.length_nil] at hi
    interval_cases i <;> norm_num [triangle, edgeVec, outward, inner]
  have hdiag : ∀ a ∈ triangle, ∀ b ∈ triangle, ((-1 / 2 : ℝ), (1 / 10 : ℝ)) - 0 ∉ segment ℝ a b := by
    rintro a ha b hb ⟨u, v, hu, hv, huv, h⟩
    simp only [triangle, List.mem_cons, List.not_mem_nil, or_false] at ha hb
    have e1 := congrArg Prod.fst h
    have e2 := congrArg Prod.snd h
    rcases ha with rfl | rfl | rfl <;> rcases hb with rfl | rfl | rfl <;> norm_num at e1 e2 <;> linarith
  have hn : edgeNormal triangle 1 = (-1, 0) := triangle_edgeNormal
  obtain ⟨⟨r, l⟩, hr⟩ := C65_total 29 0 1 (-1 / 2, 1 / 10) 0 triangle seed last triangle_convex
    triangle_noThreeCollinear triangle_zero (by simp [triangle])
    ⟨1, by simp [triangle], by rw [hn]; norm_num [inner, triangle]⟩
  obtain ⟨k, rfl, hnan, -⟩ := C65_deep_contact 29 0 1 le_rfl one_pos _ _ _ _ _ _ triangle_convex
    triangle_noThreeCollinear hin hdiag r hr
  exact ⟨k, l, hr, hnan, (C65_penetration_depth 29 0 1 one_pos _ _ _ _ _ _ triangle_convex
    triangle_noThreeCollinear k hr hnan).2.2⟩

end LcpPhysics
