import Verif.Lemmas.Gjk
import Mathlib.Tactic.IntervalCases

/-! # C14, C15, C16: closest points, GJK and circle-hull contacts -/

noncomputable section

namespace LcpPhysics
open Spec

/-! ## C14 -/

/-- C14: whatever `get_closest` returns is the nearest point of the simplex, and the returned
indices are distinct simplex points whose open convex hull contains it. -/
theorem C14_closest_nearest (p : V2) (s : List V2) (q : V2) (ids : List ℕ)
    (h : get_closest p s = .ok (q, ids)) :
    IsNearest (solid s) p q ∧ (∀ i ∈ ids, i < s.length) ∧ ids.Nodup ∧
      PosCombo (ids.map fun i => s.getD i 0) q :=
  closest_nearest p s q ids h

/-- C14: it never raises on one point, two distinct points or three non-collinear points; in
particular the error `Point does not satisfy any condition` is unreachable. -/
theorem C14_closest_total (p : V2) (s : List V2)
    (hs : (∃ a, s = [a]) ∨ (∃ a b, s = [a, b] ∧ a ≠ b) ∨
      ∃ a b c, s = [a, b, c] ∧ det (b - a) (c - a) ≠ 0) :
    ∃ q ids, get_closest p s = .ok (q, ids) :=
  closest_total p s hs

example : ∃ q ids, get_closest (3, 3) [(0, 0), (1, 0), (0, 1)] = .ok (q, ids) :=
  C14_closest_total _ _ (Or.inr (Or.inr ⟨_, _, _, rfl, by norm_num [det]⟩))

/-! ## C15 -/

/-- C15: whenever the GJK loop stops it returns the nearest point of the whole hull, for any
vertex list and any start simplex; and if three vertices are used it is the query point itself. -/
theorem C15_gjk_correct (verts : List V2) (tp : V2) (fuel : ℕ) (simplex : List ℕ)
    (hs : ∀ i ∈ simplex, i < verts.length) (q : V2) (used : List ℕ)
    (h : gjkLoop verts tp fuel simplex = .done (q, used)) :
    IsNearest (solid verts) tp q ∧ (∀ i ∈ used, i < verts.length) ∧
      PosCombo (used.map fun i => verts.getD i 0) q ∧ (used.length = 3 → q = tp) ∧ used.length ≤ 3 :=
  gjk_correct verts tp fuel simplex hs q used h

/-- C15: the loop terminates for every start vertex and every query point; `n ^ 3 + 2` iterations
are enough for `n` vertices. -/
theorem C15_gjk_terminates (verts : List V2) (h3 : 3 ≤ verts.length) (hc : NoThreeCollinear verts)
    (h0 : (0 : V2) ∈ solid verts) (tp : V2) (s0 : ℕ) (hs0 : s0 < verts.length) (fuel : ℕ)
    (hf : verts.length ^ 3 + 2 ≤ fuel) : ∃ q used, gjkLoop verts tp fuel [s0] = .done (q, used) :=
  gjk_terminates verts h3 hc h0 tp s0 hs0 fuel hf

/-- A triangle around the origin. -/
def triangle : List V2 := [(1, 0), (-1, 1), (-1, -1)]

theorem triangle_noThreeCollinear : NoThreeCollinear triangle := by
  intro i j k hi hj hk hij hjk hik
  simp only [triangle, List.length_cons, List.length_nil] at hi hj hk
  interval_cases i <;> interval_cases j <;> interval_cases k <;> first | omega | norm_num [triangle, det]

theorem triangle_zero : (0 : V2) ∈ solid triangle := by
  have := solid_combo3 (vs := triangle) (mem_solid (by simp [triangle]))
    (mem_solid (by simp [triangle])) (mem_solid (by simp [triangle])) (u := 1 / 2) (v := 1 / 4)
    (w := 1 / 4) (a := (1, 0)) (b := (-1, 1)) (c := (-1, -1))
    (by norm_num) (by norm_num) (by norm_num) (by norm_num)
  have e : ((1 / 2 : ℝ) • ((1 : ℝ), (0 : ℝ)) + (1 / 4 : ℝ) • ((-1 : ℝ), (1 : ℝ)) +
    (1 / 4 : ℝ) • ((-1 : ℝ), (-1 : ℝ))) = 0 := by ext <;> simp; norm_num
  rwa [e] at this

example (tp : V2) : ∃ q used, gjkLoop triangle tp 29 [1] = .done (q, used) :=
  C15_gjk_terminates triangle (by simp [triangle]) triangle_noThreeCollinear triangle_zero tp 1
    (by simp [triangle]) 29 (by simp [triangle])

/-- A square with an extra vertex in the middle of its lower side. -/
def squareWithMid : List V2 := [(1, -1), (1, 1), (-1, 1), (-1, -1), (0, -1)]

/-- C15: the hypothesis on collinear vertices is needed. On a square with a redundant vertex in the
middle of a side, for some query and some random start vertex, the loop calls `torch.inverse` on a
singular matrix and raises. -/
theorem C15_collinear_can_raise (fuel : ℕ) :
    ∃ e, gjkLoop squareWithMid (1 / 4, -3) (fuel + 3) [3] = .raised e := by
  have g1 : get_closest (1 / 4, -3) ([3].map (vget squareWithMid)) = .ok ((-1, -1), [0]) := rfl
  have s1 : get_support squareWithMid (5 / 4, -2) = .ok ((1, -1), 0) := by
    norm_num [get_support, squareWithMid, supportLoop, dot]
  have hb : bary2 (1 / 4, -3) (-1, -1) (1, -1) = (3 / 8, 5 / 8) := by
    rw [bary2_eq _ _ _ (by norm_num)]
    norm_num [inner]
  have g2 : get_closest (1 / 4, -3) ([3, 0].map (vget squareWithMid)) = .ok ((1 / 4, -1), [0, 1]) := by
    have : [3, 0].map (vget squareWithMid) = [(-1, -1), (1, -1)] := rfl
    rw [this]
    unfold get_closest
    simp only [hb]
    norm_num
  have s2 : get_support squareWithMid (0, -2) = .ok ((0, -1), 4) := by
    norm_num [get_support, squareWithMid, supportLoop, dot]
  have g3 : get_closest (1 / 4, -3) ([3, 0, 4].map (vget squareWithMid)) =
      .error (.raised "RuntimeError: singular") := by
    have : [3, 0, 4].map (vget squareWithMid) = [(-1, -1), (1, -1), (0, -1)] := rfl
    rw [this]
    unfold get_closest
    have : bary3 (1 / 4, -3) (-1, -1) (1, -1) (0, -1) = .error (.raised "RuntimeError: singular") := by
      unfold bary3
      rw [if_pos (by rw [baryMat_det]; norm_num [det])]
    simp only [this]
  have d1 : gjkDir (1 / 4, -3) ([3].map (vget squareWithMid)) (-1, -1) [0] = (5 / 4, -2) := by
    norm_num [gjkDir]
  have d2 : gjkDir (1 / 4, -3) ([3, 0].map (vget squareWithMid)) (1 / 4, -1) [0, 1] = (0, -2) := by
    have e0 : vget ([3, 0].map (vget squareWithMid)) 0 = (-1, -1) := rfl
    have e1 : vget ([3, 0].map (vget squareWithMid)) 1 = (1, -1) := rfl
    simp only [gjkDir, e0, e1]
    norm_num [left_orthogonal, dot]
  refine ⟨.raised "RuntimeError: singular", ?_⟩
  rw [gjkLoop]
  simp only [g1, d1, s1]
  rw [if_neg (by norm_num), if_neg (by norm_num), if_neg (by norm_num)]
  have u1 : ([0].map fun k => [3].getD k 0) ++ [0] = [3, 0] := rfl
  rw [u1, gjkLoop]
  simp only [g2, d2, s2]
  rw [if_neg (by norm_num), if_neg (by norm_num), if_neg (by norm_num)]
  have u2 : ([0, 1].map fun k => [3, 0].getD k 0) ++ [4] = [3, 0, 4] := rfl
  rw [u2, gjkLoop]
  simp only [g3]

/-! ## C16 -/

/-- C16: for a centre outside the hull, the outcome is determined by the distance. -/
theorem C16_circle_hull_exact (fuel : ℕ) (eps rad : ℝ) (c p : V2) (verts : List V2) (seed last last' : ℕ)
    (hne : verts ≠ []) (hout : c - p ∉ solid verts) (r : Option CHull)
    (h : circleHull fuel eps rad c p verts seed last = .done (r, last')) :
    ∃ q, IsNearest (solid verts) (c - p) q ∧ 0 < Spec.dist (c - p) q ∧ last' = last ∧
      (r = none ↔ eps < Spec.dist (c - p) q - rad) ∧
      ∀ k, r = some k → k.dist = Spec.dist (c - p) q - rad ∧ k.pt2 = q ∧ c + k.pt1 = p + q ∧
        len k.normal = 1 ∧ Spec.dist (c - p) q • k.normal = c - p - q ∧ k.nan = false := by
  unfold circleHull at h
  cases hg : gjkLoop verts (c - p) fuel [seed % verts.length] with
  | running => rw [hg] at h; cases h
  | raised e => rw [hg] at h; cases h
  | done g =>
    obtain ⟨q, used⟩ := g
    rw [hg] at h
    simp only [Run.bind] at h
    have hpos : 0 < verts.length := List.length_pos_iff.2 hne
    obtain ⟨hn, -, -, h3, hle⟩ := C15_gjk_correct verts (c - p) fuel _
      (by simpa using Nat.mod_lt seed hpos) q used hg
    have hl : used.length < 3 :=
      lt_of_le_of_ne hle fun he => hout (h3 he ▸ hn.1)
    rw [if_pos hl] at h
    injection h with h
    simp only [Prod.mk.injEq] at h
    obtain ⟨h, rfl⟩ := h
    have hqne : c - p ≠ q := fun he => hout (he ▸ hn.1)
    have hd : 0 < Spec.dist (c - p) q :=
      lt_of_le_of_ne (len_nonneg _) fun he => hqne (sub_eq_zero.1 (len_eq_zero.1 he.symm))
    have e : q + p - c = -(c - p - q) := by abel
    have hlen : len (q + p - c) = Spec.dist (c - p) q := by rw [e, len_neg]; rfl
    unfold shallowContact at h
    simp only [nrm_eq_len, hlen] at h
    refine ⟨q, hn, hd, rfl, ?_, ?_⟩
    · rw [← h]
      by_cases hc : Spec.dist (c - p) q - rad > eps
      · rw [if_pos hc]; exact ⟨fun _ => hc, fun _ => rfl⟩
      · rw [if_neg hc]; exact ⟨fun h => by simp at h, fun h => absurd h hc⟩
    · rintro k rfl
      by_cases hc : Spec.dist (c - p) q - rad > eps
      · rw [if_pos hc] at h; cases h
      · rw [if_neg hc] at h
        injection h with h
        subst h
        refine ⟨rfl, rfl, by simp only; abel, ?_, ?_, by simpa using hd.ne'⟩
        · simp only
          rw [e, neg_neg, len_smul, abs_of_pos (by positivity)]
          exact one_div_mul_cancel hd.ne'
        · simp only
          rw [e, neg_neg, smul_smul, mul_one_div_cancel hd.ne', one_smul]

/-- C16: and there is an outcome, for every random start vertex. -/
theorem C16_circle_hull_total (fuel : ℕ) (eps rad : ℝ) (c p : V2) (verts : List V2) (seed last : ℕ)
    (h3 : 3 ≤ verts.length) (hc : NoThreeCollinear verts) (h0 : (0 : V2) ∈ solid verts)
    (hf : verts.length ^ 3 + 2 ≤ fuel) (hout : c - p ∉ solid verts) :
    ∃ r, circleHull fuel eps rad c p verts seed last = .done (r, last) := by
  obtain ⟨q, used, hg⟩ := C15_gjk_terminates verts h3 hc h0 (c - p) (seed % verts.length)
    (Nat.mod_lt seed (by omega)) fuel hf
  obtain ⟨hn, -, -, hu, hle⟩ := C15_gjk_correct verts (c - p) fuel _
    (by simpa using Nat.mod_lt seed (by omega)) q used hg
  have hl : used.length < 3 := lt_of_le_of_ne hle fun he => hout (hu he ▸ hn.1)
  unfold circleHull
  rw [hg]
  simp only [Run.bind]
  rw [if_pos hl]
  exact ⟨_, rfl⟩

/-- A contact seen from the other body. -/
def swapContact (c : Contact) : Contact :=
  { c with normal := -c.normal, p1 := c.p2, p2 := c.p1, i1 := c.i2, i2 := c.i1 }

/-- C16: the order in which a circle and a hull are presented only swaps the roles. -/
theorem C16_circle_hull_flip (fuel : ℕ) (eps : ℝ) (bs : List Body) (f f' : Finder) (i1 i2 : ℕ)
    (h1 : (bodyAt bs i1).isCircle = true) (h2 : (bodyAt bs i2).isCircle = false) (cs : List Contact) :
    handlePair fuel eps bs f i1 i2 = .done (f', cs) →
      handlePair fuel eps bs f i2 i1 = .done (f', cs.map swapContact) := by
  intro h
  unfold handlePair at h ⊢
  simp only [h1, h2, Bool.false_eq_true, and_false, false_and, if_false, or_false, false_or, or_true,
    true_or, if_true] at h ⊢
  cases hc : circleHull fuel eps (bodyAt bs i1).rad (bodyAt bs i1).pos (bodyAt bs i2).pos
      (bodyAt bs i2).verts (f.rnd 0) (f.sat i2) with
  | running => rw [hc] at h; cases h
  | raised e => rw [hc] at h; cases h
  | done r =>
    rw [hc] at h
    simp only [Run.bind] at h ⊢
    injection h with h
    simp only [Prod.mk.injEq] at h
    obtain ⟨rfl, rfl⟩ := h
    cases r.1 with
    | none => rfl
    | some k => simp [CHull.toPt, swapContact]

/-- C16: the hypothesis is satisfiable and both outcomes occur: a circle at distance one from the
triangle touches it with radius one and does not with radius one half. -/
example (seed last : ℕ) : ∃ k, circleHull 29 (1 / 10) 1 (2, 0) (0, 0) triangle seed last = .done (some k, last) := by
  have hout : ((2 : ℝ), (0 : ℝ)) - (0, 0) ∉ solid triangle := by
    intro h
    have := solid_inner_le (vs := triangle) (d := (1, 0)) (m := 1)
      (by intro v hv; simp [triangle] at hv; rcases hv with rfl | rfl | rfl <;> norm_num [inner]) _ h
    norm_num [inner] at this
  obtain ⟨r, hr⟩ := C16_circle_hull_total 29 (1 / 10) 1 (2, 0) (0, 0) triangle seed last
    (by simp [triangle]) triangle_noThreeCollinear triangle_zero (by simp [triangle]) hout
  obtain ⟨q, hn, _, _, hiff, _⟩ := C16_circle_hull_exact 29 _ _ _ _ _ _ _ _ (by simp [triangle]) hout r hr
  cases r with
  | some k => exact ⟨k, hr⟩
  | none =>
    exfalso
    have h1 := hiff.1 rfl
    have h2 := hn.2 (1, 0) (mem_solid (by simp [triangle]))
    have h3 : Spec.dist (((2 : ℝ), (0 : ℝ)) - (0, 0)) (1, 0) = 1 := by norm_num [Spec.dist, len]
    linarith

/-- C16: the hypothesis that the centre is strictly outside cannot be dropped. A circle centred on a
vertex gets a contact with a NaN normal, whatever its radius. -/
theorem C16_centre_on_vertex_nan (fuel : ℕ) (eps rad : ℝ) (heps : 0 ≤ eps) (hr : 0 ≤ rad) (p : V2) (last : ℕ) :
    ∃ k, circleHull (fuel + 1) eps rad (p + (1, 0)) p triangle 0 last = .done (some k, last) ∧ k.nan = true := by
  have e : p + (1, 0) - p = ((1 : ℝ), (0 : ℝ)) := by abel
  have g : get_closest (1, 0) ([0].map (vget triangle)) = .ok ((1, 0), [0]) := rfl
  have hl : gjkLoop triangle (1, 0) (fuel + 1) [0] = .done ((1, 0), [0]) := by
    rw [gjkLoop]
    simp only [g]
    rw [if_neg (by norm_num), if_pos (by simp [gjkDir])]
    rfl
  unfold circleHull
  rw [e]
  have : 0 % triangle.length = 0 := rfl
  rw [this, hl]
  simp only [Run.bind]
  rw [if_pos (by simp)]
  have h0 : (1, 0) + p - (p + (1, 0)) = (0 : V2) := by abel
  have hn : nrm (0 : V2) = 0 := by rw [nrm_eq_len]; exact len_eq_zero.2 rfl
  refine ⟨{ normal := (1 / 0 : ℝ) • -(0 : V2), pt1 := 0, pt2 := (1, 0), dist := 0 - rad, nan := true }, ?_, rfl⟩
  unfold shallowContact
  simp only [h0, hn]
  rw [if_neg (by linarith)]
  simp

end LcpPhysics
