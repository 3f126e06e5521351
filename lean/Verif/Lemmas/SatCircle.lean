import Verif.Lemmas.Sat
import Verif.Lemmas.Gjk

/-! # Supporting facts: the circle-hull separating axis loop and penetration depth -/

noncomputable section

namespace LcpPhysics
open Spec

/-- Signed distance of a point from the line of an edge, positive outside. -/
def edgeDist (P : List V2) (i : ℕ) (x : V2) : ℝ := inner (edgeNormal P i) (x - P.getD i 0)

/-- What the loop keeps about the best edge. -/
structure GoodCircle (eps rad : ℝ) (P : List V2) (pos1 pos2 : V2) (c : CHull) (e : ℕ) : Prop where
  edge_ne : edgeVec P e ≠ 0
  normal : c.normal = edgeNormal P e
  dist : c.dist = edgeDist P e (pos1 - pos2) - rad
  le : c.dist ≤ eps
  pt2 : c.pt2 = (pos1 - pos2) - edgeDist P e (pos1 - pos2) • edgeNormal P e
  pt1 : pos1 + c.pt1 = pos2 + c.pt2
  nan : c.nan = false

/-- Invariant of the circle-hull loop: `L` are the edges processed so far. -/
def SatInv (eps rad : ℝ) (P : List V2) (pos1 pos2 : V2) (L : List ℕ) : SatRun → Prop
  | .gap i => i ∈ L ∧ edgeVec P i ≠ 0 ∧ eps < edgeDist P i (pos1 - pos2) - rad
  | .go none bd _ => bd = -10 ^ 10 ∧ ∀ i ∈ L, edgeVec P i ≠ 0 → edgeDist P i (pos1 - pos2) - rad ≤ bd
  | .go (some c) bd last => last ∈ L ∧ GoodCircle eps rad P pos1 pos2 c last ∧ c.dist = bd ∧
      ∀ i ∈ L, edgeVec P i ≠ 0 → edgeDist P i (pos1 - pos2) - rad ≤ bd

theorem satCircleStep_inv {eps rad : ℝ} {P : List V2} {pos1 pos2 : V2} {L : List ℕ} {st : SatRun}
    (h : SatInv eps rad P pos1 pos2 L st) (i : ℕ) :
    SatInv eps rad P pos1 pos2 (L ++ [i]) (satCircleStep eps rad pos1 pos2 P st i) := by
  match st, h with
  | .gap j, h => exact ⟨List.mem_append_left _ h.1, h.2⟩
  | .go best bd last, h =>
    have hL : ∀ i ∈ L, edgeVec P i ≠ 0 → edgeDist P i (pos1 - pos2) - rad ≤ bd := by
      cases best with
      | none => exact h.2
      | some s => exact h.2.2.2
    have keep : (edgeVec P i ≠ 0 → edgeDist P i (pos1 - pos2) - rad ≤ bd) →
        SatInv eps rad P pos1 pos2 (L ++ [i]) (.go best bd last) := by
      intro hi
      have hL' : ∀ j ∈ L ++ [i], edgeVec P j ≠ 0 → edgeDist P j (pos1 - pos2) - rad ≤ bd := by
        intro j hj
        rcases List.mem_append.1 hj with hj | hj
        · exact hL j hj
        · rw [List.mem_singleton.1 hj]; exact hi
      cases best with
      | none => exact ⟨h.1, hL'⟩
      | some s => exact ⟨List.mem_append_left _ h.1, h.2.1, h.2.2.1, hL'⟩
    unfold satCircleStep
    simp only
    by_cases h0 : nrm (vget P ((i + 1) % P.length) - vget P i) = 0
    · rw [if_pos h0]
      exact keep fun hne => absurd (len_eq_zero.1 (by rw [nrm_eq_len] at h0; exact h0)) hne
    rw [if_neg h0, ← edgeNormal_eq]
    have hne : edgeVec P i ≠ 0 := by
      intro hz
      apply h0
      rw [nrm_eq_len]
      exact len_eq_zero.2 hz
    have ed : dot (edgeNormal P i) (pos1 - pos2 - vget P i) = edgeDist P i (pos1 - pos2) := rfl
    rw [ed]
    set d := edgeDist P i (pos1 - pos2) with hd
    by_cases h1 : d - rad > bd
    · rw [if_pos h1]
      by_cases h2 : d - rad > eps
      · rw [if_pos h2]
        exact ⟨by simp, hne, h2⟩
      · rw [if_neg h2]
        refine ⟨by simp, ⟨hne, rfl, rfl, not_lt.1 h2, ?_, by simp only; abel, rfl⟩, rfl, ?_⟩
        · simp only [← hd]
          rw [sub_add_cancel, neg_smul, ← sub_eq_add_neg]
        · intro j hj hjne
          rcases List.mem_append.1 hj with hj | hj
          · exact (hL j hj hjne).trans h1.le
          · rw [List.mem_singleton.1 hj]
    · rw [if_neg h1]
      exact keep fun _ => not_lt.1 h1

theorem satCircleFold_inv {eps rad : ℝ} {P : List V2} {pos1 pos2 : V2} : ∀ (l L : List ℕ) {st : SatRun}
    (_ : SatInv eps rad P pos1 pos2 L st),
    SatInv eps rad P pos1 pos2 (L ++ l) (l.foldl (satCircleStep eps rad pos1 pos2 P) st)
  | [], L, st, h => by simpa using h
  | i :: l, L, st, h => by
    rw [List.foldl_cons]
    have := satCircleFold_inv l (L ++ [i]) (satCircleStep_inv h i)
    simpa [List.append_assoc] using this

theorem satCircle_inv (eps rad : ℝ) (P : List V2) (pos1 pos2 : V2) (start : ℕ) :
    SatInv eps rad P pos1 pos2 (satOrder P.length start) (satCircle eps rad pos1 pos2 P start) := by
  have := satCircleFold_inv (eps := eps) (rad := rad) (P := P) (pos1 := pos1) (pos2 := pos2)
    (satOrder P.length start) [] (st := .go none (-10 ^ 10) start) ⟨rfl, by simp⟩
  rwa [List.nil_append] at this

theorem edgeDist_nonpos_iff {P : List V2} {i : ℕ} (h : edgeVec P i ≠ 0) (x : V2) :
    edgeDist P i x ≤ 0 ↔ inner (outward (edgeVec P i)) (x - P.getD i 0) ≤ 0 := by
  have hp : 0 < len (edgeVec P i) := len_pos h
  have h1 : 0 < 1 / len (edgeVec P i) := by positivity
  rw [edgeDist, inner_edgeNormal]
  constructor
  · intro h2
    by_contra h3
    exact absurd h2 (not_le.2 (mul_pos h1 (not_le.1 h3)))
  · intro h2
    exact mul_nonpos_of_nonneg_of_nonpos h1.le h2

theorem mem_solid_iff_edgeDist {P : List V2} (h : ConvexPolygon P) (hc : NoThreeCollinear P) (x : V2) :
    x ∈ solid P ↔ ∀ i < P.length, edgeDist P i x ≤ 0 := by
  rw [mem_solid_iff h hc]
  exact forall₂_congr fun i hi => (edgeDist_nonpos_iff (h.edge_ne i hi) x).symm

theorem edgeDist_add (P : List V2) (i : ℕ) (x u : V2) :
    edgeDist P i (x + u) = edgeDist P i x + inner (edgeNormal P i) u := by
  rw [edgeDist, edgeDist, ← inner_add_right]; congr 1; abel

/-- A disc around a point of depth `ρ` lies in the polygon. -/
theorem ball_subset_solid {P : List V2} (h : ConvexPolygon P) (hc : NoThreeCollinear P) {x : V2} {ρ : ℝ}
    (hx : ∀ i < P.length, edgeDist P i x ≤ -ρ) {u : V2} (hu : len u ≤ ρ) : x + u ∈ solid P := by
  rw [mem_solid_iff_edgeDist h hc]
  intro i hi
  have h1 := hx i hi
  have h2 := inner_le_len (edgeNormal P i) u (len_edgeNormal (h.edge_ne i hi))
  rw [edgeDist_add]; linarith

theorem edgeNormal_self {P : List V2} {i : ℕ} (h : edgeVec P i ≠ 0) :
    inner (edgeNormal P i) (edgeNormal P i) = 1 := by
  rw [← len_mul_self, len_edgeNormal h, one_mul]

end LcpPhysics
