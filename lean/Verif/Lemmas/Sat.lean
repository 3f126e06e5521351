import Verif.Lemmas.Convex

/-! # Lemmas on the separating axis tests -/

noncomputable section

namespace LcpPhysics
open Spec

theorem edgeNormal_eq (vs : List V2) (i : ℕ) :
    edgeNormal vs i = (1 / nrm (vget vs ((i + 1) % vs.length) - vget vs i)) •
      left_orthogonal (vget vs ((i + 1) % vs.length) - vget vs i) := by
  unfold edgeNormal edgeVec
  rw [nrm_eq_len]
  rfl

theorem len_outward (e : V2) : len (outward e) = len e := by
  unfold len outward
  congr 1
  ring

theorem len_edgeNormal {vs : List V2} {i : ℕ} (h : edgeVec vs i ≠ 0) : len (edgeNormal vs i) = 1 := by
  have h0 : len (edgeVec vs i) ≠ 0 := fun h' => h (len_eq_zero.1 h')
  have hp : 0 < len (edgeVec vs i) := lt_of_le_of_ne (len_nonneg _) h0.symm
  unfold edgeNormal
  rw [len_smul, len_outward, abs_of_pos (by positivity), one_div_mul_cancel h0]

theorem inner_edgeNormal (vs : List V2) (i : ℕ) (x : V2) :
    inner (edgeNormal vs i) x = (1 / len (edgeVec vs i)) * inner (outward (edgeVec vs i)) x := by
  unfold edgeNormal; rw [inner_smul_left]

/-- The support point in the opposite direction realises the separation. -/
theorem support_edgeGap {P Q : List V2} {t s : V2} {i k : ℕ}
    (h : get_support Q (-edgeNormal P i) = .ok (s, k)) :
    EdgeGap P Q t i (inner (edgeNormal P i) (s + t - P.getD i 0)) ∧ ∃ hk : k < Q.length, s = Q[k] := by
  obtain ⟨hk, hs, hmax, -⟩ := get_support_argmax _ _ _ _ h
  refine ⟨⟨⟨s, hs ▸ mem_solid (List.getElem_mem hk), rfl⟩, ?_⟩, hk, hs⟩
  rintro _ ⟨y, hy, rfl⟩
  have := hmax y hy
  rw [inner_neg_right, inner_neg_right] at this
  have e : ∀ z : V2, inner (edgeNormal P i) (z + t - P.getD i 0) =
      inner z (edgeNormal P i) + inner (edgeNormal P i) (t - P.getD i 0) := by
    intro z; simp only [inner, Prod.fst_add, Prod.snd_add, Prod.fst_sub, Prod.snd_sub]; ring
  simp only [e]
  linarith

/-- What a completed `test_separations` tuple says. -/
structure GoodBest (eps : ℝ) (P Q : List V2) (pos1 pos2 : V2) (d : ℝ) (pt1 pt2 nn : V2) (vx : ℕ)
    (en : ℝ) (e : ℕ) : Prop where
  edge : EdgeGap P Q (pos2 - pos1) e d
  le : d ≤ eps
  nn_eq : nn = -edgeNormal P e
  en_eq : en = len (edgeVec P e)
  edge_ne : edgeVec P e ≠ 0
  vx_lt : vx < Q.length
  vx_gap : inner (edgeNormal P e) (Q.getD vx 0 + (pos2 - pos1) - P.getD e 0) = d
  pt1_eq : pt1 = Q.getD vx 0 + (pos2 - pos1) - d • edgeNormal P e
  pt2_eq : pt1 + pos1 = pt2 + pos2

/-- Invariant of the loop of `test_separations`: `L` are the edges processed so far. -/
def SepInv (eps : ℝ) (P Q : List V2) (pos1 pos2 : V2) (L : List ℕ) : SepRun → Prop
  | .fail _ => True
  | .gap d i => i ∈ L ∧ EdgeGap P Q (pos2 - pos1) i d ∧ eps < d ∧ edgeVec P i ≠ 0
  | .go none bd => bd = -10 ^ 10 ∧ ∀ i ∈ L, ∃ d, EdgeGap P Q (pos2 - pos1) i d ∧ d ≤ bd
  | .go (some s) bd => (∃ pt1 pt2 nn vx en e, s = .best bd pt1 pt2 nn vx en e ∧ e ∈ L ∧
        GoodBest eps P Q pos1 pos2 bd pt1 pt2 nn vx en e) ∧ -10 ^ 10 < bd ∧
      ∀ i ∈ L, ∃ d, EdgeGap P Q (pos2 - pos1) i d ∧ d ≤ bd

theorem sepStep_inv {eps : ℝ} {P Q : List V2} {pos1 pos2 : V2} {L : List ℕ} {st : SepRun}
    (h : SepInv eps P Q pos1 pos2 L st) (i : ℕ) :
    SepInv eps P Q pos1 pos2 (L ++ [i]) (sepStep eps pos1 pos2 P Q st i) := by
  match st, h with
  | .fail e, _ => trivial
  | .gap d j, h => exact ⟨List.mem_append_left _ h.1, h.2⟩
  | .go best bd, h =>
    have hL : ∀ i ∈ L, ∃ d, EdgeGap P Q (pos2 - pos1) i d ∧ d ≤ bd := by
      cases best with
      | none => exact h.2
      | some s => exact h.2.2
    unfold sepStep
    simp only
    by_cases h0 : nrm (vget P ((i + 1) % P.length) - vget P i) = 0
    · rw [if_pos h0]; trivial
    rw [if_neg h0, ← edgeNormal_eq]
    have hne : edgeVec P i ≠ 0 := by
      intro hz
      apply h0
      rw [nrm_eq_len]
      exact len_eq_zero.2 hz
    cases hs : get_support Q (-edgeNormal P i) with
    | error e => trivial
    | ok r =>
      obtain ⟨s, k⟩ := r
      simp only
      obtain ⟨hgap, hk, hsk⟩ := support_edgeGap (t := pos2 - pos1) hs
      have ed : dot (edgeNormal P i) (s + pos2 - pos1 - vget P i) =
          inner (edgeNormal P i) (s + (pos2 - pos1) - P.getD i 0) := by
        rw [dot_eq_inner, add_sub_assoc]; rfl
      rw [ed]
      set d := inner (edgeNormal P i) (s + (pos2 - pos1) - P.getD i 0) with hd
      by_cases h1 : d > bd
      · rw [if_pos h1]
        by_cases h2 : d > eps
        · rw [if_pos h2]
          exact ⟨by simp, hgap, h2, hne⟩
        · rw [if_neg h2]
          have hbd : -10 ^ 10 ≤ bd := by
            cases best with
            | none => exact h.1.ge
            | some s => exact h.2.1.le
          have hsQ : Q.getD k 0 = s := by rw [hsk]; simp [List.getD_eq_getElem?_getD, hk]
          refine ⟨⟨_, _, _, _, _, _, rfl, by simp, ?_⟩, lt_of_le_of_lt hbd h1, ?_⟩
          · refine ⟨hgap, not_lt.1 h2, rfl, ?_, hne, hk, by rw [hsQ], ?_, by abel⟩
            · rw [nrm_eq_len]; rfl
            · rw [hsQ, neg_smul]; abel
          · intro j hj
            rcases List.mem_append.1 hj with hj | hj
            · obtain ⟨d', hd', hle⟩ := hL j hj
              exact ⟨d', hd', hle.trans h1.le⟩
            · rw [List.mem_singleton.1 hj]; exact ⟨d, hgap, le_rfl⟩
      · rw [if_neg h1]
        have hL' : ∀ j ∈ L ++ [i], ∃ d, EdgeGap P Q (pos2 - pos1) j d ∧ d ≤ bd := by
          intro j hj
          rcases List.mem_append.1 hj with hj | hj
          · exact hL j hj
          · rw [List.mem_singleton.1 hj]; exact ⟨d, hgap, not_lt.1 h1⟩
        cases best with
        | none => exact ⟨h.1, hL'⟩
        | some s =>
          obtain ⟨⟨pt1, pt2, nn, vx, en, e, hs, he, hg⟩, hb, -⟩ := h
          exact ⟨⟨pt1, pt2, nn, vx, en, e, hs, List.mem_append_left _ he, hg⟩, hb, hL'⟩

theorem sepFold_inv {eps : ℝ} {P Q : List V2} {pos1 pos2 : V2} : ∀ (l L : List ℕ) {st : SepRun}
    (_ : SepInv eps P Q pos1 pos2 L st),
    SepInv eps P Q pos1 pos2 (L ++ l) (l.foldl (sepStep eps pos1 pos2 P Q) st)
  | [], L, st, h => by simpa using h
  | i :: l, L, st, h => by
    rw [List.foldl_cons]
    have := sepFold_inv l (L ++ [i]) (sepStep_inv h i)
    simpa [List.append_assoc] using this

theorem mem_satOrder {n start i : ℕ} : i ∈ satOrder n start ↔ i < n := by
  unfold satOrder
  rw [List.mem_map]
  constructor
  · rintro ⟨k, hk, rfl⟩
    exact Nat.mod_lt _ (lt_of_le_of_lt (Nat.zero_le _) (List.mem_range.1 hk))
  · intro hi
    have hn : 0 < n := by omega
    refine ⟨(i + (n - start % n)) % n, List.mem_range.2 (Nat.mod_lt _ hn), ?_⟩
    have hs : start % n < n := Nat.mod_lt _ hn
    rw [Nat.add_mod, Nat.mod_mod, ← Nat.add_mod]
    have h1 : start + (i + (n - start % n)) = i + n * (start / n) + n := by
      have := Nat.div_add_mod start n
      have : start + (i + (n - start % n)) + start % n = i + n * (start / n) + n + start % n := by omega
      omega
    rw [h1, Nat.add_mod_right, Nat.add_mul_mod_self_left, Nat.mod_eq_of_lt hi]

theorem test_sep_spec {eps : ℝ} {P Q : List V2} {pos1 pos2 : V2} {start : ℕ} {r : Sep}
    (h : test_separations eps pos1 pos2 P Q start = .ok r) :
    (∃ d i, r = .gap d i ∧ i < P.length ∧ EdgeGap P Q (pos2 - pos1) i d ∧ eps < d ∧ edgeVec P i ≠ 0) ∨
    (∃ d pt1 pt2 nn vx en e, r = .best d pt1 pt2 nn vx en e ∧ e < P.length ∧
      GoodBest eps P Q pos1 pos2 d pt1 pt2 nn vx en e ∧ -10 ^ 10 < d ∧
      ∀ i < P.length, ∃ d', EdgeGap P Q (pos2 - pos1) i d' ∧ d' ≤ d) := by
  unfold test_separations at h
  have inv := sepFold_inv (eps := eps) (P := P) (Q := Q) (pos1 := pos1) (pos2 := pos2)
    (satOrder P.length start) [] (st := .go none (-10 ^ 10)) ⟨rfl, by simp⟩
  rw [List.nil_append] at inv
  cases hf : (satOrder P.length start).foldl (sepStep eps pos1 pos2 P Q) (.go none (-10 ^ 10)) with
  | fail e => rw [hf] at h; cases h
  | gap d i =>
    rw [hf] at h inv
    injection h with h
    exact Or.inl ⟨d, i, h.symm, mem_satOrder.1 inv.1, inv.2⟩
  | go best bd =>
    rw [hf] at h inv
    cases best with
    | none => cases h
    | some s =>
      injection h with h
      obtain ⟨⟨pt1, pt2, nn, vx, en, e, hs, he, hg⟩, hb, hall⟩ := inv
      exact Or.inr ⟨bd, pt1, pt2, nn, vx, en, e, h.symm.trans hs, mem_satOrder.1 he, hg, hb,
        fun i hi => hall i (mem_satOrder.2 hi)⟩

theorem edgeGap_unique {P Q : List V2} {t : V2} {i : ℕ} {d d' : ℝ} (h : EdgeGap P Q t i d)
    (h' : EdgeGap P Q t i d') : d = d' := IsLeast.unique h h'

theorem inner_le_len (a b : V2) (ha : len a = 1) : inner a b ≤ len b := by
  have h1 : inner a a = 1 := by rw [← len_mul_self, ha, one_mul]
  have h2 : inner a b ^ 2 ≤ inner b b := by
    have : 0 ≤ det a b ^ 2 := sq_nonneg _
    have e : det a b ^ 2 = inner a a * inner b b - inner a b ^ 2 := by simp only [det, inner]; ring
    rw [h1] at e; linarith
  rw [len_eq_sqrt_inner]
  exact Real.le_sqrt_of_sq_le h2

/-- A separation along an edge normal of a convex polygon bounds the distance from below. -/
theorem edgeGap_dist {P Q : List V2} (hP : ConvexPolygon P) {t : V2} {i : ℕ} (hi : i < P.length) {d : ℝ}
    (h : EdgeGap P Q t i d) {x y : V2} (hx : x ∈ solid P) (hy : y ∈ solid Q) :
    d ≤ Spec.dist (y + t) x := by
  have h1 : d ≤ inner (edgeNormal P i) (y + t - P.getD i 0) := h.2 ⟨y, hy, rfl⟩
  have h2 : inner (edgeNormal P i) (x - P.getD i 0) ≤ 0 := by
    have := solid_inner_le (vs := P) (d := outward (edgeVec P i))
      (m := inner (P.getD i 0) (outward (edgeVec P i)))
      (fun w hw => by
        have := hP.inside i hi w hw
        rw [inner_sub_right] at this
        rw [inner_comm w, inner_comm (P.getD i 0)]; linarith) x hx
    rw [inner_edgeNormal, inner_sub_right, inner_comm _ x, inner_comm _ (P.getD i 0)]
    exact mul_nonpos_of_nonneg_of_nonpos (by have := len_nonneg (edgeVec P i); positivity) (by linarith)
  have h3 := inner_le_len (edgeNormal P i) (y + t - x) (len_edgeNormal (hP.edge_ne i hi))
  have e : y + t - x = (y + t - P.getD i 0) - (x - P.getD i 0) := by abel
  rw [e, inner_sub_right] at h3
  unfold Spec.dist
  rw [e]; linarith

end LcpPhysics
