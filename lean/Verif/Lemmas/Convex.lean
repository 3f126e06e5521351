import Verif.Lemmas.Support
import Verif.Spec.Convex
import Mathlib.Analysis.Convex.Topology
import Mathlib.Analysis.Convex.Radon

/-! # Lemmas on convex polygons -/

noncomputable section

namespace LcpPhysics
open Spec

theorem continuous_len : Continuous len := by
  unfold len
  fun_prop

theorem exists_nearest {vs : List V2} (hne : vs ≠ []) (p : V2) : ∃ q, IsNearest (solid vs) p q := by
  have hfin : ({p | p ∈ vs} : Set V2).Finite := vs.finite_toSet
  have hc : IsCompact (solid vs) := hfin.isCompact_convexHull ℝ
  have hn : (solid vs).Nonempty := by
    obtain ⟨v, hv⟩ := List.exists_mem_of_ne_nil vs hne
    exact ⟨v, mem_solid hv⟩
  obtain ⟨q, hq, hmin⟩ := hc.exists_isMinOn hn
    (f := fun x => Spec.dist p x) (by unfold Spec.dist; exact (continuous_len.comp (by fun_prop)).continuousOn)
  exact ⟨q, hq, fun w hw => hmin hw⟩

theorem inner_outward (a b : V2) : inner (outward a) b = -det a b := by
  simp only [inner, outward, det]; ring

/-- Consecutive edges turn left. -/
theorem turn_pos {vs : List V2} (h : ConvexPolygon vs) (hc : NoThreeCollinear vs) {i : ℕ}
    (hi : i < vs.length) : 0 < det (edgeVec vs i) (edgeVec vs ((i + 1) % vs.length)) := by
  have hn := h.three
  set j := (i + 1) % vs.length with hj
  set k := (j + 1) % vs.length with hk
  have hjl : j < vs.length := Nat.mod_lt _ (by omega)
  have hkl : k < vs.length := Nat.mod_lt _ (by omega)
  have hij : i ≠ j := by
    rw [hj]
    rcases Nat.lt_or_ge (i + 1) vs.length with h1 | h1
    · rw [Nat.mod_eq_of_lt h1]; omega
    · have : i + 1 = vs.length := by omega
      rw [this, Nat.mod_self]; omega
  have hjk : j ≠ k := by
    rw [hk]
    rcases Nat.lt_or_ge (j + 1) vs.length with h1 | h1
    · rw [Nat.mod_eq_of_lt h1]; omega
    · have : j + 1 = vs.length := by omega
      rw [this, Nat.mod_self]; omega
  have hik : i ≠ k := by
    rw [hk, hj]
    rcases Nat.lt_or_ge (i + 1) vs.length with h1 | h1
    · rw [Nat.mod_eq_of_lt h1]
      rcases Nat.lt_or_ge (i + 1 + 1) vs.length with h2 | h2
      · rw [Nat.mod_eq_of_lt h2]; omega
      · have : i + 1 + 1 = vs.length := by omega
        rw [this, Nat.mod_self]; omega
    · have : i + 1 = vs.length := by omega
      rw [this, Nat.mod_self, Nat.zero_add, Nat.mod_eq_of_lt (by omega)]; omega
  have hdet := hc i j k hi hjl hkl hij hjk hik
  have hmem : vs.getD k 0 ∈ vs := by
    rw [List.getD_eq_getElem?_getD, List.getElem?_eq_getElem hkl]; exact List.getElem_mem hkl
  have hin := h.inside i hi _ hmem
  rw [inner_outward] at hin
  have e : det (edgeVec vs i) (edgeVec vs j) =
      det (vs.getD j 0 - vs.getD i 0) (vs.getD k 0 - vs.getD i 0) := by
    have e1 : edgeVec vs i = vs.getD j 0 - vs.getD i 0 := rfl
    have e2 : edgeVec vs j = vs.getD k 0 - vs.getD j 0 := rfl
    rw [e1, e2]; simp only [det, Prod.fst_sub, Prod.snd_sub]; ring
  have e' : det (edgeVec vs i) (vs.getD k 0 - vs.getD i 0) =
      det (vs.getD j 0 - vs.getD i 0) (vs.getD k 0 - vs.getD i 0) := rfl
  rw [e]
  rw [e'] at hin
  exact lt_of_le_of_ne (by linarith) hdet.symm

/-- The previous index. -/
theorem exists_pred {n j : ℕ} (hj : j < n) : ∃ i < n, (i + 1) % n = j := by
  rcases Nat.eq_zero_or_pos j with rfl | h0
  · exact ⟨n - 1, by omega, by rw [Nat.sub_add_cancel (by omega), Nat.mod_self]⟩
  · exact ⟨j - 1, by omega, by rw [Nat.sub_add_cancel h0, Nat.mod_eq_of_lt hj]⟩

/-- Normal cone: a direction maximised at a vertex is a non-negative combination of the outward
normals of the two edges there. -/
theorem normal_cone {e f d : V2} (ht : 0 < det e f) (h1 : 0 ≤ inner d e) (h2 : inner d f ≤ 0) :
    ∃ α β : ℝ, 0 ≤ α ∧ 0 ≤ β ∧ d = α • outward e + β • outward f := by
  refine ⟨-inner d f / det e f, inner d e / det e f, div_nonneg (by linarith) ht.le,
    div_nonneg h1 ht.le, ?_⟩
  have h0 : det e f ≠ 0 := ht.ne'
  have key : det e f • d = (-inner d f) • outward e + inner d e • outward f := by
    ext <;> simp only [inner, outward, det, Prod.smul_fst, Prod.smul_snd, Prod.fst_add, Prod.snd_add,
      smul_eq_mul] <;> ring
  have : d = (det e f)⁻¹ • (det e f • d) := by rw [smul_smul, inv_mul_cancel₀ h0, one_smul]
  rw [key, smul_add, smul_smul, smul_smul, ← div_eq_inv_mul, ← div_eq_inv_mul] at this
  exact this

/-- A strictly convex polygon is the intersection of the half-planes of its edges. -/
theorem mem_solid_iff {vs : List V2} (h : ConvexPolygon vs) (hc : NoThreeCollinear vs) (x : V2) :
    x ∈ solid vs ↔ ∀ i < vs.length, inner (outward (edgeVec vs i)) (x - vs.getD i 0) ≤ 0 := by
  constructor
  · intro hx i hi
    have := solid_inner_le (vs := vs) (d := outward (edgeVec vs i))
      (m := inner (vs.getD i 0) (outward (edgeVec vs i)))
      (fun w hw => by
        have := h.inside i hi w hw
        rw [inner_sub_right] at this
        rw [inner_comm w, inner_comm (vs.getD i 0)]; linarith) x hx
    rw [inner_sub_right, inner_comm _ x, inner_comm _ (vs.getD i 0)]; linarith
  · intro hall
    have hn := h.three
    by_contra hx
    obtain ⟨q, hq⟩ := exists_nearest (vs := vs) (by rintro rfl; simp at hn) x
    have hv := nearest_inner (solid_convex vs) hq
    set d := x - q with hd
    have hd0 : d ≠ 0 := by
      intro h0
      have : x = q := sub_eq_zero.1 h0
      exact hx (this ▸ hq.1)
    -- a vertex maximising `d`
    obtain ⟨j, hj, hmax⟩ : ∃ j < vs.length, ∀ w ∈ vs, inner w d ≤ inner (vs.getD j 0) d := by
      obtain ⟨j, hj, hmax⟩ := Finset.exists_max_image (Finset.range vs.length)
        (fun k => inner (vs.getD k 0) d) ⟨0, by simp; omega⟩
      refine ⟨j, by simpa using hj, fun w hw => ?_⟩
      obtain ⟨k, hk, rfl⟩ := List.getElem_of_mem hw
      have := hmax k (by simpa using hk)
      simpa [List.getD_eq_getElem?_getD, hk] using this
    obtain ⟨i, hi, hij⟩ := exists_pred hj
    have ht := turn_pos h hc hi
    rw [hij] at ht
    have gm : ∀ k < vs.length, vs.getD k 0 ∈ vs := fun k hk => by
      rw [List.getD_eq_getElem?_getD, List.getElem?_eq_getElem hk]; exact List.getElem_mem hk
    have h1 : 0 ≤ inner d (edgeVec vs i) := by
      have e : edgeVec vs i = vs.getD j 0 - vs.getD i 0 := by unfold edgeVec; rw [hij]
      rw [e, inner_sub_right, inner_comm d, inner_comm d]
      linarith [hmax _ (gm i hi)]
    have h2 : inner d (edgeVec vs j) ≤ 0 := by
      unfold edgeVec
      rw [inner_sub_right, inner_comm d, inner_comm d]
      linarith [hmax _ (gm _ (Nat.mod_lt (j + 1) (by omega : 0 < vs.length)))]
    obtain ⟨α, β, hα, hβ, he⟩ := normal_cone ht h1 h2
    -- `x` violates one of the two half-planes
    have a1 := hall i hi
    have a2 := hall j hj
    have a1' : inner (outward (edgeVec vs i)) (x - vs.getD j 0) ≤ 0 := by
      have e : x - vs.getD j 0 = (x - vs.getD i 0) - edgeVec vs i := by
        unfold edgeVec; rw [hij]; abel
      have z : inner (outward (edgeVec vs i)) (edgeVec vs i) = 0 := by
        rw [inner_outward]; simp only [det]; ring
      rw [e, inner_sub_right, z]; linarith
    have hneg : inner d (x - vs.getD j 0) ≤ 0 := by
      rw [he, inner_add_left, inner_smul_left, inner_smul_left]
      nlinarith [mul_nonneg hα (neg_nonneg.2 a1'), mul_nonneg hβ (neg_nonneg.2 a2)]
    have hle : inner (vs.getD j 0 - q) d ≤ 0 := hv _ (mem_solid (gm j hj))
    have hpos : 0 < inner d d := lt_of_le_of_ne (inner_self_nonneg _)
      fun h0 => hd0 (inner_self_eq_zero.1 h0.symm)
    have e : inner d d = inner d (x - vs.getD j 0) + inner (vs.getD j 0 - q) d := by
      rw [hd]; simp only [inner, Prod.fst_sub, Prod.snd_sub]; ring
    linarith

/-- Separating axes: if no edge normal of either polygon separates them, they meet. -/
theorem sat_complete {P Q : List V2} (hP : ConvexPolygon P) (hPc : NoThreeCollinear P)
    (hQ : ConvexPolygon Q) (hQc : NoThreeCollinear Q) (t : V2)
    (h1 : ∀ i < P.length, ∃ y ∈ solid Q, inner (outward (edgeVec P i)) (y + t - P.getD i 0) ≤ 0)
    (h2 : ∀ j < Q.length, ∃ x ∈ solid P, inner (outward (edgeVec Q j)) (x - t - Q.getD j 0) ≤ 0) :
    ∃ x ∈ solid P, x - t ∈ solid Q := by
  classical
  let F : ℕ ⊕ ℕ → Set V2 := fun
    | .inl i => {x | inner (outward (edgeVec P i)) (x - P.getD i 0) ≤ 0}
    | .inr j => {x | inner (outward (edgeVec Q j)) (x - t - Q.getD j 0) ≤ 0}
  let s : Finset (ℕ ⊕ ℕ) := (Finset.range P.length).disjSum (Finset.range Q.length)
  have hconv : ∀ i ∈ s, Convex ℝ (F i) := by
    have half : ∀ (n c : V2), Convex ℝ {x : V2 | inner n (x - c) ≤ 0} := by
      intro n c x hx y hy a b ha hb hab
      have hx : inner n (x - c) ≤ 0 := hx
      have hy : inner n (y - c) ≤ 0 := hy
      show inner n (a • x + b • y - c) ≤ 0
      have e : a • x + b • y - c = a • (x - c) + b • (y - c) := by
        have : b = 1 - a := by linarith
        rw [this]; module
      rw [e, inner_add_right, inner_smul_right, inner_smul_right]
      nlinarith [mul_nonneg ha (neg_nonneg.2 hx), mul_nonneg hb (neg_nonneg.2 hy)]
    intro i _
    cases i with
    | inl i => exact half _ _
    | inr j =>
      have := half (outward (edgeVec Q j)) (t + Q.getD j 0)
      simpa only [F, sub_sub] using this
  have hdim : Module.finrank ℝ V2 = 2 := by simp [V2]
  have hinter : (⋂ i ∈ s, F i).Nonempty := by
    apply Convex.helly_theorem' (𝕜 := ℝ) hconv
    intro I hI hcard
    rw [hdim] at hcard
    -- at most one half-plane from one of the two polygons
    by_cases hq : ∃ j, ∀ j', Sum.inr j' ∈ I → j' = j
    · obtain ⟨j, hj⟩ := hq
      have : ∃ x ∈ solid P, (Sum.inr j ∈ I → x ∈ F (Sum.inr j)) := by
        by_cases hjI : Sum.inr j ∈ I
        · have hjl : j < Q.length := by
            have := hI hjI
            simpa [s] using this
          obtain ⟨x, hx, hle⟩ := h2 j hjl
          exact ⟨x, hx, fun _ => hle⟩
        · have h3 := hP.three
          have h0 : 0 < P.length := by omega
          exact ⟨P[0], mem_solid (List.getElem_mem h0), fun h => absurd h hjI⟩
      obtain ⟨x, hx, hxj⟩ := this
      refine ⟨x, ?_⟩
      simp only [Set.mem_iInter]
      intro i hi
      cases i with
      | inl i =>
        have hil : i < P.length := by simpa [s] using hI hi
        exact (mem_solid_iff hP hPc x).1 hx i hil
      | inr j' =>
        have := hj j' hi
        subst this
        exact hxj hi
    · -- two different ones from `Q`, hence at most one from `P`
      have hp : ∃ i, ∀ i', Sum.inl i' ∈ I → i' = i := by
        by_contra hp
        simp only [not_exists, not_forall] at hp hq
        obtain ⟨i1, hi1, -⟩ := hp 0
        obtain ⟨i2, hi2, hi12⟩ := hp i1
        obtain ⟨j1, hj1, -⟩ := hq 0
        obtain ⟨j2, hj2, hj12⟩ := hq j1
        have hsub : ({Sum.inl i1, Sum.inl i2, Sum.inr j1, Sum.inr j2} : Finset (ℕ ⊕ ℕ)) ⊆ I := by
          intro k hk
          simp only [Finset.mem_insert, Finset.mem_singleton] at hk
          rcases hk with rfl | rfl | rfl | rfl <;> assumption
        have hc4 : ({Sum.inl i1, Sum.inl i2, Sum.inr j1, Sum.inr j2} : Finset (ℕ ⊕ ℕ)).card = 4 := by
          rw [Finset.card_insert_of_notMem, Finset.card_insert_of_notMem, Finset.card_insert_of_notMem,
            Finset.card_singleton]
          · simpa using Ne.symm hj12
          · simp
          · simpa using Ne.symm hi12
        have := Finset.card_le_card hsub
        omega
      obtain ⟨i, hi⟩ := hp
      have : ∃ y ∈ solid Q, (Sum.inl i ∈ I → y + t ∈ F (Sum.inl i)) := by
        by_cases hiI : Sum.inl i ∈ I
        · have hil : i < P.length := by
            have := hI hiI
            simpa [s] using this
          obtain ⟨y, hy, hle⟩ := h1 i hil
          exact ⟨y, hy, fun _ => hle⟩
        · have h3 := hQ.three
          have h0 : 0 < Q.length := by omega
          exact ⟨Q[0], mem_solid (List.getElem_mem h0), fun h => absurd h hiI⟩
      obtain ⟨y, hy, hyi⟩ := this
      refine ⟨y + t, ?_⟩
      simp only [Set.mem_iInter]
      intro k hk
      cases k with
      | inl i' =>
        have := hi i' hk
        subst this
        exact hyi hk
      | inr j =>
        have hjl : j < Q.length := by simpa [s] using hI hk
        show inner (outward (edgeVec Q j)) (y + t - t - Q.getD j 0) ≤ 0
        rw [add_sub_cancel_right]
        exact (mem_solid_iff hQ hQc y).1 hy j hjl
  obtain ⟨x, hx⟩ := hinter
  simp only [Set.mem_iInter] at hx
  refine ⟨x, (mem_solid_iff hP hPc x).2 fun i hi => hx (Sum.inl i) (by simpa [s] using hi),
    (mem_solid_iff hQ hQc _).2 fun j hj => hx (Sum.inr j) (by simpa [s] using hj)⟩

end LcpPhysics
