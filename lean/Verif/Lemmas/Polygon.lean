import Verif.Spec.Polygon
import Verif.Model.Bodies
import Verif.Lemmas.Plane
import Mathlib.Algebra.BigOperators.Ring.Finset
import Mathlib.Algebra.Order.BigOperators.Group.Finset
import Mathlib.Algebra.BigOperators.Module
import Mathlib.Tactic.Module

/-! Helper lemmas about edge sums of polygons. -/

noncomputable section

open scoped BigOperators

namespace LcpPhysics

theorem getD_map_lt {vs : List V2} (φ : V2 → V2) {i : ℕ} (h : i < vs.length) :
    (vs.map φ).getD i 0 = φ (vs.getD i 0) := by
  simp [List.getD_eq_getElem?_getD, h]

theorem getD_mem {vs : List V2} {i : ℕ} (h : i < vs.length) : vs.getD i 0 ∈ vs := by
  simp [List.getD_eq_getElem?_getD, h]

namespace Spec

theorem cyc_shift {M : Type*} [AddCommMonoid M] (n : ℕ) (f : ℕ → M) :
    ∑ i ∈ Finset.range n, f ((i + 1) % n) = ∑ i ∈ Finset.range n, f i := by
  cases n with
  | zero => simp
  | succ m =>
    rw [Finset.sum_range_succ, Finset.sum_range_succ' f]
    congr 1
    · apply Finset.sum_congr rfl
      intro i hi
      rw [Nat.mod_eq_of_lt]
      have := Finset.mem_range.1 hi; omega
    · simp

variable {M : Type*} [AddCommGroup M]

theorem edgeSum_telescope (vs : List V2) (g : V2 → M) :
    edgeSum vs (fun a b => g b - g a) = 0 := by
  unfold edgeSum
  rw [Finset.sum_sub_distrib, cyc_shift vs.length (fun i => g (vs.getD i 0)), sub_self]

theorem edgeSum_add (vs : List V2) (f g : V2 → V2 → M) :
    edgeSum vs (fun a b => f a b + g a b) = edgeSum vs f + edgeSum vs g := by
  unfold edgeSum; rw [Finset.sum_add_distrib]

theorem edgeSum_smul [Module ℝ M] (vs : List V2) (k : ℝ) (f : V2 → V2 → M) :
    edgeSum vs (fun a b => k • f a b) = k • edgeSum vs f := by
  unfold edgeSum; rw [Finset.smul_sum]

theorem edgeSum_smul_const [Module ℝ M] (vs : List V2) (f : V2 → V2 → ℝ) (x : M) :
    edgeSum vs (fun a b => f a b • x) = edgeSum vs f • x := by
  unfold edgeSum; rw [Finset.sum_smul]

theorem edgeSum_congr {M : Type*} [AddCommMonoid M] (vs : List V2) {f g : V2 → V2 → M}
    (h : ∀ a ∈ vs, ∀ b ∈ vs, f a b = g a b) : edgeSum vs f = edgeSum vs g := by
  unfold edgeSum
  apply Finset.sum_congr rfl
  intro i hi
  have hi := Finset.mem_range.1 hi
  have hj : (i + 1) % vs.length < vs.length := Nat.mod_lt _ (by omega)
  apply h
  · exact getD_mem hi
  · exact getD_mem hj

theorem edgeSum_map {M : Type*} [AddCommMonoid M] (vs : List V2) (φ : V2 → V2) (f : V2 → V2 → M) :
    edgeSum (vs.map φ) f = edgeSum vs (fun a b => f (φ a) (φ b)) := by
  unfold edgeSum
  rw [List.length_map]
  apply Finset.sum_congr rfl
  intro i hi
  have hi := Finset.mem_range.1 hi
  have hj : (i + 1) % vs.length < vs.length := Nat.mod_lt _ (by omega)
  rw [getD_map_lt φ hi, getD_map_lt φ hj]

theorem edgeSum_nonneg (vs : List V2) {f : V2 → V2 → ℝ} (h : ∀ a b, 0 ≤ f a b) :
    0 ≤ edgeSum vs f := Finset.sum_nonneg fun _ _ => h _ _

theorem edgeSum_pos_of_ne (vs : List V2) {f g : V2 → V2 → ℝ} (h : ∀ a b, 0 ≤ f a b)
    (hp : ∀ a b, g a b ≠ 0 → 0 < f a b) (hg : edgeSum vs g ≠ 0) : 0 < edgeSum vs f := by
  obtain ⟨i, hi, hne⟩ := Finset.exists_ne_zero_of_sum_ne_zero hg
  exact Finset.sum_pos' (fun _ _ => h _ _) ⟨i, hi, hp _ _ hne⟩

/-- The fan decomposition does not depend on the base point (denominator). -/
theorem area2_fan (q : V2) (vs : List V2) :
    edgeSum vs (fun a b => det (a - q) (b - q)) = area2 vs := by
  have : (fun a b : V2 => det (a - q) (b - q)) =
      fun a b => det a b + (det b q - det a q) := by
    funext a b; simp [det]; ring
  rw [this, edgeSum_add, edgeSum_telescope vs (fun a => det a q), add_zero]; rfl

theorem det_comm (a b : V2) : det a b = -det b a := by unfold det; ring

end Spec

open Spec

theorem clockwiseTotal_eq (vs : List V2) : clockwiseTotal vs = -area2 vs := by
  have : clockwiseTotal vs = edgeSum vs
      (fun a b => (-1 : ℝ) • det a b + (b.1 * b.2 - a.1 * a.2)) := by
    unfold clockwiseTotal edgeSum
    apply Finset.sum_congr rfl
    intro i _
    simp only [vget, det, smul_eq_mul]; ring
  rw [this, edgeSum_add, edgeSum_telescope vs (fun a => a.1 * a.2), edgeSum_smul, add_zero]
  simp [area2]

theorem centroidDen_eq (vs : List V2) : centroidDen vs = -(area2 vs / 2) := by
  have : centroidDen vs = edgeSum vs (fun a b => (-(1 / 2) : ℝ) • det a b) := by
    unfold centroidDen edgeSum
    apply Finset.sum_congr rfl
    intro i _
    simp only [vget, cross_2d, det, smul_eq_mul]; ring
  rw [this, edgeSum_smul, smul_eq_mul, area2]; ring

theorem centroidNum_eq (vs : List V2) :
    centroidNum vs = edgeSum vs (fun a b => (-det a b) • (a + b)) := by
  unfold centroidNum edgeSum
  apply Finset.sum_congr rfl
  intro i _
  simp only [vget, cross_2d, det]; congr 1; ring

theorem inertiaNum_eq (vs : List V2) :
    inertiaNum vs = edgeSum vs (fun a b => |det a b| * (inner a a + inner a b + inner b b)) := by
  unfold inertiaNum edgeSum
  apply Finset.sum_congr rfl
  intro i _
  simp only [vget, cross_eq_det, dot_eq_inner]
  rw [det_comm (vs.getD ((i + 1) % vs.length) 0), abs_neg]

theorem inertiaDen_eq (vs : List V2) :
    inertiaDen vs = edgeSum vs (fun a b => |det a b|) := by
  unfold inertiaDen edgeSum
  apply Finset.sum_congr rfl
  intro i _
  simp only [vget, cross_eq_det]
  rw [det_comm, abs_neg]

/-- numerator of the fan decomposition from `q` -/
theorem fanNum_eq (q : V2) (vs : List V2) :
    edgeSum vs (fun a b => (det (a - q) (b - q) / 2) • ((1 / 3 : ℝ) • (q + a + b)))
      = (1 / 6 : ℝ) • edgeSum vs (fun a b => det a b • (a + b)) := by
  -- per edge identity with a telescoping remainder
  have key : (fun a b : V2 => (det (a - q) (b - q) / 2) • ((1 / 3 : ℝ) • (q + a + b))) =
      fun a b => (1 / 6 : ℝ) • (det a b • (a + b)) +
        ((1 / 6 : ℝ) • det b q • (b + q) - (1 / 6 : ℝ) • det a q • (a + q)) := by
    funext a b
    ext <;> simp [det] <;> ring
  rw [key, edgeSum_add, edgeSum_telescope vs (fun a => (1 / 6 : ℝ) • det a q • (a + q)),
    edgeSum_smul, add_zero]

/-- The model's centroid is the fan centroid from any base point. -/
theorem get_centroid_eq_fan (q : V2) (vs : List V2) : get_centroid vs = fanCentroid q vs := by
  have hden : edgeSum vs (fun a b => det (a - q) (b - q) / 2) = area2 vs / 2 := by
    have : (fun a b : V2 => det (a - q) (b - q) / 2) =
        fun a b => (1 / 2 : ℝ) • det (a - q) (b - q) := by
      funext a b; simp [smul_eq_mul]; ring
    rw [this, edgeSum_smul, area2_fan, smul_eq_mul]; ring
  have hnum : centroidNum vs = (-1 : ℝ) • edgeSum vs (fun a b => det a b • (a + b)) := by
    rw [centroidNum_eq, ← edgeSum_smul]
    congr 1; funext a b; module
  unfold get_centroid fanCentroid
  rw [hden, fanNum_eq, hnum, centroidDen_eq]
  simp only [smul_smul]
  congr 1
  rw [one_div, one_div, neg_eq_neg_one_mul, mul_inv]; ring

theorem area2_translate (t : V2) (vs : List V2) : area2 (vs.map (fun v => v - t)) = area2 vs := by
  unfold area2; rw [edgeSum_map]; exact area2_fan t vs

theorem get_centroid_translate (t : V2) (vs : List V2) (h : area2 vs ≠ 0) :
    get_centroid (vs.map (fun v => v - t)) = get_centroid vs - t := by
  rw [get_centroid_eq_fan 0, get_centroid_eq_fan t]
  unfold fanCentroid
  rw [edgeSum_map, edgeSum_map]
  simp only [sub_zero, zero_add]
  have hsplit : (fun a b : V2 => (det (a - t) (b - t) / 2) • ((1 / 3 : ℝ) • (a - t + (b - t)))) =
      fun a b => (det (a - t) (b - t) / 2) • ((1 / 3 : ℝ) • (t + a + b)) +
        (det (a - t) (b - t) / 2) • (-t) := by
    funext a b; module
  have hden : edgeSum vs (fun a b => det (a - t) (b - t) / 2) ≠ 0 := by
    have : (fun a b : V2 => det (a - t) (b - t) / 2) =
        fun a b => (1 / 2 : ℝ) • det (a - t) (b - t) := by
      funext a b; simp [smul_eq_mul]; ring
    rw [this, edgeSum_smul, area2_fan]
    simpa using h
  rw [hsplit, edgeSum_add, edgeSum_smul_const, smul_add, smul_smul, one_div,
    inv_mul_cancel₀ hden]
  module

theorem area2_rot (t : ℝ) (vs : List V2) : area2 (vs.map (rot t)) = area2 vs := by
  unfold area2; rw [edgeSum_map]; simp only [rot_det]

end LcpPhysics
