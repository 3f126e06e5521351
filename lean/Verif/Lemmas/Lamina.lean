import Verif.Spec.Lamina
import Verif.Lemmas.Convex
import Verif.Lemmas.Polygon
import Mathlib.MeasureTheory.Function.Jacobian
import Mathlib.MeasureTheory.Integral.Prod
import Mathlib.MeasureTheory.Integral.IntervalIntegral.Basic
import Mathlib.Analysis.SpecialFunctions.Integrals.Basic
import Mathlib.MeasureTheory.Measure.Lebesgue.VolumeOfBalls

/-! Helper lemmas: integrals of quadratic functions over convex polygons. -/

noncomputable section

open MeasureTheory Set

namespace LcpPhysics

open Spec

/-- The standard triangle. -/
def stdTri : Set V2 := {p | 0 ≤ p.1 ∧ 0 ≤ p.2 ∧ p.1 + p.2 ≤ 1}

theorem stdTri_closed : IsClosed stdTri := by
  have e : stdTri = {p : V2 | 0 ≤ p.1} ∩ ({p | 0 ≤ p.2} ∩ {p | p.1 + p.2 ≤ 1}) := rfl
  rw [e]
  exact (isClosed_le continuous_const continuous_fst).inter ((isClosed_le continuous_const continuous_snd).inter
    (isClosed_le (continuous_fst.add continuous_snd) continuous_const))

theorem stdTri_subset : stdTri ⊆ Icc (0 : ℝ) 1 ×ˢ Icc (0 : ℝ) 1 := by
  rintro ⟨a, b⟩ ⟨h1, h2, h3⟩
  simp only [mem_prod, mem_Icc] at *
  exact ⟨⟨h1, by linarith⟩, h2, by linarith⟩

theorem stdTri_compact : IsCompact stdTri :=
  (isCompact_Icc.prod isCompact_Icc).of_isClosed_subset stdTri_closed stdTri_subset

theorem stdTri_integral {g : V2 → ℝ} (hg : Continuous g) :
    ∫ p in stdTri, g p = ∫ u in (0 : ℝ)..1, ∫ v in (0 : ℝ)..(1 - u), g (u, v) := by
  have hm := stdTri_closed.measurableSet
  have hint : IntegrableOn g stdTri := hg.continuousOn.integrableOn_compact stdTri_compact
  rw [← integral_indicator hm, Measure.volume_eq_prod,
    integral_prod _ (by rw [← Measure.volume_eq_prod]; exact hint.integrable_indicator hm)]
  rw [intervalIntegral.integral_of_le zero_le_one, ← integral_Icc_eq_integral_Ioc, ← integral_indicator measurableSet_Icc]
  congr 1
  ext u
  by_cases hu : u ∈ Icc (0 : ℝ) 1
  · rw [indicator_of_mem hu]
    rw [intervalIntegral.integral_of_le (by linarith [hu.2]), ← integral_Icc_eq_integral_Ioc,
      ← integral_indicator measurableSet_Icc]
    congr 1
    ext v
    by_cases hv : v ∈ Icc (0 : ℝ) (1 - u)
    · rw [indicator_of_mem hv, indicator_of_mem]
      exact ⟨hu.1, hv.1, by have := hv.2; simp only; linarith⟩
    · rw [indicator_of_notMem hv, indicator_of_notMem]
      rintro ⟨-, h2, h3⟩
      exact hv ⟨h2, by simp only at h3; linarith⟩
  · rw [indicator_of_notMem hu]
    rw [← integral_zero ℝ ℝ (μ := volume)]
    congr 1
    ext v
    rw [indicator_of_notMem]
    rintro ⟨h1, h2, h3⟩
    exact hu ⟨h1, by simp only at *; linarith⟩

theorem cubic_integral (m a b c d : ℝ) :
    ∫ v in (0 : ℝ)..m, (a + b * v ^ 1 + c * v ^ 2 + d * v ^ 3) = a * m + b * m ^ 2 / 2 + c * m ^ 3 / 3 + d * m ^ 4 / 4 := by
  rw [intervalIntegral.integral_add (by apply Continuous.intervalIntegrable; fun_prop)
      (by apply Continuous.intervalIntegrable; fun_prop),
    intervalIntegral.integral_add (by apply Continuous.intervalIntegrable; fun_prop)
      (by apply Continuous.intervalIntegrable; fun_prop),
    intervalIntegral.integral_add (by apply Continuous.intervalIntegrable; fun_prop)
      (by apply Continuous.intervalIntegrable; fun_prop)]
  simp only [intervalIntegral.integral_const, intervalIntegral.integral_const_mul, integral_pow, smul_eq_mul]
  norm_num
  ring

theorem stdTri_quadratic (c0 c1 c2 c3 c4 c5 : ℝ) :
    ∫ p in stdTri, (c0 + c1 * p.1 + c2 * p.2 + c3 * p.1 ^ 2 + c4 * (p.1 * p.2) + c5 * p.2 ^ 2) =
      c0 / 2 + c1 / 6 + c2 / 6 + c3 / 12 + c4 / 24 + c5 / 12 := by
  rw [stdTri_integral (by fun_prop)]
  have inner_eq : ∀ u : ℝ, (∫ v in (0 : ℝ)..(1 - u), (c0 + c1 * u + c2 * v + c3 * u ^ 2 + c4 * (u * v) + c5 * v ^ 2)) =
      (c0 + c2 / 2 + c5 / 3) + (c1 - c0 - c2 + c4 / 2 - c5) * u ^ 1 + (c3 - c1 + c2 / 2 - c4 + c5) * u ^ 2 +
        (-c3 + c4 / 2 - c5 / 3) * u ^ 3 := by
    intro u
    have e : ∀ v : ℝ, c0 + c1 * u + c2 * v + c3 * u ^ 2 + c4 * (u * v) + c5 * v ^ 2 =
        (c0 + c1 * u + c3 * u ^ 2) + (c2 + c4 * u) * v ^ 1 + c5 * v ^ 2 + 0 * v ^ 3 := fun v => by ring
    simp_rw [e]
    rw [cubic_integral]
    ring
  simp only [inner_eq]
  rw [cubic_integral]
  ring

/-- A quadratic function with rotation-invariant second-order part. -/
def quadFn (k0 k1 k2 k3 : ℝ) (x : V2) : ℝ := k0 + k1 * x.1 + k2 * x.2 + k3 * (x.1 ^ 2 + x.2 ^ 2)

theorem quadFn_continuous (k0 k1 k2 k3 : ℝ) : Continuous (quadFn k0 k1 k2 k3) := by
  unfold quadFn; fun_prop

/-- The contribution of a directed edge to its integral. -/
def edgeInt (k0 k1 k2 k3 : ℝ) (a b : V2) : ℝ :=
  det a b * (k0 / 2 + k1 / 6 * (a.1 + b.1) + k2 / 6 * (a.2 + b.2) +
    k3 / 12 * (inner a a + inner a b + inner b b))

theorem edgeInt_swap (k0 k1 k2 k3 : ℝ) (a b : V2) : edgeInt k0 k1 k2 k3 b a = -edgeInt k0 k1 k2 k3 a b := by
  unfold edgeInt det Spec.inner; ring

/-- The affine map of the standard triangle onto a triangle. -/
def triMap (a b c : V2) (p : V2) : V2 := a + (p.1 • (b - a) + p.2 • (c - a))

def triLin (a b c : V2) : V2 →L[ℝ] V2 :=
  (ContinuousLinearMap.fst ℝ ℝ ℝ).smulRight (b - a) + (ContinuousLinearMap.snd ℝ ℝ ℝ).smulRight (c - a)

theorem triLin_det (a b c : V2) : (triLin a b c).det = Spec.det (b - a) (c - a) := by
  unfold ContinuousLinearMap.det
  rw [← LinearMap.det_toMatrix (Module.Basis.finTwoProd ℝ), Matrix.det_fin_two]
  simp [LinearMap.toMatrix_apply, triLin, Spec.det]
  ring

theorem triMap_image (a b c : V2) : triMap a b c '' stdTri = solid [a, b, c] := by
  apply Subset.antisymm
  · rintro x ⟨p, ⟨h1, h2, h3⟩, rfl⟩
    have := (convex_convexHull ℝ {q | q ∈ [a, b, c]}).sum_mem (t := Finset.univ) (w := ![1 - p.1 - p.2, p.1, p.2])
      (z := ![a, b, c]) (by
        intro i _
        fin_cases i
        · simp; linarith
        · simpa using h1
        · simpa using h2) (by simp [Fin.sum_univ_three]; ring) (by
        intro i _
        apply subset_convexHull
        fin_cases i <;> simp)
    have e : triMap a b c p = ∑ i : Fin 3, ![1 - p.1 - p.2, p.1, p.2] i • ![a, b, c] i := by
      ext <;> simp [Fin.sum_univ_three, triMap] <;> ring
    rw [e]
    exact this
  · apply convexHull_min
    · intro x hx
      simp only [List.mem_cons, List.not_mem_nil, or_false, mem_ofPred_eq] at hx
      rcases hx with rfl | rfl | rfl
      · exact ⟨(0, 0), ⟨by simp, by simp, by simp⟩, by simp [triMap]⟩
      · exact ⟨(1, 0), ⟨by simp, by simp, by simp⟩, by simp [triMap]⟩
      · exact ⟨(0, 1), ⟨by simp, by simp, by simp⟩, by simp [triMap]⟩
    · rintro _ ⟨p, ⟨h1, h2, h3⟩, rfl⟩ _ ⟨q, ⟨g1, g2, g3⟩, rfl⟩ s t hs ht hst
      refine ⟨s • p + t • q, ⟨?_, ?_, ?_⟩, ?_⟩
      · simp only [Prod.fst_add, Prod.smul_fst, smul_eq_mul]; positivity
      · simp only [Prod.snd_add, Prod.smul_snd, smul_eq_mul]; positivity
      · simp only [Prod.fst_add, Prod.smul_fst, Prod.snd_add, Prod.smul_snd, smul_eq_mul]
        nlinarith
      · have : t = 1 - s := by linarith
        subst this
        ext <;> simp [triMap] <;> ring

theorem tri_integral (a b c : V2) (h : 0 < Spec.det (b - a) (c - a)) (k0 k1 k2 k3 : ℝ) :
    ∫ x in solid [a, b, c], quadFn k0 k1 k2 k3 x =
      edgeInt k0 k1 k2 k3 a b + edgeInt k0 k1 k2 k3 b c + edgeInt k0 k1 k2 k3 c a := by
  rw [← triMap_image, integral_image_eq_integral_abs_det_fderiv_smul (f' := fun _ => triLin a b c) _
    stdTri_closed.measurableSet]
  · simp only [triLin_det, abs_of_pos h, smul_eq_mul]
    rw [integral_const_mul]
    have e : ∀ p : V2, quadFn k0 k1 k2 k3 (triMap a b c p) =
        quadFn k0 k1 k2 k3 a +
        (k1 * (b - a).1 + k2 * (b - a).2 + 2 * k3 * Spec.inner a (b - a)) * p.1 +
        (k1 * (c - a).1 + k2 * (c - a).2 + 2 * k3 * Spec.inner a (c - a)) * p.2 +
        (k3 * Spec.inner (b - a) (b - a)) * p.1 ^ 2 + (2 * k3 * Spec.inner (b - a) (c - a)) * (p.1 * p.2) +
        (k3 * Spec.inner (c - a) (c - a)) * p.2 ^ 2 := by
      intro p
      simp only [quadFn, triMap, Spec.inner, Prod.fst_add, Prod.snd_add, Prod.smul_fst, Prod.smul_snd, Prod.fst_sub,
        Prod.snd_sub, smul_eq_mul]
      ring
    simp_rw [e]
    rw [stdTri_quadratic]
    simp only [quadFn, edgeInt, Spec.inner, Spec.det, Prod.fst_sub, Prod.snd_sub]
    ring
  · intro x _
    apply HasFDerivAt.hasFDerivWithinAt
    exact ((triLin a b c).hasFDerivAt (x := x)).const_add a
  · intro p _ q _ hpq
    have e1 := congrArg Prod.fst hpq
    have e2 := congrArg Prod.snd hpq
    simp only [triMap, Prod.fst_add, Prod.snd_add, Prod.smul_fst, Prod.smul_snd, smul_eq_mul] at e1 e2
    have h0 := h.ne'
    have d1 : Spec.det (b - a) (c - a) * (p.1 - q.1) = 0 := by
      unfold Spec.det
      linear_combination (c - a).2 * e1 - (c - a).1 * e2
    have d2 : Spec.det (b - a) (c - a) * (p.2 - q.2) = 0 := by
      unfold Spec.det
      linear_combination (b - a).1 * e2 - (b - a).2 * e1
    ext
    · exact sub_eq_zero.1 ((mul_eq_zero.1 d1).resolve_left h0)
    · exact sub_eq_zero.1 ((mul_eq_zero.1 d2).resolve_left h0)

/-! ## Convex polygons -/

/-- Every triangle of vertices, in order, is counter-clockwise. -/
def AllLeft (vs : List V2) : Prop := ∀ i j k, i < j → j < k → k < vs.length →
  0 < Spec.det (vs.getD j 0 - vs.getD i 0) (vs.getD k 0 - vs.getD i 0)

theorem allLeft_of_convex {vs : List V2} (h : ConvexPolygon vs) (hc : NoThreeCollinear vs) : AllLeft vs := by
  intro i j k hij hjk hk
  have key : ∀ e < vs.length, ∀ m < vs.length, 0 ≤ Spec.det (edgeVec vs e) (vs.getD m 0 - vs.getD e 0) := by
    intro e he m hm
    have := h.inside e he _ (getD_mem hm)
    rw [inner_outward] at this
    linarith
  have edge : ∀ e, e + 1 < vs.length → edgeVec vs e = vs.getD (e + 1) 0 - vs.getD e 0 := by
    intro e he
    unfold edgeVec
    rw [Nat.mod_eq_of_lt he]
  -- from the first edge at `i`
  have hu : ∀ m < vs.length, i + 1 < m → 0 < Spec.det (vs.getD (i + 1) 0 - vs.getD i 0) (vs.getD m 0 - vs.getD i 0) := by
    intro m hm him
    have := key i (by omega) m hm
    rw [edge i (by omega)] at this
    exact lt_of_le_of_ne this (hc i (i + 1) m (by omega) (by omega) hm (by omega) (by omega) (by omega)).symm
  have hs : ∀ m, m + 1 < vs.length → i < m →
      0 < Spec.det (vs.getD m 0 - vs.getD i 0) (vs.getD (m + 1) 0 - vs.getD i 0) := by
    intro m hm him
    have := key m (by omega) i (by omega)
    rw [edge m hm] at this
    have e : Spec.det (vs.getD m 0 - vs.getD i 0) (vs.getD (m + 1) 0 - vs.getD i 0) =
        Spec.det (vs.getD (m + 1) 0 - vs.getD m 0) (vs.getD i 0 - vs.getD m 0) := by
      simp only [Spec.det, Prod.fst_sub, Prod.snd_sub]; ring
    rw [← e] at this
    exact lt_of_le_of_ne this (hc i m (m + 1) (by omega) (by omega) hm (by omega) (by omega) (by omega)).symm
  obtain ⟨d, rfl⟩ := Nat.exists_eq_add_of_lt hjk
  clear hjk
  induction d with
  | zero => exact hs j (by omega) hij
  | succ d ih =>
    have ih := ih (by omega)
    rcases eq_or_lt_of_le (Nat.succ_le_of_lt hij) with e | e
    · subst e
      exact hu _ hk (by omega)
    have p1 := hu (j + d + 1) (by omega) (by omega)
    have p2 := hu (j + (d + 1) + 1) (by omega) (by omega)
    have p3 := hs (j + d + 1) (by omega) (by omega)
    have p4 := hu j (by omega) (by omega)
    have e1 : j + (d + 1) + 1 = j + d + 1 + 1 := by omega
    rw [e1] at p2 ⊢
    generalize vs.getD j 0 - vs.getD i 0 = a at *
    generalize vs.getD (j + d + 1) 0 - vs.getD i 0 = b at *
    generalize vs.getD (j + d + 1 + 1) 0 - vs.getD i 0 = c at *
    generalize vs.getD (i + 1) 0 - vs.getD i 0 = u at *
    have id : Spec.det a c * Spec.det u b = Spec.det a b * Spec.det u c + Spec.det b c * Spec.det u a := by
      simp only [Spec.det]; ring
    have : 0 < Spec.det a c * Spec.det u b := by rw [id]; positivity
    exact (pos_iff_pos_of_mul_pos this).2 p1

theorem allLeft_convex {vs : List V2} (h : AllLeft vs) (h3 : 2 < vs.length) :
    ConvexPolygon vs ∧ NoThreeCollinear vs := by
  have cyc : ∀ i < vs.length, ∀ m < vs.length, 0 ≤ Spec.det (edgeVec vs i) (vs.getD m 0 - vs.getD i 0) := by
    intro i hi m hm
    unfold edgeVec
    rcases Nat.lt_or_ge (i + 1) vs.length with hi1 | hi1
    · rw [Nat.mod_eq_of_lt hi1]
      rcases lt_trichotomy m i with hmi | rfl | hmi
      · have := h m i (i + 1) hmi (by omega) hi1
        have e : Spec.det (vs.getD i 0 - vs.getD m 0) (vs.getD (i + 1) 0 - vs.getD m 0) =
          Spec.det (vs.getD (i + 1) 0 - vs.getD i 0) (vs.getD m 0 - vs.getD i 0) := by
          simp only [Spec.det, Prod.fst_sub, Prod.snd_sub]; ring
        rw [← e]; exact this.le
      · simp [Spec.det]
      · rcases eq_or_lt_of_le (Nat.succ_le_of_lt hmi) with e | e
        · subst e
          simp only [Spec.det, Nat.succ_eq_add_one]; apply le_of_eq; ring
        · exact (h i (i + 1) m (by omega) e hm).le
    · have : i + 1 = vs.length := by omega
      rw [this, Nat.mod_self]
      rcases Nat.eq_zero_or_pos m with rfl | hm0
      · simp only [Spec.det]; apply le_of_eq; ring
      · rcases eq_or_lt_of_le (show m ≤ i by omega) with rfl | hmi
        · simp [Spec.det]
        · have := h 0 m i hm0 hmi hi
          have e : Spec.det (vs.getD m 0 - vs.getD 0 0) (vs.getD i 0 - vs.getD 0 0) =
            Spec.det (vs.getD 0 0 - vs.getD i 0) (vs.getD m 0 - vs.getD i 0) := by
            simp only [Spec.det, Prod.fst_sub, Prod.snd_sub]; ring
          rw [← e]; exact this.le
  have ntc : NoThreeCollinear vs := by
    intro i j k hi hj hk hij hjk hik
    have perm : ∀ a b c : V2, Spec.det (b - a) (c - a) = Spec.det (c - b) (a - b) ∧
        Spec.det (b - a) (c - a) = -Spec.det (a - b) (c - b) ∧ Spec.det (b - a) (c - a) = -Spec.det (c - a) (b - a) ∧
        Spec.det (b - a) (c - a) = Spec.det (a - c) (b - c) ∧ Spec.det (b - a) (c - a) = -Spec.det (b - c) (a - c) := by
      intro a b c
      simp only [Spec.det, Prod.fst_sub, Prod.snd_sub]
      refine ⟨?_, ?_, ?_, ?_, ?_⟩ <;> ring
    have P := perm (vs.getD i 0) (vs.getD j 0) (vs.getD k 0)
    rcases lt_or_gt_of_ne hij with a | a <;> rcases lt_or_gt_of_ne hjk with b | b <;>
      rcases lt_or_gt_of_ne hik with c | c
    · exact (h i j k a b hk).ne'
    · omega
    · rw [P.2.2.1, neg_ne_zero]; exact (h i k j c b hj).ne'
    · rw [P.2.2.2.1]; exact (h k i j c a hj).ne'
    · rw [P.2.1, neg_ne_zero]; exact (h j i k a c hk).ne'
    · rw [P.1]; exact (h j k i b c hi).ne'
    · omega
    · rw [P.2.2.2.2, neg_ne_zero]; exact (h k j i b a hi).ne'
  refine ⟨⟨h3, ?_, ?_⟩, ntc⟩
  · intro i hi h0
    -- a third vertex would be collinear
    obtain ⟨m, hm, h1, h2⟩ : ∃ m < vs.length, m ≠ i ∧ m ≠ (i + 1) % vs.length := by
      have hlt : (i + 1) % vs.length < vs.length := Nat.mod_lt _ (by omega)
      by_cases a : (0 ≠ i ∧ 0 ≠ (i + 1) % vs.length)
      · exact ⟨0, by omega, a⟩
      · by_cases b : (1 ≠ i ∧ 1 ≠ (i + 1) % vs.length)
        · exact ⟨1, by omega, b⟩
        · exact ⟨2, by omega, by omega, by omega⟩
    have hne : i ≠ (i + 1) % vs.length := by
      intro e
      rcases Nat.lt_or_ge (i + 1) vs.length with hi1 | hi1
      · rw [Nat.mod_eq_of_lt hi1] at e; omega
      · have : i + 1 = vs.length := by omega
        rw [this, Nat.mod_self] at e; omega
    apply ntc i ((i + 1) % vs.length) m hi (Nat.mod_lt _ (by omega)) hm hne h2.symm h1.symm
    have : vs.getD ((i + 1) % vs.length) 0 - vs.getD i 0 = 0 := h0
    rw [this]
    simp [Spec.det]
  · intro i hi w hw
    obtain ⟨m, hm, rfl⟩ := List.getElem_of_mem hw
    have := cyc i hi m hm
    rw [inner_outward]
    simp [List.getD_eq_getElem?_getD, hm] at this
    simpa [List.getD_eq_getElem?_getD] using this


theorem allLeft_dropLast {l : List V2} {p : V2} (h : AllLeft (l ++ [p])) : AllLeft l := by
  intro i j k hij hjk hk
  have := h i j k hij hjk (by simp; omega)
  simpa [List.getD_eq_getElem?_getD, List.getElem?_append_left, hk, show i < l.length by omega,
    show j < l.length by omega] using this

theorem edgeSum_append_one {l : List V2} (hl : 0 < l.length) (p : V2) (Φ : V2 → V2 → ℝ) :
    edgeSum (l ++ [p]) Φ = edgeSum l Φ - Φ (l.getD (l.length - 1) 0) (l.getD 0 0) +
      Φ (l.getD (l.length - 1) 0) p + Φ p (l.getD 0 0) := by
  obtain ⟨m, hm⟩ : ∃ m, l.length = m + 1 := ⟨l.length - 1, by omega⟩
  unfold edgeSum
  rw [List.length_append, List.length_singleton, hm, Finset.sum_range_succ, Finset.sum_range_succ,
    Finset.sum_range_succ (n := m)]
  have e1 : ∀ i ∈ Finset.range m, Φ ((l ++ [p]).getD i 0) ((l ++ [p]).getD ((i + 1) % (m + 1 + 1)) 0) =
      Φ (l.getD i 0) (l.getD ((i + 1) % (m + 1)) 0) := by
    intro i hi
    rw [Finset.mem_range] at hi
    rw [Nat.mod_eq_of_lt (by omega), Nat.mod_eq_of_lt (by omega)]
    simp [List.getD_eq_getElem?_getD, List.getElem?_append_left, hm, show i < m + 1 by omega, show i < m by omega]
  rw [Finset.sum_congr rfl e1]
  have e2 : (l ++ [p]).getD m 0 = l.getD m 0 := by
    simp [List.getD_eq_getElem?_getD, List.getElem?_append_left, hm]
  have e3 : (l ++ [p]).getD (m + 1) 0 = p := by
    simp [List.getD_eq_getElem?_getD, ← hm]
  have e4 : (l ++ [p]).getD 0 0 = l.getD 0 0 := by
    simp [List.getD_eq_getElem?_getD, List.getElem?_append_left, hm]
  rw [Nat.mod_eq_of_lt (show m + 1 < m + 1 + 1 by omega), Nat.mod_self, Nat.mod_self, e2, e3, e4]
  simp only [Nat.add_sub_cancel]
  ring

theorem solid_compact (vs : List V2) : IsCompact (solid vs) := by
  unfold solid
  exact Set.Finite.isCompact_convexHull (𝕜 := ℝ) (List.finite_toSet vs)

theorem line_null (a b : V2) (h : b ≠ a) : volume {x : V2 | Spec.det (b - a) (x - a) = 0} = 0 := by
  let L : V2 →ₗ[ℝ] ℝ := (b - a).1 • LinearMap.snd ℝ ℝ ℝ - (b - a).2 • LinearMap.fst ℝ ℝ ℝ
  let A : AffineSubspace ℝ V2 := AffineSubspace.mk' a (LinearMap.ker L)
  have hA : {x : V2 | Spec.det (b - a) (x - a) = 0} = (A : Set V2) := by
    ext x
    simp [A, L, Spec.det, AffineSubspace.mem_mk', LinearMap.mem_ker]
  rw [hA]
  apply Measure.addHaar_affineSubspace
  intro htop
  apply h
  have hx : ∀ x : V2, Spec.det (b - a) (x - a) = 0 := by
    intro x
    have : x ∈ (A : Set V2) := by rw [htop]; trivial
    rw [← hA] at this
    exact this
  have h1 := hx (a + (0, 1))
  have h2 := hx (a + (1, 0))
  simp [Spec.det] at h1 h2
  ext <;> linarith

/-- Integral of a quadratic function over a convex polygon as a sum over its edges. -/
theorem poly_integral (k0 k1 k2 k3 : ℝ) (vs : List V2) (h3 : 2 < vs.length) (h : AllLeft vs) :
    ∫ x in solid vs, quadFn k0 k1 k2 k3 x = edgeSum vs (edgeInt k0 k1 k2 k3) := by
  induction vs using List.reverseRecOn with
  | nil => simp at h3
  | append_singleton l p ih =>
    rcases Nat.lt_or_ge 2 l.length with hl | hl
    · have hL := allLeft_dropLast h
      have ih := ih hl hL
      have c1 := allLeft_convex h h3
      have c2 := allLeft_convex hL hl
      set a := l.getD 0 0 with ha
      set b := l.getD (l.length - 1) 0 with hb
      have ha' : (l ++ [p]).getD 0 0 = a := by
        simp [ha, List.getD_eq_getElem?_getD, List.getElem?_append_left, show 0 < l.length by omega]
      have hb' : (l ++ [p]).getD (l.length - 1) 0 = b := by
        simp [hb, List.getD_eq_getElem?_getD, List.getElem?_append_left, show 0 < l.length by omega]
      have hp' : (l ++ [p]).getD l.length 0 = p := by simp [List.getD_eq_getElem?_getD]
      have hlen : (l ++ [p]).length = l.length + 1 := by simp
      have hdet : 0 < Spec.det (b - a) (p - a) := by
        have := h 0 (l.length - 1) l.length (by omega) (by omega) (by simp)
        rwa [ha', hb', hp'] at this
      have tri := tri_integral a b p hdet k0 k1 k2 k3
      have hunion : solid (l ++ [p]) = solid l ∪ solid [a, b, p] := by
        apply Subset.antisymm
        · intro x hx
          have hx' := (mem_solid_iff c1.1 c1.2 x).1 hx
          rcases le_total (Spec.det (b - a) (x - a)) 0 with hs | hs
          · left
            rw [mem_solid_iff c2.1 c2.2]
            intro i hi
            rcases Nat.lt_or_ge (i + 1) l.length with hi1 | hi1
            · have := hx' i (by rw [hlen]; omega)
              have e : edgeVec (l ++ [p]) i = edgeVec l i := by
                unfold edgeVec
                rw [hlen, Nat.mod_eq_of_lt (by omega), Nat.mod_eq_of_lt (by omega)]
                simp [List.getD_eq_getElem?_getD, List.getElem?_append_left, hi, hi1]
              have e' : (l ++ [p]).getD i 0 = l.getD i 0 := by
                simp [List.getD_eq_getElem?_getD, List.getElem?_append_left, hi]
              rwa [e, e'] at this
            · have e : i = l.length - 1 := by omega
              subst e
              have e2 : edgeVec l (l.length - 1) = a - b := by
                unfold edgeVec
                rw [show l.length - 1 + 1 = l.length by omega, Nat.mod_self]
              rw [e2, ← hb, inner_outward]
              simp only [Spec.det, Prod.fst_sub, Prod.snd_sub] at hs ⊢
              linarith
          · right
            have ht : AllLeft [a, b, p] := by
              intro i j k hij hjk hk
              simp at hk
              obtain ⟨rfl, rfl, rfl⟩ : i = 0 ∧ j = 1 ∧ k = 2 := by omega
              simpa using hdet
            have ct := allLeft_convex ht (by simp)
            rw [mem_solid_iff ct.1 ct.2]
            intro i hi
            simp at hi
            interval_cases i
            · simp only [edgeVec, inner_outward]
              simp
              exact hs
            · have := hx' (l.length - 1) (by rw [hlen]; omega)
              rw [hb'] at this
              have e : edgeVec (l ++ [p]) (l.length - 1) = p - b := by
                unfold edgeVec
                rw [show l.length - 1 + 1 = l.length by omega, hlen, Nat.mod_eq_of_lt (by omega), hp', hb']
              rw [e] at this
              simpa [edgeVec] using this
            · have := hx' l.length (by rw [hlen]; omega)
              rw [hp'] at this
              have e : edgeVec (l ++ [p]) l.length = a - p := by
                unfold edgeVec
                rw [hlen, Nat.mod_self, hp', ha']
              rw [e] at this
              simpa [edgeVec] using this
        · apply union_subset
          · apply convexHull_mono
            intro x hx
            simp at hx ⊢
            exact Or.inl hx
          · apply convexHull_mono
            intro x hx
            have ma : a ∈ l := getD_mem (by omega)
            have mb : b ∈ l := getD_mem (by omega)
            simp at hx ⊢
            rcases hx with rfl | rfl | rfl
            · exact Or.inl ma
            · exact Or.inl mb
            · exact Or.inr rfl
      have hdisj : AEDisjoint volume (solid l) (solid [a, b, p]) := by
        refine measure_mono_null (fun x hx => ?_) (line_null a b (by
          rintro e
          rw [e] at hdet
          simp [Spec.det] at hdet))
        have h1 := (mem_solid_iff c2.1 c2.2 x).1 hx.1 (l.length - 1) (by omega)
        have e2 : edgeVec l (l.length - 1) = a - b := by
          unfold edgeVec
          rw [show l.length - 1 + 1 = l.length by omega, Nat.mod_self]
        rw [e2, ← hb, inner_outward] at h1
        have ht : AllLeft [a, b, p] := by
          intro i j k hij hjk hk
          simp at hk
          obtain ⟨rfl, rfl, rfl⟩ : i = 0 ∧ j = 1 ∧ k = 2 := by omega
          simpa using hdet
        have ct := allLeft_convex ht (by simp)
        have h2 := (mem_solid_iff ct.1 ct.2 x).1 hx.2 0 (by simp)
        simp only [edgeVec, inner_outward] at h2
        simp only [List.length_cons, List.length_nil, List.getD_cons_zero] at h2
        change -Spec.det (b - a) (x - a) ≤ 0 at h2
        change Spec.det (b - a) (x - a) = 0
        simp only [Spec.det, Prod.fst_sub, Prod.snd_sub] at h1 h2 ⊢
        linarith
      rw [hunion, setIntegral_union₀ hdisj (solid_compact _).measurableSet.nullMeasurableSet
        ((quadFn_continuous _ _ _ _).continuousOn.integrableOn_compact (solid_compact _))
        ((quadFn_continuous _ _ _ _).continuousOn.integrableOn_compact (solid_compact _)), ih, tri,
        edgeSum_append_one (by omega), edgeInt_swap _ _ _ _ b a]
      ring
    · have hlen : l.length = 2 := by simp at h3; omega
      match l, hlen with
      | [a, b], _ =>
        have := h 0 1 2 (by omega) (by omega) (by simp)
        simp at this
        rw [List.cons_append, List.cons_append, List.nil_append, tri_integral a b p this]
        simp [edgeSum, Finset.sum_range_succ]

end LcpPhysics
