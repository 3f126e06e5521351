import Mathlib.Geometry.Manifold.SmoothApprox
import Mathlib.MeasureTheory.Function.Jacobian
import Mathlib.LinearAlgebra.Matrix.Polynomial
import Mathlib.LinearAlgebra.Lagrange
import Mathlib.Analysis.Calculus.InverseFunctionTheorem.ContDiff
import Mathlib.Analysis.InnerProductSpace.Calculus
import Mathlib.Analysis.SpecialFunctions.Sqrt

/-!
# A zero of a vector field that points outwards

The topological fact behind the existence of contact impulses with friction: a continuous vector field
on a Euclidean ball whose inner product with the position is positive on the sphere has a zero.  The
proof follows Milnor and Rogers: a smooth retraction of the ball to its sphere would make the volume
of the image of `x + t (r x - x)` a polynomial in `t`, constant near `0` and zero at `1`.
-/

noncomputable section

namespace LcpPhysics
open Metric Set MeasureTheory Polynomial Filter Topology

variable {E : Type*} [NormedAddCommGroup E] [InnerProductSpace ℝ E] [FiniteDimensional ℝ E]

/-- `det (1 + t A)` is a polynomial in `t`, of degree at most the dimension. -/
theorem det_poly (A : E →L[ℝ] E) : ∃ p : ℝ[X], p.degree < (Module.finrank ℝ E + 1 : ℕ) ∧
    ∀ t : ℝ, (ContinuousLinearMap.id ℝ E + t • A).det = p.eval t := by
  let b := Module.finBasis ℝ E
  let N := LinearMap.toMatrix b b (A : E →ₗ[ℝ] E)
  refine ⟨((X : ℝ[X]) • N.map C + (1 : Matrix _ _ ℝ).map C).det, ?_, fun t => ?_⟩
  · have := natDegree_det_X_add_C_le N 1
    rw [Fintype.card_fin] at this
    refine lt_of_le_of_lt degree_le_natDegree ?_
    exact_mod_cast Nat.lt_succ_of_le this
  · have h : (((X : ℝ[X]) • N.map C + (1 : Matrix _ _ ℝ).map C).det).eval t =
        ((1 : Matrix _ _ ℝ) + t • N).det := by
      rw [← coe_evalRingHom, RingHom.map_det]
      congr 1
      ext i j
      simp [Matrix.one_apply]
      split_ifs <;> simp <;> ring
    rw [h]
    change LinearMap.det (((ContinuousLinearMap.id ℝ E + t • A : E →L[ℝ] E) : E →ₗ[ℝ] E)) = _
    rw [← LinearMap.det_toMatrix b]
    congr 1
    have : ((ContinuousLinearMap.id ℝ E + t • A : E →L[ℝ] E) : E →ₗ[ℝ] E) =
        LinearMap.id + t • (A : E →ₗ[ℝ] E) := rfl
    rw [this, map_add, map_smul, LinearMap.toMatrix_id]

/-- Interpolation: the value at `1` from values at small `t`, the weights summing to one. -/
theorem det_interpolate (δ : ℝ) (hδ : 0 < δ) : ∃ (s : Finset ℕ) (v w : ℕ → ℝ),
    (∀ j ∈ s, 0 ≤ v j ∧ v j < δ) ∧ ∑ j ∈ s, w j = 1 ∧ ∀ A : E →L[ℝ] E,
      (ContinuousLinearMap.id ℝ E + A).det =
        ∑ j ∈ s, w j * (ContinuousLinearMap.id ℝ E + v j • A).det := by
  set n := Module.finrank ℝ E
  let v : ℕ → ℝ := fun j => δ * (j / (n + 1))
  have hn : (0 : ℝ) < n + 1 := by positivity
  have hinj : Set.InjOn v (Finset.range (n + 1)) := by
    intro i _ j _ h
    have h1 : (i : ℝ) / (n + 1) = j / (n + 1) := mul_left_cancel₀ hδ.ne' h
    have h2 : (i : ℝ) = j := by field_simp at h1; exact h1
    exact_mod_cast h2
  refine ⟨Finset.range (n + 1), v, fun j => (Lagrange.basis (Finset.range (n + 1)) v j).eval 1,
    fun j hj => ⟨by positivity, ?_⟩, ?_, fun A => ?_⟩
  · have : (j : ℝ) < n + 1 := by exact_mod_cast Finset.mem_range.1 hj
    have : (j : ℝ) / (n + 1) < 1 := by rwa [div_lt_one hn]
    nlinarith
  · rw [← eval_finsetSum, Lagrange.sum_basis hinj ⟨0, by simp⟩, eval_one]
  · obtain ⟨p, hp, he⟩ := det_poly A
    have h1 := he 1
    rw [one_smul] at h1
    have hI := congrArg (eval 1)
      (Lagrange.eq_interpolate (f := p) hinj (by rw [Finset.card_range]; exact hp))
    rw [Lagrange.interpolate_apply, eval_finsetSum] at hI
    rw [h1, hI]
    refine Finset.sum_congr rfl fun j _ => ?_
    rw [eval_mul, eval_C, he, mul_comm]

/-- A map close to the identity has a derivative of positive determinant. -/
theorem det_pos_of_small (A : E →L[ℝ] E) (c t : ℝ) (hA : ‖A‖ ≤ c) (ht : 0 ≤ t) (htc : t * c < 1) :
    0 < (ContinuousLinearMap.id ℝ E + t • A).det := by
  have hne : ∀ s ∈ Icc 0 t, (ContinuousLinearMap.id ℝ E + s • A).det ≠ 0 := fun s hs h0 => by
    have : ¬Function.Injective (((ContinuousLinearMap.id ℝ E + s • A : E →L[ℝ] E)) : E →ₗ[ℝ] E) := by
      intro hinj
      have h1 : IsUnit (((ContinuousLinearMap.id ℝ E + s • A : E →L[ℝ] E)) : E →ₗ[ℝ] E) := by
        rw [LinearMap.isUnit_iff_ker_eq_bot]; exact LinearMap.ker_eq_bot.2 hinj
      exact (LinearMap.isUnit_iff_isUnit_det _).1 h1 |>.ne_zero h0
    apply this
    rw [← LinearMap.ker_eq_bot, LinearMap.ker_eq_bot']
    intro x hx
    have hx : x + s • A x = 0 := hx
    by_contra hx0
    have hpos : 0 < ‖x‖ := norm_pos_iff.2 hx0
    have h1 : ‖x‖ = s * ‖A x‖ := by
      conv_lhs => rw [eq_neg_of_add_eq_zero_left hx, norm_neg, norm_smul, Real.norm_of_nonneg hs.1]
    have h2 : ‖A x‖ ≤ c * ‖x‖ := (A.le_opNorm x).trans (by gcongr)
    have h3 : s * ‖A x‖ ≤ t * (c * ‖x‖) :=
      mul_le_mul hs.2 h2 (norm_nonneg _) ht
    nlinarith
  by_contra hcon
  push Not at hcon
  have hcont : ContinuousOn (fun s : ℝ => (ContinuousLinearMap.id ℝ E + s • A).det) (Icc 0 t) := by
    apply Continuous.continuousOn
    exact ContinuousLinearMap.continuous_det.comp (by fun_prop)
  have h0 : (ContinuousLinearMap.id ℝ E + (0 : ℝ) • A).det = 1 := by
    rw [zero_smul, add_zero]
    exact LinearMap.det_id
  obtain ⟨s, hs, hz⟩ := intermediate_value_Icc' ht hcont ⟨hcon, by rw [h0]; exact zero_le_one⟩
  exact hne s hs hz

/-- An isomorphism from a non-zero determinant. -/
theorem exists_equiv_of_det (A : E →L[ℝ] E) (h : A.det ≠ 0) : ∃ e : E ≃L[ℝ] E, (e : E →L[ℝ] E) = A :=
  ⟨A.toContinuousLinearEquivOfDetNeZero h, by ext; rfl⟩

variable [MeasurableSpace E] [BorelSpace E]

/-- There is no continuously differentiable retraction of the ball onto its sphere. -/
theorem no_retraction (r : E → E) (Ω : Set E) (hΩ : IsOpen Ω) (hB : closedBall (0 : E) 1 ⊆ Ω)
    (hr : ContDiffOn ℝ 1 r Ω) (hS : ∀ x ∈ closedBall (0 : E) 1, ‖r x‖ = 1)
    (hid : ∀ x, ‖x‖ = 1 → r x = x) : False := by
  let g : E → E := fun x => r x - x
  have hg : ContDiffOn ℝ 1 g Ω := hr.sub contDiffOn_id
  have hg' : ContinuousOn (fderiv ℝ g) Ω := hg.continuousOn_fderiv_of_isOpen hΩ le_rfl
  have hgB : ContinuousOn (fderiv ℝ g) (closedBall 0 1) := hg'.mono hB
  have hgd : ∀ x ∈ closedBall (0 : E) 1, HasStrictFDerivAt g (fderiv ℝ g x) x := fun x hx =>
    (hg.contDiffAt (hΩ.mem_nhds (hB hx))).hasStrictFDerivAt one_ne_zero
  obtain ⟨c, hc⟩ := (isCompact_closedBall (0 : E) 1).exists_bound_of_continuousOn hgB
  have hc0 : 0 ≤ c := (norm_nonneg _).trans (hc 0 (by simp))
  have hlip : ∀ x ∈ closedBall (0 : E) 1, ∀ y ∈ closedBall (0 : E) 1, ‖g y - g x‖ ≤ c * ‖y - x‖ :=
    fun x hx y hy => (convex_closedBall (0 : E) 1).norm_image_sub_le_of_norm_fderiv_le
      (fun z hz => (hgd z hz).differentiableAt) hc hx hy
  -- the maps
  let f : ℝ → E → E := fun t x => x + t • g x
  have hfd : ∀ t, ∀ x ∈ closedBall (0 : E) 1,
      HasStrictFDerivAt (f t) (ContinuousLinearMap.id ℝ E + t • fderiv ℝ g x) x := fun t x hx =>
    (hasStrictFDerivAt_id x).add ((hgd x hx).const_smul t)
  have hδ : 0 < 1 / (c + 1) := by positivity
  -- for small `t` the map is a bijection of the open ball
  have himg : ∀ t, 0 ≤ t → t < 1 / (c + 1) → f t '' ball 0 1 = ball 0 1 ∧ InjOn (f t) (ball 0 1) ∧
      ∀ x ∈ closedBall (0 : E) 1, 0 < (ContinuousLinearMap.id ℝ E + t • fderiv ℝ g x).det := by
    intro t ht htd
    have htc : t * (c + 1) < 1 := by rwa [lt_div_iff₀ (by positivity)] at htd
    have htc' : t * c < 1 := by nlinarith
    have ht1 : t ≤ 1 := by nlinarith
    have hdet : ∀ x ∈ closedBall (0 : E) 1, 0 < (ContinuousLinearMap.id ℝ E + t • fderiv ℝ g x).det :=
      fun x hx => det_pos_of_small _ c t (hc x hx) ht htc'
    have hnh : ∀ x ∈ closedBall (0 : E) 1, Filter.map (f t) (𝓝 x) = 𝓝 (f t x) := fun x hx => by
      obtain ⟨e, he⟩ := exists_equiv_of_det _ (hdet x hx).ne'
      have := hfd t x hx
      rw [← he] at this
      exact this.map_nhds_eq_of_equiv
    have hmaps : ∀ x ∈ closedBall (0 : E) 1, f t x ∈ closedBall (0 : E) 1 := fun x hx => by
      have : f t x = (1 - t) • x + t • r x := by simp only [f, g]; module
      rw [this]
      exact convex_closedBall (0 : E) 1 hx (by simp [hS x hx]) (by linarith) ht (by ring)
    have hopen : IsOpen (f t '' ball 0 1) := by
      rw [isOpen_iff_mem_nhds]
      rintro _ ⟨x, hx, rfl⟩
      rw [← hnh x (ball_subset_closedBall hx)]
      exact image_mem_map (isOpen_ball.mem_nhds hx)
    have hsub : f t '' ball 0 1 ⊆ ball 0 1 := by
      refine (interior_maximal (s := closedBall (0 : E) 1) ?_ hopen).trans
        (interior_closedBall (0 : E) one_ne_zero).subset
      rintro _ ⟨x, hx, rfl⟩
      exact hmaps x (ball_subset_closedBall hx)
    refine ⟨?_, ?_, hdet⟩
    · refine Subset.antisymm hsub ?_
      refine (convex_ball (0 : E) 1).isPreconnected.subset_of_closure_inter_subset hopen ?_ ?_
      · exact ⟨f t 0, hsub ⟨0, by simp, rfl⟩, ⟨0, by simp, rfl⟩⟩
      · rintro y ⟨hy, hyb⟩
        have hcl : closure (f t '' ball 0 1) ⊆ f t '' closedBall 0 1 := by
          refine closure_minimal (image_mono ball_subset_closedBall) ?_
          refine ((isCompact_closedBall (0 : E) 1).image_of_continuousOn ?_).isClosed
          exact fun x hx => (hfd t x hx).continuousAt.continuousWithinAt
        obtain ⟨x, hx, rfl⟩ := hcl hy
        refine ⟨x, ?_, rfl⟩
        rw [mem_ball_zero_iff]
        rw [mem_closedBall_zero_iff] at hx
        rcases hx.lt_or_eq with h | h
        · exact h
        · exfalso
          have : f t x = x := by simp [f, g, hid x h]
          rw [this, mem_ball_zero_iff] at hyb
          linarith
    · intro x hx y hy hxy
      have hx := ball_subset_closedBall hx
      have hy := ball_subset_closedBall hy
      have h1 : y - x = -(t • (g y - g x)) := by
        simp only [f] at hxy
        have : y - x = (x + t • g x) - (y + t • g y) + (y - x) := by rw [hxy]; simp
        rw [this]; module
      have h2 : ‖y - x‖ ≤ t * (c * ‖y - x‖) := by
        conv_lhs => rw [h1, norm_neg, norm_smul, Real.norm_of_nonneg ht]
        exact mul_le_mul_of_nonneg_left (hlip x hx y hy) ht
      by_contra hne
      have : 0 < ‖y - x‖ := norm_pos_iff.2 (sub_ne_zero.2 (Ne.symm hne))
      nlinarith
  -- volumes
  let μ : Measure E := volume
  have hint : ∀ t : ℝ, IntegrableOn
      (fun x => (ContinuousLinearMap.id ℝ E + t • fderiv ℝ g x).det) (ball 0 1) μ := fun t =>
    ((ContinuousLinearMap.continuous_det.comp_continuousOn
      (continuousOn_const.add (hgB.const_smul t))).integrableOn_compact
        (isCompact_closedBall (0 : E) 1)).mono_set ball_subset_closedBall
  have hvol : ∀ t, 0 ≤ t → t < 1 / (c + 1) →
      ∫ x in ball 0 1, (ContinuousLinearMap.id ℝ E + t • fderiv ℝ g x).det ∂μ = μ.real (ball 0 1) := by
    intro t h0 h1
    obtain ⟨hi, hinj, hdet⟩ := himg t h0 h1
    have key := lintegral_abs_det_fderiv_eq_addHaar_image μ measurableSet_ball
      (fun x hx => ((hfd t x (ball_subset_closedBall hx)).hasFDerivAt).hasFDerivWithinAt) hinj
    rw [hi] at key
    rw [integral_eq_lintegral_of_nonneg_ae, Measure.real, ← key]
    · congr 1
      refine setLIntegral_congr_fun measurableSet_ball fun x hx => ?_
      rw [abs_of_pos (hdet x (ball_subset_closedBall hx))]
    · exact (ae_restrict_iff' measurableSet_ball).2 (ae_of_all _ fun x hx =>
        (hdet x (ball_subset_closedBall hx)).le)
    · exact (hint t).aestronglyMeasurable
  obtain ⟨s, v, w, hv, hw, hA⟩ := det_interpolate (E := E) _ hδ
  have h1 : ∫ x in ball 0 1, (ContinuousLinearMap.id ℝ E + fderiv ℝ g x).det ∂μ = μ.real (ball 0 1) := by
    have : (fun x => (ContinuousLinearMap.id ℝ E + fderiv ℝ g x).det) = fun x =>
        ∑ j ∈ s, w j * (ContinuousLinearMap.id ℝ E + v j • fderiv ℝ g x).det := funext fun x => hA _
    rw [this, integral_finsetSum _ fun j _ => (hint (v j)).const_mul (w j)]
    have : ∀ j ∈ s, ∫ x in ball 0 1, w j * (ContinuousLinearMap.id ℝ E + v j • fderiv ℝ g x).det ∂μ =
        w j * μ.real (ball 0 1) := fun j hj => by
      rw [integral_const_mul, hvol (v j) (hv j hj).1 (hv j hj).2]
    rw [Finset.sum_congr rfl this, ← Finset.sum_mul, hw, one_mul]
  have h2 : ∫ x in ball 0 1, (ContinuousLinearMap.id ℝ E + fderiv ℝ g x).det ∂μ = 0 := by
    have : ∀ x ∈ ball (0 : E) 1, (ContinuousLinearMap.id ℝ E + fderiv ℝ g x).det = 0 := by
      intro x hx
      have hx' := ball_subset_closedBall hx
      by_contra hne
      obtain ⟨e, he⟩ := exists_equiv_of_det _ hne
      have h := hfd 1 x hx'
      rw [one_smul, ← he] at h
      have hm := h.map_nhds_eq_of_equiv
      have hf1 : f 1 = r := by funext y; simp [f, g]
      rw [hf1] at hm
      have hnear : r '' ball 0 1 ∈ 𝓝 (r x) := hm ▸ image_mem_map (isOpen_ball.mem_nhds hx)
      have hlim : Tendsto (fun a : ℝ => a • r x) (𝓝[<] 1) (𝓝 (r x)) := by
        have : Tendsto (fun a : ℝ => a • r x) (𝓝 1) (𝓝 ((1 : ℝ) • r x)) :=
          (continuous_id.smul continuous_const).tendsto 1
        rw [one_smul] at this
        exact this.mono_left nhdsWithin_le_nhds
      obtain ⟨a, ⟨y, hy, hya⟩, ha, ha0⟩ := ((hlim.eventually hnear).and
        (eventually_mem_nhdsWithin.and (Ioo_mem_nhdsLT (zero_lt_one' ℝ)))).exists
      have := hS y (ball_subset_closedBall hy)
      rw [hya, norm_smul, hS x hx', mul_one, Real.norm_of_nonneg ha0.1.le] at this
      exact (ne_of_lt ha) this
    rw [setIntegral_congr_fun measurableSet_ball this]; simp
  have h3 : 0 < μ.real (ball 0 1) :=
    ENNReal.toReal_pos (measure_ball_pos μ 0 one_pos).ne' measure_ball_lt_top.ne
  linarith

omit [MeasurableSpace E] [BorelSpace E] in
/-- A continuous vector field pointing outwards on the unit sphere vanishes in the ball. -/
theorem exists_zero_unit (g : E → E) (hg : Continuous g)
    (hout : ∀ x, ‖x‖ = 1 → 0 < inner ℝ (g x) x) : ∃ x, ‖x‖ ≤ 1 ∧ g x = 0 := by
  by_contra hcon
  push Not at hcon
  obtain ⟨a, ha, haB⟩ := (isCompact_closedBall (0 : E) 1).exists_forall_le' (a := 0)
    (hg.norm.continuousOn) (fun x hx => norm_pos_iff.2 (hcon x (mem_closedBall_zero_iff.1 hx)))
  obtain ⟨b, hb, hbS⟩ := (isCompact_sphere (0 : E) 1).exists_forall_le' (a := 0)
    (f := fun x => inner ℝ (g x) x) (hg.inner continuous_id).continuousOn
    (fun x hx => hout x (mem_sphere_zero_iff_norm.1 hx))
  obtain ⟨u, hu, hua, -⟩ := hg.exists_contDiff_approx 1 (ε := fun _ => min a b) continuous_const
    (fun _ => lt_min ha hb)
  have hu1 : ContDiff ℝ 1 u := hu
  have huB : ∀ x, ‖x‖ ≤ 1 → u x ≠ 0 := fun x hx h0 => by
    have h1 := haB x (mem_closedBall_zero_iff.2 hx)
    have h2 := hua x
    rw [h0, dist_zero_left] at h2
    have := min_le_left a b
    linarith
  have huS : ∀ x, ‖x‖ = 1 → 0 < inner ℝ (u x) x := fun x hx => by
    have h1 := hbS x (mem_sphere_zero_iff_norm.2 hx)
    have h2 := hua x
    rw [dist_eq_norm] at h2
    have h3 : |inner ℝ (u x - g x) x| ≤ ‖u x - g x‖ * ‖x‖ := abs_real_inner_le_norm _ _
    rw [hx, mul_one, inner_sub_left] at h3
    have h4 := neg_abs_le (inner ℝ (u x) x - inner ℝ (g x) x)
    have := min_le_right a b
    linarith
  let q : E → ℝ := fun x => inner ℝ (u x) (u x)
  let p : E → ℝ := fun x => inner ℝ (u x) x
  let D : E → ℝ := fun x => p x ^ 2 + q x * (1 - inner ℝ x x)
  have hq : ContDiff ℝ 1 q := hu1.inner ℝ hu1
  have hp : ContDiff ℝ 1 p := hu1.inner ℝ contDiff_id
  have hD : ContDiff ℝ 1 D := (hp.pow 2).add (hq.mul (contDiff_const.sub (contDiff_id.inner ℝ contDiff_id)))
  let Ω : Set E := {x | 0 < q x} ∩ {x | 0 < D x}
  have hΩ : IsOpen Ω := (isOpen_lt continuous_const hq.continuous).inter
    (isOpen_lt continuous_const hD.continuous)
  have hqB : ∀ x, ‖x‖ ≤ 1 → 0 < q x := fun x hx => real_inner_self_pos.2 (huB x hx)
  have hDB : ∀ x, ‖x‖ ≤ 1 → 0 < D x := fun x hx => by
    have h1 := hqB x hx
    have h2 : inner ℝ x x = ‖x‖ ^ 2 := real_inner_self_eq_norm_sq x
    simp only [D]
    rw [h2]
    rcases hx.lt_or_eq with h | h
    · have : 0 < 1 - ‖x‖ ^ 2 := by nlinarith [norm_nonneg x]
      have := mul_pos h1 this
      nlinarith [sq_nonneg (p x)]
    · have := huS x h
      rw [h]
      have : 0 < p x ^ 2 := by positivity
      linarith
  let r : E → E := fun x => x + ((-p x + √(D x)) / q x) • u x
  let _ : MeasurableSpace E := borel E
  have _ : BorelSpace E := ⟨rfl⟩
  refine no_retraction r Ω hΩ ?_ ?_ ?_ ?_
  · intro x hx
    rw [mem_closedBall_zero_iff] at hx
    exact ⟨hqB x hx, hDB x hx⟩
  · intro x hx
    apply ContDiffAt.contDiffWithinAt
    refine contDiffAt_id.add (ContDiffAt.smul (ContDiffAt.div ?_ hq.contDiffAt (ne_of_gt hx.1))
      hu1.contDiffAt)
    exact hp.contDiffAt.neg.add (hD.contDiffAt.sqrt (ne_of_gt hx.2))
  · intro x hx
    rw [mem_closedBall_zero_iff] at hx
    have h1 := hqB x hx
    have h2 := hDB x hx
    have h3 : ‖r x‖ ^ 2 = 1 := by
      have hs := Real.sq_sqrt h2.le
      have e : ‖r x‖ ^ 2 = inner ℝ x x + 2 * ((-p x + √(D x)) / q x) * p x +
          ((-p x + √(D x)) / q x) ^ 2 * q x := by
        rw [← real_inner_self_eq_norm_sq]
        simp only [r, inner_add_left, inner_add_right, inner_smul_left, inner_smul_right, p, q]
        rw [real_inner_comm x (u x)]
        simp
        ring
      rw [e]
      have hDx : D x = p x ^ 2 + q x * (1 - inner ℝ x x) := rfl
      field_simp
      nlinarith
    nlinarith [norm_nonneg (r x)]
  · intro x hx
    have h1 : D x = p x ^ 2 := by
      simp [D, hx]
    have h2 : √(D x) = p x := by rw [h1]; exact Real.sqrt_sq (huS x hx).le
    simp [r, h2]

omit [MeasurableSpace E] [BorelSpace E] in
/-- A continuous vector field pointing outwards on a sphere vanishes in the ball. -/
theorem exists_zero (g : E → E) (hg : Continuous g) (R : ℝ) (hR : 0 < R)
    (hout : ∀ x, ‖x‖ = R → 0 < inner ℝ (g x) x) : ∃ x, ‖x‖ ≤ R ∧ g x = 0 := by
  obtain ⟨x, hx, h0⟩ := exists_zero_unit (fun x => g (R • x)) (hg.comp (continuous_const_smul R))
    (fun x hx => by
      have := hout (R • x) (by rw [norm_smul, hx, mul_one, Real.norm_of_nonneg hR.le])
      rw [inner_smul_right] at this
      exact pos_of_mul_pos_right this hR.le)
  refine ⟨R • x, ?_, h0⟩
  rw [norm_smul, Real.norm_of_nonneg hR.le]
  nlinarith

end LcpPhysics
