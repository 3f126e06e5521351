import Mathlib.Analysis.InnerProductSpace.Projection.Minimal
import Mathlib.Analysis.InnerProductSpace.PiL2
import Mathlib.Topology.Algebra.Module.FiniteDimension
import Mathlib.Tactic.Linarith
import Mathlib.Tactic.Ring
import Mathlib.Tactic.FieldSimp

/-! # Farkas' lemma and strictly convex quadratic programmes with a diagonal matrix -/

noncomputable section

namespace LcpPhysics

open Finset

/-- Farkas' lemma for finitely many linear forms (Bartl's algebraic proof). -/
theorem farkas {V : Type} [AddCommGroup V] [Module ℝ V] : ∀ (m : ℕ) (a : Fin m → V →ₗ[ℝ] ℝ)
    (c : V →ₗ[ℝ] ℝ), (∀ x, (∀ i, a i x ≤ 0) → c x ≤ 0) →
    ∃ l : Fin m → ℝ, (∀ i, 0 ≤ l i) ∧ c = ∑ i, l i • a i := by
  intro m
  induction m with
  | zero =>
    intro a c h
    refine ⟨fun i => i.elim0, fun i => i.elim0, ?_⟩
    ext x
    have h1 := h x fun i => i.elim0
    have h2 := h (-x) fun i => i.elim0
    simp at h2 ⊢
    linarith
  | succ m ih =>
    intro a c h
    by_cases hm : ∀ x, (∀ i : Fin m, a i.castSucc x ≤ 0) → c x ≤ 0
    · obtain ⟨l, hl, hc⟩ := ih (fun i => a i.castSucc) c hm
      refine ⟨Fin.snoc l 0, ?_, ?_⟩
      · intro i
        refine Fin.lastCases ?_ (fun j => ?_) i <;> simp [hl]
      · rw [Fin.sum_univ_castSucc]
        simpa using hc
    · push Not at hm
      obtain ⟨x0, hx0, hcx0⟩ := hm
      have hlast : 0 < a (Fin.last m) x0 := by
        by_contra hneg
        refine absurd (h x0 fun i => ?_) (not_le.2 hcx0)
        refine Fin.lastCases ?_ (fun j => hx0 j) i
        exact not_lt.1 hneg
      set k := a (Fin.last m) x0 with hk
      set xb : V := k⁻¹ • x0 with hxb
      have hone : a (Fin.last m) xb = 1 := by
        rw [hxb, map_smul, smul_eq_mul, ← hk, inv_mul_cancel₀ hlast.ne']
      have hai : ∀ i : Fin m, a i.castSucc xb ≤ 0 := fun i => by
        rw [hxb, map_smul, smul_eq_mul]
        exact mul_nonpos_of_nonneg_of_nonpos (inv_nonneg.2 hlast.le) (hx0 i)
      have hcb : 0 < c xb := by
        rw [hxb, map_smul, smul_eq_mul]
        exact mul_pos (inv_pos.2 hlast) hcx0
      obtain ⟨l, hl, hc⟩ := ih (fun i => a i.castSucc - a i.castSucc xb • a (Fin.last m))
        (c - c xb • a (Fin.last m)) fun x hx => by
          have h1 := h (x - a (Fin.last m) x • xb) fun i => by
            refine Fin.lastCases ?_ (fun j => ?_) i
            · simp [hone]
            · have := hx j
              simp only [LinearMap.sub_apply, LinearMap.smul_apply, smul_eq_mul] at this
              simp only [map_sub, map_smul, smul_eq_mul]
              linarith
          simp only [map_sub, map_smul, smul_eq_mul] at h1
          simp only [LinearMap.sub_apply, LinearMap.smul_apply, smul_eq_mul]
          linarith
      refine ⟨Fin.snoc l (c xb - ∑ i, l i * a i.castSucc xb), ?_, ?_⟩
      · intro i
        refine Fin.lastCases ?_ (fun j => ?_) i
        · simp only [Fin.snoc_last]
          have : ∑ i, l i * a i.castSucc xb ≤ 0 :=
            Finset.sum_nonpos fun i _ => mul_nonpos_of_nonneg_of_nonpos (hl i) (hai i)
          linarith
        · simp [hl]
      · rw [Fin.sum_univ_castSucc]
        ext x
        have hx := congrArg (fun g : V →ₗ[ℝ] ℝ => g x) hc
        simp only [LinearMap.sub_apply, LinearMap.smul_apply, smul_eq_mul, LinearMap.sum_apply,
          mul_sub, Finset.sum_sub_distrib] at hx
        simp only [LinearMap.add_apply, LinearMap.sum_apply, LinearMap.smul_apply, smul_eq_mul,
          Fin.snoc_castSucc, Fin.snoc_last, sub_mul, Finset.sum_mul]
        have : ∀ i, l i * (a i.castSucc xb * a (Fin.last m) x) = l i * a i.castSucc xb * a (Fin.last m) x :=
          fun i => by ring
        simp only [this] at hx
        linarith

/-- Farkas' lemma over any finite index type. -/
theorem farkas' {V ι : Type} [AddCommGroup V] [Module ℝ V] [Fintype ι] (a : ι → V →ₗ[ℝ] ℝ)
    (c : V →ₗ[ℝ] ℝ) (h : ∀ x, (∀ i, a i x ≤ 0) → c x ≤ 0) :
    ∃ l : ι → ℝ, (∀ i, 0 ≤ l i) ∧ c = ∑ i, l i • a i := by
  classical
  let e := Fintype.equivFin ι
  obtain ⟨l, hl, hc⟩ := farkas (Fintype.card ι) (fun i => a (e.symm i)) c
    fun x hx => h x fun i => by simpa using hx (e i)
  refine ⟨fun i => l (e i), fun i => hl _, ?_⟩
  rw [hc]
  exact Fintype.sum_equiv e.symm _ _ (by simp)

/-- The linear form of a coefficient vector. -/
def form {n : ℕ} (g : Fin n → ℝ) : (Fin n → ℝ) →ₗ[ℝ] ℝ :=
  ∑ k, g k • LinearMap.proj k

theorem form_apply {n : ℕ} (g x : Fin n → ℝ) : form g x = ∑ k, g k * x k := by
  simp [form, LinearMap.sum_apply]

/-- The minimiser of a strictly convex separable quadratic over a closed convex set, by its variational
inequality. -/
theorem exists_vi {n : ℕ} (d p : Fin n → ℝ) (hd : ∀ i, 0 < d i) (K : Set (Fin n → ℝ))
    (hK : IsClosed K) (hc : Convex ℝ K) (hne : K.Nonempty) :
    ∃ x ∈ K, ∀ w ∈ K, 0 ≤ ∑ i, (d i * x i + p i) * (w i - x i) := by
  let r : Fin n → ℝ := fun i => Real.sqrt (d i)
  have hr : ∀ i, 0 < r i := fun i => Real.sqrt_pos.2 (hd i)
  have hr2 : ∀ i, r i * r i = d i := fun i => Real.mul_self_sqrt (hd i).le
  let unscale : EuclideanSpace ℝ (Fin n) →ₗ[ℝ] (Fin n → ℝ) :=
    { toFun := fun y i => y i / r i
      map_add' := fun a b => by ext i; simp [add_div]
      map_smul' := fun a b => by ext i; simp [mul_div_assoc] }
  have hcont : Continuous unscale := unscale.continuous_of_finiteDimensional
  let K' : Set (EuclideanSpace ℝ (Fin n)) := unscale ⁻¹' K
  have hK' : IsClosed K' := hK.preimage hcont
  have hc' : Convex ℝ K' := hc.linear_preimage unscale
  have scale : ∀ x : Fin n → ℝ, unscale (WithLp.toLp 2 fun i => r i * x i) = x := fun x => by
    ext i
    simp only [unscale, LinearMap.coe_mk, AddHom.coe_mk]
    rw [mul_div_cancel_left₀ _ (hr i).ne']
  obtain ⟨x0, hx0⟩ := hne
  have hne' : K'.Nonempty := ⟨WithLp.toLp 2 fun i => r i * x0 i, by
    change unscale _ ∈ K; rw [scale]; exact hx0⟩
  obtain ⟨y, hy, hmin⟩ := exists_norm_eq_iInf_of_complete_convex hne' hK'.isComplete hc'
    (WithLp.toLp 2 fun i => -(p i / r i))
  rw [norm_eq_iInf_iff_real_inner_le_zero hc' hy] at hmin
  refine ⟨unscale y, hy, fun w hw => ?_⟩
  have := hmin (WithLp.toLp 2 fun i => r i * w i) (by change unscale _ ∈ K; rw [scale]; exact hw)
  rw [PiLp.inner_apply] at this
  have heq : ∀ i, (d i * (unscale y) i + p i) * (w i - (unscale y) i) =
      -((r i * w i - y i) * (-(p i / r i) - y i)) := fun i => by
    simp only [unscale, LinearMap.coe_mk, AddHom.coe_mk]
    have := (hr i).ne'
    rw [← hr2 i]
    field_simp
    ring
  simp only [heq, Finset.sum_neg_distrib]
  simp at this
  linarith

/-- Karush-Kuhn-Tucker points of feasible separable quadratic programmes exist. -/
theorem exists_kkt {n : ℕ} {ι κ : Type} [Fintype ι] [Fintype κ] (d p : Fin n → ℝ)
    (hd : ∀ i, 0 < d i) (G : ι → Fin n → ℝ) (h : ι → ℝ) (A : κ → Fin n → ℝ) (b : κ → ℝ)
    (x0 : Fin n → ℝ) (hG : ∀ i, form (G i) x0 ≤ h i) (hA : ∀ i, form (A i) x0 = b i) :
    ∃ (x : Fin n → ℝ) (z : ι → ℝ) (y : κ → ℝ),
      (∀ k, d k * x k + p k + ∑ i, z i * G i k + ∑ i, y i * A i k = 0) ∧
      (∀ i, form (G i) x ≤ h i) ∧ (∀ i, form (A i) x = b i) ∧ (∀ i, 0 ≤ z i) ∧
      ∀ i, z i * (h i - form (G i) x) = 0 := by
  classical
  let K : Set (Fin n → ℝ) := (⋂ i, {x | form (G i) x ≤ h i}) ∩ ⋂ i, {x | form (A i) x = b i}
  have hK : IsClosed K := by
    refine IsClosed.inter (isClosed_iInter fun i => ?_) (isClosed_iInter fun i => ?_)
    · exact isClosed_le (form (G i)).continuous_of_finiteDimensional continuous_const
    · exact isClosed_eq (form (A i)).continuous_of_finiteDimensional continuous_const
  have hc : Convex ℝ K := by
    refine Convex.inter (convex_iInter fun i => ?_) (convex_iInter fun i => ?_)
    · exact convex_halfSpace_le (form (G i)).isLinear _
    · exact convex_hyperplane (form (A i)).isLinear _
  have hx0 : x0 ∈ K := ⟨Set.mem_iInter.2 hG, Set.mem_iInter.2 hA⟩
  obtain ⟨x, hx, hvi⟩ := exists_vi d p hd K hK hc ⟨x0, hx0⟩
  have hxG : ∀ i, form (G i) x ≤ h i := Set.mem_iInter.1 hx.1
  have hxA : ∀ i, form (A i) x = b i := Set.mem_iInter.1 hx.2
  let act := {i : ι // form (G i) x = h i}
  obtain ⟨l, hl, heq⟩ := farkas' (ι := act ⊕ κ ⊕ κ)
    (Sum.elim (fun i => form (G i.1)) (Sum.elim (fun i => form (A i)) fun i => -form (A i)))
    (form fun k => -(d k * x k + p k)) fun u hu => by
      have huA : ∀ i, form (A i) u = 0 := fun i => by
        have h1 := hu (Sum.inr (Sum.inl i))
        have h2 := hu (Sum.inr (Sum.inr i))
        simp at h1 h2
        linarith
      have huG : ∀ i, form (G i) x = h i → form (G i) u ≤ 0 := fun i hi => hu (Sum.inl ⟨i, hi⟩)
      -- a small step along `u` stays in the polyhedron
      have hstep : ∃ t : ℝ, 0 < t ∧ ∀ i, form (G i) (x + t • u) ≤ h i := by
        have : ∀ i : ι, ∃ t : ℝ, 0 < t ∧ ∀ t', 0 ≤ t' → t' ≤ t → form (G i) (x + t' • u) ≤ h i := by
          intro i
          by_cases hi : form (G i) x = h i
          · refine ⟨1, one_pos, fun t' h0 _ => ?_⟩
            have := mul_nonpos_of_nonneg_of_nonpos h0 (huG i hi)
            rw [map_add, map_smul, smul_eq_mul]
            linarith
          · have hlt : 0 < h i - form (G i) x := sub_pos.2 (lt_of_le_of_ne (hxG i) hi)
            refine ⟨(h i - form (G i) x) / (|form (G i) u| + 1), by positivity, fun t' h0 ht => ?_⟩
            rw [map_add, map_smul, smul_eq_mul]
            have h1 : t' * (|form (G i) u| + 1) ≤ h i - form (G i) x := (le_div_iff₀ (by positivity)).1 ht
            have h2 : t' * form (G i) u ≤ t' * (|form (G i) u| + 1) :=
              mul_le_mul_of_nonneg_left (by linarith [le_abs_self (form (G i) u)]) h0
            linarith
        choose t ht0 ht using this
        by_cases hι : Nonempty ι
        · obtain ⟨i0, -, hi0⟩ := Finset.exists_min_image Finset.univ t
            ⟨Classical.choice hι, Finset.mem_univ _⟩
          exact ⟨t i0, ht0 i0, fun i => ht i _ (ht0 i0).le (hi0 i (Finset.mem_univ _))⟩
        · exact ⟨1, one_pos, fun i => (hι ⟨i⟩).elim⟩
      obtain ⟨t, ht, hG'⟩ := hstep
      have hmem : x + t • u ∈ K := ⟨Set.mem_iInter.2 hG', Set.mem_iInter.2 fun i => by
        change form (A i) (x + t • u) = b i
        rw [map_add, map_smul, huA i, hxA i]; simp⟩
      have h1 := hvi _ hmem
      have h2 : ∑ i, (d i * x i + p i) * ((x + t • u) i - x i) = -(t * form (fun k => -(d k * x k + p k)) u) := by
        rw [form_apply, Finset.mul_sum, ← Finset.sum_neg_distrib]
        refine Finset.sum_congr rfl fun i _ => ?_
        simp; ring
      rw [h2] at h1
      by_contra hpos
      have := mul_pos ht (not_le.1 hpos)
      linarith
  refine ⟨x, fun i => if hi : form (G i) x = h i then l (Sum.inl ⟨i, hi⟩) else 0,
    fun i => l (Sum.inr (Sum.inl i)) - l (Sum.inr (Sum.inr i)), ?_, hxG, hxA, ?_, ?_⟩
  · intro k
    have := congrArg (fun g : (Fin n → ℝ) →ₗ[ℝ] ℝ => g (Pi.single k 1)) heq
    simp [LinearMap.sum_apply, form_apply, Pi.single_apply] at this
    have hact : ∑ i, (if hi : form (G i) x = h i then l (Sum.inl ⟨i, hi⟩) else 0) * G i k =
        ∑ i : act, l (Sum.inl i) * G i.1 k := by
      rw [← Finset.sum_filter_add_sum_filter_not Finset.univ (fun i => form (G i) x = h i)]
      rw [Finset.sum_eq_zero (s := Finset.univ.filter fun i => ¬form (G i) x = h i), add_zero]
      · rw [Finset.sum_subtype (Finset.univ.filter fun i => form (G i) x = h i)
          (p := fun i => form (G i) x = h i) (by simp)]
        refine Finset.sum_congr rfl fun i _ => ?_
        rw [dif_pos i.2]
      · intro i hi
        rw [dif_neg (Finset.mem_filter.1 hi).2, zero_mul]
    rw [hact]
    simp only [sub_mul, Finset.sum_sub_distrib]
    linarith
  · intro i
    by_cases hi : form (G i) x = h i
    · simp [hi, hl]
    · simp [hi]
  · intro i
    by_cases hi : form (G i) x = h i
    · simp [hi]
    · simp [hi]

end LcpPhysics
