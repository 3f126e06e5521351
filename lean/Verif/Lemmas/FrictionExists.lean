import Verif.Lemmas.Brouwer
import Verif.Lemmas.Farkas
import Mathlib.Analysis.InnerProductSpace.PiL2

/-!
# Existence of contact impulses with Coulomb friction

Penalised contact forces, regularised friction and penalised joints give a continuous vector field that
points outwards far away, so it has a zero (`exists_zero`).  As the penalties grow, the zeros stay
bounded; along a subsequence with a constant set of active forces the limit solves the exact problem,
because finitely generated cones are closed (`farkas'`).
-/

noncomputable section

namespace LcpPhysics
open Filter Topology

/-- Clamp to `[-1, 1]`. -/
def sat (x : ℝ) : ℝ := max (-1) (min 1 x)

theorem sat_le (x : ℝ) : sat x ≤ 1 := max_le (by norm_num) (min_le_left _ _)

theorem le_sat (x : ℝ) : -1 ≤ sat x := le_max_left _ _

theorem sat_mul_nonneg (x : ℝ) : 0 ≤ sat x * x := by
  rcases le_total 0 x with h | h
  · exact mul_nonneg (le_max_of_le_right (le_min zero_le_one h)) h
  · refine mul_nonneg_of_nonpos_of_nonpos (max_le (by norm_num) ((min_le_right _ _).trans h)) h

theorem continuous_sat : Continuous sat := by unfold sat; fun_prop

theorem sat_gt (x : ℝ) (h : -1 < sat x) : -1 < x := by
  by_contra hx
  push Not at hx
  have : sat x = -1 := by
    unfold sat
    exact max_eq_left ((min_le_right _ _).trans hx)
  linarith

theorem sat_lt (x : ℝ) (h : sat x < 1) : x < 1 := by
  by_contra hx
  push Not at hx
  have : sat x = 1 := by
    unfold sat
    rw [min_eq_left hx]; norm_num
  linarith

section
variable {n : ℕ} {ι κ : Type} [Fintype ι] [Fintype κ]

open Classical in
theorem sum_extend (S : Set ι) (f : S → ℝ) (g : ι → ℝ) :
    ∑ i, (if h : i ∈ S then f ⟨i, h⟩ else 0) * g i = ∑ i : S, f i * g i := by
  rw [← Finset.sum_filter_add_sum_filter_not Finset.univ (· ∈ S)]
  have h0 : ∑ i ∈ Finset.univ.filter (fun i => i ∉ S),
      (if h : i ∈ S then f ⟨i, h⟩ else 0) * g i = 0 := Finset.sum_eq_zero fun i hi => by
    rw [dif_neg (Finset.mem_filter.1 hi).2, zero_mul]
  rw [h0, add_zero, Finset.sum_subtype (p := (· ∈ S)) (F := inferInstance) _ (by simp)]
  exact Finset.sum_congr (by ext; simp) fun i _ => by rw [dif_pos i.2]

/-- The regularised problem: penalty `e`. -/
theorem exists_regular (d p : Fin n → ℝ) (hd : ∀ k, 0 < d k) (N T : ι → Fin n → ℝ) (A : κ → Fin n → ℝ)
    (b mu : ι → ℝ) (hmu : ∀ i, 0 ≤ mu i) (u0 : Fin n → ℝ) (hA : ∀ j, form (A j) u0 = 0)
    (h0 : ∀ i, mu i * |form (T i) u0| ≤ form (N i) u0 - b i) :
    ∃ R K : ℝ, ∀ e : ℝ, 0 < e → ∃ (u : Fin n → ℝ) (a c : ι → ℝ) (l : κ → ℝ),
      (∀ k, |u k| ≤ R) ∧
      (∀ k, d k * u k = p k + ∑ i, a i * (N i k - mu i * T i k) + ∑ i, c i * (N i k + mu i * T i k) +
        ∑ j, l j * A j k) ∧
      (∀ i, 0 ≤ a i ∧ 0 ≤ c i) ∧
      (∀ i, (0 < a i → form (N i) u ≤ b i ∧ -e ≤ form (T i) u) ∧
        (0 < c i → form (N i) u ≤ b i ∧ form (T i) u ≤ e)) ∧
      (∀ i, b i - √(e * K) ≤ form (N i) u) ∧ ∀ j, |form (A j) u| ≤ √(e * K) := by
  classical
  obtain ⟨D, hD, hDd⟩ : ∃ D : ℝ, 0 < D ∧ ∀ k, D ≤ d k := by
    rcases isEmpty_or_nonempty (Fin n) with h | h
    · exact ⟨1, one_pos, fun k => (h.false k).elim⟩
    · obtain ⟨k0, hk0⟩ := Finite.exists_min d
      exact ⟨d k0, hd k0, hk0⟩
  let E := EuclideanSpace ℝ (Fin n)
  let q : E := WithLp.toLp 2 fun k => d k * u0 k - p k
  let C := ‖q‖ + 1
  have hC : 0 < C := by positivity
  let R := C / D
  have hR : 0 < R := by positivity
  refine ⟨R + ∑ k, |u0 k|, ‖q‖ * R, fun e he => ?_⟩
  let U : E → Fin n → ℝ := fun w k => u0 k + w k
  let pn : E → ι → ℝ := fun w i => max 0 ((b i - form (N i) (U w)) / e)
  let st : E → ι → ℝ := fun w i => sat (form (T i) (U w) / e)
  let lj : E → κ → ℝ := fun w j => -(form (A j) (U w) / e)
  let g : E → E := fun w => WithLp.toLp 2 fun k => d k * U w k - p k -
    ∑ i, pn w i * (N i k - st w i * mu i * T i k) - ∑ j, lj w j * A j k
  have hUc : Continuous U := by
    refine continuous_pi fun k => continuous_const.add ?_
    exact (EuclideanSpace.proj k : E →L[ℝ] ℝ).continuous
  have hfc : ∀ v : Fin n → ℝ, Continuous fun w => form v (U w) := fun v =>
    (LinearMap.continuous_of_finiteDimensional (form v)).comp hUc
  have hpc : ∀ i, Continuous fun w => pn w i := fun i =>
    continuous_const.max ((continuous_const.sub (hfc _)).div_const _)
  have hsc : ∀ i, Continuous fun w => st w i := fun i => continuous_sat.comp ((hfc _).div_const _)
  have hlc : ∀ j, Continuous fun w => lj w j := fun j => ((hfc _).div_const _).neg
  have hg : Continuous g := by
    refine (PiLp.continuous_toLp 2 _).comp (continuous_pi fun k => ?_)
    refine ((continuous_const.mul ((continuous_apply k).comp hUc)).sub continuous_const).sub ?_ |>.sub ?_
    · exact continuous_finsetSum _ fun i _ =>
        (hpc i).mul (continuous_const.sub (((hsc i).mul continuous_const).mul continuous_const))
    · exact continuous_finsetSum _ fun j _ => (hlc j).mul continuous_const
  have hadd : ∀ (v : Fin n → ℝ) (w : E), form v (U w) = form v u0 + form v w := fun v w => by
    simp only [form_apply, U, mul_add, Finset.sum_add_distrib]
  -- the power of the field
  have hpow : ∀ w, inner ℝ (g w) w = ∑ k, d k * w k ^ 2 + inner ℝ q w -
      ∑ i, pn w i * (form (N i) w - st w i * mu i * form (T i) w) - ∑ j, lj w j * form (A j) w := fun w => by
    have hin : ∀ x y : EuclideanSpace ℝ (Fin n), inner ℝ x y = ∑ k, x k * y k := fun x y => by
      simp [PiLp.inner_apply, mul_comm]
    have hgk : ∀ k, g w k * w k = d k * w k ^ 2 + (d k * u0 k - p k) * w k -
        ∑ i, pn w i * (N i k * w k - st w i * mu i * (T i k * w k)) -
        ∑ j, lj w j * (A j k * w k) := fun k => by
      have : g w k = d k * (u0 k + w k) - p k - ∑ i, pn w i * (N i k - st w i * mu i * T i k) -
        ∑ j, lj w j * A j k := rfl
      rw [this, sub_mul, sub_mul, Finset.sum_mul, Finset.sum_mul]
      congr 1
      · congr 1
        · ring
        · exact Finset.sum_congr rfl fun i _ => by ring
      · exact Finset.sum_congr rfl fun i _ => by ring
    rw [hin, hin, Finset.sum_congr rfl fun k _ => hgk k, Finset.sum_sub_distrib,
      Finset.sum_sub_distrib, Finset.sum_add_distrib, Finset.sum_comm,
      Finset.sum_comm (f := fun k j => lj w j * (A j k * w k))]
    congr 1
    · congr 1
      refine Finset.sum_congr rfl fun i _ => ?_
      rw [← Finset.mul_sum, Finset.sum_sub_distrib, ← Finset.mul_sum, form_apply, form_apply]
    · refine Finset.sum_congr rfl fun j _ => ?_
      rw [← Finset.mul_sum, form_apply]
  have hterm : ∀ w i, e * pn w i ^ 2 ≤ -(pn w i * (form (N i) w - st w i * mu i * form (T i) w)) := by
    intro w i
    have hp0 : 0 ≤ pn w i := le_max_left _ _
    have h1 : pn w i * (b i - form (N i) (U w)) = e * pn w i ^ 2 := by
      simp only [pn]
      rcases le_total 0 ((b i - form (N i) (U w)) / e) with h | h
      · rw [max_eq_right h]; field_simp
      · rw [max_eq_left h]; ring
    have h2 : 0 ≤ st w i * form (T i) (U w) := by
      have := sat_mul_nonneg (form (T i) (U w) / e)
      have h3 : st w i * form (T i) (U w) = e * (sat (form (T i) (U w) / e) * (form (T i) (U w) / e)) := by
        simp only [st]; field_simp
      rw [h3]; positivity
    have h3 : st w i * form (T i) u0 ≤ |form (T i) u0| := by
      have : |st w i| ≤ 1 := abs_le.2 ⟨le_sat _, sat_le _⟩
      calc st w i * form (T i) u0 ≤ |st w i * form (T i) u0| := le_abs_self _
        _ = |st w i| * |form (T i) u0| := abs_mul _ _
        _ ≤ 1 * |form (T i) u0| := by gcongr
        _ = _ := one_mul _
    have h4 := h0 i
    have h5 : form (N i) w = form (N i) (U w) - form (N i) u0 := by rw [hadd]; ring
    have h6 : form (T i) w = form (T i) (U w) - form (T i) u0 := by rw [hadd]; ring
    have h7 : mu i * (st w i * form (T i) u0) ≤ form (N i) u0 - b i :=
      (mul_le_mul_of_nonneg_left h3 (hmu i)).trans h4
    have h8 := mul_nonneg hp0 (mul_nonneg (hmu i) h2)
    have h9 := mul_le_mul_of_nonneg_left h7 hp0
    rw [h5, h6]
    nlinarith
  have hjoint : ∀ w j, e * lj w j ^ 2 = -(lj w j * form (A j) w) := fun w j => by
    have : form (A j) w = form (A j) (U w) := by rw [hadd, hA, zero_add]
    rw [this]; simp only [lj]; field_simp
  have hlow : ∀ w, ∑ k, d k * w k ^ 2 + inner ℝ q w + ∑ i, e * pn w i ^ 2 + ∑ j, e * lj w j ^ 2 ≤
      inner ℝ (g w) w := fun w => by
    rw [hpow]
    have h1 := Finset.sum_le_sum fun i (_ : i ∈ Finset.univ) => hterm w i
    have h2 := Finset.sum_congr rfl fun j (_ : j ∈ Finset.univ) => hjoint w j
    rw [Finset.sum_neg_distrib] at h1 h2
    linarith
  have hquad : ∀ w : E, D * ‖w‖ ^ 2 - ‖q‖ * ‖w‖ ≤ ∑ k, d k * w k ^ 2 + inner ℝ q w := fun w => by
    have h1 : D * ‖w‖ ^ 2 ≤ ∑ k, d k * w k ^ 2 := by
      rw [EuclideanSpace.norm_sq_eq, Finset.mul_sum]
      refine Finset.sum_le_sum fun k _ => ?_
      rw [Real.norm_eq_abs, sq_abs]
      exact mul_le_mul_of_nonneg_right (hDd k) (sq_nonneg _)
    have h2 := neg_abs_le (inner ℝ q w)
    have h3 := abs_real_inner_le_norm q w
    linarith
  have hs1 : ∀ w, 0 ≤ ∑ i, e * pn w i ^ 2 := fun w => Finset.sum_nonneg fun i _ => by positivity
  have hs2 : ∀ w, 0 ≤ ∑ j, e * lj w j ^ 2 := fun w => Finset.sum_nonneg fun i _ => by positivity
  obtain ⟨w, hwR, hw0⟩ := exists_zero g hg R hR (fun w hw => by
    have h1 := hquad w
    have h2 := hlow w
    have h3 := hs1 w
    have h4 := hs2 w
    have h5 : 0 < D * ‖w‖ ^ 2 - ‖q‖ * ‖w‖ := by
      rw [hw]
      have : D * R = C := by simp only [R]; field_simp
      have h6 : D * R ^ 2 - ‖q‖ * R = R := by
        rw [pow_two, ← mul_assoc, this]; simp only [C]; ring
      rw [h6]; exact hR
    linarith)
  -- bounds at the zero
  have hbound : ∑ i, e * pn w i ^ 2 + ∑ j, e * lj w j ^ 2 ≤ ‖q‖ * R := by
    have h1 := hquad w
    have h2 := hlow w
    rw [hw0, inner_zero_left] at h2
    have h3 : 0 ≤ D * ‖w‖ ^ 2 := by positivity
    have h4 : ‖q‖ * ‖w‖ ≤ ‖q‖ * R := mul_le_mul_of_nonneg_left hwR (norm_nonneg _)
    linarith
  have hpb : ∀ i, e * pn w i ^ 2 ≤ ‖q‖ * R := fun i => by
    have h1 := Finset.single_le_sum (f := fun i => e * pn w i ^ 2) (fun i _ => by positivity)
      (Finset.mem_univ i)
    have := hs2 w
    linarith
  have hlb : ∀ j, e * lj w j ^ 2 ≤ ‖q‖ * R := fun j => by
    have h1 := Finset.single_le_sum (f := fun i => e * lj w i ^ 2) (fun i _ => by positivity)
      (Finset.mem_univ j)
    have := hs1 w
    linarith
  have hpn : ∀ i, 0 ≤ pn w i := fun i => le_max_left _ _
  have hpnpos : ∀ i, 0 < pn w i → form (N i) (U w) ≤ b i := fun i hi => by
    by_contra hcon
    push Not at hcon
    have : (b i - form (N i) (U w)) / e ≤ 0 := div_nonpos_of_nonpos_of_nonneg (by linarith) he.le
    have h2 : pn w i = 0 := max_eq_left this
    linarith
  refine ⟨U w, fun i => pn w i * (1 + st w i) / 2, fun i => pn w i * (1 - st w i) / 2, lj w, ?_, ?_, ?_,
    ?_, ?_, ?_⟩
  · intro k
    have h1 : |w k| ≤ ‖w‖ := by
      have := EuclideanSpace.norm_sq_eq w
      have h2 : ‖w k‖ ^ 2 ≤ ∑ i, ‖w i‖ ^ 2 :=
        Finset.single_le_sum (f := fun i => ‖w i‖ ^ 2) (fun i _ => by positivity) (Finset.mem_univ k)
      rw [← this] at h2
      exact (sq_le_sq₀ (norm_nonneg _) (norm_nonneg _)).1 h2
    have h2 : |u0 k| ≤ ∑ k, |u0 k| :=
      Finset.single_le_sum (f := fun k => |u0 k|) (fun i _ => abs_nonneg _) (Finset.mem_univ k)
    have h3 := abs_add_le (u0 k) (w k)
    simp only [U]
    linarith
  · intro k
    have hk : (g w) k = 0 := by rw [hw0]; rfl
    have hk : d k * U w k - p k - ∑ i, pn w i * (N i k - st w i * mu i * T i k) -
      ∑ j, lj w j * A j k = 0 := hk
    have h1 : ∑ i, pn w i * (1 + st w i) / 2 * (N i k - mu i * T i k) +
        ∑ i, pn w i * (1 - st w i) / 2 * (N i k + mu i * T i k) =
        ∑ i, pn w i * (N i k - st w i * mu i * T i k) := by
      rw [← Finset.sum_add_distrib]
      exact Finset.sum_congr rfl fun i _ => by ring
    linarith
  · intro i
    have h1 := le_sat (form (T i) (U w) / e)
    have h2 := sat_le (form (T i) (U w) / e)
    have h3 : 0 ≤ 1 + st w i := by simp only [st]; linarith
    have h4 : 0 ≤ 1 - st w i := by simp only [st]; linarith
    exact ⟨div_nonneg (mul_nonneg (hpn i) h3) zero_le_two, div_nonneg (mul_nonneg (hpn i) h4) zero_le_two⟩
  · intro i
    constructor
    · intro ha
      have h1 : 0 < pn w i := by
        rcases (hpn i).eq_or_lt with h | h
        · simp [← h] at ha
        · exact h
      refine ⟨hpnpos i h1, ?_⟩
      have h2 : -1 < st w i := by
        by_contra hcon
        push Not at hcon
        have : pn w i * (1 + st w i) ≤ 0 := mul_nonpos_of_nonneg_of_nonpos h1.le (by linarith)
        linarith
      have h3 := sat_gt _ h2
      rw [lt_div_iff₀ he] at h3
      linarith
    · intro ha
      have h1 : 0 < pn w i := by
        rcases (hpn i).eq_or_lt with h | h
        · simp [← h] at ha
        · exact h
      refine ⟨hpnpos i h1, ?_⟩
      have h2 : st w i < 1 := by
        by_contra hcon
        push Not at hcon
        have : pn w i * (1 - st w i) ≤ 0 := mul_nonpos_of_nonneg_of_nonpos h1.le (by linarith)
        linarith
      have h3 := sat_lt _ h2
      rw [div_lt_iff₀ he] at h3
      linarith
  · intro i
    have h1 : (b i - form (N i) (U w)) / e ≤ pn w i := le_max_right _ _
    rw [div_le_iff₀ he] at h1
    have h2 : pn w i * e ≤ √(e * (‖q‖ * R)) := by
      apply Real.le_sqrt_of_sq_le
      have := mul_le_mul_of_nonneg_left (hpb i) he.le
      nlinarith
    linarith
  · intro j
    apply Real.le_sqrt_of_sq_le
    rw [sq_abs]
    have h1 : form (A j) (U w) = -(lj w j * e) := by simp only [lj]; field_simp
    rw [h1]
    have := mul_le_mul_of_nonneg_left (hlb j) he.le
    nlinarith

/-- Existence of a solution of the frictional contact problem. -/
theorem exists_friction (d p : Fin n → ℝ) (hd : ∀ k, 0 < d k) (N T : ι → Fin n → ℝ) (A : κ → Fin n → ℝ)
    (b mu : ι → ℝ) (hmu : ∀ i, 0 ≤ mu i) (u0 : Fin n → ℝ) (hA : ∀ j, form (A j) u0 = 0)
    (h0 : ∀ i, mu i * |form (T i) u0| ≤ form (N i) u0 - b i) :
    ∃ (u : Fin n → ℝ) (a c : ι → ℝ) (l : κ → ℝ),
      (∀ k, d k * u k = p k + ∑ i, a i * (N i k - mu i * T i k) + ∑ i, c i * (N i k + mu i * T i k) +
        ∑ j, l j * A j k) ∧
      (∀ j, form (A j) u = 0) ∧
      ∀ i, 0 ≤ a i ∧ 0 ≤ c i ∧ b i ≤ form (N i) u ∧
        (0 < a i → form (N i) u = b i ∧ 0 ≤ form (T i) u) ∧
        (0 < c i → form (N i) u = b i ∧ form (T i) u ≤ 0) := by
  classical
  obtain ⟨R, K, hreg⟩ := exists_regular d p hd N T A b mu hmu u0 hA h0
  let e : ℕ → ℝ := fun m => 1 / (m + 1)
  have he : ∀ m, 0 < e m := fun m => by positivity
  have he0 : Tendsto e atTop (𝓝 0) := tendsto_one_div_add_atTop_nhds_zero_nat
  choose u a c l hR hdyn hac hact hN hJ using fun m => hreg (e m) (he m)
  -- a pattern of active forces that recurs
  let pat : ℕ → Set ι × Set ι := fun m => ({i | 0 < a m i}, {i | 0 < c m i})
  obtain ⟨P, hP⟩ : ∃ P, ∃ᶠ m in atTop, pat m = P := by
    by_contra hcon
    push Not at hcon
    have : ∀ᶠ m in atTop, ∀ P, pat m ≠ P := by
      rw [eventually_all]
      exact fun P => hcon P
    obtain ⟨m, hm⟩ := this.exists
    exact hm _ rfl
  obtain ⟨φ, hφ, hφP⟩ := extraction_of_frequently_atTop hP
  -- a convergent subsequence
  have hcomp : IsCompact (Set.pi Set.univ fun _ : Fin n => Set.Icc (-R) R) :=
    isCompact_univ_pi fun _ => isCompact_Icc
  obtain ⟨x, -, ψ, hψ, hlim⟩ := hcomp.tendsto_subseq (x := fun m => u (φ m)) fun m k _ =>
    abs_le.1 (hR (φ m) k)
  have hco : Tendsto (fun m => φ (ψ m)) atTop atTop := hφ.tendsto_atTop.comp hψ.tendsto_atTop
  have hform : ∀ g : Fin n → ℝ, Tendsto (fun m => form g (u (φ (ψ m)))) atTop (𝓝 (form g x)) := fun g =>
    ((LinearMap.continuous_of_finiteDimensional (form g)).tendsto x).comp hlim
  have hsq : Tendsto (fun m => √(e (φ (ψ m)) * K)) atTop (𝓝 0) := by
    have h1 : Tendsto (fun m => e (φ (ψ m)) * K) atTop (𝓝 0) := by
      simpa using (he0.comp hco).mul_const K
    have h2 := (Real.continuous_sqrt.tendsto 0).comp h1
    rw [Real.sqrt_zero] at h2
    exact h2
  have hes : Tendsto (fun m => e (φ (ψ m))) atTop (𝓝 0) := he0.comp hco
  have hlow : ∀ i, b i ≤ form (N i) x := fun i => by
    refine le_of_tendsto_of_tendsto' (b := atTop) (f := fun m => b i - √(e (φ (ψ m)) * K)) ?_
      (hform (N i)) (fun m => hN _ i)
    simpa using hsq.const_sub (b i)
  have hjz : ∀ j, form (A j) x = 0 := fun j => by
    have h1 : Tendsto (fun m => |form (A j) (u (φ (ψ m)))|) atTop (𝓝 |form (A j) x|) :=
      (hform (A j)).abs
    have h2 := le_of_tendsto_of_tendsto' h1 hsq fun m => hJ _ j
    exact abs_eq_zero.1 (le_antisymm h2 (abs_nonneg _))
  have hPa : ∀ i ∈ P.1, form (N i) x = b i ∧ 0 ≤ form (T i) x := fun i hi => by
    have hpos : ∀ m, 0 < a (φ (ψ m)) i := fun m => by
      have : i ∈ (pat (φ (ψ m))).1 := by rw [hφP]; exact hi
      exact this
    refine ⟨le_antisymm (le_of_tendsto' (hform (N i)) fun m => ((hact _ i).1 (hpos m)).1) (hlow i), ?_⟩
    have := le_of_tendsto_of_tendsto' hes.neg (hform (T i)) fun m => ((hact _ i).1 (hpos m)).2
    simpa using this
  have hPc : ∀ i ∈ P.2, form (N i) x = b i ∧ form (T i) x ≤ 0 := fun i hi => by
    have hpos : ∀ m, 0 < c (φ (ψ m)) i := fun m => by
      have : i ∈ (pat (φ (ψ m))).2 := by rw [hφP]; exact hi
      exact this
    refine ⟨le_antisymm (le_of_tendsto' (hform (N i)) fun m => ((hact _ i).2 (hpos m)).1) (hlow i), ?_⟩
    exact le_of_tendsto_of_tendsto' (hform (T i)) hes fun m => ((hact _ i).2 (hpos m)).2
  -- the limit of the impulses lies in the cone of the pattern
  let gen : (P.1 ⊕ P.2) ⊕ (κ ⊕ κ) → (Fin n → ℝ) →ₗ[ℝ] ℝ
    | .inl (.inl i) => form (fun k => N i k - mu i * T i k)
    | .inl (.inr i) => form (fun k => N i k + mu i * T i k)
    | .inr (.inl j) => form (A j)
    | .inr (.inr j) => -form (A j)
  obtain ⟨w, hw, hsum⟩ := farkas' gen (form fun k => d k * x k - p k) (fun y hy => by
    have hy1 : ∀ i ∈ P.1, form (fun k => N i k - mu i * T i k) y ≤ 0 := fun i hi =>
      hy (.inl (.inl ⟨i, hi⟩))
    have hy2 : ∀ i ∈ P.2, form (fun k => N i k + mu i * T i k) y ≤ 0 := fun i hi =>
      hy (.inl (.inr ⟨i, hi⟩))
    have hy3 : ∀ j, form (A j) y = 0 := fun j =>
      le_antisymm (hy (.inr (.inl j))) (by
        have : -form (A j) y ≤ 0 := hy (.inr (.inr j))
        linarith)
    have hseq : ∀ m, form (fun k => d k * u (φ (ψ m)) k - p k) y ≤ 0 := fun m => by
      set q := φ (ψ m) with hq
      have e1 : form (fun k => d k * u q k - p k) y =
          ∑ i, a q i * form (fun k => N i k - mu i * T i k) y +
          ∑ i, c q i * form (fun k => N i k + mu i * T i k) y + ∑ j, l q j * form (A j) y := by
        simp only [form_apply, Finset.mul_sum]
        rw [Finset.sum_comm, Finset.sum_comm (f := fun i k => c q i * ((N i k + mu i * T i k) * y k)),
          Finset.sum_comm (f := fun j k => l q j * (A j k * y k)), ← Finset.sum_add_distrib,
          ← Finset.sum_add_distrib]
        refine Finset.sum_congr rfl fun k _ => ?_
        rw [hdyn q k]
        simp only [← mul_assoc, ← Finset.sum_mul]
        ring
      rw [e1]
      have t1 : ∑ i, a q i * form (fun k => N i k - mu i * T i k) y ≤ 0 :=
        Finset.sum_nonpos fun i _ => by
          rcases (hac q i).1.eq_or_lt with h | h
          · rw [← h, zero_mul]
          · refine mul_nonpos_of_nonneg_of_nonpos h.le (hy1 i ?_)
            rw [← hφP (ψ m)]; exact h
      have t2 : ∑ i, c q i * form (fun k => N i k + mu i * T i k) y ≤ 0 :=
        Finset.sum_nonpos fun i _ => by
          rcases (hac q i).2.eq_or_lt with h | h
          · rw [← h, zero_mul]
          · refine mul_nonpos_of_nonneg_of_nonpos h.le (hy2 i ?_)
            rw [← hφP (ψ m)]; exact h
      have t3 : ∑ j, l q j * form (A j) y = 0 := Finset.sum_eq_zero fun j _ => by rw [hy3, mul_zero]
      linarith
    refine le_of_tendsto' (f := fun m => form (fun k => d k * u (φ (ψ m)) k - p k) y) (x := atTop) ?_ hseq
    simp only [form_apply]
    refine tendsto_finsetSum _ fun k _ => ?_
    have hk : Tendsto (fun m => u (φ (ψ m)) k) atTop (𝓝 (x k)) := ((continuous_apply k).tendsto x).comp hlim
    exact ((hk.const_mul (d k)).sub_const (p k)).mul_const (y k))
  refine ⟨x, fun i => if h : i ∈ P.1 then w (.inl (.inl ⟨i, h⟩)) else 0,
    fun i => if h : i ∈ P.2 then w (.inl (.inr ⟨i, h⟩)) else 0,
    fun j => w (.inr (.inl j)) - w (.inr (.inr j)), ?_, hjz, fun i => ⟨?_, ?_, hlow i, ?_, ?_⟩⟩
  · intro k
    have hk := congrArg (fun f => f (Pi.single k 1)) hsum
    simp only [Fintype.sum_sum_type, LinearMap.add_apply, LinearMap.sum_apply, LinearMap.smul_apply, gen,
      form_apply, LinearMap.neg_apply, smul_eq_mul] at hk
    simp only [Pi.single_apply, mul_ite, mul_one, mul_zero, Finset.sum_ite_eq', Finset.mem_univ,
      if_true] at hk
    have s1 : ∑ i, (if h : i ∈ P.1 then w (.inl (.inl ⟨i, h⟩)) else 0) * (N i k - mu i * T i k) =
        ∑ i : P.1, w (.inl (.inl i)) * (N i k - mu i * T i k) :=
      sum_extend P.1 (fun i => w (.inl (.inl i))) fun i => N i k - mu i * T i k
    have s2 : ∑ i, (if h : i ∈ P.2 then w (.inl (.inr ⟨i, h⟩)) else 0) * (N i k + mu i * T i k) =
        ∑ i : P.2, w (.inl (.inr i)) * (N i k + mu i * T i k) :=
      sum_extend P.2 (fun i => w (.inl (.inr i))) fun i => N i k + mu i * T i k
    rw [s1, s2]
    simp only [sub_mul, Finset.sum_sub_distrib]
    simp only [mul_neg, Finset.sum_neg_distrib] at hk
    linarith
  · simp only; split_ifs
    · exact hw _
    · exact le_rfl
  · simp only; split_ifs
    · exact hw _
    · exact le_rfl
  · simp only; split_ifs with h
    · exact fun _ => hPa i h
    · exact fun h => absurd h (lt_irrefl _)
  · simp only; split_ifs with h
    · exact fun _ => hPc i h
    · exact fun h => absurd h (lt_irrefl _)
end

end LcpPhysics
