import Verif.Model.NumericalBackward
import Mathlib.Analysis.Calculus.FDeriv.Basic
import Mathlib.Analysis.Calculus.Deriv.Basic
import Mathlib.Analysis.Calculus.Deriv.Comp
import Mathlib.Analysis.Calculus.Deriv.Add
import Mathlib.Analysis.Calculus.Deriv.Prod
import Mathlib.Analysis.Calculus.Deriv.Mul
import Mathlib.Analysis.Calculus.Deriv.Slope
import Mathlib.Analysis.Calculus.FDeriv.Pow
import Mathlib.Analysis.Calculus.FDeriv.Pi

/-!
# C75: `numerical_backward` returns half the gradient

The saved `orig` is a view of the cell that is overwritten, so the second evaluation takes place at the original
point: the code forms `(f(x) - f(x - ε)) / (2 ε)`.
-/

noncomputable section

namespace LcpPhysics
open Filter Topology

variable {n m : ℕ}

theorem numRow_eq (fn : Mem n → Fin m → ℝ) (eps : ℝ) (x : Mem n) (i : Fin n) :
    numRow fn eps x i =
      (fun k => (fn x k - fn (Function.update x i (x i - eps)) k) / (2 * eps), x) := by
  have h1 : Mem.write (Mem.write x i (x i - eps)) i (x i - eps + eps) = x := by
    simp [Mem.write]
  have h2 : Mem.write x i (x i) = x := by simp [Mem.write]
  simp only [numRow, CellView.read]
  have h3 : Mem.write x i (x i - eps) i = x i - eps := by simp [Mem.write]
  rw [h3, h1, h2]
  simp only [Mem.write]
  congr 1
  funext k; ring

theorem numLoop_eq (fn : Mem n → Fin m → ℝ) (eps : ℝ) (x : Mem n) : ∀ (is : List (Fin n))
    (acc : Fin n → Fin m → ℝ), is.Nodup →
    (numLoop fn eps is x acc).2 = x ∧ ∀ i, (numLoop fn eps is x acc).1 i =
      if i ∈ is then (numRow fn eps x i).1 else acc i
  | [], acc, _ => ⟨rfl, fun i => by simp [numLoop]⟩
  | j :: is, acc, hnd => by
    obtain ⟨hj, hnd⟩ := List.nodup_cons.1 hnd
    have hx : (numRow fn eps x j).2 = x := by rw [numRow_eq]
    obtain ⟨h1, h2⟩ := numLoop_eq fn eps x is (Function.update acc j (numRow fn eps x j).1) hnd
    refine ⟨by simp only [numLoop, hx]; exact h1, fun i => ?_⟩
    simp only [numLoop, hx, h2 i, List.mem_cons]
    by_cases hij : i = j
    · subst hij
      simp [hj]
    · simp [hij]

/-- C75: the inputs are left as they were, whatever the solver computes. -/
theorem C75_inputs_restored (fn : Mem n → Fin m → ℝ) (eps : ℝ) (x : Mem n) : (numJacobian fn eps x).2 = x :=
  (numLoop_eq fn eps x _ _ (List.nodup_finRange n)).1

/-- C75: each row is half a backward difference. -/
theorem C75_backward_difference (fn : Mem n → Fin m → ℝ) (eps : ℝ) (x : Mem n) (i : Fin n) (k : Fin m) :
    (numJacobian fn eps x).1 i k = (fn x k - fn (Function.update x i (x i - eps)) k) / (2 * eps) := by
  have := (numLoop_eq fn eps x _ (fun _ _ => 0) (List.nodup_finRange n)).2 i
  rw [if_pos (List.mem_finRange i), numRow_eq] at this
  exact congrFun this k

/-- C75: for a linear solver the result is exactly half the gradient, for every step width. -/
theorem C75_half_of_linear (J : Fin n → Fin m → ℝ) (c : Fin m → ℝ) (eps : ℝ) (he : eps ≠ 0) (x : Mem n)
    (dl : Fin m → ℝ) (i : Fin n) :
    numBackward (fun x k => c k + ∑ j, x j * J j k) eps x dl i = 1 / 2 * ∑ k, J i k * dl k := by
  unfold numBackward
  rw [Finset.mul_sum]
  refine Finset.sum_congr rfl fun k _ => ?_
  rw [C75_backward_difference]
  have : ∑ j, x j * J j k - ∑ j, Function.update x i (x i - eps) j * J j k = eps * J i k := by
    rw [← Finset.sum_sub_distrib, Finset.sum_eq_single i]
    · simp; ring
    · intro j _ hj
      simp [hj]
    · simp
  have e : c k + ∑ j, x j * J j k - (c k + ∑ j, Function.update x i (x i - eps) j * J j k) = eps * J i k := by
    linarith
  rw [e]
  field_simp

theorem update_line (x : Mem n) (i : Fin n) (t : ℝ) :
    x + (0 + t) • (Pi.single i (1 : ℝ) : Fin n → ℝ) = Function.update x i (x i + t) := by
  funext j
  by_cases hj : j = i
  · subst hj; simp
  · simp [hj]

theorem neg_punctured : Tendsto (fun eps : ℝ => -eps) (𝓝[≠] 0) (𝓝[≠] 0) := by
  rw [tendsto_nhdsWithin_iff]
  refine ⟨?_, ?_⟩
  · have : Tendsto (fun eps : ℝ => -eps) (𝓝 0) (𝓝 (-0)) := tendsto_neg 0
    rw [neg_zero] at this
    exact this.mono_left nhdsWithin_le_nhds
  · filter_upwards [self_mem_nhdsWithin] with eps he
    simpa using he

theorem line_slope (fn : Mem n → Fin m → ℝ) (fn' : (Fin n → ℝ) →L[ℝ] (Fin m → ℝ)) (x : Mem n)
    (h : HasFDerivAt fn fn' x) (i : Fin n) (k : Fin m) :
    Tendsto (fun t : ℝ => t⁻¹ * (fn (Function.update x i (x i + t)) k - fn x k)) (𝓝[≠] 0)
      (𝓝 (fn' (Pi.single i 1) k)) := by
  have hline : HasDerivAt (fun t : ℝ => x + t • (Pi.single i (1 : ℝ) : Fin n → ℝ)) (Pi.single i 1) 0 := by
    have := (hasDerivAt_id (0 : ℝ)).smul_const (Pi.single i (1 : ℝ) : Fin n → ℝ)
    simpa using this.const_add x
  have h0 : HasFDerivAt fn fn' (x + (0 : ℝ) • (Pi.single i (1 : ℝ) : Fin n → ℝ)) := by simpa using h
  have hd : HasDerivAt (fun t : ℝ => fn (x + t • (Pi.single i (1 : ℝ) : Fin n → ℝ)) k) (fn' (Pi.single i 1) k) 0 :=
    (hasDerivAt_pi.1 (h0.comp_hasDerivAt (0 : ℝ) hline)) k
  have hs := hd.tendsto_slope_zero
  simpa only [update_line, zero_smul, add_zero, smul_eq_mul] using hs

/-- C75: wherever the solver is differentiable, the result tends to half the gradient as the step shrinks. -/
theorem C75_half_gradient (fn : Mem n → Fin m → ℝ) (fn' : (Fin n → ℝ) →L[ℝ] (Fin m → ℝ)) (x : Mem n)
    (h : HasFDerivAt fn fn' x) (dl : Fin m → ℝ) (i : Fin n) :
    Tendsto (fun eps => numBackward fn eps x dl i) (𝓝[≠] 0)
      (𝓝 (1 / 2 * ∑ k, fn' (Pi.single i 1) k * dl k)) := by
  unfold numBackward
  simp only [C75_backward_difference]
  rw [Finset.mul_sum]
  refine tendsto_finsetSum _ fun k _ => ?_
  have hc := (((line_slope fn fn' x h i k).comp neg_punctured).const_mul (1 / 2 : ℝ)).mul_const (dl k)
  rw [mul_assoc] at hc
  refine hc.congr' ?_
  filter_upwards [self_mem_nhdsWithin] with eps he
  have he : eps ≠ 0 := he
  simp only [Function.comp, ← sub_eq_add_neg]
  field_simp
  ring

/-- C75: had `orig` been a copy of the number (`orig.item()`), the quotient would be the central difference, which
tends to the derivative. -/
theorem C75_copy_would_converge (fn : Mem n → Fin m → ℝ) (fn' : (Fin n → ℝ) →L[ℝ] (Fin m → ℝ)) (x : Mem n)
    (h : HasFDerivAt fn fn' x) (i : Fin n) (k : Fin m) :
    Tendsto (fun eps => (fn (Function.update x i (x i + eps)) k - fn (Function.update x i (x i - eps)) k) / (2 * eps))
      (𝓝[≠] 0) (𝓝 (fn' (Pi.single i 1) k)) := by
  have h1 := line_slope fn fn' x h i k
  have hc := ((h1.comp neg_punctured).add h1).const_mul (1 / 2 : ℝ)
  have e : 1 / 2 * (fn' (Pi.single i 1) k + fn' (Pi.single i 1) k) = fn' (Pi.single i 1) k := by ring
  rw [e] at hc
  refine hc.congr' ?_
  filter_upwards [self_mem_nhdsWithin] with eps he
  have he : eps ≠ 0 := he
  simp only [Function.comp, ← sub_eq_add_neg]
  field_simp
  ring

/-- C75: so the result is never the gradient unless the gradient is zero: the identity solver has gradient 1,
the code returns 1/2 for every step width. -/
theorem C75_not_the_gradient (eps : ℝ) (he : eps ≠ 0) (x : Mem 1) :
    numBackward (fun x : Mem 1 => x) eps x (fun _ => 1) 0 = 1 / 2 := by
  have := C75_half_of_linear (fun _ _ : Fin 1 => (1 : ℝ)) (fun _ => 0) eps he x (fun _ => 1) 0
  simp only [mul_one, zero_add, Finset.univ_unique, Finset.sum_singleton] at this
  convert this using 2
  funext x k
  rw [Subsingleton.elim k default]

/-- A quadratic solver with gradient 6 at 3: the code approaches 3. -/
example : Tendsto (fun eps => numBackward (fun (x : Mem 1) (_ : Fin 1) => x 0 ^ 2) eps (fun _ => 3) (fun _ => 1) 0)
    (𝓝[≠] 0) (𝓝 3) := by
  have : HasFDerivAt (fun (x : Fin 1 → ℝ) (_ : Fin 1) => x 0 ^ 2)
      (ContinuousLinearMap.pi fun _ => (6 : ℝ) • ContinuousLinearMap.proj (R := ℝ) (φ := fun _ : Fin 1 => ℝ) 0)
      (fun _ => 3) := by
    rw [hasFDerivAt_pi]
    intro k
    have h1 : HasFDerivAt (fun x : Fin 1 → ℝ => x 0) (ContinuousLinearMap.proj (R := ℝ) (φ := fun _ : Fin 1 => ℝ) 0)
      (fun _ => 3) := (ContinuousLinearMap.proj (R := ℝ) (φ := fun _ : Fin 1 => ℝ) 0).hasFDerivAt
    have h2 := h1.pow 2
    refine h2.congr_fderiv ?_
    ext v
    simp; norm_num
  have := C75_half_gradient _ _ _ this (fun _ => 1) 0
  have e : (2⁻¹ : ℝ) * 6 = 3 := by norm_num
  simpa [e] using this

end LcpPhysics
