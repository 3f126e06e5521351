import Verif.Lemmas.Kkt

/-! # LU factorisations exist -/

noncomputable section

namespace LcpPhysics
open Matrix Spec

variable {a b : ℕ}

theorem Factors.block {M11 : Matrix (Fin a) (Fin a) ℝ} {M12 : Matrix (Fin a) (Fin b) ℝ}
    {M21 : Matrix (Fin b) (Fin a) ℝ} {M22 : Matrix (Fin b) (Fin b) ℝ} {LU : PackedLU a} {TLU : PackedLU b}
    {T : Matrix (Fin a) (Fin b) ℝ} {X : Matrix (Fin b) (Fin a) ℝ} (fA : Factors M11 LU) (hT : M11 * T = M12)
    (hX : X * upperTri LU.data = M21) (fT : Factors (M22 - M21 * T) TLU) :
    Factors (flatBlocks (fromBlocks M11 M12 M21 M22))
      ⟨catBlocks LU.data (upperTri LU.data * T) ((unpackP TLU.piv)ᵀ * X) TLU.data,
        Fin.addCases LU.piv fun k => TLU.piv k + a⟩ := by
  have hnew : unpackP TLU.piv * ((unpackP TLU.piv)ᵀ * X) = X := by
    rw [← Matrix.mul_assoc, unpackP_mul_transpose, Matrix.one_mul]
  have hA' : ∀ k, LU.piv k - 1 < a := fun k => by have := fA.range k; omega
  have hT' : ∀ k, 0 < TLU.piv k ∧ TLU.piv k - 1 < b := fun k => by have := fT.range k; omega
  apply Factors.of_plu
  · have e : ∀ M N : Matrix (Fin (a + b)) (Fin (a + b)) ℝ,
        M.submatrix (eSum a b) (eSum a b) = N.submatrix (eSum a b) (eSum a b) → M = N := by
      intro M N hMN
      have := congrArg (fun Z => Z.submatrix (eSum a b).symm (eSum a b).symm) hMN
      simpa using this
    apply e
    rw [← Matrix.submatrix_mul_equiv _ _ _ (eSum a b), ← Matrix.submatrix_mul_equiv _ _ _ (eSum a b)]
    rw [unpackL_eq, unpackU_eq, unpackP_blocks _ _ hA' hT', catBlocks_unitLower, catBlocks_upperTri]
    have hp := fA.plu
    have hq := fT.plu
    rw [unpackL_eq, unpackU_eq] at hp hq
    have : (flatBlocks (fromBlocks M11 M12 M21 M22)).submatrix (eSum a b) (eSum a b) = fromBlocks M11 M12 M21 M22 := by
      ext i j
      simp [flatBlocks, eSum]
    rw [this, Matrix.fromBlocks_multiply, Matrix.fromBlocks_multiply]
    simp only [Matrix.mul_zero, Matrix.zero_mul, add_zero, zero_add]
    congr 1
    · rw [← Matrix.mul_assoc, hp, hT]
    · rw [hnew, hX]
    · rw [hnew, ← Matrix.mul_assoc, hX, hq]
      abel
  · intro i
    induction i using Fin.addCases with
    | left i => simpa [catBlocks] using fA.diag i
    | right i => simpa [catBlocks] using fT.diag i
  · intro k
    induction k using Fin.addCases with
    | left k => have := fA.range k; simp; omega
    | right k => have := fT.range k; simp; omega

theorem flatBlocks_toBlocks (M : Matrix (Fin (a + b)) (Fin (a + b)) ℝ) :
    flatBlocks (fromBlocks (M.submatrix (Fin.castAdd b) (Fin.castAdd b)) (M.submatrix (Fin.castAdd b) (Fin.natAdd a))
      (M.submatrix (Fin.natAdd a) (Fin.castAdd b)) (M.submatrix (Fin.natAdd a) (Fin.natAdd a))) = M := by
  ext i j
  induction i using Fin.addCases <;> induction j using Fin.addCases <;> simp [flatBlocks]

theorem laswp_succ {n : ℕ} {α : Type} (piv : Fin (n + 1) → ℕ) (v : Fin (n + 1) → α) :
    laswp piv v = ((List.finRange n).map Fin.succ).foldl (fun w k => rowSwap w k (piv k)) (rowSwap v 0 (piv 0)) := by
  unfold laswp
  rw [List.finRange_succ, List.foldl_cons]

/-- Moving the first exchange into the matrix. -/
theorem Factors.swapFirst {n : ℕ} {A : Matrix (Fin (n + 1)) (Fin (n + 1)) ℝ} {lu : PackedLU (n + 1)} (p : Fin (n + 1))
    (h : Factors (A.submatrix (Equiv.swap 0 p) id) lu) (h1 : lu.piv 0 = 1) :
    Factors A ⟨lu.data, Function.update lu.piv 0 (p + 1)⟩ := by
  refine ⟨?_, h.diag, ?_⟩
  · rw [← h.eq]
    have e : laswp (Function.update lu.piv 0 (p + 1)) (fun i j => A i j) =
        laswp lu.piv (fun i j => (A.submatrix (Equiv.swap 0 p) id) i j) := by
      rw [laswp_succ, laswp_succ]
      have e1 : rowSwap (fun i j => A i j) 0 (Function.update lu.piv 0 ((p : ℕ) + 1) 0) =
          rowSwap (fun i j => (A.submatrix (Equiv.swap 0 p) id) i j) 0 (lu.piv 0) := by
        rw [h1, Function.update_self, rowSwap, rowSwap, dif_pos (by simp; omega), dif_pos (by simp)]
        funext i j
        simp
      rw [e1]
      apply List.foldl_ext
      intro w k hk
      obtain ⟨j, -, rfl⟩ := List.mem_map.1 hk
      rw [Function.update_of_ne (Fin.succ_ne_zero j)]
    rw [laswpM, laswpM, e]
  · intro k
    by_cases hk : k = 0
    · subst hk
      simp
      omega
    · simp only [Function.update_of_ne hk]
      exact h.range k

/-- Gaussian elimination: every nonsingular matrix has LU factors. -/
theorem Factors.exists (n : ℕ) (A : Matrix (Fin n) (Fin n) ℝ) (hA : A.det ≠ 0) : ∃ lu, Factors A lu := by
  induction n with
  | zero => exact ⟨⟨A, fun _ => 0⟩, by ext i; exact i.elim0, fun i => i.elim0, fun i => i.elim0⟩
  | succ n ih =>
    obtain ⟨p, hp⟩ : ∃ p, A p 0 ≠ 0 := by
      by_contra hcon
      push Not at hcon
      exact hA (Matrix.det_eq_zero_of_column_eq_zero 0 hcon)
    set A' := A.submatrix (Equiv.swap 0 p) id with hA'
    have hdet : A'.det ≠ 0 := by
      rw [hA', Matrix.det_permute]
      simp only [ne_eq, mul_eq_zero, not_or]
      exact ⟨by norm_cast; exact Units.ne_zero _, hA⟩
    have h00 : A' 0 0 ≠ 0 := by simpa [hA'] using hp
    have key : ∀ (m : ℕ) (hm : m = 1 + n) (M : Matrix (Fin m) (Fin m) ℝ), M.det ≠ 0 →
        (∀ z : Fin m, (z : ℕ) = 0 → M z z ≠ 0) → ∃ lu, Factors M lu ∧ ∀ z : Fin m, (z : ℕ) = 0 → lu.piv z = 1 := by
      intro m hm M hM h0
      subst hm
      set M11 := M.submatrix (Fin.castAdd n) (Fin.castAdd n : Fin 1 → _) with hM11
      set M12 := M.submatrix (Fin.castAdd n : Fin 1 → _) (Fin.natAdd 1 : Fin n → _) with hM12
      set M21 := M.submatrix (Fin.natAdd 1 : Fin n → _) (Fin.castAdd n : Fin 1 → _) with hM21
      set M22 := M.submatrix (Fin.natAdd 1 : Fin n → _) (Fin.natAdd 1 : Fin n → _) with hM22
      have hflat : flatBlocks (fromBlocks M11 M12 M21 M22) = M := flatBlocks_toBlocks M
      have hM11ne : M11 0 0 ≠ 0 := h0 _ rfl
      have hdet11 : M11.det ≠ 0 := by rw [Matrix.det_fin_one]; exact hM11ne
      have fA : Factors M11 ⟨M11, fun _ => 1⟩ := by
        refine ⟨?_, fun i => ?_, fun k => ?_⟩
        · ext i j
          have hi : i = 0 := Subsingleton.elim _ _
          have hj : j = 0 := Subsingleton.elim _ _
          subst hi hj
          simp [laswpM, laswp, rowSwap, List.finRange, unitLower, upperTri, Matrix.mul_apply]
        · have hi : i = 0 := Subsingleton.elim _ _
          subst hi; exact hM11ne
        · have hk : k = 0 := Subsingleton.elim _ _
          subst hk; simp
      have hup : upperTri M11 = M11 := by
        ext i j
        have hi : i = 0 := Subsingleton.elim _ _
        have hj : j = 0 := Subsingleton.elim _ _
        subst hi hj
        simp [upperTri]
      have hmul : M11 * (M11⁻¹ * M12) = M12 := by
        rw [← Matrix.mul_assoc, Matrix.mul_nonsing_inv _ hdet11.isUnit, Matrix.one_mul]
      have hdT : (M22 - M21 * (M11⁻¹ * M12)).det ≠ 0 := by
        intro hz
        apply hM
        rw [← hflat, flatBlocks, Matrix.det_submatrix_equiv_self]
        have : fromBlocks M11 M12 M21 M22 =
            fromBlocks M11 0 M21 (M22 - M21 * (M11⁻¹ * M12)) * fromBlocks 1 (M11⁻¹ * M12) 0 1 := by
          rw [Matrix.fromBlocks_multiply]
          simp only [Matrix.mul_zero, Matrix.mul_one, add_zero, hmul]
          congr 1
          abel
        rw [this, Matrix.det_mul, Matrix.det_fromBlocks_zero₁₂, hz]
        simp
      obtain ⟨TLU, hTLU⟩ := ih _ hdT
      have := Factors.block (X := M21 * M11⁻¹) fA hmul (by
        show M21 * M11⁻¹ * upperTri M11 = M21
        rw [hup, Matrix.mul_assoc, Matrix.nonsing_inv_mul _ hdet11.isUnit, Matrix.mul_one]) hTLU
      rw [hflat] at this
      refine ⟨_, this, fun z hz => ?_⟩
      have : z = Fin.castAdd n 0 := by ext; simpa using hz
      subst this
      simp
    obtain ⟨lu, hlu, hpiv⟩ := key (n + 1) (by omega) A' hdet (fun z hz => by
      have : z = 0 := by ext; simpa using hz
      subst this; exact h00)
    exact ⟨_, hlu.swapFirst p (hpiv 0 rfl)⟩

open Classical in
/-- A factorisation routine that meets the contract of `getrf`. -/
def someBtrifact : Btrifact := fun n A =>
  if h : A.det ≠ 0 then some (Factors.exists n A h).choose else none

theorem someBtrifact_ok : BtrifactOk someBtrifact := by
  constructor
  · intro n A lu h
    unfold someBtrifact at h
    split_ifs at h with hA
    cases h
    exact (Factors.exists n A hA).choose_spec
  · intro n A h
    unfold someBtrifact at h
    by_contra hA
    rw [dif_pos hA] at h
    cases h

end LcpPhysics
