import Verif.Lemmas.Lu
import Verif.Spec.Kkt
import Verif.Model.Pdipm

/-! # Lemmas on the block factorisation of the KKT system -/

noncomputable section

namespace LcpPhysics
open Matrix Spec

variable {a b : ℕ}

/-- Consecutive numbering of two index blocks. -/
abbrev eSum (a b : ℕ) : Fin a ⊕ Fin b ≃ Fin (a + b) := finSumFinEquiv

theorem catBlocks_blocks (A : Matrix (Fin a) (Fin a) ℝ) (B : Matrix (Fin a) (Fin b) ℝ)
    (C : Matrix (Fin b) (Fin a) ℝ) (D : Matrix (Fin b) (Fin b) ℝ) :
    (catBlocks A B C D).submatrix (eSum a b) (eSum a b) = fromBlocks A B C D := by
  ext i j
  rcases i with i | i <;> rcases j with j | j <;> simp [catBlocks]

theorem catBlocks_unitLower (A : Matrix (Fin a) (Fin a) ℝ) (B : Matrix (Fin a) (Fin b) ℝ)
    (C : Matrix (Fin b) (Fin a) ℝ) (D : Matrix (Fin b) (Fin b) ℝ) :
    (unitLower (catBlocks A B C D)).submatrix (eSum a b) (eSum a b) = fromBlocks (unitLower A) 0 C (unitLower D) := by
  ext i j
  rcases i with i | i <;> rcases j with j | j
  · have h1 : Fin.castAdd b j < Fin.castAdd b i ↔ j < i := Iff.rfl
    simp [catBlocks, unitLower, h1]
  · have h1 : ¬ (Fin.natAdd a j < Fin.castAdd b i) := by simp [Fin.lt_def]; omega
    have h2 : ¬ (Fin.castAdd b i = Fin.natAdd a j) := by simp [Fin.ext_iff]; omega
    simp [catBlocks, unitLower, h1, h2]
  · have h1 : Fin.castAdd b j < Fin.natAdd a i := by simp [Fin.lt_def]; omega
    simp [catBlocks, unitLower, h1]
  · simp [catBlocks, unitLower, Fin.ext_iff]

theorem catBlocks_upperTri (A : Matrix (Fin a) (Fin a) ℝ) (B : Matrix (Fin a) (Fin b) ℝ)
    (C : Matrix (Fin b) (Fin a) ℝ) (D : Matrix (Fin b) (Fin b) ℝ) :
    (upperTri (catBlocks A B C D)).submatrix (eSum a b) (eSum a b) = fromBlocks (upperTri A) B 0 (upperTri D) := by
  ext i j
  rcases i with i | i <;> rcases j with j | j
  · have h1 : Fin.castAdd b i ≤ Fin.castAdd b j ↔ i ≤ j := Iff.rfl
    simp [catBlocks, upperTri, h1]
  · have h1 : Fin.castAdd b i ≤ Fin.natAdd a j := by simp [Fin.le_def]; omega
    simp [catBlocks, upperTri, h1]
  · have h1 : ¬ (Fin.natAdd a i ≤ Fin.castAdd b j) := by simp [Fin.le_def]; omega
    simp [catBlocks, upperTri, h1]
  · have h1 : Fin.natAdd a i ≤ Fin.natAdd a j ↔ i ≤ j := by
      rw [Fin.le_def, Fin.le_def]; simp
    simp [catBlocks, upperTri, h1]

/-! ## Pivots of a block factorisation -/

theorem swapPerm_castAdd {p : ℕ} (k i : Fin a) (h : p - 1 < a) :
    swapPerm (Fin.castAdd b k) p (Fin.castAdd b i) = Fin.castAdd b (swapPerm k p i) := by
  have h' : p - 1 < a + b := by omega
  unfold swapPerm
  rw [dif_pos h, dif_pos h']
  have e : (⟨p - 1, h'⟩ : Fin (a + b)) = Fin.castAdd b ⟨p - 1, h⟩ := rfl
  rw [e]
  exact (Fin.castAdd_injective a b).swap_apply _ _ _

theorem swapPerm_castAdd_natAdd {p : ℕ} (k : Fin a) (i : Fin b) (h : p - 1 < a) :
    swapPerm (Fin.castAdd b k) p (Fin.natAdd a i) = Fin.natAdd a i := by
  have h' : p - 1 < a + b := by omega
  unfold swapPerm
  rw [dif_pos h']
  apply Equiv.swap_apply_of_ne_of_ne
  · simp [Fin.ext_iff]; omega
  · simp [Fin.ext_iff]; omega

theorem swapPerm_natAdd {p : ℕ} (k i : Fin b) (hp : 0 < p) (h : p - 1 < b) :
    swapPerm (Fin.natAdd a k) (p + a) (Fin.natAdd a i) = Fin.natAdd a (swapPerm k p i) := by
  have h' : p + a - 1 < a + b := by omega
  unfold swapPerm
  rw [dif_pos h, dif_pos h']
  have e : (⟨p + a - 1, h'⟩ : Fin (a + b)) = Fin.natAdd a ⟨p - 1, h⟩ := by
    simp [Fin.ext_iff]; omega
  rw [e]
  exact (Fin.natAdd_injective b a).swap_apply _ _ _

theorem swapPerm_natAdd_castAdd {p : ℕ} (k : Fin b) (i : Fin a) (hp : 0 < p) (h : p - 1 < b) :
    swapPerm (Fin.natAdd a k) (p + a) (Fin.castAdd b i) = Fin.castAdd b i := by
  have h' : p + a - 1 < a + b := by omega
  unfold swapPerm
  rw [dif_pos h']
  apply Equiv.swap_apply_of_ne_of_ne
  · simp [Fin.ext_iff]; omega
  · simp [Fin.ext_iff]; omega

theorem finRange_add (a b : ℕ) : List.finRange (a + b) =
    (List.finRange a).map (Fin.castAdd b) ++ (List.finRange b).map (Fin.natAdd a) := by
  simp only [List.finRange, List.map_ofFn]
  rw [List.ofFn_add]
  rfl

theorem pivPerm_blocks (pA : Fin a → ℕ) (pT : Fin b → ℕ) (hA : ∀ k, pA k - 1 < a)
    (hT : ∀ k, 0 < pT k ∧ pT k - 1 < b) :
    (∀ i, pivPerm (Fin.addCases pA fun k => pT k + a : Fin (a + b) → ℕ) (Fin.castAdd b i) =
      Fin.castAdd b (pivPerm pA i)) ∧
    (∀ i, pivPerm (Fin.addCases pA fun k => pT k + a : Fin (a + b) → ℕ) (Fin.natAdd a i) =
      Fin.natAdd a (pivPerm pT i)) := by
  set p : Fin (a + b) → ℕ := Fin.addCases pA fun k => pT k + a with hp
  have p1 : ∀ k, p (Fin.castAdd b k) = pA k := fun k => by simp [hp]
  have p2 : ∀ k, p (Fin.natAdd a k) = pT k + a := fun k => by simp [hp]
  have lA : ∀ l : List (Fin a), (∀ i, ((l.map (Fin.castAdd b)).map fun k => swapPerm k (p k)).prod (Fin.castAdd b i) =
      Fin.castAdd b ((l.map fun k => swapPerm k (pA k)).prod i)) ∧
      ∀ i : Fin b, ((l.map (Fin.castAdd b)).map fun k => swapPerm k (p k)).prod (Fin.natAdd a i) = Fin.natAdd a i := by
    intro l
    induction l with
    | nil => exact ⟨fun _ => rfl, fun _ => rfl⟩
    | cons k l ih =>
      constructor
      · intro i
        simp only [List.map_cons, List.prod_cons, Equiv.Perm.mul_apply, ih.1, p1]
        exact swapPerm_castAdd k _ (hA k)
      · intro i
        simp only [List.map_cons, List.prod_cons, Equiv.Perm.mul_apply, ih.2, p1]
        exact swapPerm_castAdd_natAdd k _ (hA k)
  have lT : ∀ l : List (Fin b), (∀ i, ((l.map (Fin.natAdd a)).map fun k => swapPerm k (p k)).prod (Fin.natAdd a i) =
      Fin.natAdd a ((l.map fun k => swapPerm k (pT k)).prod i)) ∧
      ∀ i : Fin a, ((l.map (Fin.natAdd a)).map fun k => swapPerm k (p k)).prod (Fin.castAdd b i) = Fin.castAdd b i := by
    intro l
    induction l with
    | nil => exact ⟨fun _ => rfl, fun _ => rfl⟩
    | cons k l ih =>
      constructor
      · intro i
        simp only [List.map_cons, List.prod_cons, Equiv.Perm.mul_apply, ih.1, p2]
        exact swapPerm_natAdd k _ (hT k).1 (hT k).2
      · intro i
        simp only [List.map_cons, List.prod_cons, Equiv.Perm.mul_apply, ih.2, p2]
        exact swapPerm_natAdd_castAdd k _ (hT k).1 (hT k).2
  constructor
  · intro i
    unfold pivPerm
    rw [finRange_add, List.map_append, List.prod_append, Equiv.Perm.mul_apply, (lT _).2, (lA _).1]
  · intro i
    unfold pivPerm
    rw [finRange_add, List.map_append, List.prod_append, Equiv.Perm.mul_apply, (lT _).1, (lA _).2]

theorem unpackP_blocks (pA : Fin a → ℕ) (pT : Fin b → ℕ) (hA : ∀ k, pA k - 1 < a)
    (hT : ∀ k, 0 < pT k ∧ pT k - 1 < b) :
    (unpackP (Fin.addCases pA fun k => pT k + a : Fin (a + b) → ℕ)).submatrix (eSum a b) (eSum a b) =
      fromBlocks (unpackP pA) 0 0 (unpackP pT) := by
  obtain ⟨h1, h2⟩ := pivPerm_blocks pA pT hA hT
  ext i j
  rcases i with i | i <;> rcases j with j | j
  · simp [unpackP_apply, h1]
  · have : ¬ Fin.natAdd a ((pivPerm pT) j) = Fin.castAdd b i := by simp [Fin.ext_iff]; omega
    simp [unpackP_apply, h2, this]
  · have : ¬ Fin.castAdd b ((pivPerm pA) j) = Fin.natAdd a i := by simp [Fin.ext_iff]; omega
    simp [unpackP_apply, h1, this]
  · simp [unpackP_apply, h2]

/-- Identity pivots. -/
theorem unpackP_id : unpackP (fun k : Fin a => (k : ℕ) + 1) = 1 := by
  have h : pivPerm (fun k : Fin a => (k : ℕ) + 1) = 1 := by
    unfold pivPerm
    apply List.prod_eq_one
    intro x hx
    obtain ⟨k, -, rfl⟩ := List.mem_map.1 hx
    unfold swapPerm
    rw [dif_pos (by simp)]
    simp
    rfl
  ext i j
  rw [unpackP_apply, h]
  simp [Matrix.one_apply, eq_comm]


/-! ## The partially factorised matrix -/

open Spec

variable {nz nineq neq : ℕ}

/-- What the stored `S_LU`, `R` mean between two calls of `factor_kkt`. -/
def SInv (Q : Matrix (Fin nz) (Fin nz) ℝ) (G : Matrix (Fin nineq) (Fin nz) ℝ)
    (F : Matrix (Fin nineq) (Fin nineq) ℝ) (A : Matrix (Fin neq) (Fin nz) ℝ) (S : PackedLU (neq + nineq))
    (R : Matrix (Fin nineq) (Fin nineq) ℝ) : Prop :=
  ∃ (LU : PackedLU neq) (T : Matrix (Fin neq) (Fin nineq) ℝ) (pT : Fin nineq → ℕ)
    (X : Matrix (Fin nineq) (Fin neq) ℝ),
    Factors (A * Q⁻¹ * Aᵀ) LU ∧ S.piv = Fin.addCases LU.piv (fun k => pT k + neq) ∧
    S.data.submatrix (Fin.castAdd nineq) (Fin.castAdd nineq) = LU.data ∧
    S.data.submatrix (Fin.castAdd nineq) (Fin.natAdd neq) = upperTri LU.data * T ∧
    unpackP pT * S.data.submatrix (Fin.natAdd neq) (Fin.castAdd nineq) = X ∧
    X * upperTri LU.data = G * Q⁻¹ * Aᵀ ∧ A * Q⁻¹ * Aᵀ * T = A * Q⁻¹ * Gᵀ ∧
    R = G * Q⁻¹ * Gᵀ + F - G * Q⁻¹ * Aᵀ * T

theorem pre_factor_inv {f : Btrifact} (hf : BtrifactOk f) {Q : Matrix (Fin nz) (Fin nz) ℝ}
    {G : Matrix (Fin nineq) (Fin nz) ℝ} {F : Matrix (Fin nineq) (Fin nineq) ℝ} {A : Matrix (Fin neq) (Fin nz) ℝ}
    (hsym : Qᵀ = Q) {K : Kkt nz nineq neq} (h : pre_factor_kkt f Q G F A = .ok K) :
    Factors Q K.Q_LU ∧ SInv Q G F A K.S_LU K.R := by
  unfold pre_factor_kkt at h
  split at h
  · cases h
  rename_i Q_LU hQ
  have fQ := hf.sound _ _ _ hQ
  have hinv : (Q⁻¹)ᵀ = Q⁻¹ := by rw [Matrix.transpose_nonsing_inv, hsym]
  simp only [fQ.btrisolve_eq, ← Matrix.mul_assoc] at h
  by_cases hn : neq > 0
  · rw [if_pos hn] at h
    split at h
    · cases h
    rename_i LU hLU
    have fA := hf.sound _ _ _ hLU
    cases h
    refine ⟨fQ, LU, btrisolve LU (G * Q⁻¹ * Aᵀ)ᵀ, fun k => k + 1, G * Q⁻¹ * Aᵀ * btrisolve LU (unpackP LU.piv * unpackL LU.data),
      fA, ?_, ?_, ?_, ?_, ?_, ?_, ?_⟩
    · funext k
      induction k using Fin.addCases with
      | left k => simp
      | right k => simp; omega
    · ext i j; simp [catBlocks]
    · ext i j; simp [catBlocks, unpackU_eq]
    · rw [unpackP_id, Matrix.one_mul]
      ext i j; simp [catBlocks]
    · have e : A * Q⁻¹ * Aᵀ * (btrisolve LU (unpackP LU.piv * unpackL LU.data)) = unpackP LU.piv * unpackL LU.data := by
        rw [fA.btrisolve_eq, ← Matrix.mul_assoc, Matrix.mul_nonsing_inv _ fA.det_ne.isUnit, Matrix.one_mul]
      have e2 : btrisolve LU (unpackP LU.piv * unpackL LU.data) * upperTri LU.data = 1 := by
        have := fA.plu
        rw [unpackU_eq] at this
        rw [fA.btrisolve_eq, Matrix.mul_assoc, this, Matrix.nonsing_inv_mul _ fA.det_ne.isUnit]
      rw [Matrix.mul_assoc, e2, Matrix.mul_one]
    · rw [fA.btrisolve_eq, ← Matrix.mul_assoc, Matrix.mul_nonsing_inv _ fA.det_ne.isUnit, Matrix.one_mul]
      simp [Matrix.transpose_mul, hinv, Matrix.mul_assoc]
    · simp
  · rw [if_neg hn] at h
    have hn0 : neq = 0 := by omega
    subst hn0
    cases h
    refine ⟨fQ, ⟨0, fun _ => 0⟩, 0, fun k => k + 1, 0, ⟨?_, fun i => i.elim0, fun i => i.elim0⟩, ?_, ?_, ?_, ?_, ?_, ?_, ?_⟩
    · ext i; exact i.elim0
    · funext k
      induction k using Fin.addCases with
      | left k => exact k.elim0
      | right k => rw [Fin.addCases_right]; simp
    · ext i; exact i.elim0
    · ext i; exact i.elim0
    · ext i j; exact j.elim0
    · ext i j; exact j.elim0
    · ext i; exact i.elim0
    · simp

theorem factor_kkt_inv {f : Btrifact} (hf : BtrifactOk f) {Q : Matrix (Fin nz) (Fin nz) ℝ}
    {G : Matrix (Fin nineq) (Fin nz) ℝ} {F : Matrix (Fin nineq) (Fin nineq) ℝ} {A : Matrix (Fin neq) (Fin nz) ℝ}
    {S S' : PackedLU (neq + nineq)} {R : Matrix (Fin nineq) (Fin nineq) ℝ} {d : Fin nineq → ℝ}
    (hS : SInv Q G F A S R) (h : factor_kkt f S R d = some S') :
    SInv Q G F A S' R ∧ Factors (flatBlocks (schur Q G A F d)) S' := by
  obtain ⟨LU, T, pT, X, fA, hpiv, h11, h12, h21, hX, hT, hR⟩ := hS
  obtain ⟨TLU, hTLU, rfl⟩ := Option.map_eq_some_iff.1 h
  have fT := hf.sound _ _ _ hTLU
  have hold : (fun k : Fin nineq => S.piv (Fin.natAdd neq k) - neq) = pT := by
    funext k; simp [hpiv]
  have hp1 : (fun k : Fin neq => S.piv (Fin.castAdd nineq k)) = LU.piv := by
    funext k; simp [hpiv]
  have hnew : unpackP TLU.piv * ((unpackP TLU.piv)ᵀ * X) = X := by
    rw [← Matrix.mul_assoc, unpackP_mul_transpose, Matrix.one_mul]
  simp only [hold, hp1, h11, h12, h21]
  refine ⟨⟨LU, T, TLU.piv, X, fA, rfl, ?_, ?_, ?_, hX, hT, hR⟩, ?_⟩
  · ext i j; simp [catBlocks]
  · ext i j; simp [catBlocks]
  · rw [← hnew]
    congr 1
    rw [hnew]
    ext i j; simp [catBlocks]
  · have hA' : ∀ k, LU.piv k - 1 < neq := fun k => by have := fA.range k; omega
    have hT' : ∀ k, 0 < TLU.piv k ∧ TLU.piv k - 1 < nineq := fun k => by have := fT.range k; omega
    apply Factors.of_plu
    · have e : ∀ M N : Matrix (Fin (neq + nineq)) (Fin (neq + nineq)) ℝ,
          M.submatrix (eSum neq nineq) (eSum neq nineq) = N.submatrix (eSum neq nineq) (eSum neq nineq) → M = N := by
        intro M N hMN
        have := congrArg (fun Z => Z.submatrix (eSum neq nineq).symm (eSum neq nineq).symm) hMN
        simpa using this
      apply e
      rw [← Matrix.submatrix_mul_equiv _ _ _ (eSum neq nineq), ← Matrix.submatrix_mul_equiv _ _ _ (eSum neq nineq)]
      rw [unpackL_eq, unpackU_eq, unpackP_blocks _ _ hA' hT', catBlocks_unitLower, catBlocks_upperTri]
      have hp := fA.plu
      have hq := fT.plu
      rw [unpackL_eq, unpackU_eq] at hp hq
      have : (flatBlocks (schur Q G A F d)).submatrix (eSum neq nineq) (eSum neq nineq) = schur Q G A F d := by
        ext i j
        simp [flatBlocks, eSum]
      rw [this, schur, Matrix.fromBlocks_multiply, Matrix.fromBlocks_multiply]
      simp only [Matrix.mul_zero, Matrix.zero_mul, add_zero, zero_add]
      congr 1
      · rw [← Matrix.mul_assoc, hp, hT]
      · rw [hnew, hX]
      · rw [hnew, ← Matrix.mul_assoc, hX, hq, hR]
        abel
    · intro i
      induction i using Fin.addCases with
      | left i => simpa [catBlocks] using fA.diag i
      | right i => simpa [catBlocks] using fT.diag i
    · intro k
      induction k using Fin.addCases with
      | left k => have := fA.range k; simp; omega
      | right k => have := fT.range k; simp; omega

theorem schur_det {Q : Matrix (Fin nz) (Fin nz) ℝ} {G : Matrix (Fin nineq) (Fin nz) ℝ}
    {F : Matrix (Fin nineq) (Fin nineq) ℝ} {A : Matrix (Fin neq) (Fin nz) ℝ} {S : PackedLU (neq + nineq)}
    {R : Matrix (Fin nineq) (Fin nineq) ℝ} (hS : SInv Q G F A S R) (d : Fin nineq → ℝ) :
    (schur Q G A F d).det = (A * Q⁻¹ * Aᵀ).det * (diagonal (fun i => 1 / d i) + R).det ∧
      (A * Q⁻¹ * Aᵀ).det ≠ 0 := by
  obtain ⟨LU, T, pT, X, fA, hpiv, h11, h12, h21, hX, hT, hR⟩ := hS
  refine ⟨?_, fA.det_ne⟩
  have : schur Q G A F d = fromBlocks (A * Q⁻¹ * Aᵀ) 0 (G * Q⁻¹ * Aᵀ) (diagonal (fun i => 1 / d i) + R) * fromBlocks 1 T 0 1 := by
    rw [Matrix.fromBlocks_multiply, schur]
    simp only [Matrix.mul_zero, Matrix.mul_one, add_zero, hT, hR]
    congr 1
    abel
  rw [this, Matrix.det_mul, Matrix.det_fromBlocks_zero₁₂, Matrix.det_fromBlocks_zero₂₁]
  simp

end LcpPhysics
