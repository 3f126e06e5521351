import Verif.Lemmas.LuExists
import Mathlib.LinearAlgebra.Matrix.ToLinearEquiv
import Mathlib.Tactic.Positivity
import Mathlib.Tactic.NormNum
import Mathlib.Tactic.Linarith

/-! # C44, C45, C46: the factorised KKT system -/

noncomputable section

namespace LcpPhysics
open Matrix Spec

variable {nz nineq neq n m : ℕ}

/-! ## C46 -/

/-- C46: the matrix `P` decoded from LAPACK pivots is a permutation matrix, and multiplying by its
transpose performs LAPACK's row exchanges in LAPACK's order. -/
theorem C46_unpack_pivots (piv : Fin n → ℕ) :
    (∃ σ : Equiv.Perm (Fin n), ∀ i j, unpackP piv i j = if σ j = i then 1 else 0) ∧
    unpackP piv * (unpackP piv)ᵀ = 1 ∧ (unpackP piv)ᵀ * unpackP piv = 1 ∧
    ∀ (m : ℕ) (B : Matrix (Fin n) (Fin m) ℝ), (unpackP piv)ᵀ * B = laswpM piv B :=
  ⟨⟨pivPerm piv, unpackP_apply piv⟩, unpackP_mul_transpose piv, unpackP_transpose_mul_self piv,
    fun _ B => unpackP_transpose_mul piv B⟩

/-- C46: the triangular factors: `L` is unit lower triangular, `U` upper triangular, and together they
hold exactly the packed data. -/
theorem C46_unpack_data (D : Matrix (Fin n) (Fin n) ℝ) :
    (∀ i j, i < j → unpackL D i j = 0) ∧ (∀ i, unpackL D i i = 1) ∧ (∀ i j, j < i → unpackU D i j = 0) ∧
    unpackL D + unpackU D - 1 = D := by
  refine ⟨fun i j h => ?_, fun i => ?_, fun i j h => ?_, ?_⟩
  · simp [unpackL, h.ne, h.le]
  · simp [unpackL]
  · simp [unpackU, not_le.2 h]
  · ext i j
    rcases lt_trichotomy i j with h | h | h
    · simp [unpackL, unpackU, h.ne, h.le]
    · simp [unpackL, unpackU, h]
    · simp [unpackL, unpackU, h.ne', not_le.2 h]

/-- C46: unpacking the result of a factorisation gives `A = P L U`. -/
theorem C46_unpack_factors (f : Btrifact) (hf : BtrifactOk f) (A : Matrix (Fin n) (Fin n) ℝ) (lu : PackedLU n)
    (h : f n A = some lu) : unpackP lu.piv * unpackL lu.data * unpackU lu.data = A :=
  (hf.sound n A lu h).plu

/-- Non-vacuity of the contract: exchanging the two rows of `[[0,1],[1,0]]`. -/
example : Factors !![0, 1; 1, 0] ⟨!![1, 0; 0, 1], ![2, 2]⟩ := by
  refine ⟨?_, ?_, ?_⟩
  · ext i j
    fin_cases i <;> fin_cases j <;>
      simp [laswpM, laswp, rowSwap, List.finRange, unitLower, upperTri, Matrix.mul_apply]
  · intro i; fin_cases i <;> simp
  · intro k; fin_cases k <;> simp

/-! ## C44 -/

theorem schur_mulVec (Q : Matrix (Fin nz) (Fin nz) ℝ) (G : Matrix (Fin nineq) (Fin nz) ℝ)
    (A : Matrix (Fin neq) (Fin nz) ℝ) (F : Matrix (Fin nineq) (Fin nineq) ℝ) (d : Fin nineq → ℝ)
    (w1 : Fin neq → ℝ) (w2 : Fin nineq → ℝ) :
    flatBlocks (schur Q G A F d) *ᵥ (Fin.addCases w1 w2 : Fin (neq + nineq) → ℝ) =
      Fin.addCases (A *ᵥ (Q⁻¹ *ᵥ (Aᵀ *ᵥ w1 + Gᵀ *ᵥ w2)))
        (G *ᵥ (Q⁻¹ *ᵥ (Aᵀ *ᵥ w1 + Gᵀ *ᵥ w2)) + F *ᵥ w2 + fun i => w2 i / d i) := by
  have e : (Fin.addCases w1 w2 : Fin (neq + nineq) → ℝ) = Sum.elim w1 w2 ∘ finSumFinEquiv.symm := by
    funext i
    induction i using Fin.addCases <;> simp
  have e2 : ∀ (v1 : Fin neq → ℝ) (v2 : Fin nineq → ℝ),
      (Fin.addCases v1 v2 : Fin (neq + nineq) → ℝ) = Sum.elim v1 v2 ∘ finSumFinEquiv.symm := by
    intro v1 v2
    funext i
    induction i using Fin.addCases <;> simp
  rw [e, e2, flatBlocks, Matrix.submatrix_mulVec_equiv]
  congr 1
  have : (Sum.elim w1 w2 ∘ finSumFinEquiv.symm) ∘ (finSumFinEquiv (m := neq) (n := nineq)).symm.symm = Sum.elim w1 w2 := by
    funext i; simp
  rw [this, schur, Matrix.fromBlocks_mulVec]
  congr 1
  · simp [Matrix.mulVec_add, Matrix.mulVec_mulVec, Matrix.mul_assoc]
  · funext i
    simp [Matrix.mulVec_add, Matrix.add_mulVec, Matrix.mulVec_mulVec, Matrix.mul_assoc, Matrix.mulVec_diagonal]
    ring

/-- C44: with a factorised `Q` and a factorised Schur complement, `solve_kkt` solves the Newton
system. -/
theorem C44_solve_kkt (Q : Matrix (Fin nz) (Fin nz) ℝ) (G : Matrix (Fin nineq) (Fin nz) ℝ)
    (A : Matrix (Fin neq) (Fin nz) ℝ) (F : Matrix (Fin nineq) (Fin nineq) ℝ) (d : Fin nineq → ℝ)
    (hd : ∀ i, d i ≠ 0) (Q_LU : PackedLU nz) (S_LU : PackedLU (neq + nineq)) (hQ : Factors Q Q_LU)
    (hS : Factors (flatBlocks (schur Q G A F d)) S_LU) (rx : Fin nz → ℝ) (rs rz : Fin nineq → ℝ)
    (ry : Fin neq → ℝ) :
    let v := solve_kkt Q_LU d G A S_LU rx rs rz ry
    NewtonStep Q G A F d rx rs rz ry v.x v.s v.z v.y := by
  intro v
  set h : Fin (neq + nineq) → ℝ := Fin.addCases (A *ᵥ (Q⁻¹ *ᵥ rx) - ry)
    (fun i => (G *ᵥ (Q⁻¹ *ᵥ rx)) i + rs i / d i - rz i) with hh
  have hQ' : Q * Q⁻¹ = 1 := Matrix.mul_nonsing_inv _ hQ.det_ne.isUnit
  have hz : ∀ i, v.z i = -((flatBlocks (schur Q G A F d))⁻¹ *ᵥ h) (Fin.natAdd neq i) := by
    intro i
    simp only [v, solve_kkt, hQ.btrisolveV_eq, hS.btrisolveV_eq, Matrix.vecMul_transpose, hh]
    rfl
  have hy : ∀ i, v.y i = -((flatBlocks (schur Q G A F d))⁻¹ *ᵥ h) (Fin.castAdd nineq i) := by
    intro i
    simp only [v, solve_kkt, hQ.btrisolveV_eq, hS.btrisolveV_eq, Matrix.vecMul_transpose, hh]
    rfl
  have hx : v.x = Q⁻¹ *ᵥ (-rx - Gᵀ *ᵥ v.z - Aᵀ *ᵥ v.y) := by
    rw [Matrix.mulVec_transpose, Matrix.mulVec_transpose]
    exact hQ.btrisolveV_eq _
  have hs : ∀ i, v.s i = (-rs i - v.z i) / d i := fun i => rfl
  have hw : (Fin.addCases v.y v.z : Fin (neq + nineq) → ℝ) = -((flatBlocks (schur Q G A F d))⁻¹ *ᵥ h) := by
    funext i
    induction i using Fin.addCases <;> simp [hy, hz]
  have key : flatBlocks (schur Q G A F d) *ᵥ (Fin.addCases v.y v.z : Fin (neq + nineq) → ℝ) = -h := by
    rw [hw, Matrix.mulVec_neg, Matrix.mulVec_mulVec, Matrix.mul_nonsing_inv _ hS.det_ne.isUnit, Matrix.one_mulVec]
  rw [schur_mulVec] at key
  have k1 : A *ᵥ (Q⁻¹ *ᵥ (Aᵀ *ᵥ v.y + Gᵀ *ᵥ v.z)) = -(A *ᵥ (Q⁻¹ *ᵥ rx) - ry) := by
    funext i
    have := congrFun key (Fin.castAdd nineq i)
    simpa [hh] using this
  have k2 : ∀ i, (G *ᵥ (Q⁻¹ *ᵥ (Aᵀ *ᵥ v.y + Gᵀ *ᵥ v.z))) i + (F *ᵥ v.z) i + v.z i / d i =
      -((G *ᵥ (Q⁻¹ *ᵥ rx)) i + rs i / d i - rz i) := by
    intro i
    have := congrFun key (Fin.natAdd neq i)
    simpa [hh] using this
  have hx' : v.x = -(Q⁻¹ *ᵥ rx) - Q⁻¹ *ᵥ (Aᵀ *ᵥ v.y + Gᵀ *ᵥ v.z) := by
    rw [hx, ← Matrix.mulVec_neg, ← Matrix.mulVec_sub]
    congr 1; abel
  refine ⟨?_, fun i => ?_, ?_, ?_⟩
  · rw [hx, Matrix.mulVec_mulVec, hQ', Matrix.one_mulVec]; abel
  · rw [hs, mul_div_cancel₀ _ (hd i)]; ring
  · funext i
    have hdi := hd i
    have := k2 i
    rw [hx', Matrix.mulVec_sub, Matrix.mulVec_neg]
    simp only [Pi.add_apply, Pi.sub_apply, Pi.neg_apply, hs]
    have e : (-rs i - v.z i) / d i = -(rs i / d i) - v.z i / d i := by rw [sub_div, neg_div]
    rw [e]; linarith
  · rw [hx', Matrix.mulVec_sub, Matrix.mulVec_neg, k1]; abel

/-- C44: that solution is the only one. -/
theorem C44_newton_unique (Q : Matrix (Fin nz) (Fin nz) ℝ) (G : Matrix (Fin nineq) (Fin nz) ℝ)
    (A : Matrix (Fin neq) (Fin nz) ℝ) (F : Matrix (Fin nineq) (Fin nineq) ℝ) (d : Fin nineq → ℝ)
    (hd : ∀ i, d i ≠ 0) (hQ : Q.det ≠ 0) (hS : (schur Q G A F d).det ≠ 0) (rx : Fin nz → ℝ)
    (rs rz : Fin nineq → ℝ) (ry : Fin neq → ℝ) (dx dx' : Fin nz → ℝ) (ds dz ds' dz' : Fin nineq → ℝ)
    (dy dy' : Fin neq → ℝ) (h : NewtonStep Q G A F d rx rs rz ry dx ds dz dy)
    (h' : NewtonStep Q G A F d rx rs rz ry dx' ds' dz' dy') : dx = dx' ∧ ds = ds' ∧ dz = dz' ∧ dy = dy' := by
  have hfl : (flatBlocks (schur Q G A F d)).det ≠ 0 := by
    rw [flatBlocks, Matrix.det_submatrix_equiv_self]; exact hS
  have hQi : Q⁻¹ * Q = 1 := Matrix.nonsing_inv_mul _ hQ.isUnit
  have sol : ∀ {dx : Fin nz → ℝ} {ds dz : Fin nineq → ℝ} {dy : Fin neq → ℝ},
      NewtonStep Q G A F d rx rs rz ry dx ds dz dy →
      dx = -(Q⁻¹ *ᵥ rx) - Q⁻¹ *ᵥ (Aᵀ *ᵥ dy + Gᵀ *ᵥ dz) ∧ (∀ i, ds i = (-rs i - dz i) / d i) ∧
      flatBlocks (schur Q G A F d) *ᵥ (Fin.addCases dy dz : Fin (neq + nineq) → ℝ) =
        -(Fin.addCases (A *ᵥ (Q⁻¹ *ᵥ rx) - ry) (fun i => (G *ᵥ (Q⁻¹ *ᵥ rx)) i + rs i / d i - rz i)) := by
    intro dx ds dz dy h
    have hx : dx = -(Q⁻¹ *ᵥ rx) - Q⁻¹ *ᵥ (Aᵀ *ᵥ dy + Gᵀ *ᵥ dz) := by
      have e : Q *ᵥ dx = -rx - (Aᵀ *ᵥ dy + Gᵀ *ᵥ dz) := by rw [← h.dual]; abel
      have : Q⁻¹ *ᵥ (Q *ᵥ dx) = dx := by rw [Matrix.mulVec_mulVec, hQi, Matrix.one_mulVec]
      rw [← this, e, Matrix.mulVec_sub, Matrix.mulVec_neg]
    have hs : ∀ i, ds i = (-rs i - dz i) / d i := by
      intro i
      rw [eq_div_iff (hd i)]
      linarith [h.compl i]
    refine ⟨hx, hs, ?_⟩
    rw [schur_mulVec]
    funext i
    induction i using Fin.addCases with
    | left i =>
      have := congrFun h.eq i
      rw [hx, Matrix.mulVec_sub, Matrix.mulVec_neg] at this
      simp only [Pi.sub_apply, Pi.neg_apply, Fin.addCases_left] at this ⊢
      linarith
    | right i =>
      have := congrFun h.ineq i
      rw [hx, Matrix.mulVec_sub, Matrix.mulVec_neg] at this
      simp only [Pi.sub_apply, Pi.add_apply, Pi.neg_apply, Fin.addCases_right, hs i, sub_div, neg_div] at this ⊢
      linarith
  obtain ⟨x1, s1, w1⟩ := sol h
  obtain ⟨x2, s2, w2⟩ := sol h'
  have hw : (Fin.addCases dy dz : Fin (neq + nineq) → ℝ) = Fin.addCases dy' dz' := by
    have e := congrArg (fun v => (flatBlocks (schur Q G A F d))⁻¹ *ᵥ v) (w1.trans w2.symm)
    simpa [Matrix.mulVec_mulVec, Matrix.nonsing_inv_mul _ hfl.isUnit] using e
  have hy : dy = dy' := by
    funext i; have := congrFun hw (Fin.castAdd nineq i); simpa using this
  have hz : dz = dz' := by
    funext i; have := congrFun hw (Fin.natAdd neq i); simpa using this
  subst hy hz
  exact ⟨x1.trans x2.symm, funext fun i => (s1 i).trans (s2 i).symm, rfl, rfl⟩

/-! ## C45 -/

/-- Repeated calls of `factor_kkt` on the same stored factorisation; a call that raises leaves it as it
was. -/
def factorHistory (f : Btrifact) (R : Matrix (Fin nineq) (Fin nineq) ℝ) (S : PackedLU (neq + nineq))
    (ds : List (Fin nineq → ℝ)) : PackedLU (neq + nineq) :=
  ds.foldl (fun S d => (factor_kkt f S R d).getD S) S

theorem factorHistory_inv (f : Btrifact) (hf : BtrifactOk f) (Q : Matrix (Fin nz) (Fin nz) ℝ)
    (G : Matrix (Fin nineq) (Fin nz) ℝ) (F : Matrix (Fin nineq) (Fin nineq) ℝ) (A : Matrix (Fin neq) (Fin nz) ℝ)
    (R : Matrix (Fin nineq) (Fin nineq) ℝ) (ds : List (Fin nineq → ℝ)) (S : PackedLU (neq + nineq))
    (hS : SInv Q G F A S R) : SInv Q G F A (factorHistory f R S ds) R := by
  induction ds generalizing S with
  | nil => exact hS
  | cons d ds ih =>
    apply ih
    cases h : factor_kkt f S R d with
    | none => simpa [h] using hS
    | some S' => simpa [h] using (factor_kkt_inv hf hS h).1

/-- C45: after `pre_factor_kkt` and any number of further factorisations with other weights,
`factor_kkt` leaves in `S_LU` an LU factorisation, with its row exchanges, of the whole matrix
`[[A Q⁻¹ Aᵀ, A Q⁻¹ Gᵀ], [G Q⁻¹ Aᵀ, G Q⁻¹ Gᵀ + F + diag(1/d)]]`. -/
theorem C45_block_lu (f : Btrifact) (hf : BtrifactOk f) (Q : Matrix (Fin nz) (Fin nz) ℝ)
    (G : Matrix (Fin nineq) (Fin nz) ℝ) (F : Matrix (Fin nineq) (Fin nineq) ℝ) (A : Matrix (Fin neq) (Fin nz) ℝ)
    (hsym : Qᵀ = Q) (K : Kkt nz nineq neq) (h : pre_factor_kkt f Q G F A = .ok K)
    (ds : List (Fin nineq → ℝ)) (d : Fin nineq → ℝ) (S' : PackedLU (neq + nineq))
    (hd : factor_kkt f (factorHistory f K.R K.S_LU ds) K.R d = some S') :
    Factors Q K.Q_LU ∧ Factors (flatBlocks (schur Q G A F d)) S' := by
  obtain ⟨h1, h2⟩ := pre_factor_inv hf hsym h
  exact ⟨h1, (factor_kkt_inv hf (factorHistory_inv f hf Q G F A K.R ds K.S_LU h2) hd).2⟩

/-- C45: `factor_kkt` raises exactly when that matrix is singular. -/
theorem C45_raises_iff_singular (f : Btrifact) (hf : BtrifactOk f) (Q : Matrix (Fin nz) (Fin nz) ℝ)
    (G : Matrix (Fin nineq) (Fin nz) ℝ) (F : Matrix (Fin nineq) (Fin nineq) ℝ) (A : Matrix (Fin neq) (Fin nz) ℝ)
    (hsym : Qᵀ = Q) (K : Kkt nz nineq neq) (h : pre_factor_kkt f Q G F A = .ok K)
    (ds : List (Fin nineq → ℝ)) (d : Fin nineq → ℝ) :
    factor_kkt f (factorHistory f K.R K.S_LU ds) K.R d = none ↔ (schur Q G A F d).det = 0 := by
  obtain ⟨-, h2⟩ := pre_factor_inv hf hsym h
  have hi := factorHistory_inv f hf Q G F A K.R ds K.S_LU h2
  obtain ⟨e, hne⟩ := schur_det hi d
  constructor
  · intro hn
    rw [factor_kkt, Option.map_eq_none_iff] at hn
    rw [e, hf.complete _ _ hn, mul_zero]
  · intro h0
    by_contra hs
    obtain ⟨S', hS'⟩ := Option.ne_none_iff_exists'.1 hs
    have := (factor_kkt_inv hf hi hS').2.det_ne
    rw [flatBlocks, Matrix.det_submatrix_equiv_self] at this
    exact this h0

/-- C45: the preparation raises exactly when `Q` or the equality block is singular. -/
theorem C45_pre_raises_iff (f : Btrifact) (hf : BtrifactOk f) (Q : Matrix (Fin nz) (Fin nz) ℝ)
    (G : Matrix (Fin nineq) (Fin nz) ℝ) (F : Matrix (Fin nineq) (Fin nineq) ℝ) (A : Matrix (Fin neq) (Fin nz) ℝ) :
    (∃ e, pre_factor_kkt f Q G F A = .error e) ↔ Q.det = 0 ∨ (A * Q⁻¹ * Aᵀ).det = 0 := by
  cases hQ : f nz Q with
  | none => simp [pre_factor_kkt, hQ, hf.complete _ _ hQ]
  | some Q_LU =>
    have fQ := hf.sound _ _ _ hQ
    have hne := fQ.det_ne
    by_cases hn : neq > 0
    · cases hA : f neq (A * Q⁻¹ * Aᵀ) with
      | none =>
        have := hf.complete _ _ hA
        simp [pre_factor_kkt, hQ, fQ.btrisolve_eq, ← Matrix.mul_assoc, hn, hA, this]
      | some LU =>
        have := (hf.sound _ _ _ hA).det_ne
        simp [pre_factor_kkt, hQ, fQ.btrisolve_eq, ← Matrix.mul_assoc, hn, hA, this, hne]
    · have hn0 : neq = 0 := by omega
      subst hn0
      simp [pre_factor_kkt, hQ, hne]

/-- C44 and C45 together: the step computed in any iteration solves the Newton system. -/
theorem C44_factor_and_solve (f : Btrifact) (hf : BtrifactOk f) (Q : Matrix (Fin nz) (Fin nz) ℝ)
    (G : Matrix (Fin nineq) (Fin nz) ℝ) (F : Matrix (Fin nineq) (Fin nineq) ℝ) (A : Matrix (Fin neq) (Fin nz) ℝ)
    (hsym : Qᵀ = Q) (K : Kkt nz nineq neq) (h : pre_factor_kkt f Q G F A = .ok K)
    (ds : List (Fin nineq → ℝ)) (d : Fin nineq → ℝ) (hd0 : ∀ i, d i ≠ 0) (S' : PackedLU (neq + nineq))
    (hd : factor_kkt f (factorHistory f K.R K.S_LU ds) K.R d = some S')
    (rx : Fin nz → ℝ) (rs rz : Fin nineq → ℝ) (ry : Fin neq → ℝ) :
    let v := solve_kkt K.Q_LU d G A S' rx rs rz ry
    NewtonStep Q G A F d rx rs rz ry v.x v.s v.z v.y := by
  obtain ⟨h1, h2⟩ := C45_block_lu f hf Q G F A hsym K h ds d S' hd
  exact C44_solve_kkt Q G A F d hd0 K.Q_LU S' h1 h2 rx rs rz ry

/-- C45: for a mass matrix that is positive definite, independent equality constraints and a
monotone `F` the matrix is never singular, so neither call raises. -/
theorem C45_monotone_never_raises (f : Btrifact) (hf : BtrifactOk f) (Q : Matrix (Fin nz) (Fin nz) ℝ)
    (G : Matrix (Fin nineq) (Fin nz) ℝ) (F : Matrix (Fin nineq) (Fin nineq) ℝ) (A : Matrix (Fin neq) (Fin nz) ℝ)
    (hsym : Qᵀ = Q) (hpos : ∀ v, v ≠ 0 → 0 < v ⬝ᵥ (Q *ᵥ v)) (hA : ∀ w, Aᵀ *ᵥ w = 0 → w = 0)
    (hF : ∀ w, 0 ≤ w ⬝ᵥ (F *ᵥ w)) :
    ∃ K, pre_factor_kkt f Q G F A = .ok K ∧ ∀ (ds : List (Fin nineq → ℝ)) (d : Fin nineq → ℝ), (∀ i, 0 < d i) →
      ∃ S', factor_kkt f (factorHistory f K.R K.S_LU ds) K.R d = some S' := by
  have hQ : Q.det ≠ 0 := by
    intro h0
    obtain ⟨v, hv, hv0⟩ := Matrix.exists_mulVec_eq_zero_iff.2 h0
    have := hpos v hv
    rw [hv0, dotProduct_zero] at this
    exact lt_irrefl _ this
  have hQQ : Q * Q⁻¹ = 1 := Matrix.mul_nonsing_inv _ hQ.isUnit
  have hinv : ∀ u, 0 ≤ u ⬝ᵥ (Q⁻¹ *ᵥ u) ∧ (u ⬝ᵥ (Q⁻¹ *ᵥ u) ≤ 0 → u = 0) := by
    intro u
    have e : u ⬝ᵥ (Q⁻¹ *ᵥ u) = (Q⁻¹ *ᵥ u) ⬝ᵥ (Q *ᵥ (Q⁻¹ *ᵥ u)) := by
      rw [Matrix.mulVec_mulVec, hQQ, Matrix.one_mulVec, dotProduct_comm]
    by_cases hz : Q⁻¹ *ᵥ u = 0
    · have hu : u = 0 := by
        have : Q *ᵥ (Q⁻¹ *ᵥ u) = u := by rw [Matrix.mulVec_mulVec, hQQ, Matrix.one_mulVec]
        rw [← this, hz, Matrix.mulVec_zero]
      exact ⟨by rw [hz, dotProduct_zero], fun _ => hu⟩
    · have := hpos _ hz
      rw [← e] at this
      exact ⟨this.le, fun h => absurd h (not_le.2 this)⟩
  have hsch : ∀ d : Fin nineq → ℝ, (∀ i, 0 < d i) → (schur Q G A F d).det ≠ 0 := by
    intro d hd h0
    have h0' : (flatBlocks (schur Q G A F d)).det = 0 := by
      rw [flatBlocks, Matrix.det_submatrix_equiv_self]; exact h0
    obtain ⟨w, hw, hw0⟩ := Matrix.exists_mulVec_eq_zero_iff.2 h0'
    apply hw
    set w1 : Fin neq → ℝ := fun i => w (Fin.castAdd nineq i) with hw1
    set w2 : Fin nineq → ℝ := fun i => w (Fin.natAdd neq i) with hw2
    have ew : w = Fin.addCases w1 w2 := by
      funext i
      induction i using Fin.addCases <;> simp [hw1, hw2]
    rw [ew, schur_mulVec] at hw0
    set u := Aᵀ *ᵥ w1 + Gᵀ *ᵥ w2 with hu
    have r1 : A *ᵥ (Q⁻¹ *ᵥ u) = 0 := by
      funext i; have := congrFun hw0 (Fin.castAdd nineq i); simpa using this
    have r2 : (G *ᵥ (Q⁻¹ *ᵥ u)) + F *ᵥ w2 + (fun i => w2 i / d i) = 0 := by
      funext i; have := congrFun hw0 (Fin.natAdd neq i); simpa using this
    have s1 : w1 ⬝ᵥ (A *ᵥ (Q⁻¹ *ᵥ u)) = (Aᵀ *ᵥ w1) ⬝ᵥ (Q⁻¹ *ᵥ u) := by
      rw [Matrix.dotProduct_mulVec, Matrix.mulVec_transpose]
    have s2 : w2 ⬝ᵥ (G *ᵥ (Q⁻¹ *ᵥ u)) = (Gᵀ *ᵥ w2) ⬝ᵥ (Q⁻¹ *ᵥ u) := by
      rw [Matrix.dotProduct_mulVec, Matrix.mulVec_transpose]
    have sum : u ⬝ᵥ (Q⁻¹ *ᵥ u) + w2 ⬝ᵥ (F *ᵥ w2) + w2 ⬝ᵥ (fun i => w2 i / d i) = 0 := by
      have e1 : w1 ⬝ᵥ (A *ᵥ (Q⁻¹ *ᵥ u)) = 0 := by rw [r1, dotProduct_zero]
      have e2 : w2 ⬝ᵥ (G *ᵥ (Q⁻¹ *ᵥ u) + F *ᵥ w2 + (fun i => w2 i / d i)) = 0 := by rw [r2, dotProduct_zero]
      rw [dotProduct_add, dotProduct_add] at e2
      have e3 : u ⬝ᵥ (Q⁻¹ *ᵥ u) = (Aᵀ *ᵥ w1) ⬝ᵥ (Q⁻¹ *ᵥ u) + (Gᵀ *ᵥ w2) ⬝ᵥ (Q⁻¹ *ᵥ u) := by
        rw [← add_dotProduct]
      linarith
    have hsq : w2 ⬝ᵥ (fun i => w2 i / d i) = ∑ i, w2 i ^ 2 / d i := by
      simp only [dotProduct]
      exact Finset.sum_congr rfl fun i _ => by ring
    have hsq0 : ∀ i, 0 ≤ w2 i ^ 2 / d i := fun i => div_nonneg (sq_nonneg _) (hd i).le
    have hsum0 : 0 ≤ ∑ i, w2 i ^ 2 / d i := Finset.sum_nonneg fun i _ => hsq0 i
    rw [hsq] at sum
    have hz2 : w2 = 0 := by
      funext i
      have hle : w2 i ^ 2 / d i ≤ ∑ i, w2 i ^ 2 / d i :=
        Finset.single_le_sum (f := fun i => w2 i ^ 2 / d i) (fun i _ => hsq0 i) (Finset.mem_univ i)
      have : w2 i ^ 2 / d i ≤ 0 := by linarith [(hinv u).1, hF w2]
      have h2 : w2 i ^ 2 ≤ 0 := by
        have := (div_le_iff₀ (hd i)).1 this
        simpa using this
      simpa using pow_eq_zero_iff (two_ne_zero) |>.1 (le_antisymm h2 (sq_nonneg _))
    have hu0 : u = 0 := (hinv u).2 (by linarith [hF w2])
    have hz1 : w1 = 0 := by
      apply hA
      rw [hu, hz2, Matrix.mulVec_zero, add_zero] at hu0
      exact hu0
    rw [ew, hz1, hz2]
    funext i
    induction i using Fin.addCases <;> simp
  have hAA : (A * Q⁻¹ * Aᵀ).det ≠ 0 := by
    intro h0
    obtain ⟨w, hw, hw0⟩ := Matrix.exists_mulVec_eq_zero_iff.2 h0
    apply hw
    apply hA
    apply (hinv _).2
    have : w ⬝ᵥ ((A * Q⁻¹ * Aᵀ) *ᵥ w) = (Aᵀ *ᵥ w) ⬝ᵥ (Q⁻¹ *ᵥ (Aᵀ *ᵥ w)) := by
      rw [← Matrix.mulVec_mulVec, ← Matrix.mulVec_mulVec, Matrix.dotProduct_mulVec, Matrix.mulVec_transpose]
    rw [← this, hw0, dotProduct_zero]
  have hpre : ¬ ∃ e, pre_factor_kkt f Q G F A = .error e := by
    rw [C45_pre_raises_iff f hf]
    exact not_or.2 ⟨hQ, hAA⟩
  cases hK : pre_factor_kkt f Q G F A with
  | error e => exact absurd ⟨e, hK⟩ hpre
  | ok K =>
    refine ⟨K, rfl, fun ds d hd => ?_⟩
    apply Option.ne_none_iff_exists'.1
    rw [Ne, C45_raises_iff_singular f hf Q G F A hsym K hK]
    exact hsch d hd

/-- Non-vacuity: there are factorisation routines that meet the contract, for them both calls
succeed on a small problem, and C44, C45 apply. -/
example : ∃ f, BtrifactOk f ∧ ∃ K, pre_factor_kkt f !![(2:ℝ)] !![(1:ℝ)] !![(1:ℝ)] !![(1:ℝ)] = .ok K ∧
    ∃ S', factor_kkt f (factorHistory f K.R K.S_LU [fun _ => 3]) K.R (fun _ => 1) = some S' := by
  obtain ⟨K, hK, h⟩ := C45_monotone_never_raises someBtrifact someBtrifact_ok !![(2:ℝ)] !![(1:ℝ)] !![(1:ℝ)] !![(1:ℝ)]
    (by ext i j; fin_cases i; fin_cases j; simp) (by
      intro v hv
      have : v 0 ≠ 0 := fun h => hv (by funext i; fin_cases i; simpa using h)
      have h2 : 0 < v 0 ^ 2 := by positivity
      simp [dotProduct, Matrix.mulVec]
      nlinarith) (by
      intro w hw
      have := congrFun hw 0
      funext i; fin_cases i
      simpa [Matrix.mulVec, dotProduct] using this) (by
      intro w
      simp [dotProduct, Matrix.mulVec]
      exact mul_self_nonneg _)
  exact ⟨_, someBtrifact_ok, K, hK, h [fun _ => 3] (fun _ => 1) fun _ => one_pos⟩

end LcpPhysics
