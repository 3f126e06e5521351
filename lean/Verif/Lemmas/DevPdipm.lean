import Verif.Model.DevPdipm
import Verif.Props.Refine

/-! # Helper lemmas: the KKT variants of the development solver as one linear system -/

noncomputable section

namespace LcpPhysics
open Matrix Spec

variable {nz nineq neq n m : ℕ}

/-- The four components as one vector. -/
def flat4 (v : Iter nz nineq neq) : Fin (nz + nineq + (nineq + neq)) → ℝ :=
  Fin.addCases (Fin.addCases v.x v.s) (Fin.addCases v.z v.y)

theorem flat4_eq (v : Iter nz nineq neq) : flat4 v =
    (Fin.addCases (Fin.addCases v.x v.s : Fin (nz + nineq) → ℝ) (Fin.addCases v.z v.y : Fin (nineq + neq) → ℝ) :
      Fin (nz + nineq + (nineq + neq)) → ℝ) := rfl

theorem pack_inj {v w : Iter nz nineq neq} (h : flat4 v = flat4 w) : v = w := by
  ext i
  · simpa [flat4] using congrFun h (Fin.castAdd _ (Fin.castAdd _ i))
  · simpa [flat4] using congrFun h (Fin.castAdd _ (Fin.natAdd _ i))
  · simpa [flat4] using congrFun h (Fin.natAdd _ (Fin.castAdd _ i))
  · simpa [flat4] using congrFun h (Fin.natAdd _ (Fin.natAdd _ i))

theorem pack_neg (v : Iter nz nineq neq) : flat4 v.neg = -flat4 v := by
  funext i
  induction i using Fin.addCases with
  | left i => induction i using Fin.addCases <;> simp [flat4, Iter.neg]
  | right i => induction i using Fin.addCases <;> simp [flat4, Iter.neg]

theorem pack_add (v w : Iter nz nineq neq) : flat4 (v.add w) = flat4 v + flat4 w := by
  funext i
  induction i using Fin.addCases with
  | left i => induction i using Fin.addCases <;> simp [flat4, Iter.add]
  | right i => induction i using Fin.addCases <;> simp [flat4, Iter.add]

theorem catBlocks_rect_mulVec (A : Matrix (Fin n) (Fin n) ℝ) (B : Matrix (Fin n) (Fin m) ℝ) (C : Matrix (Fin m) (Fin n) ℝ)
    (D : Matrix (Fin m) (Fin m) ℝ) (u : Fin n → ℝ) (w : Fin m → ℝ) :
    catBlocks A B C D *ᵥ (Fin.addCases u w : Fin (n + m) → ℝ) = Fin.addCases (A *ᵥ u + B *ᵥ w) (C *ᵥ u + D *ᵥ w) := by
  rw [catBlocks_mulVec]
  simp

/-- Every vector is a pair. -/
theorem addCases_eta (u : Fin (n + m) → ℝ) :
    (Fin.addCases (fun i => u (Fin.castAdd m i)) (fun i => u (Fin.natAdd n i)) : Fin (n + m) → ℝ) = u := by
  funext i
  induction i using Fin.addCases <;> simp

/-- With `H` and the Schur complement regular the whole matrix is. -/
theorem fullMat_det {H : Matrix (Fin n) (Fin n) ℝ} {A : Matrix (Fin m) (Fin n) ℝ} {S : Matrix (Fin m) (Fin m) ℝ}
    (hH : H.det ≠ 0) (hS : (A * (H⁻¹ * Aᵀ) + S).det ≠ 0) : (fullMat H A (-S)).det ≠ 0 := by
  intro h0
  obtain ⟨u, hu, hu0⟩ := Matrix.exists_mulVec_eq_zero_iff.2 h0
  have iH : H⁻¹ * H = 1 := Matrix.nonsing_inv_mul _ hH.isUnit
  rw [← addCases_eta u, fullMat, catBlocks_rect_mulVec] at hu0
  set a := fun i => u (Fin.castAdd m i)
  set b := fun i => u (Fin.natAdd n i)
  have h1 : H *ᵥ a + Aᵀ *ᵥ b = 0 := by
    funext i; simpa using congrFun hu0 (Fin.castAdd m i)
  have h2 : A *ᵥ a + (-S) *ᵥ b = 0 := by
    funext i; simpa using congrFun hu0 (Fin.natAdd n i)
  have ha : a = -(H⁻¹ *ᵥ (Aᵀ *ᵥ b)) := by
    have := congrArg (H⁻¹ *ᵥ ·) h1
    simp only [Matrix.mulVec_add, Matrix.mulVec_mulVec _ H⁻¹ H, iH, Matrix.one_mulVec, Matrix.mulVec_zero] at this
    exact eq_neg_of_add_eq_zero_left this
  have hb : (A * (H⁻¹ * Aᵀ) + S) *ᵥ b = 0 := by
    rw [ha, Matrix.mulVec_neg, Matrix.neg_mulVec] at h2
    rw [Matrix.add_mulVec, ← Matrix.mulVec_mulVec, ← Matrix.mulVec_mulVec]
    have := congrArg Neg.neg h2
    simpa [add_comm] using this
  have hb0 : b = 0 := by
    by_contra hb0
    exact hS (Matrix.exists_mulVec_eq_zero_iff.1 ⟨b, hb0, hb⟩)
  apply hu
  rw [← addCases_eta u]
  have ha0 : a = 0 := by rw [ha, hb0]; simp
  change (Fin.addCases a b : Fin (n + m) → ℝ) = 0
  rw [ha0, hb0]
  funext i
  induction i using Fin.addCases <;> simp

/-- With `H` and the whole matrix regular the Schur complement is. -/
theorem schur_regular {H : Matrix (Fin n) (Fin n) ℝ} {A : Matrix (Fin m) (Fin n) ℝ} {S : Matrix (Fin m) (Fin m) ℝ}
    (hH : H.det ≠ 0) (hF : (fullMat H A (-S)).det ≠ 0) : (A * (H⁻¹ * Aᵀ) + S).det ≠ 0 := by
  intro h0
  obtain ⟨b, hb, hb0⟩ := Matrix.exists_mulVec_eq_zero_iff.2 h0
  have iH : H * H⁻¹ = 1 := Matrix.mul_nonsing_inv _ hH.isUnit
  apply hF
  apply Matrix.exists_mulVec_eq_zero_iff.1
  refine ⟨Fin.addCases (-(H⁻¹ *ᵥ (Aᵀ *ᵥ b))) b, ?_, ?_⟩
  · intro h
    apply hb
    funext i
    simpa using congrFun h (Fin.natAdd n i)
  · rw [fullMat, catBlocks_rect_mulVec]
    rw [Matrix.add_mulVec, ← Matrix.mulVec_mulVec, ← Matrix.mulVec_mulVec] at hb0
    have e1 : H *ᵥ -(H⁻¹ *ᵥ (Aᵀ *ᵥ b)) + Aᵀ *ᵥ b = 0 := by
      rw [Matrix.mulVec_neg, Matrix.mulVec_mulVec _ H, iH, Matrix.one_mulVec]; simp
    have e2 : A *ᵥ -(H⁻¹ *ᵥ (Aᵀ *ᵥ b)) + (-S) *ᵥ b = 0 := by
      rw [Matrix.mulVec_neg, Matrix.neg_mulVec, ← neg_add, hb0, neg_zero]
    rw [e1, e2]
    funext i
    induction i using Fin.addCases <;> simp

/-- What the elimination returns solves the whole system, whose matrix is regular. -/
theorem factor_pack {f : Btrifact} (hf : BtrifactOk f) {H : Matrix (Fin (nz + nineq)) (Fin (nz + nineq)) ℝ}
    {A : Matrix (Fin (nineq + neq)) (Fin (nz + nineq)) ℝ} {S : Matrix (Fin (nineq + neq)) (Fin (nineq + neq)) ℝ}
    {r v : Iter nz nineq neq} (h : factorSolveBlocks f H A S r = some v) :
    fullMat H A (-S) *ᵥ flat4 v = -flat4 r ∧ H.det ≠ 0 ∧ (fullMat H A (-S)).det ≠ 0 := by
  unfold factorSolveBlocks at h
  simp only [Option.bind_eq_some_iff, Option.map_eq_some_iff] at h
  obtain ⟨HLU, hH, SLU, hS, rfl⟩ := h
  have fH := hf.sound _ _ _ hH
  have fS := hf.sound _ _ _ hS
  have key := saddle_solve fH fS (Fin.addCases r.x r.s) (Fin.addCases r.z r.y)
  simp only at key
  refine ⟨?_, fH.det_ne, fullMat_det fH.det_ne ?_⟩
  · generalize -btrisolveV SLU (btrisolveV HLU (Fin.addCases r.x r.s) ᵥ* Aᵀ - Fin.addCases r.z r.y) = w at key ⊢
    generalize btrisolveV HLU (-Fin.addCases r.x r.s - w ᵥ* A) = v at key ⊢
    obtain ⟨k1, k2⟩ := key
    rw [flat4_eq]
    simp only [addCases_eta]
    rw [fullMat, catBlocks_rect_mulVec, k1, Matrix.neg_mulVec, ← sub_eq_add_neg, k2]
    funext i
    induction i using Fin.addCases <;> simp [flat4]
  · have := fS.det_ne
    rwa [fH.btrisolve_eq] at this

/-- The elimination raises only when `H` or the whole matrix is singular. -/
theorem factor_total {f : Btrifact} (hf : BtrifactOk f) {H : Matrix (Fin (nz + nineq)) (Fin (nz + nineq)) ℝ}
    {A : Matrix (Fin (nineq + neq)) (Fin (nz + nineq)) ℝ} {S : Matrix (Fin (nineq + neq)) (Fin (nineq + neq)) ℝ}
    (hH : H.det ≠ 0) (hF : (fullMat H A (-S)).det ≠ 0) (r : Iter nz nineq neq) :
    ∃ v, factorSolveBlocks f H A S r = some v := by
  cases h1 : f (nz + nineq) H with
  | none => exact absurd (hf.complete _ _ h1) hH
  | some HLU =>
    cases h2 : f (nineq + neq) (A * btrisolve HLU Aᵀ + S) with
    | none =>
      have := hf.complete _ _ h2
      rw [(hf.sound _ _ _ h1).btrisolve_eq] at this
      exact absurd this (schur_regular hH hF)
    | some SLU => exact ⟨_, by simp [factorSolveBlocks, h1, h2]; rfl⟩

theorem mulVec_cancel {X : Matrix (Fin n) (Fin n) ℝ} (hX : X.det ≠ 0) {u w : Fin n → ℝ} (h : X *ᵥ u = X *ᵥ w) : u = w := by
  by_contra hc
  apply hX
  apply Matrix.exists_mulVec_eq_zero_iff.1
  exact ⟨u - w, sub_ne_zero.2 hc, by rw [Matrix.mulVec_sub, h, sub_self]⟩

/-- Two factorisations give the same answers and raise together. -/
theorem factor_same {f g : Btrifact} (hf : BtrifactOk f) (hg : BtrifactOk g) (H : Matrix (Fin (nz + nineq)) (Fin (nz + nineq)) ℝ)
    (A : Matrix (Fin (nineq + neq)) (Fin (nz + nineq)) ℝ) (S : Matrix (Fin (nineq + neq)) (Fin (nineq + neq)) ℝ)
    (r : Iter nz nineq neq) : factorSolveBlocks f H A S r = factorSolveBlocks g H A S r := by
  cases h : factorSolveBlocks f H A S r with
  | some v =>
    obtain ⟨h1, h2, h3⟩ := factor_pack hf h
    obtain ⟨w, hw⟩ := factor_total hg h2 h3 r
    obtain ⟨g1, -, -⟩ := factor_pack hg hw
    rw [hw, pack_inj (mulVec_cancel h3 (h1.trans g1.symm))]
  | none =>
    cases h' : factorSolveBlocks g H A S r with
    | none => rfl
    | some w =>
      obtain ⟨-, h2, h3⟩ := factor_pack hg h'
      obtain ⟨v, hv⟩ := factor_total hf h2 h3 r
      rw [h] at hv; cases hv

/-- The solve by inversion: the whole matrix is regular and maps the answer to the right hand side. -/
theorem inverse_pack {Q : Matrix (Fin nz) (Fin nz) ℝ} {D : Matrix (Fin nineq) (Fin nineq) ℝ}
    {G : Matrix (Fin nineq) (Fin nz) ℝ} {A : Matrix (Fin neq) (Fin nz) ℝ}
    {C : Matrix (Fin (nineq + neq)) (Fin (nineq + neq)) ℝ} {r v : Iter nz nineq neq} :
    solve_kkt_inverse Q D G A C r = some v ↔
      (fullMat (blockH Q D) (blockA G A) C).det ≠ 0 ∧ fullMat (blockH Q D) (blockA G A) C *ᵥ flat4 v = flat4 r := by
  set X := fullMat (blockH Q D) (blockA G A) C with hX
  unfold solve_kkt_inverse binverse
  by_cases h0 : X.det = 0
  · simp only [← hX, if_pos h0, Option.map_none]
    simp [h0]
  · simp only [← hX, if_neg h0, Option.map_some, Option.some.injEq]
    have iX : X * X⁻¹ = 1 := Matrix.mul_nonsing_inv _ (Ne.isUnit h0)
    change _ ↔ X.det ≠ 0 ∧ _
    have key : ∀ sol : Fin (nz + nineq + (nineq + neq)) → ℝ, flat4 (nz := nz) (nineq := nineq) (neq := neq)
        { x := fun i => sol (Fin.castAdd (nineq + neq) (Fin.castAdd nineq i))
          s := fun i => sol (Fin.castAdd (nineq + neq) (Fin.natAdd nz i))
          z := fun i => sol (Fin.natAdd (nz + nineq) (Fin.castAdd neq i))
          y := fun i => sol (Fin.natAdd (nz + nineq) (Fin.natAdd nineq i)) } = sol := by
      intro sol
      funext i
      induction i using Fin.addCases with
      | left i => induction i using Fin.addCases <;> simp [flat4]
      | right i => induction i using Fin.addCases <;> simp [flat4]
    constructor
    · rintro rfl
      refine ⟨h0, ?_⟩
      rw [key, Matrix.mulVec_mulVec, iX, Matrix.one_mulVec]
      rfl
    · rintro ⟨-, h⟩
      apply pack_inj
      rw [key]
      apply mulVec_cancel h0
      rw [Matrix.mulVec_mulVec, iX, Matrix.one_mulVec, h]
      rfl

/-- The regularised matrix. -/
def RegKkt.reg (M : RegKkt nz nineq neq) (eps : ℝ) : Matrix (Fin (nz + nineq + (nineq + neq))) (Fin (nz + nineq + (nineq + neq))) ℝ :=
  fullMat (blockH (M.Q + eps • 1) (M.D + eps • 1)) (blockA M.G M.A) (regC eps M.F)

/-- The matrix in which `Q` and `D` are as given. -/
def RegKkt.plain (M : RegKkt nz nineq neq) (eps : ℝ) : Matrix (Fin (nz + nineq + (nineq + neq))) (Fin (nz + nineq + (nineq + neq))) ℝ :=
  fullMat (blockH M.Q M.D) (blockA M.G M.A) (regC eps M.F)

theorem RegKkt.resid_pack (M : RegKkt nz nineq neq) (eps : ℝ) (v r : Iter nz nineq neq) :
    flat4 (M.resid eps v r) = M.plain eps *ᵥ flat4 v + flat4 r := by
  rw [RegKkt.resid_eq, RegKkt.plain, fullMat]
  rw [flat4_eq, flat4_eq, flat4_eq]
  rw [catBlocks_rect_mulVec, blockH, catBlocks_rect_mulVec, blockA_transpose_mulVec, blockA_mulVec, regC, Matrix.sub_mulVec,
    catBlocks_rect_mulVec]
  funext i
  induction i using Fin.addCases with
  | left i =>
    induction i using Fin.addCases <;> simp [kktRes, Matrix.smul_mulVec, Matrix.neg_mulVec] <;> ring
  | right i =>
    induction i using Fin.addCases <;> simp [kktRes, Matrix.smul_mulVec, Matrix.neg_mulVec] <;> ring

theorem RegKkt.solve_pack {f : Btrifact} (hf : BtrifactOk f) {M : RegKkt nz nineq neq} {eps : ℝ} {r v : Iter nz nineq neq}
    (h : M.solve f eps r = some v) : M.reg eps *ᵥ flat4 v = -flat4 r ∧ (M.reg eps).det ≠ 0 := by
  have := factor_pack hf h
  rw [neg_neg] at this
  exact ⟨this.1, this.2.2⟩

theorem RegKkt.solveInverse_pack {M : RegKkt nz nineq neq} {eps : ℝ} {r v : Iter nz nineq neq} :
    M.solveInverse eps r = some v ↔ (M.reg eps).det ≠ 0 ∧ M.reg eps *ᵥ flat4 v = flat4 r := inverse_pack

/-- Every vector is the four components of some iterate. -/
theorem exists_flat4 (u : Fin (nz + nineq + (nineq + neq)) → ℝ) : ∃ v : Iter nz nineq neq, flat4 v = u := by
  refine ⟨{ x := fun i => u (Fin.castAdd (nineq + neq) (Fin.castAdd nineq i))
            s := fun i => u (Fin.castAdd (nineq + neq) (Fin.natAdd nz i))
            z := fun i => u (Fin.natAdd (nz + nineq) (Fin.castAdd neq i))
            y := fun i => u (Fin.natAdd (nz + nineq) (Fin.natAdd nineq i)) }, ?_⟩
  funext i
  induction i using Fin.addCases with
  | left i => induction i using Fin.addCases <;> simp [flat4]
  | right i => induction i using Fin.addCases <;> simp [flat4]

theorem flat4_zero : flat4 ({ x := 0, s := 0, z := 0, y := 0 } : Iter nz nineq neq) = 0 := by
  funext i
  induction i using Fin.addCases with
  | left i => induction i using Fin.addCases <;> simp [flat4]
  | right i => induction i using Fin.addCases <;> simp [flat4]

theorem RegKkt.solveInverse_total {M : RegKkt nz nineq neq} {eps : ℝ} (h : (M.reg eps).det ≠ 0) (r : Iter nz nineq neq) :
    ∃ v, M.solveInverse eps r = some v := by
  obtain ⟨v, hv⟩ := exists_flat4 ((M.reg eps)⁻¹ *ᵥ flat4 r)
  refine ⟨v, RegKkt.solveInverse_pack.2 ⟨h, ?_⟩⟩
  rw [hv, Matrix.mulVec_mulVec, Matrix.mul_nonsing_inv _ h.isUnit, Matrix.one_mulVec]

end LcpPhysics
