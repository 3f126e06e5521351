import Verif.Lemmas.DevPdipm
import Verif.Props.Kkt
import Verif.Props.Solver

/-! # C116: the KKT solvers of the development version

Same system, different variants: which of them compute the same step, which the opposite one, and
what iterative refinement does to each. -/

noncomputable section

namespace LcpPhysics
open Matrix Spec

variable {nz nineq neq : ℕ}

/-- C116: without refinement the variant by inversion returns minus the step of the variant by
factorisation. -/
theorem C116_opposite (f : Btrifact) (hf : BtrifactOk f) (M : RegKkt nz nineq neq) (eps : ℝ) (r v : Iter nz nineq neq)
    (h : M.solve f eps r = some v) : solve_kkt_ir f M eps r 0 = some v ∧ solve_kkt_ir_inverse M eps r 0 = some v.neg := by
  obtain ⟨h1, h2⟩ := RegKkt.solve_pack hf h
  have : M.solveInverse eps r = some v.neg := by
    rw [RegKkt.solveInverse_pack]
    exact ⟨h2, by rw [pack_neg, Matrix.mulVec_neg, h1, neg_neg]⟩
  exact ⟨by simp [solve_kkt_ir, h, refineLoop], by simp [solve_kkt_ir_inverse, this, refineWith]⟩

/-- C116: with the one sweep both perform by default the two return the same step: the wrong sign of
the correction in the one and of the start in the other have the same effect. -/
theorem C116_one_sweep (f : Btrifact) (hf : BtrifactOk f) (M : RegKkt nz nineq neq) (eps : ℝ) (r v : Iter nz nineq neq)
    (h : solve_kkt_ir f M eps r 1 = some v) : solve_kkt_ir_inverse M eps r 1 = some v := by
  simp only [solve_kkt_ir, refineLoop, Option.bind_eq_some_iff, Option.some.injEq] at h
  obtain ⟨v0, h0, dv, hdv, rfl⟩ := h
  obtain ⟨a1, a2⟩ := RegKkt.solve_pack hf h0
  obtain ⟨b1, -⟩ := RegKkt.solve_pack hf hdv
  have e0 : M.solveInverse eps r = some v0.neg := by
    rw [RegKkt.solveInverse_pack]
    exact ⟨a2, by rw [pack_neg, Matrix.mulVec_neg, a1, neg_neg]⟩
  have e1 : M.solveInverse eps (M.resid eps v0.neg r).neg = some ((v0.add v0).add dv) := by
    rw [RegKkt.solveInverse_pack]
    refine ⟨a2, ?_⟩
    rw [pack_add, pack_add, Matrix.mulVec_add, Matrix.mulVec_add, a1, b1, pack_neg, pack_neg, RegKkt.resid_pack,
      RegKkt.resid_pack, pack_neg, Matrix.mulVec_neg]
    abel
  simp only [solve_kkt_ir_inverse, e0, Option.bind_some, refineWith, e1]
  congr 1
  apply pack_inj
  rw [pack_add, pack_add, pack_add, pack_add, pack_neg]
  abel

/-- C116: conversely, when the block of `Q` and `D` is regular the factorisation also returns. -/
theorem C116_one_sweep_back (f : Btrifact) (hf : BtrifactOk f) (M : RegKkt nz nineq neq) (eps : ℝ) (r v : Iter nz nineq neq)
    (hH : (blockH (M.Q + eps • 1) (M.D + eps • 1)).det ≠ 0) (h : solve_kkt_ir_inverse M eps r 1 = some v) :
    solve_kkt_ir f M eps r 1 = some v := by
  have hdet : (M.reg eps).det ≠ 0 := by
    simp only [solve_kkt_ir_inverse, Option.bind_eq_some_iff] at h
    obtain ⟨v0, h0, -⟩ := h
    exact (RegKkt.solveInverse_pack.1 h0).1
  have tot : ∀ r, ∃ v, M.solve f eps r = some v := fun r =>
    factor_total hf hH (by rw [neg_neg]; exact hdet) r
  obtain ⟨v0, h0⟩ := tot r
  obtain ⟨dv, hdv⟩ := tot (M.resid eps v0 r).neg
  have : solve_kkt_ir f M eps r 1 = some (v0.add dv) := by simp [solve_kkt_ir, refineLoop, h0, hdv]
  rw [this, ← C116_one_sweep f hf M eps r _ this, h]

/-- After a sweep of the variant by inversion only the residuals of the first two blocks are left. -/
theorem inverse_sweep (f : Btrifact) (hf : BtrifactOk f) (M : RegKkt nz nineq neq) (eps : ℝ)
    (hH : (blockH (M.Q + eps • 1) (M.D + eps • 1)).det ≠ 0) {r v dv : Iter nz nineq neq}
    (h : M.solveInverse eps (M.resid eps v r).neg = some dv) : M.solve f eps (M.resid eps v r) = some dv := by
  obtain ⟨h1, h2⟩ := RegKkt.solveInverse_pack.1 h
  obtain ⟨w, hw⟩ := factor_total (S := -(regC eps M.F)) hf hH (by rw [neg_neg]; exact h1) (M.resid eps v r)
  have hw : M.solve f eps (M.resid eps v r) = some w := hw
  obtain ⟨g1, -⟩ := RegKkt.solve_pack hf hw
  rw [hw, pack_inj (mulVec_cancel h1 (g1.trans ((pack_neg _).symm.trans h2.symm)))]

theorem coercive_blockH {M : RegKkt nz nineq neq} {lam eps : ℝ} (hM : Coercive M lam) (hl : 0 ≤ lam) (he : 0 < eps) :
    (blockH (M.Q + eps • 1) (M.D + eps • 1)).det ≠ 0 := by
  have h := (C61_never_raises someBtrifact someBtrifact_ok M lam eps hM hl he { x := 0, s := 0, z := 0, y := 0 } 0).1
  obtain ⟨v, hv⟩ := Option.isSome_iff_exists.1 h
  exact (factor_pack someBtrifact_ok hv).2.1

/-- C116: the variant by inversion does refine: from the first sweep on every further sweep shrinks
the residual at least by the factor `eps / (lam + eps)` (that of the other variant grows,
`C61_refinement_diverges`). -/
theorem C116_inverse_refines (M : RegKkt nz nineq neq) (lam eps : ℝ) (hM : Coercive M lam) (hl : 0 ≤ lam) (he : 0 < eps)
    (r : Iter nz nineq neq) (niter : ℕ) : ∃ v1 v, solve_kkt_ir_inverse M eps r 1 = some v1 ∧
      solve_kkt_ir_inverse M eps r (niter + 1) = some v ∧
      sizeSq (M.resid eps v r) ≤ ((eps / (lam + eps)) ^ niter) ^ 2 * sizeSq (M.resid eps v1 r) := by
  have hH := coercive_blockH hM hl he
  set f := someBtrifact
  have hf : BtrifactOk f := someBtrifact_ok
  have hdet : (M.reg eps).det ≠ 0 := by
    obtain ⟨v, hv⟩ := Option.isSome_iff_exists.1 (C61_never_raises f hf M lam eps hM hl he r 0).1
    exact (RegKkt.solve_pack hf hv).2
  have tot : ∀ r, ∃ v, M.solveInverse eps r = some v := by
    intro r
    obtain ⟨v, hv⟩ := Option.isSome_iff_exists.1 (C61_never_raises f hf M lam eps hM hl he r 0).1
    refine ⟨v.neg, RegKkt.solveInverse_pack.2 ⟨hdet, ?_⟩⟩
    rw [pack_neg, Matrix.mulVec_neg, (RegKkt.solve_pack hf hv).1, neg_neg]
  obtain ⟨v0, h0⟩ := tot r
  obtain ⟨dv, hdv⟩ := tot (M.resid eps v0 r).neg
  have s1 := RegKkt.solve_spec hf (inverse_sweep f hf M eps hH hdv)
  have hz : (M.resid eps (v0.add dv) r).z = 0 ∧ (M.resid eps (v0.add dv) r).y = 0 := by
    obtain ⟨-, -, h3, h4⟩ := s1
    simp only [RegKkt.resid_eq] at h3 h4 ⊢
    constructor
    · funext i
      have := congrFun h3 i
      simp [kktRes, Iter.add, Matrix.mulVec_add] at this ⊢; linarith
    · funext i
      have := congrFun h4 i
      simp [kktRes, Iter.add, Matrix.mulVec_add] at this ⊢; linarith
  have key : ∀ (n : ℕ) (u : Iter nz nineq neq), (M.resid eps u r).z = 0 → (M.resid eps u r).y = 0 →
      ∃ v, refineWith (M.solveInverse eps) M eps r n u = some v ∧
        sizeSq (M.resid eps v r) ≤ ((eps / (lam + eps)) ^ n) ^ 2 * sizeSq (M.resid eps u r) := by
    intro n
    induction n with
    | zero => intro u _ _; exact ⟨u, rfl, by simp⟩
    | succ n ih =>
      intro u hz hy
      obtain ⟨w, hw⟩ := tot (M.resid eps u r).neg
      obtain ⟨z', y', hle⟩ := C61_right_sign_refines f hf M lam eps hM hl he r u w hz hy (inverse_sweep f hf M eps hH hw)
      obtain ⟨v, hv, hv'⟩ := ih _ z' y'
      refine ⟨v, by simp [refineWith, hw, hv], hv'.trans ?_⟩
      have hp : 0 ≤ ((eps / (lam + eps)) ^ n) ^ 2 := by positivity
      calc _ ≤ ((eps / (lam + eps)) ^ n) ^ 2 * ((eps / (lam + eps)) ^ 2 * sizeSq (M.resid eps u r)) :=
            mul_le_mul_of_nonneg_left hle hp
        _ = _ := by ring
  obtain ⟨v, hv, hle⟩ := key niter (v0.add dv) hz.1 hz.2
  refine ⟨v0.add dv, v, by simp [solve_kkt_ir_inverse, refineWith, h0, hdv], ?_, hle⟩
  simp [solve_kkt_ir_inverse, refineWith, h0, hdv, hv]

/-- What the sparse solve satisfies: the rows of `D`, `F` and `A` exactly, that of `Q` with `eps` added. -/
theorem solveSparse_spec {f : Btrifact} (hf : BtrifactOk f) {M : RegKkt nz nineq neq} {eps : ℝ} {r v : Iter nz nineq neq}
    (h : M.solveSparse f eps r = some v) :
    (kktRes M eps eps v r).x = 0 ∧ (kktRes M eps 0 v r).s = 0 ∧ (kktRes M eps 0 v r).z = 0 ∧ (kktRes M eps 0 v r).y = 0 := by
  obtain ⟨h1, -, -⟩ := factor_pack hf h
  rw [neg_neg, flat4_eq, fullMat, catBlocks_rect_mulVec, blockH, catBlocks_rect_mulVec, blockA_transpose_mulVec, blockA_mulVec,
    regC, Matrix.sub_mulVec, catBlocks_rect_mulVec] at h1
  refine ⟨?_, ?_, ?_, ?_⟩
  · funext i
    have := congrFun h1 (Fin.castAdd _ (Fin.castAdd _ i))
    simp [flat4, Matrix.add_mulVec, Matrix.smul_mulVec, Matrix.neg_mulVec] at this
    simp [kktRes]; linarith
  · funext i
    have := congrFun h1 (Fin.castAdd _ (Fin.natAdd _ i))
    simp [flat4, Matrix.add_mulVec, Matrix.smul_mulVec, Matrix.neg_mulVec] at this
    simp [kktRes]; linarith
  · funext i
    have := congrFun h1 (Fin.natAdd _ (Fin.castAdd _ i))
    simp [flat4, Matrix.add_mulVec, Matrix.smul_mulVec, Matrix.neg_mulVec] at this
    simp [kktRes]; linarith
  · funext i
    have := congrFun h1 (Fin.natAdd _ (Fin.natAdd _ i))
    simp [flat4, Matrix.add_mulVec, Matrix.smul_mulVec, Matrix.neg_mulVec] at this
    simp [kktRes]; linarith

/-- C116: the sparse refinement factorises with `D` in place of `D_tilde`: whatever the number of
sweeps its step satisfies the complementarity rows of the unregularised system exactly. -/
theorem C116_sparse_rows (f : Btrifact) (hf : BtrifactOk f) (M : RegKkt nz nineq neq) (eps : ℝ) (r v : Iter nz nineq neq)
    (niter : ℕ) (h : sparse_solve_kkt_ir f M eps r niter = some v) : M.D *ᵥ v.s + v.z = -r.s := by
  have key : ∀ (n : ℕ) (u : Iter nz nineq neq), (M.resid eps u r).s = 0 → refineWith (M.solveSparse f eps) M eps r n u = some v →
      (M.resid eps v r).s = 0 := by
    intro n
    induction n with
    | zero => intro u hu h; cases h; exact hu
    | succ n ih =>
      intro u hu h
      simp only [refineWith, Option.bind_eq_some_iff] at h
      obtain ⟨dv, hdv, h⟩ := h
      refine ih _ ?_ h
      have := (solveSparse_spec hf hdv).2.1
      rw [RegKkt.resid_eq] at hu this ⊢
      funext i
      have h1 := congrFun hu i
      have h2 := congrFun this i
      simp [kktRes, Iter.add, Iter.neg, Matrix.mulVec_add] at h1 h2 ⊢
      linarith
  simp only [sparse_solve_kkt_ir, Option.bind_eq_some_iff] at h
  obtain ⟨v0, h0, h⟩ := h
  have := key niter v0 (by rw [RegKkt.resid_eq]; exact (solveSparse_spec hf h0).2.1) h
  rw [RegKkt.resid_eq] at this
  funext i
  have h1 := congrFun this i
  simp [kktRes] at h1 ⊢
  linarith

/-- C116: the dense refinement does not: with `Q = D = G = 1`, `F = 0`, no equalities and the right
hand side `(1, 0, 0)` its step misses the complementarity row for every positive `eps`. -/
theorem C116_dense_misses (f : Btrifact) (hf : BtrifactOk f) (eps : ℝ) (he : 0 < eps) :
    ∃ v, solve_kkt_ir f unitReg eps { x := fun _ => 1, s := 0, z := 0, y := 0 } 1 = some v ∧
      unitReg.D *ᵥ v.s + v.z ≠ 0 := by
  obtain ⟨v, hv⟩ := Option.isSome_iff_exists.1
    (C61_never_raises f hf unitReg 1 eps unitReg_coercive zero_le_one he { x := fun _ => 1, s := 0, z := 0, y := 0 } 1).2
  refine ⟨v, hv, ?_⟩
  simp only [solve_kkt_ir, refineLoop, Option.bind_eq_some_iff, Option.some.injEq] at hv
  obtain ⟨v0, h0, dv, hdv, rfl⟩ := hv
  obtain ⟨a1, a2, a3, -⟩ := RegKkt.solve_spec hf h0
  obtain ⟨b1, b2, b3, -⟩ := RegKkt.solve_spec hf hdv
  rw [RegKkt.resid_eq] at b1 b2 b3
  have a1 := congrFun a1 0
  have a2 := congrFun a2 0
  have a3 := congrFun a3 0
  have b1 := congrFun b1 0
  have b2 := congrFun b2 0
  have b3 := congrFun b3 0
  simp [kktRes, unitReg, Iter.neg] at a1 a2 a3 b1 b2 b3
  intro hc
  have hc := congrFun hc 0
  simp [unitReg, Iter.add] at hc
  generalize v0.x 0 = x at *
  generalize v0.s 0 = s at *
  generalize v0.z 0 = z at *
  generalize dv.x 0 = dx at *
  generalize dv.s 0 = ds at *
  generalize dv.z 0 = dz at *
  -- the residual of the row is `-eps * (2 s + ds)`
  have h1 : 2 * s + ds = 0 := by
    have : eps * (2 * s + ds) = 0 := by linarith
    rcases mul_eq_zero.1 this with h | h
    · linarith
    · exact h
  have hz : z = -(1 + eps) * s := by linarith
  have hx : x = -s + eps * z := by linarith
  have hdz : dz = -(1 + eps) * ds - eps * s := by linarith
  have hdx : dx = -ds + eps * dz := by linarith
  have hds : ds = -2 * s := by linarith
  subst hz; subst hx; subst hdz; subst hdx; subst hds
  have hs : s ≠ 0 := by
    rintro rfl
    simp at a1
  have hs2 : s * (2 + 3 * eps + 2 * eps ^ 2 + eps ^ 3) = 1 := by linear_combination -a1
  have hs3 : s * (6 + 7 * eps + 4 * eps ^ 2 + eps ^ 3) = 1 := by linear_combination b1
  have key : s * (4 + 4 * eps + 2 * eps ^ 2) = 0 := by linear_combination hs3 - hs2
  rcases mul_eq_zero.1 key with h | h
  · exact hs h
  · have : 0 < 4 + 4 * eps + 2 * eps ^ 2 := by positivity
    linarith

/-- `C116_sparse_rows` and `C116_dense_misses` on the same data: both variants return, the sparse step meets
the complementarity row and the dense one does not, so they differ. -/
example : ∃ v w, sparse_solve_kkt_ir someBtrifact unitReg (1 / 10 ^ 7) { x := fun _ => 1, s := 0, z := 0, y := 0 } 1 = some v ∧
    solve_kkt_ir someBtrifact unitReg (1 / 10 ^ 7) { x := fun _ => 1, s := 0, z := 0, y := 0 } 1 = some w ∧ v ≠ w := by
  have e : ∀ r, unitReg.solveSparse someBtrifact (1 / 10 ^ 7) r =
      RegKkt.solve someBtrifact { unitReg with D := unitReg.D - (1 / 10 ^ 7 : ℝ) • 1 } (1 / 10 ^ 7) r := by
    intro r
    simp [RegKkt.solveSparse, RegKkt.solve, factor_solve_kkt_reg]
  have hco : Coercive ({ unitReg with D := unitReg.D - (1 / 10 ^ 7 : ℝ) • 1 } : RegKkt 1 1 0) 0 := by
    refine ⟨fun v => ?_, fun v => ?_, fun v => by simp [unitReg]⟩
    · simp [unitReg, dotProduct, mul_self_nonneg]
    · simp [unitReg, dotProduct, Matrix.sub_mulVec, Matrix.smul_mulVec]
      nlinarith [mul_self_nonneg (v 0)]
  have tot : ∀ r, ∃ v, unitReg.solveSparse someBtrifact (1 / 10 ^ 7) r = some v := by
    intro r
    rw [e]
    exact Option.isSome_iff_exists.1 (C61_never_raises _ someBtrifact_ok _ 0 (1 / 10 ^ 7) hco le_rfl (by norm_num) r 0).1
  obtain ⟨v0, h0⟩ := tot { x := fun _ => 1, s := 0, z := 0, y := 0 }
  obtain ⟨dv, hdv⟩ := tot (unitReg.resid (1 / 10 ^ 7) v0 { x := fun _ => 1, s := 0, z := 0, y := 0 }).neg
  obtain ⟨w, hw, hne⟩ := C116_dense_misses someBtrifact someBtrifact_ok (1 / 10 ^ 7) (by norm_num)
  have hv : sparse_solve_kkt_ir someBtrifact unitReg (1 / 10 ^ 7) { x := fun _ => 1, s := 0, z := 0, y := 0 } 1 =
      some (v0.add dv) := by simp only [sparse_solve_kkt_ir, refineWith, h0, hdv, Option.bind_some]
  refine ⟨v0.add dv, w, hv, hw, fun h => hne ?_⟩
  rw [← h, C116_sparse_rows _ someBtrifact_ok _ _ _ _ _ hv]
  simp

/-- `C116_one_sweep_back`: its hypotheses hold for coercive data. -/
example : (blockH (unitReg.Q + (1 / 10 ^ 7 : ℝ) • 1) (unitReg.D + (1 / 10 ^ 7 : ℝ) • 1)).det ≠ 0 ∧
    ∃ v, solve_kkt_ir_inverse unitReg (1 / 10 ^ 7) { x := fun _ => 1, s := 0, z := 0, y := 0 } 1 = some v := by
  refine ⟨coercive_blockH unitReg_coercive zero_le_one (by norm_num), ?_⟩
  obtain ⟨v1, -, h, -⟩ := C116_inverse_refines unitReg 1 (1 / 10 ^ 7) unitReg_coercive zero_le_one (by norm_num)
    { x := fun _ => 1, s := 0, z := 0, y := 0 } 0
  exact ⟨v1, h⟩

end LcpPhysics
