import Verif.Lemmas.Refine
import Verif.Lemmas.LuExists

/-! # C61: iterative refinement of the KKT solve -/

noncomputable section

namespace LcpPhysics
open Matrix Spec

variable {nz nineq neq : ℕ}

/-- C61: `factor_solve_kkt_reg` solves the regularised system exactly. -/
theorem C61_solves_regularised (f : Btrifact) (hf : BtrifactOk f) (M : RegKkt nz nineq neq) (eps : ℝ)
    (r v : Iter nz nineq neq) (h : M.solve f eps r = some v) : IsZero (kktRes M eps eps v r) :=
  RegKkt.solve_spec hf h

/-- C61: `factor_solve_kkt` solves the system in which `C_tilde` enters with the opposite sign. -/
theorem C61_factor_solve_kkt (f : Btrifact) (hf : BtrifactOk f) (Q D G A C)
    (r v : Iter nz nineq neq) (h : factor_solve_kkt f Q D (blockA G A) C r = some v) :
    Q *ᵥ v.x + Gᵀ *ᵥ v.z + Aᵀ *ᵥ v.y = -r.x ∧ D *ᵥ v.s + v.z = -r.s ∧
    (Fin.addCases (G *ᵥ v.x + v.s) (A *ᵥ v.x) : Fin (nineq + neq) → ℝ) - C *ᵥ Fin.addCases v.z v.y =
      -Fin.addCases r.z r.y := by
  unfold factor_solve_kkt factorSolveBlocks at h
  simp only [Option.bind_eq_some_iff, Option.map_eq_some_iff] at h
  obtain ⟨HLU, hH, SLU, hS, rfl⟩ := h
  have key := saddle_solve (hf.sound _ _ _ hH) (hf.sound _ _ _ hS) (Fin.addCases r.x r.s) (Fin.addCases r.z r.y)
  simp only at key
  generalize hw : -btrisolveV SLU (btrisolveV HLU (Fin.addCases r.x r.s) ᵥ* (blockA G A)ᵀ - Fin.addCases r.z r.y) = w at key ⊢
  generalize hv : btrisolveV HLU (-Fin.addCases r.x r.s - w ᵥ* blockA G A) = v at key ⊢
  obtain ⟨k1, k2⟩ := key
  rw [blockH, catBlocks_mulVec, blockA_transpose_mulVec] at k1
  rw [blockA_mulVec] at k2
  refine ⟨?_, ?_, ?_⟩
  · funext i
    have := congrFun k1 (Fin.castAdd nineq i)
    simp at this ⊢
    linarith
  · funext i
    have := congrFun k1 (Fin.natAdd nz i)
    simpa using this
  · have e : (Fin.addCases (fun i => w (Fin.castAdd neq i)) (fun i => w (Fin.natAdd nineq i)) : Fin (nineq + neq) → ℝ) = w := by
      funext i
      induction i using Fin.addCases <;> simp
    simp only [e]
    exact k2

/-- C61: what the refinement measures: the residuals without the regularisation of `Q` and `D`.  After
the first solve they are `-eps` times the solution. -/
theorem C61_first_residual (f : Btrifact) (hf : BtrifactOk f) (M : RegKkt nz nineq neq) (eps : ℝ)
    (r v : Iter nz nineq neq) (h : M.solve f eps r = some v) :
    M.resid eps v r = kktRes M eps 0 v r ∧
    M.resid eps v r = { x := -eps • v.x, s := -eps • v.s, z := 0, y := 0 } := by
  refine ⟨RegKkt.resid_eq M eps v r, ?_⟩
  obtain ⟨h1, h2, h3, h4⟩ := RegKkt.solve_spec hf h
  rw [RegKkt.resid_eq]
  ext i
  · have := congrFun h1 i
    simp [kktRes] at this ⊢; linarith
  · have := congrFun h2 i
    simp [kktRes] at this ⊢; linarith
  · have := congrFun h3 i
    simp [kktRes] at this ⊢; linarith
  · have := congrFun h4 i
    simp [kktRes] at this ⊢; linarith

/-- C61: one refinement sweep: the correction solves the system for minus the residual, so the new
residual is twice the old one, up to a term of order `eps`. -/
theorem C61_sweep (f : Btrifact) (hf : BtrifactOk f) (M : RegKkt nz nineq neq) (eps : ℝ)
    (r v dv : Iter nz nineq neq) (h : M.solve f eps (M.resid eps v r).neg = some dv) :
    M.resid eps (v.add dv) r =
      { x := (2 : ℝ) • (M.resid eps v r).x - eps • dv.x, s := (2 : ℝ) • (M.resid eps v r).s - eps • dv.s
        z := (2 : ℝ) • (M.resid eps v r).z, y := (2 : ℝ) • (M.resid eps v r).y } := by
  obtain ⟨h1, h2, h3, h4⟩ := RegKkt.solve_spec hf h
  simp only [RegKkt.resid_eq] at h1 h2 h3 h4 ⊢
  ext i
  · have := congrFun h1 i
    simp [kktRes, Iter.neg, Iter.add, Matrix.mulVec_add] at this ⊢; linarith
  · have := congrFun h2 i
    simp [kktRes, Iter.neg, Iter.add, Matrix.mulVec_add] at this ⊢; linarith
  · have := congrFun h3 i
    simp [kktRes, Iter.neg, Iter.add, Matrix.mulVec_add] at this ⊢; linarith
  · have := congrFun h4 i
    simp [kktRes, Iter.neg, Iter.add, Matrix.mulVec_add] at this ⊢; linarith

theorem scalar_grow {a d c lam eps : ℝ} (hl : 0 ≤ lam) (he : 0 < eps) (ha : 0 ≤ a)
    (h1 : (lam + eps) * d ≤ c) (hd : 0 ≤ d) (h2 : c ^ 2 ≤ a * d) :
    (1 + lam / (lam + eps)) ^ 2 * a ≤ 4 * a - 4 * eps * c + eps ^ 2 * d := by
  have hL : 0 < lam + eps := by linarith
  rcases ha.eq_or_lt with rfl | ha
  · have : c ^ 2 ≤ 0 := by linarith
    have hc : c = 0 := by nlinarith [sq_nonneg c]
    subst hc
    have : 0 ≤ eps ^ 2 * d := by positivity
    linarith
  · have hc : 0 ≤ c := le_trans (by positivity) h1
    have h3 : (lam + eps) * c ≤ a := by
      rcases hc.eq_or_lt with rfl | hc
      · linarith
      · have : (lam + eps) * c ^ 2 ≤ a * c := by nlinarith
        nlinarith
    have e : 1 + lam / (lam + eps) = (2 * lam + eps) / (lam + eps) := by field_simp; ring
    have h4 : (2 * lam + eps) / (lam + eps) * a ≤ 2 * a - eps * c := by
      rw [div_mul_eq_mul_div, div_le_iff₀ hL]
      nlinarith
    have h5 : 0 ≤ (2 * lam + eps) / (lam + eps) * a := by positivity
    have h6 : ((2 * lam + eps) / (lam + eps) * a) ^ 2 ≤ (2 * a - eps * c) ^ 2 := by
      apply pow_le_pow_left₀ h5 h4
    rw [e]
    have h7 : ((2 * lam + eps) / (lam + eps)) ^ 2 * a * a ≤ (4 * a - 4 * eps * c + eps ^ 2 * d) * a := by
      nlinarith [sq_nonneg eps]
    exact le_of_mul_le_mul_right h7 ha

/-- One sweep from a point without residuals in the last two blocks. -/
theorem sweep_grows {f : Btrifact} (hf : BtrifactOk f) {M : RegKkt nz nineq neq} {lam eps : ℝ} (hM : Coercive M lam)
    (hl : 0 ≤ lam) (he : 0 < eps) {r v dv : Iter nz nineq neq} (hz : (M.resid eps v r).z = 0)
    (hy : (M.resid eps v r).y = 0) (h : M.solve f eps (M.resid eps v r).neg = some dv) :
    (M.resid eps (v.add dv) r).z = 0 ∧ (M.resid eps (v.add dv) r).y = 0 ∧
    (1 + lam / (lam + eps)) ^ 2 * sizeSq (M.resid eps v r) ≤ sizeSq (M.resid eps (v.add dv) r) := by
  have en := energy hM he.le (RegKkt.solve_spec hf h) (by simp [Iter.neg, hz]) (by simp [Iter.neg, hy])
  rw [C61_sweep f hf M eps r v dv h]
  set R := M.resid eps v r
  refine ⟨by simp [hz], by simp [hy], ?_⟩
  have cs := pair_cauchy dv.x R.x dv.s R.s
  simp only [sizeSq, hz, hy, Pi.zero_apply, Pi.smul_apply, Pi.sub_apply, smul_eq_mul, mul_zero]
  have e1 : ∀ {n : ℕ} (p q : Fin n → ℝ), ∑ i, (2 * p i - eps * q i) ^ 2 =
      4 * ∑ i, p i ^ 2 - 4 * eps * ∑ i, q i * p i + eps ^ 2 * ∑ i, q i ^ 2 := by
    intro n p q
    simp only [Finset.mul_sum, ← Finset.sum_sub_distrib, ← Finset.sum_add_distrib]
    exact Finset.sum_congr rfl fun i _ => by ring
  rw [e1, e1]
  have sg := scalar_grow (a := ∑ i, R.x i ^ 2 + ∑ i, R.s i ^ 2) (d := ∑ i, dv.x i ^ 2 + ∑ i, dv.s i ^ 2)
    (c := ∑ i, dv.x i * R.x i + ∑ i, dv.s i * R.s i) hl he (by positivity) (by
      refine en.trans (le_of_eq ?_)
      simp [Iter.neg, dotProduct, add_comm]) (by positivity) (by rw [mul_comm]; exact cs)
  simp
  linarith

/-- C61: every refinement sweep increases the residual: after `niter` sweeps it is at least
`(1 + lam / (lam + eps)) ^ niter` times the residual of the unrefined solution, where `lam` is a lower
bound for `Q` and `D`; the factor is close to `2`. -/
theorem C61_refinement_diverges (f : Btrifact) (hf : BtrifactOk f) (M : RegKkt nz nineq neq) (lam eps : ℝ)
    (hM : Coercive M lam) (hl : 0 ≤ lam) (he : 0 < eps) (r v0 v : Iter nz nineq neq) (niter : ℕ)
    (h0 : M.solve f eps r = some v0) (h : solve_kkt_ir f M eps r niter = some v) :
    ((1 + lam / (lam + eps)) ^ niter) ^ 2 * sizeSq (M.resid eps v0 r) ≤ sizeSq (M.resid eps v r) := by
  have key : ∀ (n : ℕ) (u : Iter nz nineq neq), (M.resid eps u r).z = 0 → (M.resid eps u r).y = 0 →
      refineLoop f M eps r n u = some v →
      ((1 + lam / (lam + eps)) ^ n) ^ 2 * sizeSq (M.resid eps u r) ≤ sizeSq (M.resid eps v r) := by
    intro n
    induction n with
    | zero => intro u _ _ hu; cases hu; simp
    | succ n ih =>
      intro u hz hy hu
      simp only [refineLoop, Option.bind_eq_some_iff] at hu
      obtain ⟨dv, hdv, hu⟩ := hu
      obtain ⟨hz', hy', hg⟩ := sweep_grows hf hM hl he hz hy hdv
      refine le_trans ?_ (ih _ hz' hy' hu)
      have hp : 0 ≤ ((1 + lam / (lam + eps)) ^ n) ^ 2 := by positivity
      calc ((1 + lam / (lam + eps)) ^ (n + 1)) ^ 2 * sizeSq (M.resid eps u r)
          = ((1 + lam / (lam + eps)) ^ n) ^ 2 * ((1 + lam / (lam + eps)) ^ 2 * sizeSq (M.resid eps u r)) := by ring
        _ ≤ _ := mul_le_mul_of_nonneg_left hg hp
  rw [solve_kkt_ir, h0] at h
  have h2 := (C61_first_residual f hf M eps r v0 h0).2
  exact key niter v0 (by rw [h2]) (by rw [h2]) h

/-- C61: the correction with the other sign would refine: the residual shrinks by
`eps / (lam + eps)`. -/
theorem C61_right_sign_refines (f : Btrifact) (hf : BtrifactOk f) (M : RegKkt nz nineq neq) (lam eps : ℝ)
    (hM : Coercive M lam) (hl : 0 ≤ lam) (he : 0 < eps) (r v dv : Iter nz nineq neq)
    (hz : (M.resid eps v r).z = 0) (hy : (M.resid eps v r).y = 0)
    (h : M.solve f eps (M.resid eps v r) = some dv) :
    (M.resid eps (v.add dv) r).z = 0 ∧ (M.resid eps (v.add dv) r).y = 0 ∧
    sizeSq (M.resid eps (v.add dv) r) ≤ (eps / (lam + eps)) ^ 2 * sizeSq (M.resid eps v r) := by
  have hs := RegKkt.solve_spec hf h
  have en := energy hM he.le hs hz hy
  have eR : M.resid eps (v.add dv) r = { x := -eps • dv.x, s := -eps • dv.s, z := 0, y := 0 } := by
    obtain ⟨h1, h2, h3, h4⟩ := hs
    simp only [RegKkt.resid_eq] at h1 h2 h3 h4 ⊢
    ext i
    · have := congrFun h1 i
      simp [kktRes, Iter.add, Matrix.mulVec_add] at this ⊢; linarith
    · have := congrFun h2 i
      simp [kktRes, Iter.add, Matrix.mulVec_add] at this ⊢; linarith
    · have := congrFun h3 i
      simp [kktRes, Iter.add, Matrix.mulVec_add] at this ⊢; linarith
    · have := congrFun h4 i
      simp [kktRes, Iter.add, Matrix.mulVec_add] at this ⊢; linarith
  rw [eR]
  refine ⟨rfl, rfl, ?_⟩
  set R := M.resid eps v r
  have cs := pair_cauchy dv.x R.x dv.s R.s
  simp only [sizeSq, hz, hy, Pi.zero_apply, Pi.smul_apply, smul_eq_mul, mul_pow, ← Finset.mul_sum]
  simp only [dotProduct] at en
  set d := ∑ i, dv.x i ^ 2 + ∑ i, dv.s i ^ 2 with hd
  set a := ∑ i, R.x i ^ 2 + ∑ i, R.s i ^ 2 with ha
  set c := ∑ i, dv.x i * R.x i + ∑ i, dv.s i * R.s i with hc
  have hL : 0 < lam + eps := by linarith
  have d0 : 0 ≤ d := by positivity
  have hda : (lam + eps) ^ 2 * d ≤ a := by
    rcases d0.eq_or_lt with h0 | h0
    · rw [← h0, mul_zero]; positivity
    · have h5 : ((lam + eps) * d) ^ 2 ≤ c ^ 2 := by
        rw [← neg_sq c]
        exact pow_le_pow_left₀ (by positivity) en 2
      have h6 : (lam + eps) ^ 2 * d * d ≤ a * d := by nlinarith
      exact le_of_mul_le_mul_right h6 h0
  have : (eps / (lam + eps)) ^ 2 * a ≥ eps ^ 2 * d := by
    rw [div_pow, div_mul_eq_mul_div, ge_iff_le, le_div_iff₀ (by positivity)]
    nlinarith [sq_nonneg eps]
  have e2 : eps ^ 2 * d = eps ^ 2 * ∑ i, dv.x i ^ 2 + eps ^ 2 * ∑ i, dv.s i ^ 2 := by rw [hd]; ring
  simp
  linarith

/-- C61: with regularisation neither factorisation ever raises for coercive data. -/
theorem C61_never_raises (f : Btrifact) (hf : BtrifactOk f) (M : RegKkt nz nineq neq) (lam eps : ℝ)
    (hM : Coercive M lam) (hl : 0 ≤ lam) (he : 0 < eps) (r : Iter nz nineq neq) (niter : ℕ) :
    (M.solve f eps r).isSome ∧ (solve_kkt_ir f M eps r niter).isSome := by
  have hH : ∀ v : Fin (nz + nineq) → ℝ, eps * ∑ i, v i ^ 2 ≤ v ⬝ᵥ (blockH (M.Q + eps • 1) (M.D + eps • 1) *ᵥ v) := by
    intro v
    have q := hM.Q fun i => v (Fin.castAdd nineq i)
    have d := hM.D fun i => v (Fin.natAdd nz i)
    have q0 : 0 ≤ lam * ∑ i, v (Fin.castAdd nineq i) ^ 2 := by positivity
    have d0 : 0 ≤ lam * ∑ i, v (Fin.natAdd nz i) ^ 2 := by positivity
    have e : v ⬝ᵥ (blockH (M.Q + eps • 1) (M.D + eps • 1) *ᵥ v) =
        (fun i => v (Fin.castAdd nineq i)) ⬝ᵥ (M.Q *ᵥ fun i => v (Fin.castAdd nineq i)) +
        (fun i => v (Fin.natAdd nz i)) ⬝ᵥ (M.D *ᵥ fun i => v (Fin.natAdd nz i)) + eps * ∑ i, v i ^ 2 := by
      rw [blockH, catBlocks_mulVec]
      simp only [dotProduct, Fin.sum_univ_add, Fin.addCases_left, Fin.addCases_right, Matrix.zero_mulVec, Matrix.add_mulVec,
        Matrix.smul_mulVec, Matrix.one_mulVec, Pi.add_apply, Pi.zero_apply, Pi.smul_apply, smul_eq_mul, add_zero, zero_add, mul_add,
        Finset.sum_add_distrib, Finset.mul_sum]
      have e1 : ∀ {n : ℕ} (p : Fin n → ℝ), ∑ i, p i * (eps * p i) = ∑ i, eps * p i ^ 2 := fun p =>
        Finset.sum_congr rfl fun i _ => by ring
      rw [e1 (fun i => v (Fin.castAdd nineq i)), e1 (fun i => v (Fin.natAdd nz i))]
      ring
    rw [e]; linarith
  have pos_det : ∀ {n : ℕ} (X : Matrix (Fin n) (Fin n) ℝ), (∀ v, eps * ∑ i, v i ^ 2 ≤ v ⬝ᵥ (X *ᵥ v)) → X.det ≠ 0 := by
    intro n X hX h0
    obtain ⟨v, hv, hv0⟩ := Matrix.exists_mulVec_eq_zero_iff.2 h0
    have h1 := hX v
    rw [hv0, dotProduct_zero] at h1
    have h2 : ∑ i, v i ^ 2 ≤ 0 := by
      by_contra hc
      push Not at hc
      exact absurd h1 (not_le.2 (mul_pos he hc))
    have h3 := (Finset.sum_eq_zero_iff_of_nonneg fun i _ => sq_nonneg (v i)).1
      (le_antisymm h2 (Finset.sum_nonneg fun i _ => sq_nonneg (v i)))
    exact hv (funext fun i => by simpa using h3 i (Finset.mem_univ i))
  have hsolve : ∀ r, (M.solve f eps r).isSome := by
    intro r
    cases h1 : f (nz + nineq) (blockH (M.Q + eps • 1) (M.D + eps • 1)) with
    | none => exact absurd (hf.complete _ _ h1) (pos_det _ hH)
    | some HLU =>
      have fH := hf.sound _ _ _ h1
      have iH := Matrix.mul_nonsing_inv _ fH.det_ne.isUnit
      have hS : ∀ w : Fin (nineq + neq) → ℝ, eps * ∑ i, w i ^ 2 ≤
          w ⬝ᵥ ((blockA M.G M.A * btrisolve HLU (blockA M.G M.A)ᵀ + -regC eps M.F) *ᵥ w) := by
        intro w
        set H := blockH (M.Q + eps • 1) (M.D + eps • 1)
        set u := (blockA M.G M.A)ᵀ *ᵥ w
        have e1 : w ⬝ᵥ ((blockA M.G M.A * (H⁻¹ * (blockA M.G M.A)ᵀ)) *ᵥ w) = (H⁻¹ *ᵥ u) ⬝ᵥ (H *ᵥ (H⁻¹ *ᵥ u)) := by
          have hu : H *ᵥ (H⁻¹ *ᵥ u) = u := by rw [Matrix.mulVec_mulVec u, iH, Matrix.one_mulVec]
          rw [hu, ← Matrix.mulVec_mulVec, ← Matrix.mulVec_mulVec, Matrix.dotProduct_mulVec, ← Matrix.mulVec_transpose,
            dotProduct_comm]
        have e2 : w ⬝ᵥ (regC eps M.F *ᵥ w) = -(eps * ∑ i, w i ^ 2) -
            (fun i => w (Fin.castAdd neq i)) ⬝ᵥ (M.F *ᵥ fun i => w (Fin.castAdd neq i)) := by
          rw [regC, Matrix.sub_mulVec, catBlocks_mulVec, dotProduct_sub, Matrix.smul_mulVec, Matrix.one_mulVec]
          congr 1
          · simp only [dotProduct, Pi.smul_apply, smul_eq_mul, Finset.mul_sum, ← Finset.sum_neg_distrib]
            exact Finset.sum_congr rfl fun i _ => by ring
          · simp [dotProduct, Fin.sum_univ_add]
        have p0 := hH (H⁻¹ *ᵥ u)
        have p1 : 0 ≤ eps * ∑ i, (H⁻¹ *ᵥ u) i ^ 2 := by positivity
        have p2 := hM.F fun i => w (Fin.castAdd neq i)
        rw [fH.btrisolve_eq, Matrix.add_mulVec, dotProduct_add, e1, Matrix.neg_mulVec, dotProduct_neg, e2]
        linarith
      cases h2 : f (nineq + neq) (blockA M.G M.A * btrisolve HLU (blockA M.G M.A)ᵀ + -regC eps M.F) with
      | none => exact absurd (hf.complete _ _ h2) (pos_det _ hS)
      | some SLU => simp [RegKkt.solve, factor_solve_kkt_reg, factorSolveBlocks, h1, h2]
  refine ⟨hsolve r, ?_⟩
  have hloop : ∀ n v, (refineLoop f M eps r n v).isSome := by
    intro n
    induction n with
    | zero => intro v; rfl
    | succ n ih =>
      intro v
      obtain ⟨dv, hdv⟩ := Option.isSome_iff_exists.1 (hsolve (M.resid eps v r).neg)
      simp only [refineLoop, hdv, Option.bind_some]
      exact ih _
  obtain ⟨v, hv⟩ := Option.isSome_iff_exists.1 (hsolve r)
  simp only [solve_kkt_ir, hv, Option.bind_some]
  exact hloop _ _

/-- Scalar data: `Q = D = G = 1`, no equalities, `F = 0`. -/
def unitReg : RegKkt 1 1 0 := { Q := 1, D := 1, G := 1, A := 0, F := 0 }

theorem unitReg_coercive : Coercive unitReg 1 :=
  ⟨fun v => by simp [unitReg, dotProduct, sq], fun v => by simp [unitReg, dotProduct, sq], fun v => by simp [unitReg]⟩

/-- C61, concrete witness: with the code's `eps = 1e-7` and the right hand side `(1, 0, 0)` the
unrefined solution has a nonzero residual and three sweeps multiply its size by at least `7`. -/
theorem C61_witness (f : Btrifact) (hf : BtrifactOk f) :
    ∃ v0 v, let r : Iter 1 1 0 := { x := fun _ => 1, s := 0, z := 0, y := 0 }
      unitReg.solve f (1 / 10 ^ 7) r = some v0 ∧ solve_kkt_ir f unitReg (1 / 10 ^ 7) r 3 = some v ∧
      0 < sizeSq (unitReg.resid (1 / 10 ^ 7) v0 r) ∧
      7 ^ 2 * sizeSq (unitReg.resid (1 / 10 ^ 7) v0 r) ≤ sizeSq (unitReg.resid (1 / 10 ^ 7) v r) := by
  have he : (0:ℝ) < 1 / 10 ^ 7 := by norm_num
  obtain ⟨h1, h2⟩ := C61_never_raises f hf unitReg 1 (1 / 10 ^ 7) unitReg_coercive zero_le_one he
    { x := fun _ => 1, s := 0, z := 0, y := 0 } 3
  obtain ⟨v0, h1⟩ := Option.isSome_iff_exists.1 h1
  obtain ⟨v, h2⟩ := Option.isSome_iff_exists.1 h2
  have hd := C61_refinement_diverges f hf unitReg 1 (1 / 10 ^ 7) unitReg_coercive zero_le_one he _ v0 v 3 h1 h2
  have hpos : 0 < sizeSq (unitReg.resid (1 / 10 ^ 7) v0 { x := fun _ => 1, s := 0, z := 0, y := 0 }) := by
    rw [(C61_first_residual f hf _ _ _ _ h1).2]
    obtain ⟨k1, k2, k3, -⟩ := RegKkt.solve_spec hf h1
    have k1 := congrFun k1 0
    have k2 := congrFun k2 0
    have k3 := congrFun k3 0
    simp [kktRes, unitReg] at k1 k2 k3
    simp [sizeSq]
    have : v0.x 0 ≠ 0 := by
      intro h0
      rw [h0] at k1 k3
      linarith
    have : 0 < v0.x 0 ^ 2 := by positivity
    have : 0 ≤ v0.s 0 ^ 2 := sq_nonneg _
    nlinarith
  refine ⟨v0, v, h1, h2, hpos, le_trans ?_ hd⟩
  apply mul_le_mul_of_nonneg_right _ hpos.le
  norm_num

end LcpPhysics
