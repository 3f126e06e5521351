import Verif.Props.DevPdipm

/-! # C116: whole runs of the development solver with different KKT variants -/

noncomputable section

namespace LcpPhysics
open Matrix Spec

variable {nz nineq neq : ℕ}

theorem neg_regC (eps : ℝ) (F : Matrix (Fin nineq) (Fin nineq) ℝ) : -(regC (neq := neq) eps F) = fullC eps F := by
  unfold regC fullC
  rw [neg_sub, neg_smul, sub_neg_eq_add]
  exact add_comm _ _

/-- C116: `LU_FULL` is the unrefined step of `IR_UNOPT`: although `C_tilde` has the other sign the two
solve the same system. -/
theorem C116_full_step (f sp : Btrifact) (eps : ℝ) (P : Lcp nz nineq neq) (d : Fin nineq → ℝ) (r : Iter nz nineq neq) :
    kktVariant f sp eps .LU_FULL P d r =
      solve_kkt_ir f { Q := P.Q, D := Matrix.diagonal d, G := P.G, A := P.A, F := P.F } eps r 0 := by
  have h : ∀ M : RegKkt nz nineq neq, solve_kkt_ir f M eps r 0 = M.solve f eps r := by
    intro M
    cases h : M.solve f eps r <;> simp [solve_kkt_ir, h, refineLoop]
  rw [h, RegKkt.solve, factor_solve_kkt_reg, neg_regC]
  rfl

/-- C116: the step of `LU_FULL` satisfies Newton's equations up to `eps` times itself. -/
theorem C116_full_residual (f sp : Btrifact) (hf : BtrifactOk f) (eps : ℝ) (P : Lcp nz nineq neq) (d : Fin nineq → ℝ)
    (r v : Iter nz nineq neq) (h : kktVariant f sp eps .LU_FULL P d r = some v) :
    NewtonStep P.Q P.G P.A P.F d (r.x + eps • v.x) (r.s + eps • v.s) (r.z - eps • v.z) (r.y - eps • v.y)
      v.x v.s v.z v.y := by
  rw [C116_full_step] at h
  simp only [solve_kkt_ir, refineLoop, Option.bind_eq_some_iff, Option.some.injEq] at h
  obtain ⟨v0, h0, rfl⟩ := h
  obtain ⟨h1, h2, h3, h4⟩ := RegKkt.solve_spec hf h0
  refine ⟨?_, fun i => ?_, ?_, ?_⟩
  · funext i
    have := congrFun h1 i
    simp [kktRes] at this ⊢; linarith
  · have := congrFun h2 i
    simp [kktRes, Matrix.mulVec_diagonal] at this ⊢; linarith
  · funext i
    have := congrFun h3 i
    simp [kktRes] at this ⊢; linarith
  · funext i
    have := congrFun h4 i
    simp [kktRes] at this ⊢; linarith

/-- `devLoop` depends on the step solver through its answers only. -/
theorem devLoop_congr [NeZero nineq] {s t : (Fin nineq → ℝ) → Iter nz nineq neq → Option (Iter nz nineq neq)}
    (hst : ∀ d r v, s d r = some v → t d r = some v) (P : Lcp nz nineq neq) (eps : ℝ) (lim k : ℕ) (it : Iter nz nineq neq)
    (best : Option (Best 1 nz nineq neq)) (nNot : ℕ) (w : Option (Best 1 nz nineq neq))
    (h : devLoop s P eps lim k it best nNot = .ret w) : devLoop t P eps lim k it best nNot = .ret w := by
  have hstep : ∀ it, devStep s P it = .raised ∨ devStep t P it = devStep s P it := by
    intro it
    unfold devStep
    simp only
    cases h1 : s (fun i => it.z i / it.s i) { x := P.rx it, s := it.z, z := P.rz it, y := P.ry it } with
    | none => left; rfl
    | some aff =>
      rw [hst _ _ _ h1]
      simp only
      cases stepOf it.z aff.z with
      | none => right; rfl
      | some a =>
        cases stepOf it.s aff.s with
        | none => right; rfl
        | some b =>
          simp only
          generalize ({ x := 0, s := _, z := 0, y := 0 } : Iter nz nineq neq) = r2
          cases h2 : s (fun i => it.z i / it.s i) r2 with
          | none => left; rfl
          | some cor => rw [hst _ _ _ h2]; right; rfl
  induction k generalizing it best nNot with
  | zero =>
    cases best with
    | none => simp [devLoop] at h
    | some b => simpa [devLoop] using h
  | succ k ih =>
    simp only [devLoop] at h ⊢
    split at h
    · rename_i hc
      rw [if_pos hc]; exact h
    · rename_i hc
      rw [if_neg hc]
      rcases hstep it with hr | hr
      · rw [hr] at h; cases h
      · rw [hr]
        cases hd : devStep s P it with
        | raised => rw [hd] at h; cases h
        | notFinite => rw [hd] at h; exact h
        | next it' =>
          rw [hd] at h
          exact ih it' _ _ h

/-- C116: a whole run with `IR_INVERSE` returns exactly what the run with `IR_UNOPT` returns. -/
theorem C116_runs_agree [NeZero nineq] (f sp : Btrifact) (hf : BtrifactOk f) (reg eps : ℝ) (lim maxIter : ℕ)
    (P : Lcp nz nineq neq) (w : Option (Best 1 nz nineq neq))
    (h : devForward f sp reg .IR_UNOPT eps lim maxIter P = .ret w) :
    devForward f sp reg .IR_INVERSE eps lim maxIter P = .ret w := by
  have hst : ∀ d r v, kktVariant f sp reg .IR_UNOPT P d r = some v → kktVariant f sp reg .IR_INVERSE P d r = some v :=
    fun d r v hv => C116_one_sweep f hf _ reg r v hv
  simp only [devForward] at h ⊢
  cases h0 : devInit f sp reg .IR_UNOPT P with
  | none => rw [h0] at h; cases h
  | some v =>
    have h1 : devInit f sp reg .IR_INVERSE P = some v := hst _ _ _ h0
    rw [h0] at h
    rw [h1]
    exact devLoop_congr hst P eps lim maxIter _ _ _ w h

/-- C116: with equalities the runs of `SP_LU_FULL` and `LU_FULL` have the same outcome, whatever the two
factorisations are. -/
theorem C116_sparse_runs_agree [NeZero nineq] [NeZero neq] (f sp : Btrifact) (hf : BtrifactOk f) (hsp : BtrifactOk sp)
    (reg eps : ℝ) (lim maxIter : ℕ) (P : Lcp nz nineq neq) :
    devForward f sp reg .SP_LU_FULL eps lim maxIter P = devForward f sp reg .LU_FULL eps lim maxIter P := by
  have hstep : kktVariant f sp reg .SP_LU_FULL P = kktVariant f sp reg .LU_FULL P := by
    funext d r
    simp only [kktVariant, if_neg (NeZero.ne neq), sparse_factor_solve_kkt, factor_solve_kkt]
    exact factor_same hsp hf _ _ _ r
  have hinit : devInit f sp reg .SP_LU_FULL P = devInit f sp reg .LU_FULL P := by
    have e : (Matrix.diagonal (fun _ => 1) + reg • 1 : Matrix (Fin nineq) (Fin nineq) ℝ) = (1 + reg) • 1 := by
      rw [add_smul, one_smul]
      rfl
    simp only [devInit, kktVariant, if_neg (NeZero.ne neq), sparse_factor_solve_kkt, factor_solve_kkt, e]
    exact factor_same hsp hf _ _ _ _
  simp only [devForward, hinit, hstep]

/-- C116: without equalities `SP_LU_FULL` raises before the first pass. -/
theorem C116_sparse_needs_equalities [NeZero nineq] (f sp : Btrifact) (reg eps : ℝ) (lim maxIter : ℕ) (P : Lcp nz nineq 0) :
    ∃ e, devForward f sp reg .SP_LU_FULL eps lim maxIter P = .raised e := ⟨_, by simp [devForward, devInit]; rfl⟩

/-- C116: without regularisation every variant that returns computes Newton's step. -/
theorem C116_newton (f sp : Btrifact) (hf : BtrifactOk f) (hsp : BtrifactOk sp) (P : Lcp nz nineq neq) (hsym : P.Qᵀ = P.Q)
    (d : Fin nineq → ℝ) (hd : ∀ i, d i ≠ 0) (r v : Iter nz nineq neq) (k : KKTSolvers)
    (h : kktVariant f sp 0 k P d r = some v) :
    NewtonStep P.Q P.G P.A P.F d r.x r.s r.z r.y v.x v.s v.z v.y := by
  have ofZero : ∀ u : Iter nz nineq neq,
      IsZero (kktRes { Q := P.Q, D := Matrix.diagonal d, G := P.G, A := P.A, F := P.F } 0 0 u r) →
      NewtonStep P.Q P.G P.A P.F d r.x r.s r.z r.y u.x u.s u.z u.y := by
    rintro u ⟨h1, h2, h3, h4⟩
    refine ⟨?_, fun i => ?_, ?_, ?_⟩
    · funext i
      have := congrFun h1 i
      simp [kktRes] at this ⊢; linarith
    · have := congrFun h2 i
      simp [kktRes, Matrix.mulVec_diagonal] at this ⊢; linarith
    · funext i
      have := congrFun h3 i
      simp [kktRes] at this ⊢; linarith
    · funext i
      have := congrFun h4 i
      simp [kktRes] at this ⊢; linarith
  have full : ∀ g, BtrifactOk g → factorSolveBlocks g (blockH (P.Q + (0 : ℝ) • 1) (Matrix.diagonal d + (0 : ℝ) • 1))
      (blockA P.G P.A) (fullC 0 P.F) r = some v → NewtonStep P.Q P.G P.A P.F d r.x r.s r.z r.y v.x v.s v.z v.y := by
    intro g hg hv
    have := C116_full_residual g g hg 0 P d r v hv
    simpa using this
  have refine1 : solve_kkt_ir_inverse { Q := P.Q, D := Matrix.diagonal d, G := P.G, A := P.A, F := P.F } 0 r 1 = some v →
      NewtonStep P.Q P.G P.A P.F d r.x r.s r.z r.y v.x v.s v.z v.y := by
    intro h
    apply ofZero
    set M : RegKkt nz nineq neq := { Q := P.Q, D := Matrix.diagonal d, G := P.G, A := P.A, F := P.F } with hM
    simp only [solve_kkt_ir_inverse, refineWith, Option.bind_eq_some_iff, Option.some.injEq] at h
    obtain ⟨v0, h0, dv, hdv, rfl⟩ := h
    obtain ⟨-, h1⟩ := RegKkt.solveInverse_pack.1 hdv
    have e : M.reg 0 = M.plain 0 := by simp [RegKkt.reg, RegKkt.plain]
    have hz : flat4 (M.resid 0 (v0.add dv) r) = 0 := by
      rw [RegKkt.resid_pack, pack_add, Matrix.mulVec_add, ← e, h1, pack_neg, RegKkt.resid_pack, e]
      abel
    rw [← RegKkt.resid_eq]
    have z0 : M.resid 0 (v0.add dv) r = { x := 0, s := 0, z := 0, y := 0 } := by
      apply pack_inj
      rw [hz]
      funext i
      induction i using Fin.addCases with
      | left i => induction i using Fin.addCases <;> simp [flat4]
      | right i => induction i using Fin.addCases <;> simp [flat4]
    rw [z0]
    exact ⟨rfl, rfl, rfl, rfl⟩
  cases k with
  | LU_FULL => exact full f hf h
  | SP_LU_FULL =>
    simp only [kktVariant] at h
    split at h
    · cases h
    · exact full sp hsp h
  | LU_PARTIAL =>
    simp only [kktVariant, Option.bind_eq_some_iff, Option.map_eq_some_iff] at h
    obtain ⟨K, hK, S, hS, rfl⟩ := h
    have hK : pre_factor_kkt f P.Q P.G P.F P.A = .ok K := by
      cases hc : pre_factor_kkt f P.Q P.G P.F P.A with
      | error e => rw [hc] at hK; cases hK
      | ok K' => rw [hc] at hK; cases hK; rfl
    exact C44_factor_and_solve f hf P.Q P.G P.F P.A hsym K hK [] d hd S hS r.x r.s r.z r.y
  | IR_UNOPT => exact refine1 (C116_one_sweep f hf _ 0 r v h)
  | SP_IR_UNOPT =>
    have : solve_kkt_ir sp { Q := P.Q, D := Matrix.diagonal d, G := P.G, A := P.A, F := P.F } 0 r 1 = some v := by
      have e : ∀ r, RegKkt.solveSparse sp { Q := P.Q, D := Matrix.diagonal d, G := P.G, A := P.A, F := P.F } 0 r =
          RegKkt.solve sp { Q := P.Q, D := Matrix.diagonal d, G := P.G, A := P.A, F := P.F } 0 r := by
        intro r
        simp [RegKkt.solveSparse, RegKkt.solve, factor_solve_kkt_reg]
      have h : sparse_solve_kkt_ir sp _ 0 r 1 = some v := h
      simp only [sparse_solve_kkt_ir, refineWith, e] at h
      simpa only [solve_kkt_ir, refineLoop] using h
    exact refine1 (C116_one_sweep sp hsp _ 0 r v this)
  | IR_INVERSE => exact refine1 h
  | SP_IR_INVERSE => cases h

/-- One step keeps slacks and multipliers positive. -/
theorem devStep_pos [NeZero nineq] {solve : (Fin nineq → ℝ) → Iter nz nineq neq → Option (Iter nz nineq neq)}
    {P : Lcp nz nineq neq} {it it' : Iter nz nineq neq} (h : devStep solve P it = .next it') (hs : ∀ i, 0 < it.s i)
    (hz : ∀ i, 0 < it.z i) : (∀ i, 0 < it'.s i) ∧ ∀ i, 0 < it'.z i := by
  unfold devStep at h
  simp only at h
  split at h
  · cases h
  split at h
  swap
  · cases h
  split at h
  · cases h
  rename_i cor hcor
  split at h
  swap
  · cases h
  rename_i a b ha hb
  injection h with h
  subst h
  rw [stepOf, Option.map_eq_some_iff] at ha hb
  obtain ⟨sz, hgz, rfl⟩ := ha
  obtain ⟨ss, hgs, rfl⟩ := hb
  obtain ⟨pz, -, kz⟩ := get_step_pos hgz (fun _ => hz) 0
  obtain ⟨ps, -, ks⟩ := get_step_pos hgs (fun _ => hs) 0
  set t := min (999 / 1000 * min (sz 0) (ss 0)) 1 with ht
  have ht0 : 0 < t := lt_min (mul_pos (by norm_num) (lt_min pz ps)) one_pos
  have htz : t ≤ 999 / 1000 * sz 0 :=
    (min_le_left _ _).trans (mul_le_mul_of_nonneg_left (min_le_left _ _) (by norm_num))
  have hts : t ≤ 999 / 1000 * ss 0 :=
    (min_le_left _ _).trans (mul_le_mul_of_nonneg_left (min_le_right _ _) (by norm_num))
  constructor
  · intro i
    have h1 := ks t (999 / 1000) ht0.le hts (by norm_num) i
    have h2 := hs i
    simp only [Pi.add_apply, Pi.smul_apply, smul_eq_mul]
    linarith
  · intro i
    have h1 := kz t (999 / 1000) ht0.le htz (by norm_num) i
    have h2 := hz i
    simp only [Pi.add_apply, Pi.smul_apply, smul_eq_mul]
    linarith

/-- With a step solver that never raises on positive `d` the loop returns. -/
theorem devLoop_returns [NeZero nineq] {solve : (Fin nineq → ℝ) → Iter nz nineq neq → Option (Iter nz nineq neq)}
    (P : Lcp nz nineq neq) (hsolve : ∀ d r, (∀ i, 0 < d i) → (solve d r).isSome) (eps : ℝ) (lim k : ℕ) (it : Iter nz nineq neq)
    (hs : ∀ i, 0 < it.s i) (hz : ∀ i, 0 < it.z i) (best : Option (Best 1 nz nineq neq)) (nNot : ℕ)
    (hk : k ≠ 0 ∨ best ≠ none) : ∃ w, devLoop solve P eps lim k it best nNot = .ret (some w) := by
  induction k generalizing it best nNot with
  | zero =>
    cases best with
    | none => simp at hk
    | some b => exact ⟨b, rfl⟩
  | succ k ih =>
    simp only [devLoop]
    split
    · exact ⟨_, rfl⟩
    · cases hd : devStep solve P it with
      | notFinite => exact ⟨_, rfl⟩
      | next it' =>
        obtain ⟨h1, h2⟩ := devStep_pos hd hs hz
        exact ih it' h1 h2 _ _ (Or.inr (by simp))
      | raised =>
        exfalso
        have hpos : ∀ i, 0 < it.z i / it.s i := fun i => div_pos (hz i) (hs i)
        unfold devStep at hd
        simp only at hd
        split at hd
        · rename_i h0
          have := hsolve _ { x := P.rx it, s := it.z, z := P.rz it, y := P.ry it } hpos
          rw [h0] at this; cases this
        · split at hd
          · split at hd
            · rename_i h0
              have := congrArg Option.isSome h0
              rw [hsolve _ _ hpos] at this; cases this
            · split at hd <;> cases hd
          · cases hd

/-- C116: for positive semidefinite `Q`, monotone `F` and any equalities, consistent or not, the
regularised variants return after any positive number of passes. -/
theorem C116_regularised_return [NeZero nineq] (f sp : Btrifact) (hf : BtrifactOk f) (reg eps : ℝ) (hreg : 0 < reg)
    (lim maxIter : ℕ) (hm : maxIter ≠ 0) (P : Lcp nz nineq neq) (hQ : ∀ v, 0 ≤ v ⬝ᵥ (P.Q *ᵥ v))
    (hF : ∀ v, 0 ≤ v ⬝ᵥ (P.F *ᵥ v)) (k : KKTSolvers) (hk : k = .LU_FULL ∨ k = .IR_UNOPT ∨ k = .IR_INVERSE) :
    ∃ w, devForward f sp reg k eps lim maxIter P = .ret (some w) := by
  have hco : ∀ d : Fin nineq → ℝ, (∀ i, 0 < d i) →
      Coercive ({ Q := P.Q, D := Matrix.diagonal d, G := P.G, A := P.A, F := P.F } : RegKkt nz nineq neq) 0 := by
    intro d hd
    refine ⟨fun v => by rw [zero_mul]; exact hQ v, fun v => ?_, hF⟩
    rw [zero_mul]
    simp only [dotProduct, Matrix.mulVec_diagonal]
    exact Finset.sum_nonneg fun i _ => by nlinarith [mul_nonneg (hd i).le (sq_nonneg (v i))]
  have hsolve : ∀ d r, (∀ i, 0 < d i) → (kktVariant f sp reg k P d r).isSome := by
    intro d r hd
    have h := C61_never_raises f hf _ 0 reg (hco d hd) le_rfl hreg r
    rcases hk with rfl | rfl | rfl
    · rw [C116_full_step]; exact (h 0).2
    · exact (h 1).2
    · obtain ⟨v, hv⟩ := Option.isSome_iff_exists.1 (h 1).2
      have : kktVariant f sp reg .IR_INVERSE P d r = some v := C116_one_sweep f hf _ reg r v hv
      rw [this]; rfl
  have hinit : devInit f sp reg k P = kktVariant f sp reg k P (fun _ => 1) { x := P.p, s := 0, z := -P.h, y := -P.b } := by
    rcases hk with rfl | rfl | rfl <;> rfl
  obtain ⟨v, hv⟩ := Option.isSome_iff_exists.1 (hsolve (fun _ => 1) { x := P.p, s := 0, z := -P.h, y := -P.b } fun _ => one_pos)
  have hfwd : devForward f sp reg k eps lim maxIter P = devLoop (kktVariant f sp reg k P) P eps lim maxIter
      { x := v.x, s := shiftPos v.s, z := shiftPos v.z, y := v.y } none 0 := by
    rcases hk with rfl | rfl | rfl <;> simp only [devForward, hinit, hv]
  rw [hfwd]
  exact devLoop_returns P hsolve eps lim maxIter _ (fun i => (shiftPos_pos v.s i).1) (fun i => (shiftPos_pos v.z i).1) none 0
    (Or.inl hm)

/-! ## Instances -/

/-- A problem with `Q = G = 1`, one inequality and one equality, `x = 0` and `x ≤ 1`. -/
def devUnit : Lcp 1 1 1 := { Q := 1, p := fun _ => 1, G := 1, h := fun _ => 1, A := 1, b := fun _ => 0, F := 0 }

/-- The same with the equality repeated: `pre_factor_kkt` raises on it, the regularised variants return. -/
def devTwice : Lcp 1 1 2 :=
  { Q := 1, p := fun _ => 1, G := 1, h := fun _ => 1, A := Matrix.of fun _ _ => 1, b := fun _ => 0, F := 0 }

/-- `C116_opposite`, `C116_one_sweep`, `C116_inverse_refines` apply: the step is there and is not zero. -/
example : ∃ v, unitReg.solve someBtrifact (1 / 10 ^ 7) { x := fun _ => 1, s := 0, z := 0, y := 0 } = some v ∧ v ≠ v.neg := by
  obtain ⟨v, hv⟩ := Option.isSome_iff_exists.1
    (C61_never_raises someBtrifact someBtrifact_ok unitReg 1 (1 / 10 ^ 7) unitReg_coercive zero_le_one (by norm_num)
      { x := fun _ => 1, s := 0, z := 0, y := 0 } 0).1
  refine ⟨v, hv, fun h => ?_⟩
  obtain ⟨h1, h2, h3, -⟩ := RegKkt.solve_spec someBtrifact_ok hv
  have e1 : v.x 0 = -v.x 0 := congrFun (congrArg Iter.x h) 0
  have e3 : v.z 0 = -v.z 0 := congrFun (congrArg Iter.z h) 0
  have h1 := congrFun h1 0
  simp [kktRes, unitReg] at h1
  have x0 : v.x 0 = 0 := by linarith
  have z0 : v.z 0 = 0 := by linarith
  rw [x0, z0] at h1
  norm_num at h1

theorem devUnit_psd : (∀ v, 0 ≤ v ⬝ᵥ (devUnit.Q *ᵥ v)) ∧ ∀ v, 0 ≤ v ⬝ᵥ (devUnit.F *ᵥ v) :=
  ⟨fun v => by simp [devUnit, dotProduct, mul_self_nonneg], fun v => by simp [devUnit]⟩

/-- `C116_runs_agree` and `C116_sparse_runs_agree` on a problem with an inequality and an equality: four of
the variants return, in two pairs. -/
example : ∃ w w', devForward someBtrifact someBtrifact (1 / 10 ^ 7) .IR_UNOPT (1 / 10 ^ 12) 3 20 devUnit = .ret (some w) ∧
    devForward someBtrifact someBtrifact (1 / 10 ^ 7) .IR_INVERSE (1 / 10 ^ 12) 3 20 devUnit = .ret (some w) ∧
    devForward someBtrifact someBtrifact (1 / 10 ^ 7) .LU_FULL (1 / 10 ^ 12) 3 20 devUnit = .ret (some w') ∧
    devForward someBtrifact someBtrifact (1 / 10 ^ 7) .SP_LU_FULL (1 / 10 ^ 12) 3 20 devUnit = .ret (some w') := by
  obtain ⟨w, hw⟩ := C116_regularised_return someBtrifact someBtrifact someBtrifact_ok (1 / 10 ^ 7) (1 / 10 ^ 12) (by norm_num)
    3 20 (by norm_num) devUnit devUnit_psd.1 devUnit_psd.2 .IR_UNOPT (by simp)
  obtain ⟨w', hw'⟩ := C116_regularised_return someBtrifact someBtrifact someBtrifact_ok (1 / 10 ^ 7) (1 / 10 ^ 12) (by norm_num)
    3 20 (by norm_num) devUnit devUnit_psd.1 devUnit_psd.2 .LU_FULL (by simp)
  refine ⟨w, w', hw, C116_runs_agree _ _ someBtrifact_ok _ _ _ _ _ _ hw, hw', ?_⟩
  rw [C116_sparse_runs_agree _ _ someBtrifact_ok someBtrifact_ok, hw']

/-- `C116_regularised_return` where the library's `LU_PARTIAL` raises: the equality is given twice. -/
theorem C116_repeated_equality (f sp : Btrifact) (hf : BtrifactOk f) :
    (∃ e, devForward f sp (1 / 10 ^ 7) .LU_PARTIAL (1 / 10 ^ 12) 3 20 devTwice = .raised e) ∧
    ∃ w, devForward f sp (1 / 10 ^ 7) .IR_UNOPT (1 / 10 ^ 12) 3 20 devTwice = .ret (some w) := by
  constructor
  · have hp : ∀ K, pre_factor_kkt f devTwice.Q devTwice.G devTwice.F devTwice.A ≠ .ok K := by
      intro K hK
      obtain ⟨-, LU, T, pT, X, hA, -⟩ := pre_factor_inv hf (by simp [devTwice]) hK
      apply hA.det_ne
      simp [devTwice, Matrix.det_fin_two, Matrix.mul_apply]
    have hb : batchE (B := 1) (fun _ => pre_factor_kkt f devTwice.Q devTwice.G devTwice.F devTwice.A) =
        .error (.raised "RuntimeError: getrf") := by
      unfold batchE
      have : batchM (B := 1) (fun _ => (pre_factor_kkt f devTwice.Q devTwice.G devTwice.F devTwice.A).toOption) = none := by
        rw [batchM_none]
        refine ⟨0, ?_⟩
        cases h : pre_factor_kkt f devTwice.Q devTwice.G devTwice.F devTwice.A with
        | error e => rfl
        | ok K => exact absurd h (hp K)
      rw [this]
    refine ⟨.raised "RuntimeError: getrf", ?_⟩
    simp only [devForward, lcpForward, hb]
  · exact C116_regularised_return f sp hf _ _ (by norm_num) 3 20 (by norm_num) devTwice
      (fun v => by simp [devTwice, dotProduct, mul_self_nonneg]) (fun v => by simp [devTwice]) .IR_UNOPT (by simp)

/-- `C116_newton` and `C116_full_residual`: `LU_FULL` with and without regularisation on `devUnit`. -/
example : ∃ v, kktVariant someBtrifact someBtrifact 1 .LU_FULL devUnit (fun _ => 1) { x := fun _ => 1, s := 0, z := 0, y := 0 } =
    some v := by
  rw [C116_full_step]
  have : Coercive ({ Q := devUnit.Q, D := Matrix.diagonal fun _ => 1, G := devUnit.G, A := devUnit.A, F := devUnit.F } :
      RegKkt 1 1 1) 1 :=
    ⟨fun v => by simp [devUnit, dotProduct, sq], fun v => by simp [dotProduct, sq], fun v => by simp [devUnit]⟩
  exact Option.isSome_iff_exists.1 (C61_never_raises someBtrifact someBtrifact_ok _ 1 1 this zero_le_one one_pos _ 0).2

/-- `C116_newton`: the system of `devUnit` without regularisation is solved by inversion. -/
example : ∃ v, kktVariant someBtrifact someBtrifact 0 .IR_INVERSE devUnit (fun _ => 1)
    { x := fun _ => 1, s := 0, z := 0, y := 0 } = some v := by
  set M : RegKkt 1 1 1 := { Q := devUnit.Q, D := Matrix.diagonal fun _ => 1, G := devUnit.G, A := devUnit.A, F := devUnit.F } with hM
  have hdet : (M.reg 0).det ≠ 0 := by
    intro h0
    obtain ⟨u, hu, hu0⟩ := Matrix.exists_mulVec_eq_zero_iff.2 h0
    have e : M.reg 0 = M.plain 0 := by simp [RegKkt.reg, RegKkt.plain]
    obtain ⟨v, hfl⟩ := exists_flat4 u
    have hz : M.resid 0 v { x := 0, s := 0, z := 0, y := 0 } = { x := 0, s := 0, z := 0, y := 0 } := by
      apply pack_inj
      rw [RegKkt.resid_pack, hfl, ← e, hu0, zero_add]
    rw [RegKkt.resid_eq] at hz
    have a1 := congrFun (congrArg Iter.x hz) 0
    have a2 := congrFun (congrArg Iter.s hz) 0
    have a3 := congrFun (congrArg Iter.z hz) 0
    have a4 := congrFun (congrArg Iter.y hz) 0
    simp [kktRes, hM, devUnit] at a1 a2 a3 a4
    apply hu
    rw [← hfl, ← flat4_zero]
    congr 1
    have e1 : ∀ (p : Fin 1 → ℝ), p 0 = 0 → p = 0 := fun p hp => funext fun i => by rw [Subsingleton.elim i 0]; exact hp
    apply Iter.ext <;> apply e1 <;> linarith
  have tot := RegKkt.solveInverse_total hdet
  obtain ⟨v0, h0⟩ := tot { x := fun _ => 1, s := 0, z := 0, y := 0 }
  obtain ⟨dv, hdv⟩ := tot (M.resid 0 v0 { x := fun _ => 1, s := 0, z := 0, y := 0 }).neg
  exact ⟨v0.add dv, by simp only [kktVariant]; rw [← hM]; simp [solve_kkt_ir_inverse, refineWith, h0, hdv]⟩

end LcpPhysics
