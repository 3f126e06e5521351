import Verif.Lemmas.OneRow
import Verif.Props.SolverBatch
import Verif.Lemmas.LuExists

/-! # C110: the solver on problems with a single inequality -/

noncomputable section

namespace LcpPhysics
open Matrix Spec

variable {nz neq : ℕ}

/-- A point that satisfies the linear equations with the multiplier `z`. -/
theorem point_one {P : Lcp nz 1 neq} {x₀ : Fin nz → ℝ} {y₀ : Fin neq → ℝ} {u : Fin nz → ℝ} {v : Fin neq → ℝ}
    (hP : OneRow P x₀ y₀ u v) (hpos : ∀ w, w ≠ 0 → 0 < w ⬝ᵥ (P.Q *ᵥ w)) {x : Fin nz → ℝ} {y : Fin neq → ℝ} {z : ℝ}
    (h1 : P.Q *ᵥ x + P.p + z • P.G 0 + P.Aᵀ *ᵥ y = 0) (h2 : P.A *ᵥ x = P.b) : x = x₀ - z • u := by
  have e : P.Q *ᵥ (x - x₀ + z • u) + P.Aᵀ *ᵥ (y - y₀ + z • v) = 0 := by
    have e0 := hP.free
    have e1 : z • P.G 0 = z • (P.Q *ᵥ u) + z • (P.Aᵀ *ᵥ v) := by rw [← hP.push, smul_add]
    rw [e1] at h1
    simp only [Matrix.mulVec_add, Matrix.mulVec_sub, Matrix.mulVec_smul]
    have : P.Q *ᵥ x - P.Q *ᵥ x₀ + z • (P.Q *ᵥ u) + (P.Aᵀ *ᵥ y - P.Aᵀ *ᵥ y₀ + z • (P.Aᵀ *ᵥ v)) =
        (P.Q *ᵥ x + P.p + (z • (P.Q *ᵥ u) + z • (P.Aᵀ *ᵥ v)) + P.Aᵀ *ᵥ y) - (P.Q *ᵥ x₀ + P.p + P.Aᵀ *ᵥ y₀) := by
      abel
    rw [this, h1, e0, sub_zero]
  have eA : P.A *ᵥ (x - x₀ + z • u) = 0 := by
    rw [Matrix.mulVec_add, Matrix.mulVec_sub, Matrix.mulVec_smul, h2, hP.free_eq, hP.push_eq, smul_zero, sub_self,
      add_zero]
  have h0 : (x - x₀ + z • u) ⬝ᵥ (P.Q *ᵥ (x - x₀ + z • u)) = 0 := by
    have := congrArg (fun t => (x - x₀ + z • u) ⬝ᵥ t) e
    simp only [dotProduct_add, dotProduct_zero] at this
    rw [Matrix.dotProduct_mulVec _ P.Aᵀ, Matrix.vecMul_transpose, eA, zero_dotProduct, add_zero] at this
    exact this
  have h3 : x - x₀ + z • u = 0 := by
    by_contra hne
    exact absurd h0 (hpos _ hne).ne'
  have : x = (x - x₀ + z • u) + (x₀ - z • u) := by abel
  rw [this, h3, zero_add]

theorem shiftPos_one (v : Fin 1 → ℝ) : shiftPos v 0 = if v 0 ≤ 0 then 1 else v 0 := by
  unfold shiftPos
  rw [rowMin_one]
  split_ifs
  · ring
  · rfl

/-- The starting point of the solver. -/
theorem start_one {P : Lcp nz 1 neq} {x₀ : Fin nz → ℝ} {y₀ : Fin neq → ℝ} {u : Fin nz → ℝ} {v : Fin neq → ℝ}
    (hP : OneRow P x₀ y₀ u v) (hpos : ∀ w, w ≠ 0 → 0 < w ⬝ᵥ (P.Q *ᵥ w)) (hc : 0 < compliance P u)
    {Q_LU : PackedLU nz} {S_LU : PackedLU (neq + 1)} (hQ : Factors P.Q Q_LU)
    (hS : Factors (flatBlocks (schur P.Q P.G P.A P.F fun _ => 1)) S_LU) :
    let w := initIter P Q_LU S_LU
    let e := freeSlack P x₀ / (1 + compliance P u)
    w.x = x₀ + e • u ∧ w.s 0 = (if e ≤ 0 then 1 else e) ∧ w.z 0 = (if 0 ≤ e then 1 else -e) ∧
    P.rx w = (w.z 0 + e) • P.G 0 ∧ P.rz w 0 = (w.s 0 - e) - P.F 0 0 * (w.z 0 + e) ∧ P.ry w = 0 := by
  intro w e
  have n := C44_solve_kkt P.Q P.G P.A P.F (fun _ => 1) (fun _ => one_ne_zero) Q_LU S_LU hQ hS P.p 0 (-P.h) (-P.b)
  set a := solve_kkt Q_LU (fun _ => 1) P.G P.A S_LU P.p 0 (-P.h) (-P.b) with ha
  have hw : w = { x := a.x, s := shiftPos a.s, z := shiftPos a.z, y := a.y } := rfl
  have hsum : (0:ℝ) < 1 + compliance P u := by linarith
  have n2 := n.compl 0
  have n1 := newton_one hP n
  simp only [one_mul, Pi.zero_apply, neg_zero] at n2
  have hslack : u ⬝ᵥ P.p + v ⬝ᵥ -P.b - (-P.h) 0 = freeSlack P x₀ := by
    have h0 := congrArg (fun t => u ⬝ᵥ t) hP.free
    have e1 : u ⬝ᵥ (P.Q *ᵥ x₀) = P.G 0 ⬝ᵥ x₀ - v ⬝ᵥ (P.A *ᵥ x₀) := by
      rw [← hP.push, add_dotProduct, Matrix.dotProduct_mulVec, ← Matrix.mulVec_transpose, hP.symm,
        Matrix.mulVec_transpose, ← Matrix.dotProduct_mulVec]
      ring
    have e2 : u ⬝ᵥ (P.Aᵀ *ᵥ y₀) = 0 := by
      rw [Matrix.dotProduct_mulVec, Matrix.vecMul_transpose, hP.push_eq, zero_dotProduct]
    simp only [dotProduct_add, e1, e2, dotProduct_zero, hP.free_eq] at h0
    simp only [dotProduct_neg, Pi.neg_apply]
    unfold freeSlack
    linarith
  rw [hslack] at n1
  have es : a.s 0 = e := by
    rw [eq_div_iff hsum.ne']
    have : a.z 0 = -a.s 0 := by linarith
    rw [this] at n1
    linarith
  have ez : a.z 0 = -e := by linarith
  have hG : ∀ t : Fin 1 → ℝ, P.Gᵀ *ᵥ t = t 0 • P.G 0 := by
    intro t; funext i; simp [Matrix.mulVec, dotProduct, mul_comm]
  have hF : ∀ t : Fin 1 → ℝ, (P.F *ᵥ t) 0 = P.F 0 0 * t 0 := by
    intro t; simp [Matrix.mulVec, dotProduct]
  have ws : w.s 0 = if e ≤ 0 then 1 else e := by rw [hw]; simp only [shiftPos_one, es]
  have wz : w.z 0 = if 0 ≤ e then 1 else -e := by rw [hw]; simp only [shiftPos_one, ez, neg_nonpos]
  have d1 := n.dual
  have d2 := congrFun n.ineq 0
  have d3 := n.eq
  rw [neg_neg] at d3
  rw [hG, ez] at d1
  simp only [Pi.add_apply, Pi.sub_apply, Pi.neg_apply, neg_neg, hF, ez, es] at d2
  refine ⟨?_, ws, wz, ?_, ?_, ?_⟩
  · have := point_one hP hpos (x := a.x) (y := a.y) (z := -e) (by rw [← sub_eq_zero.2 d1]; abel) d3
    rw [hw]
    simp only
    rw [this]; simp
  · have : P.rx w = P.Aᵀ *ᵥ a.y + w.z 0 • P.G 0 + P.Q *ᵥ a.x + P.p := by
      rw [← hG]
      simp only [hw, Lcp.rx, Matrix.vecMul_transpose, Matrix.mulVec_transpose]
    rw [this, add_smul]
    have e1 : P.p = -(P.Q *ᵥ a.x + -e • P.G 0 + P.Aᵀ *ᵥ a.y) := by rw [d1, neg_neg]
    rw [e1]
    funext i
    simp
    ring
  · have : P.rz w 0 = (P.G *ᵥ a.x) 0 + w.s 0 - P.h 0 - P.F 0 0 * w.z 0 := by
      rw [← hF]
      simp only [hw, Lcp.rz, Matrix.vecMul_transpose, Pi.add_apply, Pi.sub_apply]
    rw [this]
    linarith
  · have : P.ry w = P.A *ᵥ a.x - P.b := by
      simp only [hw, Lcp.ry, Matrix.vecMul_transpose]
    rw [this, d3, sub_self]

/-! ## Runs -/

theorem stale_never {res : ℕ → Fin 1 → ℝ} : ∀ n : ℕ, (∀ j, 1 ≤ j → j ≤ n → res 0 0 ≤ res j 0) → stale res n = n
  | 0, _ => rfl
  | n + 1, h => by
    rw [stale, if_neg, stale_never n fun j h1 h2 => h j h1 (by omega)]
    rintro ⟨b, hb⟩
    rw [Subsingleton.elim b 0] at hb
    exact absurd (hb 0 (by omega)) (not_lt.2 (h (n + 1) (by omega) le_rfl))

/-- When none of the three iterates after the start is better than it, the start is returned. -/
theorem returns_start (c : Setup 1 nz 1 neq) (mi : ℕ) (S0 : Fin 1 → PackedLU (neq + 1)) (w : Best 1 nz 1 neq)
    (h : pdForward c mi S0 = .ret (some w)) (hl : c.lim ≤ 3)
    (hbad : ∀ S, (∀ b, factor_kkt c.f (S0 b) (c.R b) (fun _ => 1) = some (S b)) → ∀ n its Ss,
      SolverRun c S (fun b => initIter (c.P b) (c.Q_LU b) (S b)) n its Ss → ∀ j, 1 ≤ j → j ≤ 3 → j ≤ n →
      (c.P 0).resid (its 0 0) < (c.P 0).resid (its j 0)) :
    ∃ S : Fin 1 → PackedLU (neq + 1), (∀ b, factor_kkt c.f (S0 b) (c.R b) (fun _ => 1) = some (S b)) ∧
      bestRow w 0 = initIter (c.P 0) (c.Q_LU 0) (S 0) ∧
      w.resids 0 = (c.P 0).resid (initIter (c.P 0) (c.Q_LU 0) (S 0)) := by
  obtain ⟨S, hS, n, its, Ss, hrun, -, hall, hns, -⟩ := C50_stopping c mi S0 w h
  have hb := hbad S hS n its Ss hrun
  refine ⟨S, hS, ?_⟩
  have hn : n ≤ 3 := by
    by_contra hcon
    push Not at hcon
    refine hns c.lim (by omega) (Or.inl ?_)
    exact stale_never _ fun j h1 h2 => (hb j h1 (by omega) (by omega)).le
  obtain ⟨⟨j, hj, e1, e2⟩, hmin⟩ := hall 0
  rcases Nat.eq_zero_or_pos j with rfl | hpos
  · rw [hrun.start] at e1 e2
    exact ⟨e1, e2⟩
  · have h1 := hmin 0 (by omega)
    have h2 := hb j hpos (by omega) hj
    rw [e2] at h1
    exact absurd h1 (not_le.2 h2)

/-- What each step of a run does to the slack and the multiplier. -/
theorem run_one {P : Lcp nz 1 neq} {x₀ : Fin nz → ℝ} {y₀ : Fin neq → ℝ} {u : Fin nz → ℝ} {v : Fin neq → ℝ}
    (hP : OneRow P x₀ y₀ u v) (hcpos : 0 < compliance P u) {c : Setup 1 nz 1 neq} (hf : BtrifactOk c.f)
    (hcP : c.P = fun _ => P) {S0 S : Fin 1 → PackedLU (neq + 1)} (hprep : Prepared c S0)
    (hS1 : ∀ b, factor_kkt c.f (S0 b) (c.R b) (fun _ => 1) = some (S b)) {n : ℕ}
    {its : ℕ → Fin 1 → Iter nz 1 neq} {Ss : ℕ → Fin 1 → PackedLU (neq + 1)}
    (h : SolverRun c S (fun b => initIter (c.P b) (c.Q_LU b) (S b)) n its Ss) :
    (∀ j ≤ n, 0 < (its j 0).s 0 ∧ 0 < (its j 0).z 0) ∧
    ∀ j ≤ n,
      let c' := compliance P u
      let s := (its j 0).s 0
      let z := (its j 0).z 0
      let r := s - c' * z - freeSlack P x₀
      (affZ c' r s z ≠ 0 → affS c' r s z ≠ 0 → dirZ c' r s z ≠ 0 → dirS c' r s z ≠ 0 →
        ∃ it', pdStep c.P c.Q_LU (Ss (j + 1)) (its j) = some it') ∧
      (j < n → affZ c' r s z ≠ 0 ∧ affS c' r s z ≠ 0 ∧ dirZ c' r s z ≠ 0 ∧ dirS c' r s z ≠ 0 ∧
        (its (j + 1) 0).s 0 = s + dirStep c' r s z * dirS c' r s z ∧
        (its (j + 1) 0).z 0 = z + dirStep c' r s z * dirZ c' r s z ∧
        P.rx (its (j + 1) 0) = (1 - dirStep c' r s z) • P.rx (its j 0) ∧
        P.rz (its (j + 1) 0) = (1 - dirStep c' r s z) • P.rz (its j 0) ∧
        P.ry (its (j + 1) 0) = (1 - dirStep c' r s z) • P.ry (its j 0)) := by
  have hp0 := hprep 0
  rw [hcP] at hp0
  have hpp := C48_run_positive c S _ n its Ss h
    (fun b i => (C47_init_positive (c.P b) (c.Q_LU b) (S b)).1 i)
    (fun b i => (C47_init_positive (c.P b) (c.Q_LU b) (S b)).2.1 i)
  have hinv : ∀ j ≤ n + 1, SInv P.Q P.G P.F P.A (Ss j 0) (c.R 0) := by
    intro j
    induction j with
    | zero =>
      intro _
      rw [h.startS]
      exact (factor_kkt_inv hf (pre_factor_inv hf hp0.1 hp0.2).2 (hS1 0)).1
    | succ j ih =>
      intro hj
      exact (factor_kkt_inv hf (ih (by omega)) (h.factor j (by omega) 0)).1
  refine ⟨fun j hj => ⟨(hpp j hj).1 0 0, (hpp j hj).2 0 0⟩, fun j hj => ?_⟩
  have key := pdStep_one hP hcpos (Q_LU := c.Q_LU) (S_LU := Ss (j + 1)) (it := its j) ((hpp j hj).1 0 0)
    ((hpp j hj).2 0 0) (pre_factor_inv hf hp0.1 hp0.2).1
    (factor_kkt_inv hf (hinv j (by omega)) (h.factor j hj 0)).2
  refine ⟨?_, fun hjn => ?_⟩
  · rw [hcP]; exact key.1
  · have hst := h.step j hjn
    rw [hcP] at hst
    exact key.2 _ hst

theorem resid_ge {P : Lcp nz 1 neq} {w : Iter nz 1 neq} (hs : 0 < w.s 0) (hz : 0 < w.z 0) :
    w.s 0 * w.z 0 ≤ P.resid w ∧ P.resid w = norm2 (P.ry w) + norm2 (P.rz w) + norm2 (P.rx w) + w.s 0 * w.z 0 := by
  have hmu : w.mu = w.s 0 * w.z 0 := by
    simp only [Iter.mu, Finset.univ_unique, Fin.default_eq_zero, Finset.sum_singleton, Nat.cast_one, div_one]
    exact abs_of_pos (mul_pos hs hz)
  have e : P.resid w = norm2 (P.ry w) + norm2 (P.rz w) + norm2 (P.rx w) + w.s 0 * w.z 0 := by
    rw [Lcp.resid, hmu, Nat.cast_one, one_mul]
  refine ⟨?_, e⟩
  rw [e]
  have h1 := norm2_nonneg (P.ry w)
  have h2 := norm2_nonneg (P.rz w)
  have h3 := norm2_nonneg (P.rx w)
  linarith

/-- The call of the solver, with the factorisations it has prepared. -/
theorem forward_one (f : Btrifact) (hf : BtrifactOk f) (P : Lcp nz 1 neq) (hsym : P.Qᵀ = P.Q)
    (hpos : ∀ w, w ≠ 0 → 0 < w ⬝ᵥ (P.Q *ᵥ w)) (hA : ∀ w, P.Aᵀ *ᵥ w = 0 → w = 0) (hF : 0 ≤ P.F 0 0) (eps : ℝ)
    (lim mi : ℕ) (hm : mi ≠ 0) :
    ∃ (c : Setup 1 nz 1 neq) (S0 : Fin 1 → PackedLU (neq + 1)) (w : Best 1 nz 1 neq), c.f = f ∧ (c.P = fun _ => P) ∧
      c.eps = eps ∧ c.lim = lim ∧ Prepared c S0 ∧ lcpForward f eps lim mi (fun _ => P) = .ret (some w) ∧
      pdForward c mi S0 = .ret (some w) ∧ ∀ (ds : List (Fin 1 → ℝ)) (d : Fin 1 → ℝ), (∀ i, 0 < d i) →
        ∃ S', factor_kkt f (factorHistory f (c.R 0) (S0 0) ds) (c.R 0) d = some S' := by
  have hF' : ∀ w : Fin 1 → ℝ, 0 ≤ w ⬝ᵥ (P.F *ᵥ w) := by
    intro w
    have : w ⬝ᵥ (P.F *ᵥ w) = P.F 0 0 * (w 0 * w 0) := by
      simp [Matrix.mulVec, dotProduct]; ring
    rw [this]
    exact mul_nonneg hF (mul_self_nonneg _)
  obtain ⟨K, hK, hfac⟩ := C45_monotone_never_raises f hf P.Q P.G P.F P.A hsym hpos hA hF'
  obtain ⟨w, hw⟩ := C55_monotone_returns f hf (fun _ : Fin 1 => P) (fun _ => hsym) (fun _ => hpos) (fun _ => hA)
    (fun _ => hF') eps lim mi hm
  refine ⟨⟨f, fun _ => P, fun _ => K.Q_LU, fun _ => K.R, eps, lim⟩, fun _ => K.S_LU, w, rfl, rfl, rfl, rfl,
    fun _ => ⟨hsym, hK⟩, hw, ?_, hfac⟩
  have hb : (batchE fun _ : Fin 1 => pre_factor_kkt f P.Q P.G P.F P.A) = .ok fun _ => K := batchE_eq_ok fun _ => hK
  unfold lcpForward at hw
  rw [hb] at hw
  exact hw

/-- The factorisations of a run are those of repeated calls of `factor_kkt`. -/
theorem run_history {c : Setup 1 nz 1 neq} {S0 S : Fin 1 → PackedLU (neq + 1)}
    (hS1 : ∀ b, factor_kkt c.f (S0 b) (c.R b) (fun _ => 1) = some (S b)) {n : ℕ} {it : Fin 1 → Iter nz 1 neq}
    {its : ℕ → Fin 1 → Iter nz 1 neq} {Ss : ℕ → Fin 1 → PackedLU (neq + 1)}
    (h : SolverRun c S it n its Ss) (j : ℕ) (hj : j ≤ n + 1) :
    ∃ ds, Ss j 0 = factorHistory c.f (c.R 0) (S0 0) ds := by
  induction j with
  | zero =>
    refine ⟨[fun _ => 1], ?_⟩
    rw [h.startS]
    simp [factorHistory, hS1 0]
  | succ j ih =>
    obtain ⟨ds, hds⟩ := ih (by omega)
    refine ⟨ds ++ [fun i => (its j 0).z i / (its j 0).s i], ?_⟩
    have := h.factor j (by omega) 0
    rw [hds] at this
    simp only [factorHistory, List.foldl_append, List.foldl_cons, List.foldl_nil]
    simp only [factorHistory] at this
    rw [this]
    rfl

/-! ## C110 -/

/-- C110: the problem with a single inequality has, whatever the multipliers, only the solution one finds by hand:
the point without the inequality if that satisfies it, and otherwise the point pushed onto its boundary. -/
theorem C110_solution (P : Lcp nz 1 neq) (x₀ : Fin nz → ℝ) (y₀ : Fin neq → ℝ) (u : Fin nz → ℝ) (v : Fin neq → ℝ)
    (hP : OneRow P x₀ y₀ u v) (hpos : ∀ w, w ≠ 0 → 0 < w ⬝ᵥ (P.Q *ᵥ w)) (hc : 0 < compliance P u)
    (x : Fin nz → ℝ) :
    (∃ s z y, ApproxSolution P.Q P.p P.G P.h P.A P.b P.F 0 x s z y) ↔
      x = x₀ + (min (freeSlack P x₀) 0 / compliance P u) • u := by
  have hG : ∀ t : Fin 1 → ℝ, P.Gᵀ *ᵥ t = t 0 • P.G 0 := by
    intro t; funext i; simp [Matrix.mulVec, dotProduct, mul_comm]
  constructor
  · rintro ⟨s, z, y, h⟩
    obtain ⟨h1, h2, h3, h4⟩ := C51_exact _ _ _ _ _ _ _ _ _ _ _ h
    have hx : x = x₀ - z 0 • u := by
      refine point_one hP hpos (x := x) (y := y) (z := z 0) ?_ h3
      rw [← hG]; exact h1
    have hd := defect_one hP { x := x, s := s, z := z, y := y }
    have e1 : P.rx { x := x, s := s, z := z, y := y } = 0 := by
      rw [← h1]
      simp only [Lcp.rx, Matrix.vecMul_transpose, Matrix.mulVec_transpose]
      abel
    have e2 : P.rz { x := x, s := s, z := z, y := y } = 0 := by
      simp only [Lcp.rz, Matrix.vecMul_transpose]
      rw [h2]; abel
    have e3 : P.ry { x := x, s := s, z := z, y := y } = 0 := by
      simp only [Lcp.ry, Matrix.vecMul_transpose]
      rw [h3, sub_self]
    rw [e1, e2, e3] at hd
    simp only [Pi.zero_apply, dotProduct_zero, sub_zero] at hd
    have hs := h.s_nonneg 0
    have hz := h.z_nonneg 0
    have hsz := h4 0
    have : z 0 = -(min (freeSlack P x₀) 0 / compliance P u) := by
      rw [← neg_div, eq_div_iff hc.ne']
      rcases mul_eq_zero.1 hsz with h0 | h0
      · rw [min_eq_left]
        · rw [h0] at hd; linarith
        · have := mul_nonneg hc.le hz
          rw [h0] at hd; linarith
      · rw [min_eq_right]
        · rw [h0]; simp
        · rw [h0] at hd; linarith
    rw [hx, this]
    funext i; simp
  · intro hx
    set τ := min (freeSlack P x₀) 0 / compliance P u with hτ
    have hτc : τ * compliance P u = min (freeSlack P x₀) 0 := by rw [hτ, div_mul_cancel₀ _ hc.ne']
    have hτ0 : τ ≤ 0 := div_nonpos_of_nonpos_of_nonneg (min_le_right _ _) hc.le
    refine ⟨fun _ => freeSlack P x₀ - τ * compliance P u, fun _ => -τ, y₀ + τ • v, ?_⟩
    have e1 : P.Q *ᵥ x + P.p + P.Gᵀ *ᵥ (fun _ => -τ) + P.Aᵀ *ᵥ (y₀ + τ • v) = 0 := by
      rw [hG, hx, ← hP.push, Matrix.mulVec_add, Matrix.mulVec_add, Matrix.mulVec_smul, Matrix.mulVec_smul, ← hP.free]
      funext i; simp; ring
    have e2 : P.A *ᵥ x - P.b = 0 := by
      rw [hx, Matrix.mulVec_add, Matrix.mulVec_smul, hP.push_eq, hP.free_eq]; simp
    have e3 : P.G 0 ⬝ᵥ x + (freeSlack P x₀ - τ * compliance P u) - P.h 0 - P.F 0 0 * -τ = 0 := by
      rw [hx, dotProduct_add, dotProduct_smul, smul_eq_mul]
      unfold freeSlack compliance
      ring
    refine ⟨fun k => ?_, fun i => ?_, fun i => ?_, fun _ => ?_, fun _ => by simpa using hτ0, fun _ => ?_⟩
    · have := congrFun e1 k
      simp only [Pi.add_apply, Pi.zero_apply, Matrix.mulVec, dotProduct, Matrix.transpose_apply] at this
      simp only [Pi.add_apply]
      rw [this, abs_zero]
    · rw [Subsingleton.elim i 0]
      simp only [dotProduct] at e3
      simp only [Finset.univ_unique, Fin.default_eq_zero, Finset.sum_singleton]
      rw [e3, abs_zero]
    · have := congrFun e2 i
      simp only [Pi.sub_apply, Pi.zero_apply, Matrix.mulVec, dotProduct] at this
      rw [this, abs_zero]
    · rw [hτc]
      linarith [min_le_left (freeSlack P x₀) 0]
    · show (freeSlack P x₀ - τ * compliance P u) * -τ ≤ 0
      rw [hτc]
      rcases le_total (freeSlack P x₀) 0 with h | h
      · rw [min_eq_left h]; simp
      · have : τ = 0 := by rw [hτ, min_eq_right h, zero_div]
        rw [this]; simp

/-- The iterates after the first step keep a thousandth per step of its slack and multiplier, and a fraction of its
defect. -/
theorem run_tail {P : Lcp nz 1 neq} {x₀ : Fin nz → ℝ} {y₀ : Fin neq → ℝ} {u : Fin nz → ℝ} {v : Fin neq → ℝ}
    (hP : OneRow P x₀ y₀ u v) (hcpos : 0 < compliance P u) {c : Setup 1 nz 1 neq} (hf : BtrifactOk c.f)
    (hcP : c.P = fun _ => P) {S0 S : Fin 1 → PackedLU (neq + 1)} (hprep : Prepared c S0)
    (hS1 : ∀ b, factor_kkt c.f (S0 b) (c.R b) (fun _ => 1) = some (S b)) {n : ℕ}
    {its : ℕ → Fin 1 → Iter nz 1 neq} {Ss : ℕ → Fin 1 → PackedLU (neq + 1)}
    (h : SolverRun c S (fun b => initIter (c.P b) (c.Q_LU b) (S b)) n its Ss) (i : ℕ) (hi : i + 1 ≤ n) :
    (its 1 0).s 0 / 1000 ^ i ≤ (its (i + 1) 0).s 0 ∧ (its 1 0).z 0 / 1000 ^ i ≤ (its (i + 1) 0).z 0 ∧
    ∃ θ : ℝ, 0 ≤ θ ∧ θ ≤ 1 ∧ (its (i + 1) 0).s 0 - compliance P u * (its (i + 1) 0).z 0 - freeSlack P x₀ =
      θ * ((its 1 0).s 0 - compliance P u * (its 1 0).z 0 - freeSlack P x₀) := by
  obtain ⟨pp, hstep⟩ := run_one hP hcpos hf hcP hprep hS1 h
  induction i with
  | zero => exact ⟨by simp, by simp, 1, zero_le_one, le_rfl, by rw [one_mul]⟩
  | succ i ih =>
    obtain ⟨b1, b2, θ, t0, t1, e⟩ := ih (by omega)
    obtain ⟨-, -, a3, a4, a5, a6, -⟩ := (hstep (i + 1) (by omega)).2 (by omega)
    obtain ⟨p1, p2⟩ := pp (i + 1) (by omega)
    obtain ⟨k1, k2⟩ := dirStep_keeps p1 p2 a3 a4
    obtain ⟨d1, d2⟩ := dirStep_range p1 p2 a3 a4
    rw [← a5] at k1
    rw [← a6] at k2
    refine ⟨le_trans ?_ k1, le_trans ?_ k2, (1 - _) * θ, mul_nonneg (sub_nonneg.2 d2) t0, ?_, ?_⟩
    · rw [pow_succ, ← div_div]; linarith
    · rw [pow_succ, ← div_div]; linarith
    · nlinarith
    · rw [mul_assoc, ← e, a5, a6, dirS]
      ring

theorem active_bound {c ζ : ℝ} (hc : 0 < c) (hc1 : 330 * c ≤ 1) (hζ : 329 ≤ ζ)
    (hcz2 : 2 * (1 + c * ζ) ^ 2 ≤ c * ζ ^ 2) :
    1 + 2 * ζ < (1 + 999 / 1000 * ((1 + c * ζ + ζ) * (c * ζ ^ 2 - (1 + c * ζ) ^ 2) / (1 + c * ζ) ^ 3)) / 1000000 *
      (((999 / 1000 + c) * ζ - 1 / 1000) / c) := by
  have hζ0 : 0 < ζ := by linarith
  have hk : 0 < 1 + c * ζ := by positivity
  set k := 1 + c * ζ with hkd
  have hy : 164 ≤ ζ / k := by
    rw [le_div_iff₀ hk, hkd]; nlinarith
  set y := ζ / k with hyd
  have hyk : y * k = ζ := by rw [hyd]; field_simp
  have hB : c * y ^ 3 / 2 ≤ (k + ζ) * (c * ζ ^ 2 - k ^ 2) / k ^ 3 := by
    rw [le_div_iff₀ (by positivity)]
    have e : c * y ^ 3 / 2 * k ^ 3 = ζ * (c * ζ ^ 2 / 2) := by rw [← hyk]; ring
    rw [e]
    refine mul_le_mul (by linarith) (by nlinarith) (by positivity) (by positivity)
  set B := (k + ζ) * (c * ζ ^ 2 - k ^ 2) / k ^ 3
  have hAle : 998 / 1000 * ζ / c ≤ ((999 / 1000 + c) * ζ - 1 / 1000) / c := by
    apply div_le_div_of_nonneg_right _ hc.le
    nlinarith [mul_pos hc hζ0]
  have hBle : 999 / 1000 * (c * y ^ 3 / 2) / 1000000 ≤ (1 + 999 / 1000 * B) / 1000000 := by linarith
  refine lt_of_lt_of_le ?_ (mul_le_mul hBle hAle (by positivity) (le_trans (by positivity) hBle))
  have e : 999 / 1000 * (c * y ^ 3 / 2) / 1000000 * (998 / 1000 * ζ / c) = 997002 / 2000000000000 * (ζ * y ^ 3) := by
    field_simp; ring
  rw [e]
  have hy3 : (4410000:ℝ) ≤ y ^ 3 := by
    have := pow_le_pow_left₀ (by norm_num : (0:ℝ) ≤ 164) hy 3
    norm_num at this
    linarith
  have := mul_le_mul_of_nonneg_left hy3 hζ0.le
  linarith

theorem inactive_bound {c s g : ℝ} (hc : 400 ≤ c) (hs : 400 ≤ s) (hg : g ≤ 2)
    (hcz2 : 2 * (s + c) ^ 2 ≤ c * s ^ 2) :
    g * (1 + s) + s < (s * (1 + 999 / 1000 * c) - 1 / 1000 * c) *
      ((1 + 999 / 1000 * ((s + c + c * s) * (c * s ^ 2 - (s + c) ^ 2) / (s + c) ^ 3)) / 1000000) := by
  have hs0 : 0 < s := by linarith
  have hc0 : 0 < c := by linarith
  have hk : 0 < s + c := by positivity
  set k := s + c with hkd
  have hy : 200 ≤ c * s / k := by
    rw [le_div_iff₀ hk, hkd]; nlinarith
  set y := c * s / k with hyd
  have hyk : y * k = c * s := by rw [hyd]; field_simp
  have hB : y ^ 3 / (2 * c) ≤ (k + c * s) * (c * s ^ 2 - k ^ 2) / k ^ 3 := by
    rw [le_div_iff₀ (by positivity)]
    have e : y ^ 3 / (2 * c) * k ^ 3 = c * s * (c * s ^ 2 / 2) := by
      rw [div_mul_eq_mul_div, ← mul_pow, hyk]; field_simp
    rw [e]
    refine mul_le_mul (by linarith) (by nlinarith) (by positivity) (by positivity)
  set B := (k + c * s) * (c * s ^ 2 - k ^ 2) / k ^ 3
  have hAle : 998 / 1000 * s * c ≤ s * (1 + 999 / 1000 * c) - 1 / 1000 * c := by nlinarith
  have hBle : 999 / 1000 * (y ^ 3 / (2 * c)) / 1000000 ≤ (1 + 999 / 1000 * B) / 1000000 := by linarith
  refine lt_of_lt_of_le ?_ (mul_le_mul hAle hBle (by positivity) (le_trans (by positivity) hAle))
  have e : 998 / 1000 * s * c * (999 / 1000 * (y ^ 3 / (2 * c)) / 1000000) = 997002 / 2000000000000 * (s * y ^ 3) := by
    field_simp; ring
  rw [e]
  have hy3 : (8000000:ℝ) ≤ y ^ 3 := by
    have := pow_le_pow_left₀ (by norm_num : (0:ℝ) ≤ 200) hy 3
    norm_num at this
    linarith
  have := mul_le_mul_of_nonneg_left hy3 hs0.le
  nlinarith

/-- `2 k² ≤ c ζ²` from the hypotheses on the violation. -/
theorem blow_up {c ζ : ℝ} (hc : 0 < c) (hc1 : 8 * c ≤ 1) (hζ : 0 < ζ) (h : 8 ≤ c * ζ ^ 2) :
    2 * (1 + c * ζ) ^ 2 ≤ c * ζ ^ 2 := by
  rcases le_total (c * ζ) 1 with h1 | h1
  · nlinarith [mul_pos hc hζ]
  · have h4 : (1 + c * ζ) ^ 2 ≤ 4 * (c * ζ) ^ 2 := by nlinarith
    have h5 : 8 * (c * ζ) ^ 2 ≤ c * ζ ^ 2 := by
      have : 0 ≤ c * ζ ^ 2 * (1 - 8 * c) := mul_nonneg (by positivity) (by linarith)
      nlinarith
    linarith

/-- C110: a heavy body.  When the inequality has to act, a unit multiplier opens it by at most 1/330, and the
violation is at least 330 and at least three times the root of the stiffness, then the first step blows up, three
iterations bring no improvement on the starting point, and the solver returns the starting point.  There
the multiplier is only the fraction `c / (1 + c)` of what is needed. -/
theorem C110_heavy_stall (f : Btrifact) (hf : BtrifactOk f) (P : Lcp nz 1 neq) (x₀ : Fin nz → ℝ) (y₀ : Fin neq → ℝ)
    (u : Fin nz → ℝ) (v : Fin neq → ℝ) (hP : OneRow P x₀ y₀ u v) (hpos : ∀ w, w ≠ 0 → 0 < w ⬝ᵥ (P.Q *ᵥ w))
    (hA : ∀ w, P.Aᵀ *ᵥ w = 0 → w = 0) (hF : 0 ≤ P.F 0 0) (eps : ℝ) (lim mi : ℕ) (hm : mi ≠ 0) (hl : lim ≤ 3)
    (hc : 0 < compliance P u) (hc1 : 330 * compliance P u ≤ 1) (hβ : freeSlack P x₀ ≤ -330)
    (hβ2 : 9 ≤ compliance P u * freeSlack P x₀ ^ 2) :
    ∃ w, lcpForward f eps lim mi (fun _ : Fin 1 => P) = .ret (some w) ∧
      w.x 0 = x₀ + (freeSlack P x₀ / (1 + compliance P u)) • u ∧
      w.resids 0 = 1 - 2 * (freeSlack P x₀ / (1 + compliance P u)) := by
  obtain ⟨K, S0, w, hKf, hKP, -, hKl, hprep, hw, hpd, -⟩ := forward_one f hf P hP.symm hpos hA hF eps lim mi hm
  have hp0 := hprep 0
  rw [hKP, hKf] at hp0
  set c := compliance P u with hcd
  set β := freeSlack P x₀ with hβd
  set ζ := -(β / (1 + c)) with hζd
  have hζβ : β = -(ζ * (1 + c)) := by rw [hζd]; field_simp
  have hζ : 329 ≤ ζ := by
    have h1 : (1 + c) * 329 ≤ 330 := by linarith
    have h2 : ζ * (1 + c) = -β := by rw [hζβ]; ring
    nlinarith
  have hζ0 : 0 < ζ := by linarith
  have hcz2 : 2 * (1 + c * ζ) ^ 2 ≤ c * ζ ^ 2 := by
    have h1 : 9 ≤ c * ζ ^ 2 * (1 + c) ^ 2 := by rw [hζβ] at hβ2; nlinarith
    have h2 : (1 + c) ^ 2 ≤ 9 / 8 := by nlinarith
    have h3 : 0 ≤ c * ζ ^ 2 := by positivity
    exact blow_up hc (by linarith) hζ0 (by nlinarith)
  have hkey := active_bound hc hc1 hζ hcz2
  have start : ∀ S : Fin 1 → PackedLU (neq + 1), (∀ b, factor_kkt K.f (S0 b) (K.R b) (fun _ => 1) = some (S b)) →
      (initIter P (K.Q_LU 0) (S 0)).x = x₀ + (β / (1 + c)) • u ∧ (initIter P (K.Q_LU 0) (S 0)).s 0 = 1 ∧
      (initIter P (K.Q_LU 0) (S 0)).z 0 = ζ ∧ P.resid (initIter P (K.Q_LU 0) (S 0)) = 1 + 2 * ζ := by
    intro S hS
    have h0 := hS 0
    rw [hKf] at h0
    have hin := pre_factor_inv hf hp0.1 hp0.2
    obtain ⟨e1, e2, e3, e4, e5, e6⟩ := start_one hP hpos hc hin.1 (factor_kkt_inv hf hin.2 h0).2
    have hneg : β / (1 + c) < 0 := by linarith
    rw [if_pos hneg.le] at e2
    rw [if_neg (not_le.2 hneg)] at e3
    refine ⟨e1, e2, e3, ?_⟩
    rw [e3, neg_add_cancel, zero_smul] at e4
    rw [e3, e2, neg_add_cancel, mul_zero, sub_zero] at e5
    rw [(resid_ge (by rw [e2]; exact one_pos) (by rw [e3]; exact hζ0)).2, e4, e6, e2, e3]
    have : P.rz (initIter P (K.Q_LU 0) (S 0)) = fun _ => 1 + ζ := by
      funext i; rw [Subsingleton.elim i 0, e5, hζd]; ring
    rw [this]
    simp only [norm2, Pi.zero_apply, ne_eq, OfNat.ofNat_ne_zero, not_false_eq_true, zero_pow, Finset.sum_const_zero,
      Real.sqrt_zero, Finset.univ_unique, Fin.default_eq_zero, Finset.sum_singleton]
    rw [Real.sqrt_sq (by linarith)]
    linarith
  obtain ⟨S, hS, hx, hr⟩ := returns_start K mi S0 w hpd (by omega) (by
    intro S hS n its Ss hrun j hj1 hj3 hjn
    obtain ⟨pp, hstep⟩ := run_one hP hc (by rw [hKf]; exact hf) hKP hprep hS hrun
    obtain ⟨-, s0, z0, r0⟩ := start S hS
    have hit0 : its 0 0 = initIter P (K.Q_LU 0) (S 0) := by rw [hrun.start, hKP]
    rw [← hit0] at s0 z0 r0
    rw [hKP]
    simp only
    rw [r0]
    obtain ⟨i, rfl⟩ : ∃ i, j = i + 1 := ⟨j - 1, by omega⟩
    obtain ⟨-, -, -, -, a5, a6, -⟩ := (hstep 0 (by omega)).2 (by omega)
    obtain ⟨t1, -, θ, θ0, θ1, et⟩ := run_tail hP hc (by rw [hKf]; exact hf) hKP hprep hS hrun i hjn
    obtain ⟨p1, p2⟩ := pp (i + 1) hjn
    rw [zero_add] at a5 a6
    have er : (1:ℝ) - c * ζ - β = 1 + ζ := by rw [hζβ]; ring
    rw [s0, z0, ← hcd, ← hβd, er] at a5 a6
    rw [← hcd, ← hβd] at et
    have hk : 0 < 1 + c * ζ := by positivity
    have hs1 : 0 < c * ζ ^ 2 - (1 + c * ζ) ^ 2 := by
      have : 0 < (1 + c * ζ) ^ 2 := by positivity
      linarith
    obtain ⟨f1, f2⟩ := first_active hc hζ0 (by linarith)
    have e3 : (its 1 0).s 0 - c * (its 1 0).z 0 - β = (1 + ζ) / 1000 := by
      rw [a5, a6, f1, dirS]
      linarith
    rw [f1, f2] at a5
    rw [e3] at et
    refine lt_of_lt_of_le hkey (le_trans ?_ (resid_ge p1 p2).1)
    rw [a5] at t1
    refine mul_le_mul ?_ ?_ (div_nonneg (by nlinarith) hc.le) p1.le
    · refine le_trans (div_le_div_of_nonneg_left (by positivity) (by positivity) ?_) t1
      have : i ≤ 2 := by omega
      calc (1000:ℝ) ^ i ≤ 1000 ^ 2 := pow_le_pow_right₀ (by norm_num) this
        _ = 1000000 := by norm_num
    · rw [div_le_iff₀ hc]
      have e : β = -(ζ * (1 + c)) := hζβ
      have : θ * ((1 + ζ) / 1000) ≤ 1 * ((1 + ζ) / 1000) := mul_le_mul_of_nonneg_right θ1 (by linarith)
      linarith)
  rw [hKP] at hx hr
  obtain ⟨e1, -, -, e4⟩ := start S hS
  refine ⟨w, hw, ?_, ?_⟩
  · rw [← e1]; exact congrArg Iter.x hx
  · rw [hr, e4, hζd]; ring

/-- C110: a light body.  When the inequality should stay inactive, but a unit multiplier opens it by 400 or more and
the slack is large, the solver returns its starting point too, in which the inequality acts: most of the slack has
been used up. -/
theorem C110_light_stall (f : Btrifact) (hf : BtrifactOk f) (P : Lcp nz 1 neq) (x₀ : Fin nz → ℝ) (y₀ : Fin neq → ℝ)
    (u : Fin nz → ℝ) (v : Fin neq → ℝ) (hP : OneRow P x₀ y₀ u v) (hpos : ∀ w, w ≠ 0 → 0 < w ⬝ᵥ (P.Q *ᵥ w))
    (hA : ∀ w, P.Aᵀ *ᵥ w = 0 → w = 0) (hF : 0 ≤ P.F 0 0) (hG : Real.sqrt (P.G 0 ⬝ᵥ P.G 0) + P.F 0 0 ≤ 2) (eps : ℝ)
    (lim mi : ℕ) (hm : mi ≠ 0) (hl : lim ≤ 3) (hc : 400 ≤ compliance P u)
    (hβ : 400 * (1 + compliance P u) ≤ freeSlack P x₀)
    (hβ2 : 8 * compliance P u * (1 + compliance P u) ^ 2 ≤ freeSlack P x₀ ^ 2) :
    ∃ w, lcpForward f eps lim mi (fun _ : Fin 1 => P) = .ret (some w) ∧
      w.x 0 = x₀ + (freeSlack P x₀ / (1 + compliance P u)) • u ∧
      freeSlack P (w.x 0) ≤ (1 + P.F 0 0) * freeSlack P x₀ / (1 + compliance P u) := by
  obtain ⟨K, S0, w, hKf, hKP, -, hKl, hprep, hw, hpd, -⟩ := forward_one f hf P hP.symm hpos hA hF eps lim mi hm
  have hp0 := hprep 0
  rw [hKP, hKf] at hp0
  have hcomp : compliance P u = P.G 0 ⬝ᵥ u + P.F 0 0 := rfl
  set c := compliance P u with hcd
  set β := freeSlack P x₀ with hβd
  have hc0 : 0 < c := by linarith
  set s := β / (1 + c) with hsd
  have hsβ : β = s * (1 + c) := by rw [hsd]; field_simp
  have hs : 400 ≤ s := by rw [hsd, le_div_iff₀ (by linarith)]; exact hβ
  have hs0 : 0 < s := by linarith
  have hcs : 8 * c ≤ s ^ 2 := by
    rw [hsβ, mul_pow] at hβ2
    exact le_of_mul_le_mul_right hβ2 (by positivity)
  have hcz2 : 2 * (s + c) ^ 2 ≤ c * s ^ 2 := by
    rcases le_total s c with h1 | h1
    · have h4 : (s + c) ^ 2 ≤ 4 * c ^ 2 := by nlinarith
      nlinarith
    · have h4 : (s + c) ^ 2 ≤ 4 * s ^ 2 := by nlinarith
      nlinarith [mul_pos hs0 hs0]
  have hkey := inactive_bound hc hs hG hcz2
  have start : ∀ S : Fin 1 → PackedLU (neq + 1), (∀ b, factor_kkt K.f (S0 b) (K.R b) (fun _ => 1) = some (S b)) →
      (initIter P (K.Q_LU 0) (S 0)).x = x₀ + (β / (1 + c)) • u ∧ (initIter P (K.Q_LU 0) (S 0)).s 0 = s ∧
      (initIter P (K.Q_LU 0) (S 0)).z 0 = 1 ∧
      P.resid (initIter P (K.Q_LU 0) (S 0)) = (Real.sqrt (P.G 0 ⬝ᵥ P.G 0) + P.F 0 0) * (1 + s) + s := by
    intro S hS
    have h0 := hS 0
    rw [hKf] at h0
    have hin := pre_factor_inv hf hp0.1 hp0.2
    obtain ⟨e1, e2, e3, e4, e5, e6⟩ := start_one hP hpos hc0 hin.1 (factor_kkt_inv hf hin.2 h0).2
    have hps : 0 < β / (1 + c) := hs0
    rw [if_neg (not_le.2 hps)] at e2
    rw [if_pos hps.le] at e3
    refine ⟨e1, e2, e3, ?_⟩
    rw [e3] at e4
    rw [e3, e2] at e5
    rw [(resid_ge (by rw [e2]; exact hps) (by rw [e3]; exact one_pos)).2, e4, e6, e2, e3]
    have : P.rz (initIter P (K.Q_LU 0) (S 0)) = fun _ => -(P.F 0 0 * (1 + s)) := by
      funext i; rw [Subsingleton.elim i 0, e5, ← hsd]; simp
    rw [this]
    have eg : norm2 ((1 + β / (1 + c)) • P.G 0) = (1 + s) * Real.sqrt (P.G 0 ⬝ᵥ P.G 0) := by
      unfold norm2
      have : ∑ i, ((1 + β / (1 + c)) • P.G 0) i ^ 2 = (1 + s) ^ 2 * (P.G 0 ⬝ᵥ P.G 0) := by
        rw [dotProduct, Finset.mul_sum]
        refine Finset.sum_congr rfl fun i _ => ?_
        rw [Pi.smul_apply, smul_eq_mul, ← hsd]; ring
      rw [this, Real.sqrt_mul (by positivity), Real.sqrt_sq (by linarith)]
    rw [eg]
    simp only [norm2, Pi.zero_apply, ne_eq, OfNat.ofNat_ne_zero, not_false_eq_true, zero_pow, Finset.sum_const_zero,
      Real.sqrt_zero, Finset.univ_unique, Fin.default_eq_zero, Finset.sum_singleton, neg_sq]
    rw [Real.sqrt_sq (mul_nonneg hF (by linarith))]
    linarith
  obtain ⟨S, hS, hx, hr⟩ := returns_start K mi S0 w hpd (by omega) (by
    intro S hS n its Ss hrun j hj1 hj3 hjn
    obtain ⟨pp, hstep⟩ := run_one hP hc0 (by rw [hKf]; exact hf) hKP hprep hS hrun
    obtain ⟨-, s0, z0, r0⟩ := start S hS
    have hit0 : its 0 0 = initIter P (K.Q_LU 0) (S 0) := by rw [hrun.start, hKP]
    rw [← hit0] at s0 z0 r0
    rw [hKP]
    simp only
    rw [r0]
    obtain ⟨i, rfl⟩ : ∃ i, j = i + 1 := ⟨j - 1, by omega⟩
    obtain ⟨-, -, -, -, a5, a6, -⟩ := (hstep 0 (by omega)).2 (by omega)
    obtain ⟨-, t1, θ, θ0, θ1, et⟩ := run_tail hP hc0 (by rw [hKf]; exact hf) hKP hprep hS hrun i hjn
    obtain ⟨p1, p2⟩ := pp (i + 1) hjn
    rw [zero_add] at a5 a6
    have er : s - c * 1 - β = -(c * (1 + s)) := by rw [hsβ]; ring
    rw [s0, z0, ← hcd, ← hβd, er] at a5 a6
    rw [← hcd, ← hβd] at et
    have hk : 0 < s + c := by positivity
    have hs1 : 0 < c * s ^ 2 - (s + c) ^ 2 := by
      have : 0 < (s + c) ^ 2 := by positivity
      linarith
    obtain ⟨f1, f2⟩ := first_inactive hc0 hs0 (by linarith)
    have e3 : (its 1 0).s 0 - c * (its 1 0).z 0 - β = -(c * (1 + s)) / 1000 := by
      rw [a5, a6, f1, dirS]
      linarith
    rw [f1, f2] at a6
    rw [e3] at et
    refine lt_of_lt_of_le hkey (le_trans ?_ (resid_ge p1 p2).1)
    rw [a6] at t1
    refine mul_le_mul ?_ ?_ (by positivity) p1.le
    · have h1 : θ * (c * (1 + s) / 1000) ≤ 1 * (c * (1 + s) / 1000) := mul_le_mul_of_nonneg_right θ1 (by positivity)
      have h2 : 0 < c * (its (i + 1) 0).z 0 := mul_pos hc0 p2
      have e : β = s * (1 + c) := hsβ
      rw [neg_div, mul_neg] at et
      linarith
    · refine le_trans (div_le_div_of_nonneg_left (by positivity) (by positivity) ?_) t1
      have : i ≤ 2 := by omega
      calc (1000:ℝ) ^ i ≤ 1000 ^ 2 := pow_le_pow_right₀ (by norm_num) this
        _ = 1000000 := by norm_num)
  rw [hKP] at hx hr
  obtain ⟨e1, -, -, e4⟩ := start S hS
  have hwx : w.x 0 = x₀ + (β / (1 + c)) • u := by rw [← e1]; exact congrArg Iter.x hx
  refine ⟨w, hw, hwx, ?_⟩
  have : freeSlack P (w.x 0) = β - s * (c - P.F 0 0) := by
    have e : P.G 0 ⬝ᵥ u = c - P.F 0 0 := by linarith
    rw [hwx, freeSlack, dotProduct_add, dotProduct_smul, smul_eq_mul, e, ← hsd, hβd, freeSlack]
    ring
  rw [this, mul_div_assoc, ← hsd, hsβ]
  linarith

/-- C110: once the defect of the scalar problem is gone, which one full step achieves, every further iteration
multiplies the residual by at most 3/20, and the defect stays away. -/
theorem C110_contracts (f : Btrifact) (hf : BtrifactOk f) (P : Lcp nz 1 neq) (x₀ : Fin nz → ℝ) (y₀ : Fin neq → ℝ)
    (u : Fin nz → ℝ) (v : Fin neq → ℝ) (hP : OneRow P x₀ y₀ u v) (hc : 0 < compliance P u)
    (c : Setup 1 nz 1 neq) (hcf : c.f = f) (hcP : c.P = fun _ => P) (S0 S : Fin 1 → PackedLU (neq + 1))
    (hprep : Prepared c S0) (hS : ∀ b, factor_kkt c.f (S0 b) (c.R b) (fun _ => 1) = some (S b)) (n : ℕ)
    (its : ℕ → Fin 1 → Iter nz 1 neq) (Ss : ℕ → Fin 1 → PackedLU (neq + 1))
    (h : SolverRun c S (fun b => initIter (c.P b) (c.Q_LU b) (S b)) n its Ss) (j : ℕ) (hj : j ≤ n)
    (h0 : (its j 0).s 0 - compliance P u * (its j 0).z 0 = freeSlack P x₀) :
    (∃ it', pdStep c.P c.Q_LU (Ss (j + 1)) (its j) = some it') ∧
    (j < n → P.resid (its (j + 1) 0) ≤ 3 / 20 * P.resid (its j 0) ∧
      (its (j + 1) 0).s 0 - compliance P u * (its (j + 1) 0).z 0 = freeSlack P x₀) := by
  obtain ⟨pp, hstep⟩ := run_one hP hc (by rw [hcf]; exact hf) hcP hprep hS h
  obtain ⟨p1, p2⟩ := pp j hj
  have er : (its j 0).s 0 - compliance P u * (its j 0).z 0 - freeSlack P x₀ = 0 := by linarith
  obtain ⟨g1, g2⟩ := hstep j hj
  simp only [er] at g1 g2
  obtain ⟨q1, q2, -, -, -, -, q3, q4, -, q5⟩ := centred_step hc p1 p2
  refine ⟨g1 q1 q2 q3 q4, fun hjn => ?_⟩
  obtain ⟨-, -, -, -, a5, a6, a7, a8, a9⟩ := g2 hjn
  have hcon := centred_contracts hc p1 p2
  have hr := (dirStep_range p1 p2 q3 q4).2
  set t := dirStep (compliance P u) 0 ((its j 0).s 0) ((its j 0).z 0)
  have hn : ∀ {m : ℕ} (a : Fin m → ℝ), norm2 ((1 - t) • a) ≤ 3 / 20 * norm2 a := by
    intro m a
    have : norm2 ((1 - t) • a) = (1 - t) * norm2 a := by
      unfold norm2
      have : ∑ i, ((1 - t) • a) i ^ 2 = (1 - t) ^ 2 * ∑ i, a i ^ 2 := by
        rw [Finset.mul_sum]
        refine Finset.sum_congr rfl fun i _ => ?_
        rw [Pi.smul_apply, smul_eq_mul]; ring
      rw [this, Real.sqrt_mul (sq_nonneg _), Real.sqrt_sq (by linarith)]
    rw [this]
    exact mul_le_mul_of_nonneg_right (by linarith) (norm2_nonneg a)
  refine ⟨?_, ?_⟩
  · obtain ⟨p3, p4⟩ := pp (j + 1) (by omega)
    rw [(resid_ge p3 p4).2, (resid_ge p1 p2).2, a7, a8, a9, a5, a6]
    have h1 := hn (P.rx (its j 0))
    have h2 := hn (P.rz (its j 0))
    have h3 := hn (P.ry (its j 0))
    linarith
  · rw [a5, a6, dirS]
    linarith

/-- C110: a touching contact with a unit compliance and no slack.  The iterates are known in closed form; slack and
multiplier fall by the factor 49/128 from one to the next, so `k + 1` iterations return the point in which the
multiplier is `(49/128)^k`. -/
theorem C110_touching (f : Btrifact) (hf : BtrifactOk f) (P : Lcp nz 1 neq) (x₀ : Fin nz → ℝ) (y₀ : Fin neq → ℝ)
    (u : Fin nz → ℝ) (v : Fin neq → ℝ) (hP : OneRow P x₀ y₀ u v) (hpos : ∀ w, w ≠ 0 → 0 < w ⬝ᵥ (P.Q *ᵥ w))
    (hA : ∀ w, P.Aᵀ *ᵥ w = 0 → w = 0) (hF : 0 ≤ P.F 0 0) (eps : ℝ) (lim k : ℕ) (hl : 1 ≤ lim)
    (hc : compliance P u = 1) (hβ : freeSlack P x₀ = 0) (heps : eps ≤ (49 / 128) ^ (2 * k)) :
    ∃ w, lcpForward f eps lim (k + 1) (fun _ : Fin 1 => P) = .ret (some w) ∧
      w.x 0 = x₀ - (if k = 0 then 0 else (49 / 128) ^ k : ℝ) • u ∧ w.z 0 0 = (49 / 128) ^ k ∧
      (k ≠ 0 → w.resids 0 = (49 / 128) ^ (2 * k)) := by
  obtain ⟨K, S0, w, hKf, hKP, hKe, hKl, hprep, hw, hpd, hfac⟩ :=
    forward_one f hf P hP.symm hpos hA hF eps lim (k + 1) (by omega)
  have hp0 := hprep 0
  rw [hKP, hKf] at hp0
  have hc0 : 0 < compliance P u := by rw [hc]; exact one_pos
  obtain ⟨S, hS, n, its, Ss, hrun, hn, hall, hns, hend⟩ := C50_stopping K (k + 1) S0 w hpd
  obtain ⟨pp, hstep⟩ := run_one hP hc0 (by rw [hKf]; exact hf) hKP hprep hS hrun
  have h0 := hS 0
  rw [hKf] at h0
  have hin := pre_factor_inv hf hp0.1 hp0.2
  obtain ⟨e1, e2, e3, e4, e5, e6⟩ := start_one hP hpos hc0 hin.1 (factor_kkt_inv hf hin.2 h0).2
  rw [hβ, zero_div] at e1 e2 e3 e4 e5
  rw [if_pos le_rfl] at e2 e3
  have hit0 : its 0 0 = initIter P (K.Q_LU 0) (S 0) := by rw [hrun.start, hKP]
  have step1 : ∀ a : ℝ, 0 < a → dirStep 1 0 a a = 1 ∧ a + dirS 1 0 a a = 49 / 128 * a ∧
      a + dirZ 1 0 a a = 49 / 128 * a := by
    intro a ha
    obtain ⟨-, -, b1, b2, -, -, -, -, b3, -⟩ := centred_step (c := 1) one_pos ha ha
    have eq : (1:ℝ) * a * a / (a + 1 * a) ^ 2 = 1 / 4 := by field_simp; norm_num
    rw [eq] at b1 b2 b3
    refine ⟨?_, ?_, ?_⟩
    · rw [b3]
      have q1 : (a + 1 * a) / (a * (1 + 1 / 4 - (1 / 4) ^ 3)) = 128 / 79 := by field_simp; norm_num
      have q2 : (a + 1 * a) / (1 * a * (1 + 1 / 4 - (1 / 4) ^ 3)) = 128 / 79 := by rw [one_mul, ← q1, one_mul]
      rw [q1, q2]; norm_num
    · rw [b2]; field_simp; norm_num
    · rw [b1]; field_simp; norm_num
  have hval : ∀ j ≤ n, (its j 0).s 0 = (49 / 128) ^ j ∧ (its j 0).z 0 = (49 / 128) ^ j ∧
      (1 ≤ j → P.rx (its j 0) = 0 ∧ P.rz (its j 0) = 0 ∧ P.ry (its j 0) = 0) := by
    intro j
    induction j with
    | zero => intro _; rw [hit0, e2, e3]; exact ⟨by simp, by simp, fun h => absurd h (by omega)⟩
    | succ j ih =>
      intro hj
      obtain ⟨v1, v2, -⟩ := ih (by omega)
      obtain ⟨-, -, -, -, a5, a6, a7, a8, a9⟩ := (hstep j (by omega)).2 (by omega)
      have er : ((49:ℝ) / 128) ^ j - 1 * (49 / 128) ^ j - 0 = 0 := by ring
      rw [v1, v2, hc, hβ, er] at a5 a6 a7 a8 a9
      obtain ⟨t1, t2, t3⟩ := step1 ((49 / 128) ^ j) (by positivity)
      rw [t1, one_mul] at a5 a6
      rw [t1, sub_self, zero_smul] at a7 a8 a9
      rw [a5, a6, t2, t3, pow_succ']
      exact ⟨rfl, rfl, fun _ => ⟨a7, a8, a9⟩⟩
  have hres : ∀ j, 1 ≤ j → j ≤ n → P.resid (its j 0) = (49 / 128) ^ (2 * j) := by
    intro j h1 hj
    obtain ⟨v1, v2, v3⟩ := hval j hj
    obtain ⟨w1, w2, w3⟩ := v3 h1
    obtain ⟨p1, p2⟩ := pp j hj
    rw [(resid_ge p1 p2).2, w1, w2, w3, v1, v2, two_mul, pow_add]
    simp [norm2]
  have hres0 : 1 ≤ P.resid (its 0 0) := by
    obtain ⟨p1, p2⟩ := pp 0 (by omega)
    refine le_trans ?_ (resid_ge p1 p2).1
    rw [(hval 0 (by omega)).1, (hval 0 (by omega)).2.1]; simp
  have hlow : ∀ j ≤ n, (49 / 128 : ℝ) ^ (2 * j) ≤ P.resid (its j 0) := by
    intro j hj
    rcases Nat.eq_zero_or_pos j with rfl | h1
    · simpa using hres0
    · exact (hres j h1 hj).ge
  have hdec : ∀ i j, i < j → j ≤ n → P.resid (its j 0) < P.resid (its i 0) := by
    intro i j hij hj
    rw [hres j (by omega) hj]
    refine lt_of_lt_of_le ?_ (hlow i (by omega))
    exact pow_lt_pow_right_of_lt_one₀ (by norm_num) (by norm_num) (by omega)
  have hnk : n = k := by
    by_contra hne
    have hlt : n < k := by omega
    rcases hend with h | h | h | h
    · omega
    · rcases h with h | h | h
      · have hst : stale (fun j b => (K.P b).resid (its j b)) n = 0 := by
          cases n with
          | zero => rfl
          | succ m =>
            rw [stale, if_pos]
            refine ⟨0, fun i hi => ?_⟩
            rw [hKP]
            exact hdec i (m + 1) (by omega) le_rfl
        rw [hst] at h
        omega
      · obtain ⟨i, hi, hlt'⟩ := h 0
        rw [hKP, hKe] at hlt'
        have h2 := hlow i hi
        have h3 : (49 / 128 : ℝ) ^ (2 * k) ≤ (49 / 128) ^ (2 * i) :=
          pow_le_pow_of_le_one (by norm_num) (by norm_num) (by omega)
        simp only at hlt'
        linarith
      · have h1 := h 0
        simp only [Iter.mu, Finset.univ_unique, Fin.default_eq_zero, Finset.sum_singleton, Nat.cast_one, div_one] at h1
        rw [(hval n le_rfl).1, (hval n le_rfl).2.1, abs_of_pos (by positivity)] at h1
        have h2 : (49 / 128 : ℝ) ^ n ≤ 1 := pow_le_one₀ (by norm_num) (by norm_num)
        have h3 : (0:ℝ) < (49 / 128) ^ n := by positivity
        have h4 : (1:ℝ) < 10 ^ 100 := by norm_num
        nlinarith
    · obtain ⟨it', hit'⟩ := (C110_contracts f hf P x₀ y₀ u v hP hc0 K hKf hKP S0 S hprep hS n its Ss hrun n le_rfl
        (by rw [(hval n le_rfl).1, (hval n le_rfl).2.1, hc, hβ]; ring)).1
      rw [hit'] at h; cases h
    · obtain ⟨it', hit', b, hb⟩ := h
      rw [Subsingleton.elim b 0] at hb
      obtain ⟨ds, hds⟩ := run_history hS hrun (n + 1) le_rfl
      obtain ⟨p1, p2⟩ := pp n le_rfl
      have hpos' := C48_step_positive K.P K.Q_LU (Ss (n + 1)) (its n) it' hit'
        (fun b i => by rw [Subsingleton.elim b 0, Subsingleton.elim i 0]; exact p1)
        (fun b i => by rw [Subsingleton.elim b 0, Subsingleton.elim i 0]; exact p2) 0
      obtain ⟨S', hS'⟩ := hfac ds (fun i => (it' 0).z i / (it' 0).s i)
        fun i => div_pos (hpos'.2.2.2.1 i) (hpos'.2.2.1 i)
      rw [hds, hKf, hS'] at hb
      cases hb
  subst hnk
  obtain ⟨⟨j, hj, q1, q2⟩, hmin⟩ := hall 0
  have hjn : j = n := by
    by_contra hne
    have h1 := hmin n le_rfl
    rw [q2, hKP] at h1
    exact absurd (hdec j n (by omega) le_rfl) (not_lt.2 h1)
  subst hjn
  rw [hKP] at q2
  refine ⟨w, hw, ?_, ?_, fun hk => ?_⟩
  · have hx : w.x 0 = (its j 0).x := congrArg Iter.x q1
    rw [hx]
    by_cases hk : j = 0
    · rw [if_pos hk, hk, hit0, e1]; simp
    · rw [if_neg hk]
      obtain ⟨-, v2, v3⟩ := hval j le_rfl
      obtain ⟨w1, -, w3⟩ := v3 (by omega)
      refine point_one hP hpos (x := (its j 0).x) (y := (its j 0).y) (z := (49 / 128) ^ j) ?_ ?_
      · have e : P.rx (its j 0) = P.Aᵀ *ᵥ (its j 0).y + (its j 0).z 0 • P.G 0 + P.Q *ᵥ (its j 0).x + P.p := by
          have hG : P.Gᵀ *ᵥ (its j 0).z = (its j 0).z 0 • P.G 0 := by
            funext i; simp [Matrix.mulVec, dotProduct, mul_comm]
          rw [← hG]
          simp only [Lcp.rx, Matrix.vecMul_transpose, Matrix.mulVec_transpose]
        rw [v2] at e
        rw [← w1, e]; abel
      · have e : P.ry (its j 0) = P.A *ᵥ (its j 0).x - P.b := by
          simp only [Lcp.ry, Matrix.vecMul_transpose]
        rw [e] at w3
        exact sub_eq_zero.1 w3
  · have hz : w.z 0 = (its j 0).z := congrArg Iter.z q1
    rw [hz]; exact (hval j le_rfl).2.1
  · rw [q2]; exact hres j (by omega) le_rfl

/-! ## A mass `q` in one dimension, kept below `h` -/

/-- Minimise `q x² / 2` under `x ≤ h`. -/
def massRow (q h : ℝ) : Lcp 1 1 0 where
  Q := !![q]
  p := 0
  G := !![1]
  h := fun _ => h
  A := Matrix.of fun i _ => i.elim0
  b := 0
  F := 0

theorem massRow_one (q h : ℝ) (hq : q ≠ 0) :
    OneRow (massRow q h) 0 0 (fun _ => 1 / q) 0 ∧ compliance (massRow q h) (fun _ => 1 / q) = 1 / q ∧
      freeSlack (massRow q h) 0 = h := by
  refine ⟨⟨?_, ?_, ?_, ?_, ?_⟩, ?_, ?_⟩
  · ext i j; fin_cases i; fin_cases j; rfl
  · simp [massRow]
  · simp [massRow]
  · funext i
    fin_cases i
    simp [massRow, Matrix.mulVec, dotProduct, hq]
  · funext i; exact i.elim0
  · simp [compliance, massRow, dotProduct]
  · simp [freeSlack, massRow]

theorem massRow_conditions (q h : ℝ) (hq : 0 < q) :
    (∀ t, t ≠ 0 → 0 < t ⬝ᵥ ((massRow q h).Q *ᵥ t)) ∧ (∀ t, (massRow q h).Aᵀ *ᵥ t = 0 → t = 0) ∧
      0 ≤ (massRow q h).F 0 0 := by
  refine ⟨fun t ht => ?_, fun t _ => ?_, le_rfl⟩
  · have h0 : t 0 ≠ 0 := fun h => ht (by funext i; fin_cases i; exact h)
    simp [massRow, Matrix.mulVec, dotProduct]
    have := mul_self_pos.2 h0
    nlinarith [mul_pos hq this]
  · funext i; exact i.elim0

/-- A unit mass that has to move to -5: the only solution. -/
example (x : Fin 1 → ℝ) : (∃ s z y, ApproxSolution (massRow 1 (-5)).Q (massRow 1 (-5)).p (massRow 1 (-5)).G
    (massRow 1 (-5)).h (massRow 1 (-5)).A (massRow 1 (-5)).b (massRow 1 (-5)).F 0 x s z y) ↔ x = fun _ => -5 := by
  obtain ⟨a1, a2, a3⟩ := massRow_one 1 (-5) one_ne_zero
  obtain ⟨b1, -, -⟩ := massRow_conditions 1 (-5) one_pos
  rw [C110_solution _ _ _ _ _ a1 b1 (by rw [a2]; norm_num) x, a2, a3]
  have : (0 + (min (-5 : ℝ) 0 / (1 / 1)) • fun _ : Fin 1 => (1 / 1 : ℝ)) = fun _ => -5 := by
    funext i; simp
  rw [this]

/-- A mass of 1000 that has to move to -1000 is moved to -1000/1001, with the defaults of the library. -/
example : ∃ w, lcpForward someBtrifact (1 / 10 ^ 12) 3 10 (fun _ : Fin 1 => massRow 1000 (-1000)) = .ret (some w) ∧
    w.x 0 0 = -(1000 / 1001) := by
  obtain ⟨a1, a2, a3⟩ := massRow_one 1000 (-1000) (by norm_num)
  obtain ⟨b1, b2, b3⟩ := massRow_conditions 1000 (-1000) (by norm_num)
  obtain ⟨w, hw, hx, -⟩ := C110_heavy_stall someBtrifact someBtrifact_ok _ _ _ _ _ a1 b1 b2 b3 (1 / 10 ^ 12) 3 10
    (by norm_num) le_rfl (by rw [a2]; norm_num) (by rw [a2]; norm_num) (by rw [a3]; norm_num)
    (by rw [a2, a3]; norm_num)
  refine ⟨w, hw, ?_⟩
  rw [hx, a2, a3]
  simp
  norm_num

/-- A mass of 1/400 that may stay at 0, far below its bound, is moved to within 1/401 of the bound. -/
example : ∃ w, lcpForward someBtrifact (1 / 10 ^ 12) 3 10 (fun _ : Fin 1 => massRow (1 / 400) 401000) = .ret (some w) ∧
    w.x 0 0 = 400000 := by
  obtain ⟨a1, a2, a3⟩ := massRow_one (1 / 400) 401000 (by norm_num)
  obtain ⟨b1, b2, b3⟩ := massRow_conditions (1 / 400) 401000 (by norm_num)
  obtain ⟨w, hw, hx, -⟩ := C110_light_stall someBtrifact someBtrifact_ok _ _ _ _ _ a1 b1 b2 b3
    (by simp [massRow, dotProduct]) (1 / 10 ^ 12) 3 10 (by norm_num) le_rfl (by rw [a2]; norm_num)
    (by rw [a2, a3]; norm_num) (by rw [a2, a3]; norm_num)
  refine ⟨w, hw, ?_⟩
  rw [hx, a2, a3]
  simp
  norm_num

/-- A unit mass at its bound is moved away from it by `(49/128)^9`. -/
example : ∃ w, lcpForward someBtrifact (1 / 10 ^ 12) 3 10 (fun _ : Fin 1 => massRow 1 0) = .ret (some w) ∧
    w.x 0 0 = -(49 / 128) ^ 9 := by
  obtain ⟨a1, a2, a3⟩ := massRow_one 1 0 one_ne_zero
  obtain ⟨b1, b2, b3⟩ := massRow_conditions 1 0 one_pos
  obtain ⟨w, hw, hx, -⟩ := C110_touching someBtrifact someBtrifact_ok _ _ _ _ _ a1 b1 b2 b3 (1 / 10 ^ 12) 3 9
    (by norm_num) (by rw [a2]; norm_num) a3 (by norm_num)
  refine ⟨w, hw, ?_⟩
  rw [hx]
  simp

/-- The hypotheses of `C110_contracts` hold at the start of the run for the unit mass at its bound. -/
example (c : Setup 1 1 1 0) (hcf : c.f = someBtrifact) (hcP : c.P = fun _ => massRow 1 0)
    (S0 S : Fin 1 → PackedLU (0 + 1)) (hprep : Prepared c S0)
    (hS : ∀ b, factor_kkt c.f (S0 b) (c.R b) (fun _ => 1) = some (S b)) (n : ℕ)
    (its : ℕ → Fin 1 → Iter 1 1 0) (Ss : ℕ → Fin 1 → PackedLU (0 + 1))
    (h : SolverRun c S (fun b => initIter (c.P b) (c.Q_LU b) (S b)) n its Ss) (hn : 0 < n) :
    (massRow 1 0).resid (its 1 0) ≤ 3 / 20 * (massRow 1 0).resid (its 0 0) := by
  obtain ⟨a1, a2, a3⟩ := massRow_one 1 0 one_ne_zero
  obtain ⟨b1, b2, b3⟩ := massRow_conditions 1 0 one_pos
  have hp0 := hprep 0
  rw [hcP, hcf] at hp0
  have h0 := hS 0
  rw [hcf] at h0
  have hin := pre_factor_inv someBtrifact_ok hp0.1 hp0.2
  obtain ⟨-, e2, e3, -⟩ := start_one a1 b1 (by rw [a2]; norm_num) hin.1 (factor_kkt_inv someBtrifact_ok hin.2 h0).2
  rw [a3, zero_div] at e2 e3
  have hc : 0 < compliance (massRow 1 0) fun _ => 1 / 1 := by rw [a2]; norm_num
  refine ((C110_contracts someBtrifact someBtrifact_ok _ _ _ _ _ a1 hc c hcf hcP S0 S hprep hS n its Ss h 0 (by omega)
    ?_).2 hn).1
  have hit0 : its 0 0 = initIter (massRow 1 0) (c.Q_LU 0) (S 0) := by rw [h.start, hcP]
  rw [hit0, e2, e3, a2, a3]
  simp

end LcpPhysics
