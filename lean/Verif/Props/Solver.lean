import Verif.Spec.Solver
import Verif.Lemmas.Pdipm
import Verif.Lemmas.LuExists
import Verif.Props.Kkt
import Mathlib.Algebra.Order.BigOperators.Group.Finset

/-! # C47–C51, C54, C55: the interior point iteration -/

noncomputable section

namespace LcpPhysics
open Matrix Spec

variable {nz nineq neq B n : ℕ}

/-! ## C47 -/

/-- C47: the starting slacks and multipliers are positive; a row that had a non-positive entry is
moved to values of at least one. -/
theorem C47_init_positive [NeZero nineq] (P : Lcp nz nineq neq) (Q_LU : PackedLU nz)
    (S_LU : PackedLU (neq + nineq)) :
    let v := solve_kkt Q_LU (fun _ => 1) P.G P.A S_LU P.p 0 (-P.h) (-P.b)
    let w := initIter P Q_LU S_LU
    (∀ i, 0 < w.s i) ∧ (∀ i, 0 < w.z i) ∧
    ((∃ i, v.s i ≤ 0) → ∀ i, 1 ≤ w.s i) ∧ ((∃ i, v.z i ≤ 0) → ∀ i, 1 ≤ w.z i) ∧ w.x = v.x ∧ w.y = v.y := by
  intro v w
  refine ⟨fun i => (shiftPos_pos v.s i).1, fun i => (shiftPos_pos v.z i).1, ?_, ?_, rfl, rfl⟩
  · rintro ⟨j, hj⟩ i
    exact (shiftPos_pos v.s i).2 ((rowMin_le v.s j).trans hj)
  · rintro ⟨j, hj⟩ i
    exact (shiftPos_pos v.z i).2 ((rowMin_le v.z j).trans hj)

/-- C47: the amount of the shift is the same for all entries of a row. -/
theorem C47_shift_uniform [NeZero n] (v : Fin n → ℝ) : ∃ c, 0 ≤ c ∧ ∀ i, shiftPos v i = v i + c := by
  unfold shiftPos
  by_cases h : rowMin v ≤ 0
  · rw [if_pos h]
    exact ⟨1 - rowMin v, by linarith, fun i => by ring⟩
  · rw [if_neg h]
    exact ⟨0, le_rfl, fun i => by ring⟩

/-- C47: "make all of the slack variables >= 1" is not what happens: positive entries below one stay. -/
theorem C47_not_all_ge_one : ∃ v : Fin 1 → ℝ, ¬ ∀ i, 1 ≤ shiftPos v i := by
  refine ⟨fun _ => 1 / 2, fun h => ?_⟩
  have h0 : ¬ rowMin (fun _ : Fin 1 => (1 / 2 : ℝ)) ≤ 0 := by
    obtain ⟨i, hi⟩ := exists_rowMin (fun _ : Fin 1 => (1 / 2 : ℝ))
    rw [hi]; norm_num
  have := h 0
  rw [shiftPos, if_neg h0] at this
  norm_num at this

/-! ## C48 -/

/-- C48: a step of the length `get_step` returns keeps every entry non-negative, and a fraction `c` of
it keeps at least the share `1 - c` of every entry. -/
theorem C48_get_step [NeZero B] [NeZero n] (v dv : Fin B → Fin n → ℝ) (st : Fin B → ℝ)
    (h : get_step v dv = some st) (hv : ∀ b i, 0 < v b i) (b : Fin B) :
    0 < st b ∧ (∀ t : ℝ, 0 ≤ t → t ≤ st b → ∀ i, 0 ≤ v b i + t * dv b i) ∧
    (∀ t c : ℝ, 0 ≤ t → t ≤ c * st b → 0 ≤ c → ∀ i, (1 - c) * v b i ≤ v b i + t * dv b i) :=
  get_step_pos h hv b

/-- C48: the length is the largest possible one, or at least one. -/
theorem C48_get_step_maximal [NeZero B] [NeZero n] (v dv : Fin B → Fin n → ℝ) (st : Fin B → ℝ)
    (h : get_step v dv = some st) (b : Fin B) : 1 ≤ st b ∨ ∃ i, v b i + st b * dv b i = 0 := by
  obtain ⟨hz, c, hc, -, -, hst⟩ := get_step_spec h
  obtain ⟨i, hi⟩ := exists_rowMin fun i => if dv b i > 0 then c else -v b i / dv b i
  by_cases hd : dv b i > 0
  · left; rw [hst, hi, if_pos hd]; exact hc
  · right
    refine ⟨i, ?_⟩
    have := hz b i
    rw [hst, hi, if_neg hd]
    field_simp
    ring

/-- C48: a component of the direction that is exactly zero is not handled: for positive entries the
quotient is minus infinity (here: no finite step). -/
theorem C48_zero_direction [NeZero B] [NeZero n] (v dv : Fin B → Fin n → ℝ) :
    get_step v dv = none ↔ ∃ b i, dv b i = 0 := by
  unfold get_step
  by_cases h : ∃ b i, dv b i = 0
  · simp [h]
  · rw [if_neg h]; simp [h]

/-- C48: one step keeps slacks and multipliers positive, shrinks them at most by a factor of 1000, and
moves along a fixed direction by a length in `(0, 1]`. -/
theorem C48_step_positive [NeZero B] [NeZero nineq] (P : Fin B → Lcp nz nineq neq) (Q_LU : Fin B → PackedLU nz)
    (S_LU : Fin B → PackedLU (neq + nineq)) (it it' : Fin B → Iter nz nineq neq)
    (h : pdStep P Q_LU S_LU it = some it') (hs : ∀ b i, 0 < (it b).s i) (hz : ∀ b i, 0 < (it b).z i) (b : Fin B) :
    (∀ i, (it b).s i / 1000 ≤ (it' b).s i) ∧ (∀ i, (it b).z i / 1000 ≤ (it' b).z i) ∧
    (∀ i, 0 < (it' b).s i) ∧ (∀ i, 0 < (it' b).z i) ∧
    ∃ t : ℝ, 0 < t ∧ t ≤ 1 ∧ ∃ d : Iter nz nineq neq, it' b = (it b).move t d := by
  obtain ⟨rs, stz, sts, hgz, hgs, hit⟩ := pdStep_spec h
  obtain ⟨pz, -, kz⟩ := get_step_pos hgz hz b
  obtain ⟨ps, -, ks⟩ := get_step_pos hgs hs b
  set t := min (999 / 1000 * min (stz b) (sts b)) 1 with ht
  have ht0 : 0 < t := lt_min (mul_pos (by norm_num) (lt_min pz ps)) one_pos
  have ht1 : t ≤ 1 := min_le_right _ _
  have htz : t ≤ 999 / 1000 * stz b :=
    (min_le_left _ _).trans (mul_le_mul_of_nonneg_left (min_le_left _ _) (by norm_num))
  have hts : t ≤ 999 / 1000 * sts b :=
    (min_le_left _ _).trans (mul_le_mul_of_nonneg_left (min_le_right _ _) (by norm_num))
  have hs' : ∀ i, (it b).s i / 1000 ≤ (it' b).s i := by
    intro i
    have := ks t (999 / 1000) ht0.le hts (by norm_num) i
    rw [hit b]
    simp only [Iter.move, Pi.add_apply, Pi.smul_apply, smul_eq_mul] at this ⊢
    linarith
  have hz' : ∀ i, (it b).z i / 1000 ≤ (it' b).z i := by
    intro i
    have := kz t (999 / 1000) ht0.le htz (by norm_num) i
    rw [hit b]
    simp only [Iter.move, Pi.add_apply, Pi.smul_apply, smul_eq_mul] at this ⊢
    linarith
  refine ⟨hs', hz', fun i => ?_, fun i => ?_, t, ht0, ht1, _, hit b⟩
  · have := hs' i; have := hs b i; linarith
  · have := hz' i; have := hz b i; linarith

/-- C48 along a whole run: every visited iterate has positive slacks and multipliers. -/
theorem C48_run_positive [NeZero B] [NeZero nineq] (c : Setup B nz nineq neq) (S : Fin B → PackedLU (neq + nineq))
    (it : Fin B → Iter nz nineq neq) (n : ℕ) (its : ℕ → Fin B → Iter nz nineq neq)
    (Ss : ℕ → Fin B → PackedLU (neq + nineq)) (h : SolverRun c S it n its Ss)
    (hs : ∀ b i, 0 < (it b).s i) (hz : ∀ b i, 0 < (it b).z i) (j : ℕ) (hj : j ≤ n) :
    (∀ b i, 0 < (its j b).s i) ∧ (∀ b i, 0 < (its j b).z i) := by
  induction j with
  | zero => rw [h.start]; exact ⟨hs, hz⟩
  | succ j ih =>
    obtain ⟨h1, h2⟩ := ih (by omega)
    have := h.step j (by omega)
    exact ⟨fun b => (C48_step_positive _ _ _ _ _ this h1 h2 b).2.2.1,
      fun b => (C48_step_positive _ _ _ _ _ this h1 h2 b).2.2.2.1⟩

/-! ## C49 -/

/-- C49: one predictor-corrector step multiplies the dual, inequality and equality residuals by the
same factor `1 - t`, `t` the step length. -/
theorem C49_step_contracts [NeZero B] [NeZero nineq] (P : Fin B → Lcp nz nineq neq) (Q_LU : Fin B → PackedLU nz)
    (S_LU : Fin B → PackedLU (neq + nineq)) (it it' : Fin B → Iter nz nineq neq)
    (h : pdStep P Q_LU S_LU it = some it') (hs : ∀ b i, 0 < (it b).s i) (hz : ∀ b i, 0 < (it b).z i)
    (hQ : ∀ b, Factors (P b).Q (Q_LU b))
    (hS : ∀ b, Factors (flatBlocks (schur (P b).Q (P b).G (P b).A (P b).F fun i => (it b).z i / (it b).s i)) (S_LU b))
    (b : Fin B) :
    ∃ t : ℝ, 0 < t ∧ t ≤ 1 ∧ (P b).rx (it' b) = (1 - t) • (P b).rx (it b) ∧
      (P b).rz (it' b) = (1 - t) • (P b).rz (it b) ∧ (P b).ry (it' b) = (1 - t) • (P b).ry (it b) := by
  obtain ⟨rs, stz, sts, hgz, hgs, hit⟩ := pdStep_spec h
  obtain ⟨pz, -, -⟩ := get_step_pos hgz hz b
  obtain ⟨ps, -, -⟩ := get_step_pos hgs hs b
  have hd : ∀ i, (it b).z i / (it b).s i ≠ 0 := fun i => (div_pos (hz b i) (hs b i)).ne'
  have h1 := C44_solve_kkt (P b).Q (P b).G (P b).A (P b).F _ hd (Q_LU b) (S_LU b) (hQ b) (hS b)
    ((P b).rx (it b)) (it b).z ((P b).rz (it b)) ((P b).ry (it b))
  have h2 := C44_solve_kkt (P b).Q (P b).G (P b).A (P b).F _ hd (Q_LU b) (S_LU b) (hQ b) (hS b) 0 (rs b) 0 0
  have h3 := newton_add h1 h2
  simp only [add_zero] at h3
  refine ⟨min (999 / 1000 * min (stz b) (sts b)) 1,
    lt_min (mul_pos (by norm_num) (lt_min pz ps)) one_pos, min_le_right _ _, ?_⟩
  rw [hit b]
  exact residuals_move (P b) (it b)
    { x := _ + _, s := _ + _, z := _ + _, y := _ + _ } _ _ h3 _

/-- The stored data come from `pre_factor_kkt` of the same problems. -/
def Prepared (c : Setup B nz nineq neq) (S : Fin B → PackedLU (neq + nineq)) : Prop :=
  ∀ b, (c.P b).Qᵀ = (c.P b).Q ∧
    pre_factor_kkt c.f (c.P b).Q (c.P b).G (c.P b).F (c.P b).A = .ok { Q_LU := c.Q_LU b, S_LU := S b, R := c.R b }

/-- C49 along a whole run: after `j` steps the residuals are those of the starting point times the
product of the factors `1 - t`. -/
theorem C49_run_contracts [NeZero B] [NeZero nineq] (c : Setup B nz nineq neq) (hf : BtrifactOk c.f)
    (S0 S : Fin B → PackedLU (neq + nineq)) (hprep : Prepared c S0)
    (hS1 : ∀ b, factor_kkt c.f (S0 b) (c.R b) (fun _ => 1) = some (S b))
    (it : Fin B → Iter nz nineq neq) (n : ℕ) (its : ℕ → Fin B → Iter nz nineq neq)
    (Ss : ℕ → Fin B → PackedLU (neq + nineq)) (h : SolverRun c S it n its Ss)
    (hs : ∀ b i, 0 < (it b).s i) (hz : ∀ b i, 0 < (it b).z i) (b : Fin B) :
    ∃ t : ℕ → ℝ, (∀ j < n, 0 < t j ∧ t j ≤ 1) ∧ ∀ j ≤ n,
      (c.P b).rx (its j b) = (∏ i ∈ Finset.range j, (1 - t i)) • (c.P b).rx (it b) ∧
      (c.P b).rz (its j b) = (∏ i ∈ Finset.range j, (1 - t i)) • (c.P b).rz (it b) ∧
      (c.P b).ry (its j b) = (∏ i ∈ Finset.range j, (1 - t i)) • (c.P b).ry (it b) := by
  have hinv : ∀ j ≤ n + 1, ∀ b, SInv (c.P b).Q (c.P b).G (c.P b).F (c.P b).A (Ss j b) (c.R b) := by
    intro j
    induction j with
    | zero =>
      intro _ b
      obtain ⟨hsym, hp⟩ := hprep b
      rw [h.startS]
      exact (factor_kkt_inv hf (pre_factor_inv hf hsym hp).2 (hS1 b)).1
    | succ j ih =>
      intro hj b
      exact (factor_kkt_inv hf (ih (by omega) b) (h.factor j (by omega) b)).1
  have hstep : ∀ j < n, ∃ t : ℝ, 0 < t ∧ t ≤ 1 ∧ (c.P b).rx (its (j + 1) b) = (1 - t) • (c.P b).rx (its j b) ∧
      (c.P b).rz (its (j + 1) b) = (1 - t) • (c.P b).rz (its j b) ∧
      (c.P b).ry (its (j + 1) b) = (1 - t) • (c.P b).ry (its j b) := by
    intro j hj
    obtain ⟨p1, p2⟩ := C48_run_positive c S it n its Ss h hs hz j hj.le
    refine C49_step_contracts c.P c.Q_LU (Ss (j + 1)) (its j) (its (j + 1)) (h.step j hj) p1 p2 (fun b => ?_)
      (fun b => ?_) b
    · obtain ⟨hsym, hp⟩ := hprep b
      exact (pre_factor_inv hf hsym hp).1
    · exact (factor_kkt_inv hf (hinv j (by omega) b) (h.factor j hj.le b)).2
  choose! t ht using hstep
  refine ⟨t, fun j hj => ⟨(ht j hj).1, (ht j hj).2.1⟩, fun j => ?_⟩
  · induction j with
    | zero => intro _; simp [h.start]
    | succ j ih =>
      intro hj
      obtain ⟨e1, e2, e3⟩ := ih (by omega)
      have hj' : j < n := by omega
      obtain ⟨-, -, f1, f2, f3⟩ := ht j hj'
      rw [Finset.prod_range_succ]
      rw [f1, f2, f3, e1, e2, e3]
      simp only [smul_smul]
      exact ⟨by rw [mul_comm], by rw [mul_comm], by rw [mul_comm]⟩

/-! ## C54 -/

/-- C54: scattering the selected entries of `x` replaces exactly the selected positions. -/
theorem C54_masked_update {α : Type} (mask : List Bool) (dst x : List α) (h1 : dst.length = mask.length)
    (h2 : x.length = mask.length) :
    ∃ out, maskedScatter mask dst (maskedSelect mask x) = some out ∧ out.length = dst.length ∧
      ∀ i : ℕ, out[i]? = if mask[i]? = some true then x[i]? else dst[i]? :=
  maskedScatter_select mask dst x h1 h2

/-- C54: with the mask of the improved batch elements repeated along the rows, whole rows are
replaced. -/
theorem C54_scatter_rows (I : Fin B → Bool) (best x : Fin B → Fin n → ℝ) :
    scatterRows I best x = fun b => if I b then x b else best b := by
  funext b i
  rw [scatterRows_eq]
  by_cases h : I b <;> simp [h]

/-- C54: scattering `1 / d` into a batch of identity masks gives the batch of diagonal matrices. -/
theorem C54_batched_diagonal (v : Fin B → Fin n → ℝ) :
    scatterDiag v = some ((List.finRange B).flatMap fun b => flatten fun i j : Fin n => (Matrix.diagonal (v b)) i j) :=
  scatterDiag_eq v

example : maskedScatter [true, false, true] [1, 2, 3] (maskedSelect [true, false, true] [7, 8, 9]) = some [7, 2, 9] := by
  rfl

/-! ## C50 -/

theorem updateBest_spec (resids : Fin B → ℝ) (it : Fin B → Iter nz nineq neq) (best : Option (Best B nz nineq neq))
    (nNot : ℕ) (b : Fin B) :
    let w := (updateBest resids it best nNot).1
    ((∃ w0, best = some w0 ∧ bestRow w b = bestRow w0 b ∧ w.resids b = w0.resids b ∧ w0.resids b ≤ resids b) ∨
      (bestRow w b = it b ∧ w.resids b = resids b)) ∧
    (∀ w0, best = some w0 → w.resids b ≤ w0.resids b) ∧ w.resids b ≤ resids b := by
  intro w
  cases best with
  | none =>
    refine ⟨Or.inr ⟨rfl, rfl⟩, ?_, le_rfl⟩
    intro w0 h; cases h
  | some w0 =>
    have hx : w = (updateBest resids it (some w0) nNot).1 := rfl
    simp only [updateBest, C54_scatter_rows] at hx
    by_cases hI : resids b < w0.resids b
    · have hr : w.resids b = resids b := by rw [hx]; simp [hI]
      refine ⟨Or.inr ⟨?_, hr⟩, ?_, hr.le⟩
      · rw [hx]; simp [bestRow, hI]
      · intro w1 h1; cases h1; rw [hr]; exact hI.le
    · have hr : w.resids b = w0.resids b := by rw [hx]; simp [hI]
      refine ⟨Or.inl ⟨w0, rfl, ?_, hr, not_lt.1 hI⟩, ?_, hr.le.trans (not_lt.1 hI)⟩
      · rw [hx]; simp [bestRow, hI]
      · intro w1 h1; cases h1; exact hr.le

theorem pdLoop_spec [NeZero B] [NeZero nineq] (c : Setup B nz nineq neq) (k : ℕ)
    (S : Fin B → PackedLU (neq + nineq)) (it : Fin B → Iter nz nineq neq) (best : Option (Best B nz nineq neq))
    (nNot : ℕ) (w : Best B nz nineq neq) (h : pdLoop c k S it best nNot = .ret (some w)) :
    best = some w ∨ ∃ n < k, ∃ its Ss, SolverRun c S it n its Ss ∧ ∀ b,
      ((∃ w0, best = some w0 ∧ bestRow w b = bestRow w0 b ∧ w.resids b = w0.resids b) ∨
        ∃ j ≤ n, bestRow w b = its j b ∧ w.resids b = (c.P b).resid (its j b)) ∧
      (∀ w0, best = some w0 → w.resids b ≤ w0.resids b) ∧ ∀ j ≤ n, w.resids b ≤ (c.P b).resid (its j b) := by
  induction k generalizing S it best nNot with
  | zero =>
    cases best with
    | none => simp [pdLoop] at h
    | some w0 => simp only [pdLoop, Outcome.ret.injEq] at h; exact Or.inl h
  | succ k ih =>
    simp only [pdLoop] at h
    split at h
    · simp only [Outcome.ret.injEq] at h; exact Or.inl h
    · rename_i S1 hS1
      right
      set r := updateBest (fun b => (c.P b).resid (it b)) it best nNot with hr
      have hspec := updateBest_spec (fun b => (c.P b).resid (it b)) it best nNot
      simp only [← hr] at hspec
      have single : ∀ w', r.1 = w' → ∃ n < k + 1, ∃ its Ss, SolverRun c S it n its Ss ∧ ∀ b,
          ((∃ w0, best = some w0 ∧ bestRow w' b = bestRow w0 b ∧ w'.resids b = w0.resids b) ∨
            ∃ j ≤ n, bestRow w' b = its j b ∧ w'.resids b = (c.P b).resid (its j b)) ∧
          (∀ w0, best = some w0 → w'.resids b ≤ w0.resids b) ∧ ∀ j ≤ n, w'.resids b ≤ (c.P b).resid (its j b) := by
        rintro w' rfl
        refine ⟨0, by omega, fun _ => it, fun j => if j = 0 then S else S1, ⟨rfl, rfl, ?_, by intro j hj; omega⟩,
          fun b => ⟨?_, (hspec b).2.1, fun j _ => (hspec b).2.2⟩⟩
        · intro j hj b
          have : j = 0 := by omega
          subst this
          simpa using batchM_some hS1 b
        · rcases (hspec b).1 with ⟨w0, e1, e2, e3, -⟩ | ⟨e1, e2⟩
          · exact Or.inl ⟨w0, e1, e2, e3⟩
          · exact Or.inr ⟨0, le_rfl, e1, e2⟩
      split at h
      · simp only [Outcome.ret.injEq, Option.some.injEq] at h
        exact single w h
      · split at h
        · simp only [Outcome.ret.injEq, Option.some.injEq] at h
          exact single w h
        · rename_i it' hit'
          rcases ih S1 it' (some r.1) r.2 h with hw | ⟨n, hn, its, Ss, hrun, hall⟩
          · simp only [Option.some.injEq] at hw
            exact single w hw
          · refine ⟨n + 1, by omega, fun j => if j = 0 then it else its (j - 1), fun j => if j = 0 then S else Ss (j - 1),
              ⟨rfl, rfl, ?_, ?_⟩, fun b => ?_⟩
            · intro j hj b
              rcases j with _ | j
              · simpa [hrun.startS] using batchM_some hS1 b
              · simpa using hrun.factor j (by omega) b
            · intro j hj
              rcases j with _ | j
              · simpa [hrun.startS, hrun.start] using hit'
              · simpa using hrun.step j (by omega)
            · obtain ⟨h1, h2, h3⟩ := hall b
              have hle := h2 r.1 rfl
              refine ⟨?_, fun w0 hw0 => hle.trans ((hspec b).2.1 w0 hw0), fun j hj => ?_⟩
              · rcases h1 with ⟨w0, e1, e2, e3⟩ | ⟨j, hj, e2, e3⟩
                · cases e1
                  rcases (hspec b).1 with ⟨w1, g1, g2, g3, -⟩ | ⟨g1, g2⟩
                  · exact Or.inl ⟨w1, g1, e2.trans g2, e3.trans g3⟩
                  · exact Or.inr ⟨0, by omega, by simpa using e2.trans g1, by simpa using e3.trans g2⟩
                · exact Or.inr ⟨j + 1, by omega, by simpa using e2, by simpa using e3⟩
              · rcases j with _ | j
                · simpa using hle.trans (hspec b).2.2
                · simpa using h3 j (by omega)

/-- C50: what `forward` returns is, for each batch element, one of the iterates it visited (all four
parts of the same iterate), with the smallest residual among them; at most `max_iter` iterates are
visited. -/
theorem C50_best_iterate [NeZero B] [NeZero nineq] (c : Setup B nz nineq neq) (max_iter : ℕ)
    (S0 : Fin B → PackedLU (neq + nineq)) (w : Best B nz nineq neq)
    (h : pdForward c max_iter S0 = .ret (some w)) :
    ∃ S, (∀ b, factor_kkt c.f (S0 b) (c.R b) (fun _ => 1) = some (S b)) ∧
    ∃ n < max_iter, ∃ its Ss, SolverRun c S (fun b => initIter (c.P b) (c.Q_LU b) (S b)) n its Ss ∧ ∀ b,
      (∃ j ≤ n, bestRow w b = its j b ∧ w.resids b = (c.P b).resid (its j b)) ∧
      ∀ j ≤ n, w.resids b ≤ (c.P b).resid (its j b) := by
  unfold pdForward at h
  split at h
  · cases h
  · rename_i S hS
    refine ⟨S, fun b => batchM_some hS b, ?_⟩
    rcases pdLoop_spec c max_iter S _ none 0 w h with hw | ⟨n, hn, its, Ss, hrun, hall⟩
    · cases hw
    · refine ⟨n, hn, its, Ss, hrun, fun b => ?_⟩
      obtain ⟨h1, -, h3⟩ := hall b
      refine ⟨?_, h3⟩
      rcases h1 with ⟨w0, e, -⟩ | h1
      · cases e
      · exact h1

theorem stale_congr {res res' : ℕ → Fin B → ℝ} : ∀ {n : ℕ}, (∀ j ≤ n, res j = res' j) → stale res n = stale res' n
  | 0, _ => rfl
  | n + 1, h => by
    have e : (∃ b, ∀ i ≤ n, res (n + 1) b < res i b) ↔ ∃ b, ∀ i ≤ n, res' (n + 1) b < res' i b := by
      refine exists_congr fun b => forall_congr' fun i => forall_congr' fun hi => ?_
      rw [h _ le_rfl, h i (by omega)]
    have ih : stale res n = stale res' n := stale_congr fun j hj => h j (by omega)
    simp only [stale, e, ih]

theorem stopsAt_congr {lim : ℕ} {eps : ℝ} {res res' gap gap' : ℕ → Fin B → ℝ} {n : ℕ}
    (h : ∀ j ≤ n, res j = res' j ∧ gap j = gap' j) : StopsAt lim eps res gap n ↔ StopsAt lim eps res' gap' n := by
  unfold StopsAt
  rw [stale_congr fun j hj => (h j hj).1, (h n le_rfl).2]
  have : (∀ b, ∃ i ≤ n, res i b < eps) ↔ ∀ b, ∃ i ≤ n, res' i b < eps :=
    forall_congr' fun b => exists_congr fun i => and_congr_right fun hi => by rw [(h i hi).1]
  rw [this]

/-- The stored best after taking in iterate `m` of a run. -/
theorem updateBest_run (res : ℕ → Fin B → ℝ) (its : ℕ → Fin B → Iter nz nineq neq) (m : ℕ)
    (best : Option (Best B nz nineq neq)) (nNot : ℕ)
    (hb : match best with
      | none => m = 0
      | some w0 => 0 < m ∧ nNot = stale res (m - 1) ∧ ∀ b,
        (∃ j < m, bestRow w0 b = its j b ∧ w0.resids b = res j b) ∧ ∀ j < m, w0.resids b ≤ res j b) :
    (updateBest (res m) (its m) best nNot).2 = stale res m ∧ ∀ b,
      (∃ j ≤ m, bestRow (updateBest (res m) (its m) best nNot).1 b = its j b ∧
        (updateBest (res m) (its m) best nNot).1.resids b = res j b) ∧
      ∀ j ≤ m, (updateBest (res m) (its m) best nNot).1.resids b ≤ res j b := by
  refine ⟨?_, fun b => ?_⟩
  · cases best with
    | none => simp only at hb; subst hb; rfl
    | some w0 =>
      obtain ⟨h0, hn, hw⟩ := hb
      obtain ⟨m, rfl⟩ := Nat.exists_eq_succ_of_ne_zero (by omega : m ≠ 0)
      have e : (∃ b, decide (res (m + 1) b < w0.resids b) = true) ↔
          ∃ b, ∀ i ≤ m, res (m + 1) b < res i b := by
        refine exists_congr fun b => ?_
        rw [decide_eq_true_iff]
        constructor
        · intro hlt i hi
          exact hlt.trans_le ((hw b).2 i (by omega))
        · intro hlt
          obtain ⟨j, hj, -, hj2⟩ := (hw b).1
          rw [hj2]; exact hlt j (by omega)
      simp only [updateBest, Nat.succ_eq_add_one, stale, e, hn, Nat.add_sub_cancel]
  · obtain ⟨h1, h2, h3⟩ := updateBest_spec (res m) (its m) best nNot b
    refine ⟨?_, fun j hj => ?_⟩
    · rcases h1 with ⟨w0, rfl, e1, e2, -⟩ | ⟨e1, e2⟩
      · obtain ⟨-, -, hw⟩ := hb
        obtain ⟨j, hj, g1, g2⟩ := (hw b).1
        exact ⟨j, hj.le, e1.trans g1, e2.trans g2⟩
      · exact ⟨m, le_rfl, e1, e2⟩
    · rcases hj.eq_or_lt with rfl | hj
      · exact h3
      · cases best with
        | none => simp only at hb; omega
        | some w0 => exact (h2 w0 rfl).trans ((hb.2.2 b).2 j hj)

theorem pdLoop_stop [NeZero B] [NeZero nineq] (c : Setup B nz nineq neq) (k : ℕ)
    (best : Option (Best B nz nineq neq)) (nNot : ℕ) (w : Best B nz nineq neq) (m : ℕ)
    (its : ℕ → Fin B → Iter nz nineq neq) (Ss : ℕ → Fin B → PackedLU (neq + nineq))
    (hf : ∀ j < m, ∀ b, factor_kkt c.f (Ss j b) (c.R b) (fun i => (its j b).z i / (its j b).s i) =
      some (Ss (j + 1) b))
    (hs : ∀ j < m, pdStep c.P c.Q_LU (Ss (j + 1)) (its j) = some (its (j + 1)))
    (hb : match best with
      | none => m = 0
      | some w0 => 0 < m ∧ nNot = stale (fun j b => (c.P b).resid (its j b)) (m - 1) ∧ ∀ b,
        (∃ j < m, bestRow w0 b = its j b ∧ w0.resids b = (c.P b).resid (its j b)) ∧
          ∀ j < m, w0.resids b ≤ (c.P b).resid (its j b))
    (hgo : ∀ j < m, ¬StopsAt c.lim c.eps (fun j b => (c.P b).resid (its j b)) (fun j b => (its j b).mu) j)
    (h : pdLoop c k (Ss m) (its m) best nNot = .ret (some w)) :
    ∃ n its' Ss', SolverRun c (Ss 0) (its 0) n its' Ss' ∧ n < m + k ∧
      (∀ b, (∃ j ≤ n, bestRow w b = its' j b ∧ w.resids b = (c.P b).resid (its' j b)) ∧
        ∀ j ≤ n, w.resids b ≤ (c.P b).resid (its' j b)) ∧
      (∀ j < n, ¬StopsAt c.lim c.eps (fun j b => (c.P b).resid (its' j b)) (fun j b => (its' j b).mu) j) ∧
      (n + 1 = m + k ∨
        StopsAt c.lim c.eps (fun j b => (c.P b).resid (its' j b)) (fun j b => (its' j b).mu) n ∨
        pdStep c.P c.Q_LU (Ss' (n + 1)) (its' n) = none ∨
        ∃ it', pdStep c.P c.Q_LU (Ss' (n + 1)) (its' n) = some it' ∧
          ∃ b, factor_kkt c.f (Ss' (n + 1) b) (c.R b) (fun i => (it' b).z i / (it' b).s i) = none) := by
  induction k generalizing m best nNot its Ss with
  | zero =>
    cases best with
    | none => simp [pdLoop] at h
    | some w0 =>
      simp only [pdLoop, Outcome.ret.injEq, Option.some.injEq] at h
      subst h
      obtain ⟨h0, -, hw⟩ := hb
      refine ⟨m - 1, its, Ss, ⟨rfl, rfl, fun j hj => hf j (by omega), fun j hj => hs j (by omega)⟩, by omega,
        fun b => ⟨?_, fun j hj => (hw b).2 j (by omega)⟩, fun j hj => hgo j (by omega), Or.inl (by omega)⟩
      obtain ⟨j, hj, e⟩ := (hw b).1
      exact ⟨j, by omega, e⟩
  | succ k ih =>
    simp only [pdLoop] at h
    split at h
    · rename_i hS1
      simp only [Outcome.ret.injEq] at h
      subst h
      obtain ⟨h0, -, hw⟩ := hb
      refine ⟨m - 1, its, Ss, ⟨rfl, rfl, fun j hj => hf j (by omega), fun j hj => hs j (by omega)⟩, by omega,
        fun b => ⟨?_, fun j hj => (hw b).2 j (by omega)⟩, fun j hj => hgo j (by omega),
        Or.inr (Or.inr (Or.inr ⟨its m, ?_, ?_⟩))⟩
      · obtain ⟨j, hj, e⟩ := (hw b).1
        exact ⟨j, by omega, e⟩
      · have := hs (m - 1) (by omega)
        rwa [show m - 1 + 1 = m by omega] at this ⊢
      · rw [show m - 1 + 1 = m by omega]
        exact batchM_none.1 hS1
    · rename_i S1 hS1
      set r := updateBest (fun b => (c.P b).resid (its m b)) (its m) best nNot with hr
      obtain ⟨hr2, hrb⟩ := updateBest_run (fun j b => (c.P b).resid (its j b)) its m best nNot hb
      simp only [← hr] at hr2 hrb
      -- the run up to `m`, with the new factorisation
      set Ss1 : ℕ → Fin B → PackedLU (neq + nineq) := fun j => if j ≤ m then Ss j else S1 with hSs1
      have hlo : ∀ j ≤ m, Ss1 j = Ss j := fun j hj => if_pos hj
      have hhi : Ss1 (m + 1) = S1 := if_neg (by omega)
      have hf1 : ∀ j < m + 1, ∀ b, factor_kkt c.f (Ss1 j b) (c.R b) (fun i => (its j b).z i / (its j b).s i) =
          some (Ss1 (j + 1) b) := fun j hj b => by
        rw [hlo j (by omega)]
        by_cases hjm : j = m
        · subst hjm
          rw [hhi]; exact batchM_some hS1 b
        · rw [hlo (j + 1) (by omega)]; exact hf j (by omega) b
      have hs1 : ∀ j < m, pdStep c.P c.Q_LU (Ss1 (j + 1)) (its j) = some (its (j + 1)) := fun j hj => by
        rw [hlo (j + 1) (by omega)]; exact hs j hj
      have hstop : (r.2 = c.lim ∨ (∀ b, r.1.resids b < c.eps) ∨ ∀ b, (its m b).mu > 10 ^ 100) ↔
          StopsAt c.lim c.eps (fun j b => (c.P b).resid (its j b)) (fun j b => (its j b).mu) m := by
        unfold StopsAt
        rw [hr2]
        have : (∀ b, r.1.resids b < c.eps) ↔ ∀ b, ∃ i ≤ m, (c.P b).resid (its i b) < c.eps := by
          refine forall_congr' fun b => ⟨fun hlt => ?_, fun ⟨i, hi, hlt⟩ => ((hrb b).2 i hi).trans_lt hlt⟩
          obtain ⟨j, hj, -, e⟩ := (hrb b).1
          exact ⟨j, hj, e ▸ hlt⟩
        rw [this]
      have run : SolverRun c (Ss 0) (its 0) m its Ss1 :=
        ⟨rfl, hlo 0 (by omega), fun j hj => hf1 j (by omega), hs1⟩
      split at h
      · rename_i hst
        simp only [Outcome.ret.injEq, Option.some.injEq] at h
        subst h
        exact ⟨m, its, Ss1, run, by omega, hrb, hgo, Or.inr (Or.inl (hstop.1 hst))⟩
      · rename_i hst
        split at h
        · rename_i hnone
          simp only [Outcome.ret.injEq, Option.some.injEq] at h
          subst h
          exact ⟨m, its, Ss1, run, by omega, hrb, hgo, Or.inr (Or.inr (Or.inl (by rw [hhi]; exact hnone)))⟩
        · rename_i it' hit'
          set its1 : ℕ → Fin B → Iter nz nineq neq := fun j => if j ≤ m then its j else it' with hits1
          have ilo : ∀ j ≤ m, its1 j = its j := fun j hj => if_pos hj
          have ihi : its1 (m + 1) = it' := if_neg (by omega)
          obtain ⟨n, its2, Ss2, r1, r2, r3, r4, r5⟩ := ih (some r.1) r.2 (m + 1) its1 Ss1
            (fun j hj b => by rw [ilo j (by omega)]; exact hf1 j hj b)
            (fun j hj => by
              rw [ilo j (by omega)]
              by_cases hjm : j = m
              · subst hjm; rw [hhi, ihi]; exact hit'
              · rw [ilo (j + 1) (by omega)]; exact hs1 j (by omega))
            ⟨by omega, by
              rw [hr2, Nat.add_sub_cancel]
              exact stale_congr fun j hj => by simp only [ilo j hj], fun b => by
              obtain ⟨⟨j, hj, e⟩, hall⟩ := hrb b
              refine ⟨⟨j, by omega, by rw [ilo j hj]; exact e⟩, fun j hj => ?_⟩
              rw [ilo j (by omega)]; exact hall j (by omega)⟩
            (fun j hj => by
              rw [stopsAt_congr (res' := fun j b => (c.P b).resid (its j b)) (gap' := fun j b => (its j b).mu)
                fun i hi => by simp only [ilo i (by omega), and_self]]
              by_cases hjm : j = m
              · subst hjm; exact fun hh => hst (hstop.2 hh)
              · exact hgo j (by omega))
            (by rw [hhi, ihi]; exact h)
          refine ⟨n, its2, Ss2, ?_, by omega, r3, r4, ?_⟩
          · rw [hlo 0 (by omega), ilo 0 (by omega)] at r1; exact r1
          · rcases r5 with r5 | r5
            · exact Or.inl (by omega)
            · exact Or.inr r5

/-- C50: why `forward` stops.  It returns the best of the iterates `0 … n` it visited; it did not stop before `n`
although it could have; and it stopped at `n` because the iterations were used up, because `lim` iterates in a
row brought no new record in any row of the batch, every row had been below `eps` or the gaps had exploded, because
the next iterate is not finite, or because the factorisation at the next iterate failed. -/
theorem C50_stopping [NeZero B] [NeZero nineq] (c : Setup B nz nineq neq) (max_iter : ℕ)
    (S0 : Fin B → PackedLU (neq + nineq)) (w : Best B nz nineq neq)
    (h : pdForward c max_iter S0 = .ret (some w)) :
    ∃ S, (∀ b, factor_kkt c.f (S0 b) (c.R b) (fun _ => 1) = some (S b)) ∧
    ∃ n its Ss, SolverRun c S (fun b => initIter (c.P b) (c.Q_LU b) (S b)) n its Ss ∧ n < max_iter ∧
      (∀ b, (∃ j ≤ n, bestRow w b = its j b ∧ w.resids b = (c.P b).resid (its j b)) ∧
        ∀ j ≤ n, w.resids b ≤ (c.P b).resid (its j b)) ∧
      (∀ j < n, ¬StopsAt c.lim c.eps (fun j b => (c.P b).resid (its j b)) (fun j b => (its j b).mu) j) ∧
      (n + 1 = max_iter ∨
        StopsAt c.lim c.eps (fun j b => (c.P b).resid (its j b)) (fun j b => (its j b).mu) n ∨
        pdStep c.P c.Q_LU (Ss (n + 1)) (its n) = none ∨
        ∃ it', pdStep c.P c.Q_LU (Ss (n + 1)) (its n) = some it' ∧
          ∃ b, factor_kkt c.f (Ss (n + 1) b) (c.R b) (fun i => (it' b).z i / (it' b).s i) = none) := by
  unfold pdForward at h
  split at h
  · cases h
  · rename_i S hS
    refine ⟨S, fun b => batchM_some hS b, ?_⟩
    have := pdLoop_stop c max_iter none 0 w 0 (fun _ b => initIter (c.P b) (c.Q_LU b) (S b)) (fun _ => S)
      (by omega) (by omega) rfl (by omega) h
    simpa only [zero_add] using this

/-! ## C51 -/

theorem abs_le_norm2 {n : ℕ} (r : Fin n → ℝ) (i : Fin n) : |r i| ≤ norm2 r := by
  unfold norm2
  apply Real.abs_le_sqrt
  exact Finset.single_le_sum (f := fun i => r i ^ 2) (fun i _ => sq_nonneg _) (Finset.mem_univ i)

theorem norm2_nonneg {n : ℕ} (r : Fin n → ℝ) : 0 ≤ norm2 r := Real.sqrt_nonneg _

/-- C51: an iterate with positive slacks and multipliers solves the problem up to its residual. -/
theorem C51_residual_certificate [NeZero nineq] (P : Lcp nz nineq neq) (v : Iter nz nineq neq)
    (hs : ∀ i, 0 ≤ v.s i) (hz : ∀ i, 0 ≤ v.z i) :
    ApproxSolution P.Q P.p P.G P.h P.A P.b P.F (P.resid v) v.x v.s v.z v.y := by
  have hn : (0:ℝ) < nineq := by exact_mod_cast Nat.pos_of_ne_zero (NeZero.ne nineq)
  have hsum : 0 ≤ ∑ i, v.s i * v.z i := Finset.sum_nonneg fun i _ => mul_nonneg (hs i) (hz i)
  have hmu : nineq * v.mu = ∑ i, v.s i * v.z i := by
    rw [Iter.mu, abs_of_nonneg (div_nonneg hsum hn.le)]
    field_simp
  have e : P.resid v = norm2 (P.ry v) + norm2 (P.rz v) + norm2 (P.rx v) + ∑ i, v.s i * v.z i := by
    rw [Lcp.resid, hmu]
  have h1 := norm2_nonneg (P.ry v)
  have h2 := norm2_nonneg (P.rz v)
  have h3 := norm2_nonneg (P.rx v)
  refine ⟨fun k => ?_, fun i => ?_, fun i => ?_, hs, hz, fun i => ?_⟩
  · have := abs_le_norm2 (P.rx v) k
    have e1 : (P.rx v) k = ∑ j, P.Q k j * v.x j + P.p k + ∑ i, P.G i k * v.z i + ∑ i, P.A i k * v.y i := by
      simp only [Lcp.rx, Matrix.vecMul_transpose, Pi.add_apply, Matrix.vecMul, Matrix.mulVec, dotProduct]
      simp only [mul_comm (v.z _), mul_comm (v.y _)]
      ring
    rw [← e1, e]; linarith
  · have := abs_le_norm2 (P.rz v) i
    have e1 : (P.rz v) i = ∑ j, P.G i j * v.x j + v.s i - P.h i - ∑ j, P.F i j * v.z j := by
      simp only [Lcp.rz, Matrix.vecMul_transpose, Pi.add_apply, Pi.sub_apply, Matrix.mulVec, dotProduct]
    rw [← e1, e]; linarith
  · have := abs_le_norm2 (P.ry v) i
    have e1 : (P.ry v) i = ∑ j, P.A i j * v.x j - P.b i := by
      simp only [Lcp.ry, Matrix.vecMul_transpose, Pi.sub_apply, Matrix.mulVec, dotProduct]
    rw [← e1, e]; linarith
  · have := Finset.single_le_sum (f := fun i => v.s i * v.z i) (fun i _ => mul_nonneg (hs i) (hz i)) (Finset.mem_univ i)
    rw [e]; linarith

/-- C51: what `forward` returns is always an approximate solution, with positive slacks and
multipliers, up to its reported residual. -/
theorem C51_returned_certificate [NeZero B] [NeZero nineq] (c : Setup B nz nineq neq) (max_iter : ℕ)
    (S0 : Fin B → PackedLU (neq + nineq)) (w : Best B nz nineq neq)
    (h : pdForward c max_iter S0 = .ret (some w)) (b : Fin B) :
    (∀ i, 0 < w.s b i) ∧ (∀ i, 0 < w.z b i) ∧
    ApproxSolution (c.P b).Q (c.P b).p (c.P b).G (c.P b).h (c.P b).A (c.P b).b (c.P b).F (w.resids b)
      (w.x b) (w.s b) (w.z b) (w.y b) := by
  obtain ⟨S, hS, n, hn, its, Ss, hrun, hall⟩ := C50_best_iterate c max_iter S0 w h
  obtain ⟨⟨j, hj, e1, e2⟩, -⟩ := hall b
  obtain ⟨ps, pz⟩ := C48_run_positive c S _ n its Ss hrun
    (fun b i => (C47_init_positive (c.P b) (c.Q_LU b) (S b)).1 i)
    (fun b i => (C47_init_positive (c.P b) (c.Q_LU b) (S b)).2.1 i) j hj
  have es : w.s b = (its j b).s := congrArg Iter.s e1
  have ez : w.z b = (its j b).z := congrArg Iter.z e1
  have ex : w.x b = (its j b).x := congrArg Iter.x e1
  have ey : w.y b = (its j b).y := congrArg Iter.y e1
  rw [es, ez, ex, ey, e2]
  exact ⟨ps b, pz b, C51_residual_certificate (c.P b) (its j b) (fun i => (ps b i).le) fun i => (pz b i).le⟩

/-- C51: an error of zero is an exact solution. -/
theorem C51_exact (Q : Matrix (Fin nz) (Fin nz) ℝ) (p : Fin nz → ℝ) (G : Matrix (Fin nineq) (Fin nz) ℝ)
    (h : Fin nineq → ℝ) (A : Matrix (Fin neq) (Fin nz) ℝ) (b : Fin neq → ℝ) (F : Matrix (Fin nineq) (Fin nineq) ℝ)
    (x : Fin nz → ℝ) (s z : Fin nineq → ℝ) (y : Fin neq → ℝ) (hsol : ApproxSolution Q p G h A b F 0 x s z y) :
    Q *ᵥ x + p + Gᵀ *ᵥ z + Aᵀ *ᵥ y = 0 ∧ G *ᵥ x + s = h + F *ᵥ z ∧ A *ᵥ x = b ∧ ∀ i, s i * z i = 0 := by
  refine ⟨?_, ?_, ?_, fun i => ?_⟩
  · funext k
    have := abs_nonpos_iff.1 (hsol.stat k)
    simpa [Matrix.mulVec, dotProduct] using this
  · funext i
    have := abs_nonpos_iff.1 (hsol.ineq i)
    simp only [Pi.add_apply, Matrix.mulVec, dotProduct]
    linarith
  · funext i
    have := abs_nonpos_iff.1 (hsol.eq i)
    simp only [Matrix.mulVec, dotProduct]
    linarith
  · exact le_antisymm (hsol.compl i) (mul_nonneg (hsol.s_nonneg i) (hsol.z_nonneg i))

/-! ## C55 -/

theorem pdLoop_some [NeZero B] [NeZero nineq] (c : Setup B nz nineq neq) (k : ℕ)
    (S : Fin B → PackedLU (neq + nineq)) (it : Fin B → Iter nz nineq neq) (w0 : Best B nz nineq neq)
    (nNot : ℕ) : ∃ w, pdLoop c k S it (some w0) nNot = .ret (some w) := by
  induction k generalizing S it w0 nNot with
  | zero => exact ⟨w0, rfl⟩
  | succ k ih =>
    simp only [pdLoop]
    split
    · exact ⟨w0, rfl⟩
    · split
      · exact ⟨_, rfl⟩
      · split
        · exact ⟨_, rfl⟩
        · exact ih _ _ _ _

/-- C55: the three ways `forward` ends.  It raises when the first factorisation does or when no
iteration is allowed; it returns four `None` exactly when the factorisation of the first iteration
raises; in all other cases it returns an iterate, whatever happens later. -/
theorem C55_outcomes [NeZero B] [NeZero nineq] (c : Setup B nz nineq neq) (max_iter : ℕ)
    (S0 : Fin B → PackedLU (neq + nineq)) :
    (((∃ b, factor_kkt c.f (S0 b) (c.R b) (fun _ => 1) = none) ∨ max_iter = 0) ∧
      ∃ e, pdForward c max_iter S0 = .raised e) ∨
    (max_iter ≠ 0 ∧ ∃ S : Fin B → PackedLU (neq + nineq), (∀ b, factor_kkt c.f (S0 b) (c.R b) (fun _ => 1) = some (S b)) ∧
      (((∃ b, factor_kkt c.f (S b) (c.R b) (fun i => (initIter (c.P b) (c.Q_LU b) (S b)).z i /
          (initIter (c.P b) (c.Q_LU b) (S b)).s i) = none) ∧ pdForward c max_iter S0 = .ret none) ∨
       ((∀ b, factor_kkt c.f (S b) (c.R b) (fun i => (initIter (c.P b) (c.Q_LU b) (S b)).z i /
          (initIter (c.P b) (c.Q_LU b) (S b)).s i) ≠ none) ∧ ∃ w, pdForward c max_iter S0 = .ret (some w)))) := by
  cases hS : batchM fun b => factor_kkt c.f (S0 b) (c.R b) fun _ => 1 with
  | none =>
    left
    exact ⟨Or.inl (batchM_none.1 hS), .raised "RuntimeError: getrf", by simp only [pdForward, hS]⟩
  | some S =>
    rcases max_iter with _ | k
    · left
      exact ⟨Or.inr rfl, .raised "AttributeError: 'NoneType' object has no attribute 'max'",
        by simp only [pdForward, hS, pdLoop]⟩
    · right
      refine ⟨by omega, S, fun b => batchM_some hS b, ?_⟩
      cases hF : batchM fun b => factor_kkt c.f (S b) (c.R b) fun i => (initIter (c.P b) (c.Q_LU b) (S b)).z i /
          (initIter (c.P b) (c.Q_LU b) (S b)).s i with
      | none =>
        left
        refine ⟨batchM_none.1 hF, ?_⟩
        simp only [pdForward, hS, pdLoop, hF]
      | some S1 =>
        right
        refine ⟨fun b h => ?_, ?_⟩
        · rw [batchM_some hF b] at h; cases h
        · simp only [pdForward, hS, pdLoop, hF]
          split
          · exact ⟨_, rfl⟩
          · split
            · exact ⟨_, rfl⟩
            · exact pdLoop_some _ _ _ _ _ _

/-- C55: for positive definite `Q`, independent equality constraints and monotone `F`, and at least
one iteration, `forward` always returns an iterate. -/
theorem C55_monotone_returns [NeZero B] [NeZero nineq] (f : Btrifact) (hf : BtrifactOk f)
    (P : Fin B → Lcp nz nineq neq) (hsym : ∀ b, (P b).Qᵀ = (P b).Q)
    (hpos : ∀ b v, v ≠ 0 → 0 < v ⬝ᵥ ((P b).Q *ᵥ v)) (hA : ∀ b w, (P b).Aᵀ *ᵥ w = 0 → w = 0)
    (hF : ∀ b w, 0 ≤ w ⬝ᵥ ((P b).F *ᵥ w)) (eps : ℝ) (lim max_iter : ℕ) (hm : max_iter ≠ 0) :
    ∃ w, lcpForward f eps lim max_iter P = .ret (some w) := by
  have hex := fun b => C45_monotone_never_raises f hf (P b).Q (P b).G (P b).F (P b).A (hsym b) (hpos b) (hA b) (hF b)
  choose K hK hfac using hex
  have hb : (batchE fun b => pre_factor_kkt f (P b).Q (P b).G (P b).F (P b).A) = .ok K := by
    unfold batchE
    have : (batchM fun b => (pre_factor_kkt f (P b).Q (P b).G (P b).F (P b).A).toOption) = some K := by
      cases h : batchM fun b => (pre_factor_kkt f (P b).Q (P b).G (P b).F (P b).A).toOption with
      | none =>
        obtain ⟨b, hb⟩ := batchM_none.1 h
        rw [hK b] at hb; cases hb
      | some r =>
        congr 1
        funext b
        have := batchM_some h b
        rw [hK b] at this
        exact (Option.some.inj this).symm
    rw [this]
  unfold lcpForward
  rw [hb]
  set c : Setup B nz nineq neq := ⟨f, P, fun b => (K b).Q_LU, fun b => (K b).R, eps, lim⟩ with hc
  rcases C55_outcomes c max_iter (fun b => (K b).S_LU) with ⟨h, -⟩ | ⟨-, S, hS, h⟩
  · rcases h with ⟨b, hb⟩ | h
    · obtain ⟨S', hS'⟩ := hfac b [] (fun _ => 1) fun _ => one_pos
      rw [show factorHistory f (K b).R (K b).S_LU [] = (K b).S_LU from rfl] at hS'
      have : factor_kkt f (K b).S_LU (K b).R (fun _ => 1) = none := hb
      rw [hS'] at this; cases this
    · exact absurd h hm
  · rcases h with ⟨⟨b, hb⟩, -⟩ | ⟨-, h⟩
    · exfalso
      obtain ⟨S', hS'⟩ := hfac b [fun _ => 1] (fun i => (initIter (c.P b) (c.Q_LU b) (S b)).z i /
          (initIter (c.P b) (c.Q_LU b) (S b)).s i) fun i => div_pos
            ((C47_init_positive (c.P b) (c.Q_LU b) (S b)).2.1 i) ((C47_init_positive (c.P b) (c.Q_LU b) (S b)).1 i)
      have e : factorHistory f (K b).R (K b).S_LU [fun _ => 1] = S b := by
        have h1 : factor_kkt f (K b).S_LU (K b).R (fun _ => 1) = some (S b) := hS b
        simp [factorHistory, h1]
      rw [e] at hS'
      have : factor_kkt f (S b) (K b).R (fun i => (initIter (c.P b) (c.Q_LU b) (S b)).z i /
          (initIter (c.P b) (c.Q_LU b) (S b)).s i) = none := hb
      rw [hS'] at this; cases this
    · exact h

end LcpPhysics
