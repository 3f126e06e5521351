import Verif.Props.Solver
import Mathlib.Tactic.NormNum

/-! # C52: dependence of a batch element on the rest of the batch; a worked run of the solver -/

noncomputable section

namespace LcpPhysics
open Matrix Spec

variable {nz nineq neq B n : ℕ}

/-! ## The step lengths -/

theorem rowMin_min [NeZero n] (v : Fin n → ℝ) (c : ℝ) : min (rowMin v) c = rowMin fun i => min (v i) c := by
  apply le_antisymm
  · exact le_rowMin _ _ fun i => min_le_min_right c (rowMin_le v i)
  · obtain ⟨i, hi⟩ := exists_rowMin v
    rw [hi]
    exact rowMin_le (fun i => min (v i) c) i

/-- C52: the length of a step capped at one depends only on the row itself.  (The predictor uses this
length.) -/
theorem C52_capped_step_independent {B' : ℕ} [NeZero B] [NeZero B'] [NeZero n] (v dv : Fin B → Fin n → ℝ)
    (v' dv' : Fin B' → Fin n → ℝ) (st : Fin B → ℝ) (st' : Fin B' → ℝ) (h : get_step v dv = some st)
    (h' : get_step v' dv' = some st') (b : Fin B) (b' : Fin B') (hv : v b = v' b') (hd : dv b = dv' b') :
    min (st b) 1 = min (st' b') 1 := by
  obtain ⟨-, c, hc, -, -, hst⟩ := get_step_spec h
  obtain ⟨-, c', hc', -, -, hst'⟩ := get_step_spec h'
  rw [hst, hst', rowMin_min, rowMin_min]
  congr 1
  funext i
  rw [← hv, ← hd]
  by_cases hpos : dv b i > 0
  · rw [if_pos hpos, if_pos hpos, min_eq_right hc, min_eq_right hc']
  · rw [if_neg hpos, if_neg hpos]

/-- C52: the step length itself is not: it is the largest ratio in the whole batch when the row only
grows. -/
theorem C52_step_depends_on_batch :
    ∃ (v dv : Fin 1 → Fin 1 → ℝ) (v' dv' : Fin 2 → Fin 1 → ℝ) (st : Fin 1 → ℝ) (st' : Fin 2 → ℝ),
      v 0 = v' 0 ∧ dv 0 = dv' 0 ∧ get_step v dv = some st ∧ get_step v' dv' = some st' ∧ st 0 = 1 ∧ st' 0 = 2 := by
  have h1 : ∃ st, get_step (fun _ _ => 1 : Fin 1 → Fin 1 → ℝ) (fun _ _ => 1) = some st := by
    cases h : get_step (fun _ _ => 1 : Fin 1 → Fin 1 → ℝ) (fun _ _ => 1) with
    | none => obtain ⟨_, _, h0⟩ := (C48_zero_direction _ _).1 h; norm_num at h0
    | some st => exact ⟨st, rfl⟩
  have h2 : ∃ st, get_step (fun _ _ => 1 : Fin 2 → Fin 1 → ℝ) (fun b _ => if b = 0 then 1 else -1 / 2) = some st := by
    cases h : get_step (fun _ _ => 1 : Fin 2 → Fin 1 → ℝ) (fun b _ => if b = 0 then 1 else -1 / 2) with
    | none =>
      obtain ⟨b, _, h0⟩ := (C48_zero_direction _ _).1 h
      fin_cases b <;> norm_num at h0
    | some st => exact ⟨st, rfl⟩
  obtain ⟨st, hst⟩ := h1
  obtain ⟨st', hst'⟩ := h2
  refine ⟨_, _, _, _, st, st', rfl, by simp, hst, hst', ?_, ?_⟩
  · obtain ⟨-, c, hc, ho, -, e⟩ := get_step_spec hst
    have hc1 : c = 1 := by
      rcases ho with ⟨_, _, h⟩ | h
      · norm_num at h; linarith
      · exact h
    obtain ⟨i, hi⟩ := exists_rowMin fun _ : Fin 1 => if (1:ℝ) > 0 then c else -1 / 1
    rw [e, hi, if_pos one_pos, hc1]
  · obtain ⟨-, c, hc, ho, hle, e⟩ := get_step_spec hst'
    have h1 := hle 1 0
    norm_num at h1
    have hc1 : c = 2 := by
      rcases ho with ⟨b, _, h⟩ | h
      · fin_cases b
        · norm_num at h; linarith
        · norm_num at h; exact h
      · linarith
    obtain ⟨i, hi⟩ := exists_rowMin fun _ : Fin 1 => if ((if (0 : Fin 2) = 0 then 1 else -1 / 2 : ℝ)) > 0 then c else -1 / 1
    have e0 := e 0
    simp only [if_true] at e0 hi
    rw [e0]
    obtain ⟨i, hi⟩ := exists_rowMin fun _ : Fin 1 => if (1:ℝ) > 0 then c else -1 / 1
    rw [hi, if_pos one_pos, hc1]

/-! ## One-dimensional problems -/

/-- Minimise `x²/2 + p x` subject to `x ≤ 0`. -/
def prob (p : ℝ) : Lcp 1 1 0 :=
  { Q := 1, p := fun _ => p, G := 1, h := 0, A := 0, b := 0, F := 0 }

/-- An iterate of such a problem. -/
def pt (x s z : ℝ) : Iter 1 1 0 := { x := fun _ => x, s := fun _ => s, z := fun _ => z, y := fun i => i.elim0 }

theorem prob_rx (p x s z : ℝ) : (prob p).rx (pt x s z) = fun _ => z + x + p := by
  funext i
  have : i = 0 := Subsingleton.elim _ _
  subst this
  simp [Lcp.rx, prob, pt]

theorem prob_rz (p x s z : ℝ) : (prob p).rz (pt x s z) = fun _ => x + s := by
  funext i
  simp [Lcp.rz, prob, pt]

theorem prob_ry (p x s z : ℝ) : (prob p).ry (pt x s z) = fun i => i.elim0 := by
  funext i; exact i.elim0

theorem norm2_one (c : ℝ) : norm2 (fun _ : Fin 1 => c) = |c| := by
  simp [norm2, Real.sqrt_sq_eq_abs]

theorem prob_resid (p x s z : ℝ) : (prob p).resid (pt x s z) = |x + s| + |z + x + p| + |s * z| := by
  rw [Lcp.resid, prob_rx, prob_rz, prob_ry, norm2_one, norm2_one]
  simp [norm2, Iter.mu, pt]

/-- The Newton step of a one-dimensional problem. -/
theorem prob_solve (p : ℝ) (d : ℝ) (hd : 0 < d) (Q_LU : PackedLU 1) (S_LU : PackedLU (0 + 1)) (hQ : Factors (prob p).Q Q_LU)
    (hS : Factors (flatBlocks (schur (prob p).Q (prob p).G (prob p).A (prob p).F (fun _ => d))) S_LU)
    (rx rs rz : ℝ) (ry : Fin 0 → ℝ) :
    solve_kkt Q_LU (fun _ => d) (prob p).G (prob p).A S_LU (fun _ => rx) (fun _ => rs) (fun _ => rz) ry =
      pt (-rz - (rx - rz - rs) / (d + 1)) ((rx - rz - rs) / (d + 1)) (-rs - d * ((rx - rz - rs) / (d + 1))) := by
  have h := C44_solve_kkt (prob p).Q (prob p).G (prob p).A (prob p).F (fun _ => d) (fun _ => hd.ne') Q_LU S_LU hQ hS
    (fun _ => rx) (fun _ => rs) (fun _ => rz) ry
  set v := solve_kkt Q_LU (fun _ => d) (prob p).G (prob p).A S_LU (fun _ => rx) (fun _ => rs) (fun _ => rz) ry with hv
  simp only at h
  have h1 := congrFun h.dual 0
  have h2 := h.compl 0
  have h3 := congrFun h.ineq 0
  simp [prob] at h1 h2 h3
  have hs : v.s 0 = (rx - rz - rs) / (d + 1) := by
    rw [eq_div_iff (by linarith)]
    linarith
  have hz : v.z 0 = -rs - d * ((rx - rz - rs) / (d + 1)) := by rw [← hs]; linarith
  have hx : v.x 0 = -rz - (rx - rz - rs) / (d + 1) := by rw [← hs]; linarith
  ext i
  · have : i = 0 := Subsingleton.elim _ _
    subst this; exact hx
  · have : i = 0 := Subsingleton.elim _ _
    subst this; exact hs
  · have : i = 0 := Subsingleton.elim _ _
    subst this; exact hz
  · exact i.elim0

/-- `pdStep` in terms of its intermediate values. -/
theorem pdStep_eval [NeZero B] [NeZero nineq] {P : Fin B → Lcp nz nineq neq} {Q_LU : Fin B → PackedLU nz}
    {S_LU : Fin B → PackedLU (neq + nineq)} {it : Fin B → Iter nz nineq neq}
    (aff cor : Fin B → Iter nz nineq neq) (stz sts stz' sts' alpha sig : Fin B → ℝ)
    (haff : aff = fun b => solve_kkt (Q_LU b) (fun i => (it b).z i / (it b).s i) (P b).G (P b).A (S_LU b)
        ((P b).rx (it b)) (it b).z ((P b).rz (it b)) ((P b).ry (it b)))
    (h1 : get_step (fun b => (it b).z) (fun b => (aff b).z) = some stz)
    (h2 : get_step (fun b => (it b).s) (fun b => (aff b).s) = some sts)
    (halpha : alpha = fun b => min (min (stz b) (sts b)) 1)
    (hsig : sig = fun b => ((∑ i, ((it b).s i + alpha b * (aff b).s i) * ((it b).z i + alpha b * (aff b).z i)) /
      ∑ i, (it b).s i * (it b).z i) ^ 3)
    (hcor : cor = fun b => solve_kkt (Q_LU b) (fun i => (it b).z i / (it b).s i) (P b).G (P b).A (S_LU b) 0
      (fun i => (-(it b).mu * sig b + (aff b).s i * (aff b).z i) / (it b).s i) 0 0)
    (h3 : get_step (fun b => (it b).z) (fun b => (aff b).z + (cor b).z) = some stz')
    (h4 : get_step (fun b => (it b).s) (fun b => (aff b).s + (cor b).s) = some sts') :
    pdStep P Q_LU S_LU it = some fun b => (it b).move (min (999 / 1000 * min (stz' b) (sts' b)) 1)
      { x := (aff b).x + (cor b).x, s := (aff b).s + (cor b).s, z := (aff b).z + (cor b).z
        y := (aff b).y + (cor b).y } := by
  subst haff halpha hsig hcor
  simp only [pdStep, h1, h2, h3, h4]
  rfl

/-! ## A run on a batch of two kinds of problems -/

/-- A batch with `prob (-4)` where `τ` holds and `prob 0` elsewhere. -/
def mixed (τ : Fin B → Bool) (b : Fin B) : Lcp 1 1 0 := prob (if τ b then -4 else 0)

theorem rowMin_one (v : Fin 1 → ℝ) : rowMin v = v 0 := by
  obtain ⟨i, hi⟩ := exists_rowMin v
  rw [hi]; congr 1; exact Subsingleton.elim _ _

theorem get_step_isSome [NeZero B] [NeZero n] (v dv : Fin B → Fin n → ℝ) (h : ∀ b i, dv b i ≠ 0) :
    ∃ st, get_step v dv = some st := by
  cases hg : get_step v dv with
  | none =>
    obtain ⟨b, i, h0⟩ := (C48_zero_direction _ _).1 hg
    exact absurd h0 (h b i)
  | some st => exact ⟨st, rfl⟩

theorem pt_z (x s z : ℝ) : (pt x s z).z = fun _ => z := rfl
theorem pt_s (x s z : ℝ) : (pt x s z).s = fun _ => s := rfl
theorem pt_x (x s z : ℝ) : (pt x s z).x = fun _ => x := rfl

theorem pt_add (x s z x' s' z' : ℝ) : (⟨(pt x s z).x + (pt x' s' z').x, (pt x s z).s + (pt x' s' z').s,
    (pt x s z).z + (pt x' s' z').z, (pt x s z).y + (pt x' s' z').y⟩ : Iter 1 1 0) = pt (x + x') (s + s') (z + z') := by
  ext i
  · rfl
  · rfl
  · rfl
  · exact i.elim0

theorem pt_move (x s z t x' s' z' : ℝ) : (pt x s z).move t (pt x' s' z') = pt (x + t * x') (s + t * s') (z + t * z') := by
  ext i
  · rfl
  · rfl
  · rfl
  · exact i.elim0

theorem pt_mu (x s z : ℝ) : (pt x s z).mu = |s * z| := by simp [Iter.mu, pt]

/-- The largest step in the multipliers over the whole batch: only rows of the second kind limit it. -/
theorem mixed_step [NeZero B] (τ : Fin B → Bool) (Q_LU : Fin B → PackedLU 1) (S_LU : Fin B → PackedLU (0 + 1))
    (hQ : ∀ b, Factors (mixed τ b).Q (Q_LU b))
    (hS : ∀ b, Factors (flatBlocks (schur (mixed τ b).Q (mixed τ b).G (mixed τ b).A (mixed τ b).F
      (fun _ => if τ b then 2 else 1))) (S_LU b)) :
    ∃ t : Fin B → ℝ, (∀ b, τ b = true → t b = if ∃ b', τ b' = false then 1 else 999 / 1000) ∧
      pdStep (mixed τ) Q_LU S_LU (fun b => if τ b then pt 2 1 2 else pt 0 1 1) =
        some fun b => if τ b then pt (2 - t b * (56 / 27)) (1 - t b * (25 / 27)) (2 + t b * (56 / 27))
          else pt (0 - t b * (49 / 128)) (1 - t b * (79 / 128)) (1 - t b * (79 / 128)) := by
  set it : Fin B → Iter 1 1 0 := fun b => if τ b then pt 2 1 2 else pt 0 1 1 with hit
  set aff : Fin B → Iter 1 1 0 := fun b => if τ b then pt (-4 / 3) (-5 / 3) (4 / 3) else pt (-1 / 2) (-1 / 2) (-1 / 2) with haff
  have hd : ∀ b, (fun i => (it b).z i / (it b).s i) = fun _ : Fin 1 => (if τ b then 2 else 1 : ℝ) := by
    intro b; funext i
    by_cases h : τ b <;> simp [hit, h, pt]
  have eaff : aff = fun b => solve_kkt (Q_LU b) (fun i => (it b).z i / (it b).s i) (mixed τ b).G (mixed τ b).A (S_LU b)
        ((mixed τ b).rx (it b)) (it b).z ((mixed τ b).rz (it b)) ((mixed τ b).ry (it b)) := by
    funext b
    rw [hd]
    by_cases h : τ b
    · have e := prob_solve (-4) 2 (by norm_num) (Q_LU b) (S_LU b) (by simpa [mixed, h] using hQ b)
        (by simpa [mixed, h] using hS b) (2 + 2 + -4) 2 (2 + 1) ((mixed τ b).ry (it b))
      simp only [haff, hit, h, if_true, mixed] at e ⊢
      rw [prob_rx, prob_rz, pt_z, e]
      norm_num
    · have e := prob_solve 0 1 (by norm_num) (Q_LU b) (S_LU b) (by simpa [mixed, h] using hQ b)
        (by simpa [mixed, h] using hS b) (1 + 0 + 0) 1 (0 + 1) ((mixed τ b).ry (it b))
      simp only [haff, hit, h, if_false, mixed, Bool.false_eq_true] at e ⊢
      rw [prob_rx, prob_rz, pt_z, e]
      norm_num
  obtain ⟨stz, hstz⟩ := get_step_isSome (fun b => (it b).z) (fun b => (aff b).z) (by
    intro b i
    by_cases h : τ b <;> simp [haff, h, pt])
  obtain ⟨sts, hsts⟩ := get_step_isSome (fun b => (it b).s) (fun b => (aff b).s) (by
    intro b i
    by_cases h : τ b <;> simp [haff, h, pt])
  set alpha : Fin B → ℝ := fun b => min (min (stz b) (sts b)) 1 with halpha
  have ealpha : ∀ b, alpha b = if τ b then 3 / 5 else 1 := by
    intro b
    obtain ⟨-, c, hc, -, -, e⟩ := get_step_spec hstz
    obtain ⟨-, c', hc', -, -, e'⟩ := get_step_spec hsts
    by_cases h : τ b
    · have e1 := e b
      have e2 := e' b
      rw [rowMin_one] at e1 e2
      simp only [hit, haff, h, if_true, pt] at e1 e2
      norm_num at e1 e2
      simp only [halpha, h, if_true]
      rw [e1, e2, min_eq_right (by linarith : (3 / 5 : ℝ) ≤ c)]
      norm_num
    · have e1 := e b
      have e2 := e' b
      rw [rowMin_one] at e1 e2
      simp only [hit, haff, h, if_false, pt, Bool.false_eq_true] at e1 e2
      norm_num at e1 e2
      simp only [halpha, h, if_false, Bool.false_eq_true]
      rw [e1, e2]; norm_num
  set sig : Fin B → ℝ := fun b => ((∑ i, ((it b).s i + alpha b * (aff b).s i) * ((it b).z i + alpha b * (aff b).z i)) /
      ∑ i, (it b).s i * (it b).z i) ^ 3 with hsig
  have esig : ∀ b, sig b = if τ b then 0 else 1 / 64 := by
    intro b
    simp only [hsig, ealpha]
    by_cases h : τ b
    · simp [hit, haff, h, pt]
    · simp [hit, haff, h, pt]; norm_num
  set cor : Fin B → Iter 1 1 0 := fun b => if τ b then pt (-20 / 27) (20 / 27) (20 / 27)
    else pt (15 / 128) (-15 / 128) (-15 / 128) with hcor
  have ecor : cor = fun b => solve_kkt (Q_LU b) (fun i => (it b).z i / (it b).s i) (mixed τ b).G (mixed τ b).A (S_LU b) 0
      (fun i => (-(it b).mu * sig b + (aff b).s i * (aff b).z i) / (it b).s i) 0 0 := by
    funext b
    rw [hd, esig]
    by_cases h : τ b
    · have e := prob_solve (-4) 2 (by norm_num) (Q_LU b) (S_LU b) (by simpa [mixed, h] using hQ b)
        (by simpa [mixed, h] using hS b) 0 (-20 / 9) 0 0
      have ers : (fun i => (-(it b).mu * (if τ b then 0 else 1 / 64) + (aff b).s i * (aff b).z i) / (it b).s i) =
          fun _ : Fin 1 => (-20 / 9 : ℝ) := by
        funext i
        simp [hit, haff, h, pt_s, pt_z, pt_mu]; norm_num
      rw [ers]
      simp only [hcor, h, if_true, mixed] at e ⊢
      refine Eq.trans ?_ e.symm
      norm_num
    · have e := prob_solve 0 1 (by norm_num) (Q_LU b) (S_LU b) (by simpa [mixed, h] using hQ b)
        (by simpa [mixed, h] using hS b) 0 (15 / 64) 0 0
      have ers : (fun i => (-(it b).mu * (if τ b then 0 else 1 / 64) + (aff b).s i * (aff b).z i) / (it b).s i) =
          fun _ : Fin 1 => (15 / 64 : ℝ) := by
        funext i
        simp [hit, haff, h, pt_s, pt_z, pt_mu]; norm_num
      rw [ers]
      simp only [hcor, h, if_false, mixed, Bool.false_eq_true] at e ⊢
      refine Eq.trans ?_ e.symm
      norm_num
  have esum : ∀ b, (⟨(aff b).x + (cor b).x, (aff b).s + (cor b).s, (aff b).z + (cor b).z, (aff b).y + (cor b).y⟩ : Iter 1 1 0) =
      if τ b then pt (-56 / 27) (-25 / 27) (56 / 27) else pt (-49 / 128) (-79 / 128) (-79 / 128) := by
    intro b
    by_cases h : τ b
    · simp only [haff, hcor, h, if_true, pt_add]; norm_num
    · simp only [haff, hcor, h, if_false, pt_add, Bool.false_eq_true]; norm_num
  have ez : ∀ b i, ((aff b).z + (cor b).z) i = if τ b then 56 / 27 else -79 / 128 := by
    intro b i
    have := congrFun (congrArg Iter.z (esum b)) i
    by_cases h : τ b <;> simpa [h, pt] using this
  have es : ∀ b i, ((aff b).s + (cor b).s) i = if τ b then -25 / 27 else -79 / 128 := by
    intro b i
    have := congrFun (congrArg Iter.s (esum b)) i
    by_cases h : τ b <;> simpa [h, pt] using this
  obtain ⟨stz', hstz'⟩ := get_step_isSome (fun b => (it b).z) (fun b => (aff b).z + (cor b).z) (by
    intro b i
    show ((aff b).z + (cor b).z) i ≠ 0
    rw [ez]; split_ifs <;> norm_num)
  obtain ⟨sts', hsts'⟩ := get_step_isSome (fun b => (it b).s) (fun b => (aff b).s + (cor b).s) (by
    intro b i
    show ((aff b).s + (cor b).s) i ≠ 0
    rw [es]; split_ifs <;> norm_num)
  have hstep := pdStep_eval (P := mixed τ) aff cor stz sts stz' sts' alpha sig eaff hstz hsts halpha hsig ecor hstz' hsts'
  refine ⟨fun b => min (999 / 1000 * min (stz' b) (sts' b)) 1, fun b hb => ?_, ?_⟩
  · obtain ⟨-, c, hc, ho, hle, e⟩ := get_step_spec hstz'
    obtain ⟨-, c', hc', -, -, e'⟩ := get_step_spec hsts'
    have e1 := e b
    have e2 := e' b
    rw [rowMin_one] at e1 e2
    rw [ez] at e1
    rw [es] at e2
    simp only [hit, hb, if_true, pt] at e1 e2
    norm_num at e1 e2
    by_cases hex : ∃ b', τ b' = false
    · rw [if_pos hex]
      obtain ⟨b', hb'⟩ := hex
      have h1 := hle b' 0
      rw [ez] at h1
      simp only [hit, hb', pt, if_false, Bool.false_eq_true] at h1
      norm_num at h1
      simp only [e1, e2]
      apply min_eq_right
      have : (27 / 25 : ℝ) ≤ min c (27 / 25) := le_min (by linarith) le_rfl
      linarith
    · rw [if_neg hex]
      push Not at hex
      have hc1 : c = 1 := by
        rcases ho with ⟨b', i, h⟩ | h
        · rw [ez] at h
          have hb' : τ b' = true := by simpa using hex b'
          simp only [hit, hb', if_true, pt] at h
          norm_num at h
          linarith
        · exact h
      simp only [e1, e2, hc1]
      norm_num
  · rw [hstep]
    congr 1
    funext b
    rw [esum]
    by_cases h : τ b
    · simp only [hit, h, if_true, pt_move]
      congr 1 <;> ring
    · simp only [hit, h, if_false, pt_move, Bool.false_eq_true]
      congr 1 <;> ring

theorem batchM_eq_some {α : Type} {g : Fin B → Option α} {r : Fin B → α} (h : ∀ b, g b = some (r b)) :
    batchM g = some r := by
  cases hb : batchM g with
  | none =>
    obtain ⟨b, hb⟩ := batchM_none.1 hb
    rw [h b] at hb; cases hb
  | some r' =>
    congr 1
    funext b
    have := batchM_some hb b
    rw [h b] at this
    exact (Option.some.inj this).symm

theorem batchE_eq_ok {α : Type} {g : Fin B → Except Err α} {r : Fin B → α} (h : ∀ b, g b = .ok (r b)) :
    batchE g = .ok r := by
  unfold batchE
  rw [batchM_eq_some (r := r) fun b => by rw [h b]; rfl]

theorem prob_sym (p : ℝ) : (prob p).Qᵀ = (prob p).Q := by simp [prob]

theorem prob_factor (f : Btrifact) (hf : BtrifactOk f) (p : ℝ) :
    ∃ K, pre_factor_kkt f (prob p).Q (prob p).G (prob p).F (prob p).A = .ok K ∧
      ∀ (ds : List (Fin 1 → ℝ)) (d : Fin 1 → ℝ), (∀ i, 0 < d i) →
        ∃ S', factor_kkt f (factorHistory f K.R K.S_LU ds) K.R d = some S' := by
  refine C45_monotone_never_raises f hf _ _ _ _ (prob_sym p) ?_ ?_ ?_
  · intro v hv
    have h0 : v 0 ≠ 0 := fun h => hv (by funext i; fin_cases i; simpa using h)
    have h2 : 0 < v 0 ^ 2 := by positivity
    simp [prob, dotProduct]
    nlinarith
  · intro w _
    funext i; exact i.elim0
  · intro w
    simp [prob]

theorem prob_init (p : ℝ) (hp : p ≤ 0) (Q_LU : PackedLU 1) (S_LU : PackedLU (0 + 1)) (hQ : Factors (prob p).Q Q_LU)
    (hS : Factors (flatBlocks (schur (prob p).Q (prob p).G (prob p).A (prob p).F (fun _ => 1))) S_LU) :
    initIter (prob p) Q_LU S_LU = pt (-p / 2) 1 (if p = 0 then 1 else -p / 2) := by
  have h := prob_solve p 1 one_pos Q_LU S_LU hQ hS p 0 0 (-(prob p).b)
  have e : solve_kkt Q_LU (fun _ => 1) (prob p).G (prob p).A S_LU (prob p).p 0 (-(prob p).h) (-(prob p).b) =
      pt (-p / 2) (p / 2) (-p / 2) := by
    refine Eq.trans ?_ (h.trans ?_)
    · congr 1
      funext i; simp [prob]
    · congr 1 <;> ring
  have hs : shiftPos (fun _ : Fin 1 => p / 2) = fun _ => 1 := by
    rw [shiftPos, rowMin_one, if_pos (by linarith)]
    funext i; ring
  have hz : shiftPos (fun _ : Fin 1 => -p / 2) = fun _ => if p = 0 then 1 else -p / 2 := by
    rw [shiftPos, rowMin_one]
    by_cases h0 : p = 0
    · subst h0; rw [if_pos (by norm_num)]; funext i; simp
    · have : p < 0 := lt_of_le_of_ne hp h0
      rw [if_neg (by push Not; linarith)]; funext i; simp [h0]
  unfold initIter
  simp only [e, pt_s, pt_z, hs, hz]
  rfl

/-- A worked run: two iterations on a batch of these problems. -/
theorem mixed_forward [NeZero B] (f : Btrifact) (hf : BtrifactOk f) (τ : Fin B → Bool) (eps : ℝ) (heps : eps ≤ 1)
    (lim : ℕ) (hlim : lim ≠ 0) :
    ∃ w, lcpForward f eps lim 2 (mixed τ) = .ret (some w) ∧
      ∀ b, τ b = true → w.x b 0 = 2 - (if ∃ b', τ b' = false then 1 else 999 / 1000) * (56 / 27) := by
  have hex := fun b => prob_factor f hf (if τ b then -4 else 0)
  choose K hK hfac using hex
  have hb : (batchE fun b => pre_factor_kkt f (mixed τ b).Q (mixed τ b).G (mixed τ b).F (mixed τ b).A) = .ok K :=
    batchE_eq_ok hK
  have hpre := fun b => pre_factor_inv hf (prob_sym _) (hK b)
  choose S hS using fun b => hfac b [] (fun _ => 1) fun _ => one_pos
  have hS' : ∀ b, factor_kkt f (K b).S_LU (K b).R (fun _ => 1) = some (S b) := hS
  have fS := fun b => factor_kkt_inv hf (hpre b).2 (hS' b)
  have hinit : ∀ b, initIter (mixed τ b) (K b).Q_LU (S b) = if τ b then pt 2 1 2 else pt 0 1 1 := by
    intro b
    unfold mixed
    rw [prob_init _ (by split_ifs <;> norm_num) _ _ (hpre b).1 (fS b).2]
    by_cases h : τ b <;> (simp [h]; try norm_num)
  set it : Fin B → Iter 1 1 0 := fun b => if τ b then pt 2 1 2 else pt 0 1 1 with hit
  have hit' : (fun b => initIter (mixed τ b) (K b).Q_LU (S b)) = it := funext hinit
  have hd : ∀ b, (fun i => (it b).z i / (it b).s i) = fun _ : Fin 1 => (if τ b then 2 else 1 : ℝ) := by
    intro b; funext i
    by_cases h : τ b <;> simp [hit, h, pt]
  choose S1 hS1 using fun b => hfac b [fun _ => 1] (fun _ => if τ b then 2 else 1) fun _ => by split_ifs <;> norm_num
  have hS1' : ∀ b, factor_kkt f (S b) (K b).R (fun _ => if τ b then 2 else 1) = some (S1 b) := by
    intro b
    have := hS1 b
    simpa [factorHistory, hS' b] using this
  have fS1 := fun b => factor_kkt_inv hf (fS b).1 (hS1' b)
  obtain ⟨t, ht, hstep⟩ := mixed_step τ (fun b => (K b).Q_LU) S1 (fun b => (hpre b).1) (fun b => (fS1 b).2)
  have hitpos : (∀ b i, 0 < (it b).s i) ∧ (∀ b i, 0 < (it b).z i) := by
    constructor
    · intro b i; by_cases h : τ b <;> simp [hit, h, pt]
    · intro b i; by_cases h : τ b <;> simp [hit, h, pt]
  set it2 : Fin B → Iter 1 1 0 := fun b => if τ b then pt (2 - t b * (56 / 27)) (1 - t b * (25 / 27)) (2 + t b * (56 / 27))
          else pt (0 - t b * (49 / 128)) (1 - t b * (79 / 128)) (1 - t b * (79 / 128)) with hit2
  have hpos2 := fun b => C48_step_positive (mixed τ) (fun b => (K b).Q_LU) S1 it it2 hstep hitpos.1 hitpos.2 b
  choose S2 hS2 using fun b => hfac b [fun _ => 1, fun _ => if τ b then 2 else 1] (fun i => (it2 b).z i / (it2 b).s i)
    fun i => div_pos ((hpos2 b).2.2.2.1 i) ((hpos2 b).2.2.1 i)
  have hS2' : ∀ b, factor_kkt f (S1 b) (K b).R (fun i => (it2 b).z i / (it2 b).s i) = some (S2 b) := by
    intro b
    have := hS2 b
    simpa [factorHistory, hS' b, hS1' b] using this
  -- the run
  have hr0 : ∀ b, (mixed τ b).resid (it b) = if τ b then 5 else 3 := by
    intro b
    by_cases h : τ b
    · simp only [mixed, hit, h, if_true, prob_resid]; norm_num
    · simp only [mixed, hit, h, if_false, prob_resid, Bool.false_eq_true]; norm_num
  set r1 := updateBest (fun b => (mixed τ b).resid (it b)) it none 0 with hr1
  have hcond : ¬ (r1.2 = lim ∨ (∀ b, r1.1.resids b < eps) ∨ (∀ b, (it b).mu > 10 ^ 100)) := by
    rintro (h | h | h)
    · exact hlim h.symm
    · have h0 := h 0
      have : r1.1.resids 0 = (mixed τ 0).resid (it 0) := rfl
      rw [this, hr0] at h0
      split_ifs at h0 <;> linarith
    · have h0 := h 0
      by_cases hτ : τ 0
      · simp only [hit, hτ, if_true, pt_mu] at h0; norm_num at h0
      · simp only [hit, hτ, if_false, pt_mu, Bool.false_eq_true] at h0; norm_num at h0
  set r2 := updateBest (fun b => (mixed τ b).resid (it2 b)) it2 (some r1.1) r1.2 with hr2
  have hrun : lcpForward f eps lim 2 (mixed τ) = .ret (some r2.1) := by
    have e1 : (batchM fun b => factor_kkt f (K b).S_LU (K b).R fun _ => 1) = some S := batchM_eq_some hS'
    have e2 : (batchM fun b => factor_kkt f (S b) (K b).R fun i => (it b).z i / (it b).s i) = some S1 :=
      batchM_eq_some fun b => by rw [hd]; exact hS1' b
    have e3 : (batchM fun b => factor_kkt f (S1 b) (K b).R fun i => (it2 b).z i / (it2 b).s i) = some S2 :=
      batchM_eq_some hS2'
    have hloop : pdLoop ⟨f, mixed τ, fun b => (K b).Q_LU, fun b => (K b).R, eps, lim⟩ 2 S it none 0 =
        .ret (some r2.1) := by
      rw [pdLoop]
      simp only [e2]
      rw [← hr1, if_neg hcond]
      have hstep' : pdStep (mixed τ) (fun b => (K b).Q_LU) S1 it = some it2 := hstep
      simp only [hstep']
      rw [pdLoop]
      simp only [e3]
      rw [← hr2]
      split
      · rfl
      · split
        · rfl
        · rfl
    rw [← hloop, ← hit']
    simp only [lcpForward, hb, pdForward, e1]
  refine ⟨r2.1, hrun, fun b hb => ?_⟩
  have htb := ht b hb
  have hspec := (updateBest_spec (fun b => (mixed τ b).resid (it2 b)) it2 (some r1.1) r1.2 b).1
  rw [← hr2] at hspec
  have hrow : bestRow r2.1 b = it2 b := by
    rcases hspec with ⟨w0, e0, -, -, hle⟩ | ⟨e, -⟩
    · exfalso
      cases e0
      have e5 : r1.1.resids b = 5 := by
        have : r1.1.resids b = (mixed τ b).resid (it b) := rfl
        rw [this, hr0, if_pos hb]
      rw [e5] at hle
      simp only [mixed, hit2, hb, if_true, prob_resid] at hle
      rw [htb] at hle
      split_ifs at hle
      · rw [abs_of_nonneg (by norm_num), abs_of_nonneg (by norm_num), abs_of_nonneg (by norm_num)] at hle
        norm_num at hle
      · rw [abs_of_nonneg (by norm_num), abs_of_nonneg (by norm_num), abs_of_nonneg (by norm_num)] at hle
        norm_num at hle
    · exact e
  have hx : r2.1.x b 0 = (it2 b).x 0 := congrFun (congrArg Iter.x hrow) 0
  rw [hx]
  simp only [hit2, hb, if_true, pt_x]
  rw [htb]

/-- C52: the batch is not solved independently: after two iterations the same problem has a different
solution alone than together with another problem. -/
theorem C52_batch_dependence (f : Btrifact) (hf : BtrifactOk f) :
    ∃ (P : Fin 1 → Lcp 1 1 0) (P' : Fin 2 → Lcp 1 1 0) (w : Best 1 1 1 0) (w' : Best 2 1 1 0),
      P 0 = P' 0 ∧ lcpForward f (1 / 10 ^ 12) 3 2 P = .ret (some w) ∧ lcpForward f (1 / 10 ^ 12) 3 2 P' = .ret (some w') ∧
      w.x 0 ≠ w'.x 0 := by
  obtain ⟨w, h, hx⟩ := mixed_forward f hf (fun _ : Fin 1 => true) (1 / 10 ^ 12) (by norm_num) 3 (by norm_num)
  obtain ⟨w', h', hx'⟩ := mixed_forward f hf (fun b : Fin 2 => decide (b = 0)) (1 / 10 ^ 12) (by norm_num) 3 (by norm_num)
  refine ⟨_, _, w, w', ?_, h, h', fun he => ?_⟩
  · simp [mixed]
  · have e := congrFun he 0
    rw [hx 0 rfl, hx' 0 (by simp), if_neg (by simp), if_pos ⟨1, by simp⟩] at e
    norm_num at e

/-- Non-vacuity of the theorems on runs: this run exists for a routine that meets the contract. -/
example : ∃ f, BtrifactOk f ∧ ∃ w, lcpForward f (1 / 10 ^ 12) 3 2 (mixed fun _ : Fin 1 => true) = .ret (some w) :=
  ⟨someBtrifact, someBtrifact_ok, (mixed_forward someBtrifact someBtrifact_ok _ _ (by norm_num) 3 (by norm_num)).imp
    fun _ h => h.1⟩

theorem lcpForward_pdForward [NeZero B] [NeZero nineq] {f : Btrifact} {eps : ℝ} {lim max_iter : ℕ}
    {P : Fin B → Lcp nz nineq neq} {w : Best B nz nineq neq} (h : lcpForward f eps lim max_iter P = .ret (some w)) :
    ∃ (c : Setup B nz nineq neq) (S0 : Fin B → PackedLU (neq + nineq)),
      c.P = P ∧ c.eps = eps ∧ c.lim = lim ∧ c.f = f ∧ pdForward c max_iter S0 = .ret (some w) := by
  unfold lcpForward at h
  split at h
  · cases h
  · exact ⟨_, _, rfl, rfl, rfl, rfl, h⟩

/-- The theorems C50 and C51 apply to this run of a batch of two rows. -/
example : ∃ (c : Setup 2 1 1 0) (S0 : Fin 2 → PackedLU (0 + 1)) (w : Best 2 1 1 0),
    pdForward c 2 S0 = .ret (some w) ∧ c.lim = 3 ∧ ∃ n its Ss S,
      SolverRun c S (fun b => initIter (c.P b) (c.Q_LU b) (S b)) n its Ss ∧ n < 2 ∧
      ∀ b, ApproxSolution (c.P b).Q (c.P b).p (c.P b).G (c.P b).h (c.P b).A (c.P b).b (c.P b).F (w.resids b)
        (w.x b) (w.s b) (w.z b) (w.y b) := by
  obtain ⟨w, h, -⟩ := mixed_forward someBtrifact someBtrifact_ok (fun b : Fin 2 => decide (b = 0)) (1 / 10 ^ 12)
    (by norm_num) 3 (by norm_num)
  obtain ⟨c, S0, -, -, hl, -, hp⟩ := lcpForward_pdForward h
  obtain ⟨S, -, n, its, Ss, hrun, hn, -⟩ := C50_stopping c 2 S0 w hp
  exact ⟨c, S0, w, hp, hl, n, its, Ss, S, hrun, hn, fun b => (C51_returned_certificate c 2 S0 w hp b).2.2⟩

/-! ## C55: no solution returned -/

/-- A one-dimensional problem with a coupling `F` that is not monotone. -/
def badProb : Lcp 1 1 0 :=
  { Q := 1, p := fun _ => -1, G := 1, h := 0, A := 0, b := 0, F := !![-3 / 2] }

theorem badProb_schur (d : ℝ) : (schur badProb.Q badProb.G badProb.A badProb.F (fun _ => d)).det = -1 / 2 + 1 / d := by
  have e1 : (flatBlocks (schur badProb.Q badProb.G badProb.A badProb.F (fun _ => d))).det =
      (schur badProb.Q badProb.G badProb.A badProb.F (fun _ => d)).det := by
    rw [flatBlocks, Matrix.det_submatrix_equiv_self]
  have e2 : (flatBlocks (schur badProb.Q badProb.G badProb.A badProb.F (fun _ => d))).det =
      flatBlocks (schur badProb.Q badProb.G badProb.A badProb.F (fun _ => d)) (Fin.natAdd 0 0) (Fin.natAdd 0 0) :=
    Matrix.det_fin_one _
  rw [← e1, e2, flatBlocks, Matrix.submatrix_apply, finSumFinEquiv_symm_apply_natAdd, schur, Matrix.fromBlocks_apply₂₂]
  simp [badProb]
  ring

/-- C55: there are problems for which the solver returns `None`s although the initial factorisation
succeeds: here the matrix of the first iteration is singular. -/
theorem C55_returns_none (f : Btrifact) (hf : BtrifactOk f) (eps : ℝ) (lim max_iter : ℕ) (hm : max_iter ≠ 0) :
    lcpForward f eps lim max_iter (fun _ : Fin 1 => badProb) = .ret none := by
  have hsym : badProb.Qᵀ = badProb.Q := by simp [badProb]
  have hpre : ¬ ∃ e, pre_factor_kkt f badProb.Q badProb.G badProb.F badProb.A = .error e := by
    rw [C45_pre_raises_iff f hf]
    simp [badProb]
  cases hK : pre_factor_kkt f badProb.Q badProb.G badProb.F badProb.A with
  | error e => exact absurd ⟨e, hK⟩ hpre
  | ok K =>
    obtain ⟨hQ, hinv⟩ := pre_factor_inv hf hsym hK
    obtain ⟨S, hS⟩ : ∃ S, factor_kkt f K.S_LU K.R (fun _ => 1) = some S := by
      apply Option.ne_none_iff_exists'.1
      have := C45_raises_iff_singular f hf _ _ _ _ hsym K hK [] (fun _ => 1)
      rw [show factorHistory f K.R K.S_LU [] = K.S_LU from rfl, badProb_schur] at this
      rw [Ne, this]; norm_num
    obtain ⟨-, hSf⟩ := factor_kkt_inv hf hinv hS
    have hb : (batchE fun _ : Fin 1 => pre_factor_kkt f badProb.Q badProb.G badProb.F badProb.A) = .ok fun _ => K :=
      batchE_eq_ok fun _ => hK
    unfold lcpForward
    rw [hb]
    set c : Setup 1 1 1 0 := ⟨f, fun _ => badProb, fun _ => K.Q_LU, fun _ => K.R, eps, lim⟩ with hc
    have hn := C44_solve_kkt badProb.Q badProb.G badProb.A badProb.F (fun _ => 1) (fun _ => one_ne_zero) K.Q_LU S hQ hSf
      badProb.p 0 (-badProb.h) (-badProb.b)
    set v := solve_kkt K.Q_LU (fun _ => 1) badProb.G badProb.A S badProb.p 0 (-badProb.h) (-badProb.b) with hv
    simp only at hn
    have h1 := congrFun hn.dual 0
    have h2 := hn.compl 0
    have h3 := congrFun hn.ineq 0
    simp [badProb, Matrix.vecHead] at h1 h2 h3
    have hvz : v.z = fun _ => 2 := by
      funext i
      have : i = 0 := Subsingleton.elim _ _
      subst this; linarith
    have hvs : v.s = fun _ => -2 := by
      funext i
      have : i = 0 := Subsingleton.elim _ _
      subst this
      have := congrFun hvz 0
      linarith
    have hw : (fun i => (initIter badProb K.Q_LU S).z i / (initIter badProb K.Q_LU S).s i) = fun _ => (2 : ℝ) := by
      funext i
      have ez : (initIter badProb K.Q_LU S).z = shiftPos v.z := rfl
      have es : (initIter badProb K.Q_LU S).s = shiftPos v.s := rfl
      rw [ez, es, hvz, hvs, shiftPos, shiftPos, rowMin_one, rowMin_one, if_neg (by norm_num), if_pos (by norm_num)]
      norm_num
    have hfail : factor_kkt f S K.R (fun _ => 2) = none := by
      have := C45_raises_iff_singular f hf _ _ _ _ hsym K hK [fun _ => 1] (fun _ => 2)
      rw [badProb_schur] at this
      have e : factorHistory f K.R K.S_LU [fun _ => 1] = S := by simp [factorHistory, hS]
      rw [e] at this
      exact this.2 (by norm_num)
    rcases C55_outcomes c max_iter (fun _ => K.S_LU) with ⟨h, -⟩ | ⟨-, S', hS', h⟩
    · rcases h with ⟨b, hb⟩ | h
      · have : factor_kkt f K.S_LU K.R (fun _ => 1) = none := hb
        rw [hS] at this; cases this
      · exact absurd h hm
    · have eS : S' = fun _ => S := by
        funext b
        have h1 : factor_kkt f K.S_LU K.R (fun _ => 1) = some (S' b) := hS' b
        rw [hS] at h1
        exact (Option.some.inj h1).symm
      subst eS
      rcases h with ⟨-, h⟩ | ⟨h, -⟩
      · exact h
      · refine absurd ?_ (h 0)
        show factor_kkt f S K.R (fun i => (initIter badProb K.Q_LU S).z i / (initIter badProb K.Q_LU S).s i) = none
        rw [hw]; exact hfail

/-- The theorems C48 and C49 apply to a run of this batch: positive slacks and multipliers throughout. -/
example : ∃ (c : Setup 2 1 1 0) (S : Fin 2 → PackedLU (0 + 1)) (n : ℕ) (its : ℕ → Fin 2 → Iter 1 1 0)
    (Ss : ℕ → Fin 2 → PackedLU (0 + 1)),
    SolverRun c S (fun b => initIter (c.P b) (c.Q_LU b) (S b)) n its Ss ∧
      ∀ j ≤ n, (∀ b i, 0 < (its j b).s i) ∧ ∀ b i, 0 < (its j b).z i := by
  obtain ⟨w, h, -⟩ := mixed_forward someBtrifact someBtrifact_ok (fun b : Fin 2 => decide (b = 0)) (1 / 10 ^ 12)
    (by norm_num) 3 (by norm_num)
  obtain ⟨c, S0, -, -, hl, -, hp⟩ := lcpForward_pdForward h
  obtain ⟨S, -, n, its, Ss, hrun, hn, -⟩ := C50_stopping c 2 S0 w hp
  have hpos := fun b => C47_init_positive (c.P b) (c.Q_LU b) (S b)
  exact ⟨c, S, n, its, Ss, hrun, fun j hj => C48_run_positive c S _ n its Ss hrun (fun b => (hpos b).1)
    (fun b => (hpos b).2.1) j hj⟩

end LcpPhysics
