import Verif.Lemmas.Pdipm
import Verif.Props.Kkt
import Verif.Spec.OneRow

/-! # Lemmas on the solver for problems with a single inequality -/

noncomputable section

namespace LcpPhysics
open Matrix Spec

variable {nz neq : ℕ}

open Classical in
/-- The step to the boundary for one component. -/
def reach (v dv : ℝ) : ℝ := if dv > 0 then 1 else -v / dv

/-- The affine direction of the multiplier; `r = s - c z - β`. -/
def affZ (c r s z : ℝ) : ℝ := -(z * (s - r)) / (s + c * z)
def affS (c r s z : ℝ) : ℝ := c * affZ c r s z - r
def affStep (c r s z : ℝ) : ℝ := min (min (reach z (affZ c r s z)) (reach s (affS c r s z))) 1
def affSig (c r s z : ℝ) : ℝ :=
  ((s + affStep c r s z * affS c r s z) * (z + affStep c r s z * affZ c r s z) / (s * z)) ^ 3
def dirZ (c r s z : ℝ) : ℝ :=
  affZ c r s z + (s * z * affSig c r s z - affS c r s z * affZ c r s z) / (s + c * z)
def dirS (c r s z : ℝ) : ℝ := c * dirZ c r s z - r
def dirStep (c r s z : ℝ) : ℝ := min (999 / 1000 * min (reach z (dirZ c r s z)) (reach s (dirS c r s z))) 1

theorem rowMin_one (v : Fin 1 → ℝ) : rowMin v = v 0 := by
  obtain ⟨i, hi⟩ := exists_rowMin v
  rw [hi, Subsingleton.elim i 0]

theorem get_step_one (v dv : Fin 1 → Fin 1 → ℝ) (hv : 0 < v 0 0) :
    (dv 0 0 = 0 → get_step v dv = none) ∧ (dv 0 0 ≠ 0 → get_step v dv = some fun _ => reach (v 0 0) (dv 0 0)) := by
  constructor
  · intro h
    unfold get_step
    rw [if_pos ⟨0, 0, h⟩]
  · intro h
    cases hg : get_step v dv with
    | none =>
      exfalso
      unfold get_step at hg
      rw [if_neg] at hg
      · cases hg
      · rintro ⟨b, i, hb⟩
        rw [Subsingleton.elim b 0, Subsingleton.elim i 0] at hb
        exact h hb
    | some st =>
      obtain ⟨-, c, hc, hc', -, hst⟩ := get_step_spec hg
      congr 1
      funext b
      rw [hst, rowMin_one, Subsingleton.elim b 0]
      unfold reach
      by_cases hd : dv 0 0 > 0
      · rw [if_pos hd, if_pos hd]
        rcases hc' with ⟨b, i, hbi⟩ | h1
        · rw [Subsingleton.elim b 0, Subsingleton.elim i 0] at hbi
          have : -v 0 0 / dv 0 0 < 0 := div_neg_of_neg_of_pos (by linarith) hd
          linarith
        · exact h1
      · rw [if_neg hd, if_neg hd]

/-- The scalar equation behind a Newton step: the change of the slack against that of the multiplier. -/
theorem newton_one {P : Lcp nz 1 neq} {x₀ : Fin nz → ℝ} {y₀ : Fin neq → ℝ} {u : Fin nz → ℝ} {v : Fin neq → ℝ}
    (hP : OneRow P x₀ y₀ u v) {d : Fin 1 → ℝ} {rx : Fin nz → ℝ} {rs rz : Fin 1 → ℝ} {ry : Fin neq → ℝ}
    {w : Iter nz 1 neq} (h : NewtonStep P.Q P.G P.A P.F d rx rs rz ry w.x w.s w.z w.y) :
    w.s 0 - compliance P u * w.z 0 = u ⬝ᵥ rx + v ⬝ᵥ ry - rz 0 := by
  have h1 := congrArg (fun t => u ⬝ᵥ t) h.dual
  have h2 := congrFun h.ineq 0
  have h3 := congrArg (fun t => v ⬝ᵥ t) h.eq
  have e1 : u ⬝ᵥ (P.Q *ᵥ w.x) = P.G 0 ⬝ᵥ w.x - v ⬝ᵥ (P.A *ᵥ w.x) := by
    rw [← hP.push, add_dotProduct, Matrix.dotProduct_mulVec, ← Matrix.mulVec_transpose, hP.symm,
      Matrix.mulVec_transpose, ← Matrix.dotProduct_mulVec]
    ring
  have e2 : u ⬝ᵥ (P.Aᵀ *ᵥ w.y) = 0 := by
    rw [Matrix.dotProduct_mulVec, Matrix.vecMul_transpose, hP.push_eq, zero_dotProduct]
  have e3 : u ⬝ᵥ (P.Gᵀ *ᵥ w.z) = (P.G 0 ⬝ᵥ u) * w.z 0 := by
    rw [Matrix.dotProduct_mulVec, Matrix.vecMul_transpose]
    simp [dotProduct, Matrix.mulVec]
  have e4 : (P.G *ᵥ w.x) 0 = P.G 0 ⬝ᵥ w.x := rfl
  have e5 : (P.F *ᵥ w.z) 0 = P.F 0 0 * w.z 0 := by simp [Matrix.mulVec, dotProduct]
  simp only [dotProduct_add, dotProduct_neg, e1, e2, e3] at h1 h3
  simp only [Pi.add_apply, Pi.sub_apply, Pi.neg_apply, e4, e5] at h2
  unfold compliance
  linarith

/-- The combined linear residual is the defect of the scalar problem `s - c z = β`. -/
theorem defect_one {P : Lcp nz 1 neq} {x₀ : Fin nz → ℝ} {y₀ : Fin neq → ℝ} {u : Fin nz → ℝ} {v : Fin neq → ℝ}
    (hP : OneRow P x₀ y₀ u v) (w : Iter nz 1 neq) :
    P.rz w 0 - u ⬝ᵥ P.rx w - v ⬝ᵥ P.ry w = w.s 0 - compliance P u * w.z 0 - freeSlack P x₀ := by
  have e1 : ∀ t, u ⬝ᵥ (P.Q *ᵥ t) = P.G 0 ⬝ᵥ t - v ⬝ᵥ (P.A *ᵥ t) := by
    intro t
    rw [← hP.push, add_dotProduct, Matrix.dotProduct_mulVec, ← Matrix.mulVec_transpose, hP.symm,
      Matrix.mulVec_transpose, ← Matrix.dotProduct_mulVec]
    ring
  have e2 : ∀ t, u ⬝ᵥ (P.Aᵀ *ᵥ t) = 0 := by
    intro t
    rw [Matrix.dotProduct_mulVec, Matrix.vecMul_transpose, hP.push_eq, zero_dotProduct]
  have e3 : u ⬝ᵥ (P.Gᵀ *ᵥ w.z) = (P.G 0 ⬝ᵥ u) * w.z 0 := by
    rw [Matrix.dotProduct_mulVec, Matrix.vecMul_transpose]
    simp [dotProduct, Matrix.mulVec]
  have e5 : (P.F *ᵥ w.z) 0 = P.F 0 0 * w.z 0 := by simp [Matrix.mulVec, dotProduct]
  have h0 := congrArg (fun t => u ⬝ᵥ t) hP.free
  simp only [dotProduct_add, e1, e2, dotProduct_zero, hP.free_eq] at h0
  have ex : P.rx w = P.Aᵀ *ᵥ w.y + P.Gᵀ *ᵥ w.z + P.Q *ᵥ w.x + P.p := by
    simp only [Lcp.rx, Matrix.vecMul_transpose, Matrix.mulVec_transpose]
  have ez : P.rz w 0 = P.G 0 ⬝ᵥ w.x + w.s 0 - P.h 0 - P.F 0 0 * w.z 0 := by
    simp only [Lcp.rz, Matrix.vecMul_transpose, Pi.add_apply, Pi.sub_apply, e5]
    rfl
  have ey : P.ry w = P.A *ᵥ w.x - P.b := by simp only [Lcp.ry, Matrix.vecMul_transpose]
  rw [ex, ez, ey]
  simp only [dotProduct_add, dotProduct_sub, e1, e2, e3]
  unfold compliance freeSlack
  linarith

/-- One step of the solver, written out: the step length, the new slack and the new multiplier. -/
theorem pdStep_one {P : Lcp nz 1 neq} {x₀ : Fin nz → ℝ} {y₀ : Fin neq → ℝ} {u : Fin nz → ℝ} {v : Fin neq → ℝ}
    (hP : OneRow P x₀ y₀ u v) (hc : 0 < compliance P u) {Q_LU : Fin 1 → PackedLU nz}
    {S_LU : Fin 1 → PackedLU (neq + 1)} {it : Fin 1 → Iter nz 1 neq} (hs : 0 < (it 0).s 0) (hz : 0 < (it 0).z 0)
    (hQ : Factors P.Q (Q_LU 0))
    (hS : Factors (flatBlocks (schur P.Q P.G P.A P.F fun i => (it 0).z i / (it 0).s i)) (S_LU 0)) :
    let c := compliance P u
    let s := (it 0).s 0
    let z := (it 0).z 0
    let r := s - c * z - freeSlack P x₀
    (affZ c r s z ≠ 0 → affS c r s z ≠ 0 → dirZ c r s z ≠ 0 → dirS c r s z ≠ 0 →
      ∃ it', pdStep (fun _ => P) Q_LU S_LU it = some it') ∧
    ∀ it', pdStep (fun _ => P) Q_LU S_LU it = some it' →
      affZ c r s z ≠ 0 ∧ affS c r s z ≠ 0 ∧ dirZ c r s z ≠ 0 ∧ dirS c r s z ≠ 0 ∧
      (it' 0).s 0 = s + dirStep c r s z * dirS c r s z ∧ (it' 0).z 0 = z + dirStep c r s z * dirZ c r s z ∧
      P.rx (it' 0) = (1 - dirStep c r s z) • P.rx (it 0) ∧ P.rz (it' 0) = (1 - dirStep c r s z) • P.rz (it 0) ∧
      P.ry (it' 0) = (1 - dirStep c r s z) • P.ry (it 0) := by
  intro c s z r
  have hd : ∀ i, (it 0).z i / (it 0).s i ≠ 0 := fun i => by
    rw [Subsingleton.elim i 0]; exact (div_pos hz hs).ne'
  have hsum : 0 < s + c * z := add_pos hs (mul_pos hc hz)
  set d : Fin 1 → ℝ := fun i => (it 0).z i / (it 0).s i with hdd
  set aff := solve_kkt (Q_LU 0) d P.G P.A (S_LU 0) (P.rx (it 0)) (it 0).z (P.rz (it 0)) (P.ry (it 0)) with haff
  have n1 := C44_solve_kkt P.Q P.G P.A P.F d hd (Q_LU 0) (S_LU 0) hQ hS (P.rx (it 0)) (it 0).z (P.rz (it 0))
    (P.ry (it 0))
  simp only [← haff] at n1
  have a1 := newton_one hP n1
  have a2 := n1.compl 0
  have a3 := defect_one hP (it 0)
  have hd0 : d 0 = z / s := rfl
  have eaz : aff.z 0 = affZ c r s z := by
    unfold affZ
    rw [eq_div_iff hsum.ne']
    have e : aff.s 0 = c * aff.z 0 - r := by
      simp only [c, r, s, z]; linarith
    rw [e, hd0, div_mul_eq_mul_div, div_add' _ _ _ hs.ne', div_eq_iff hs.ne'] at a2
    have : (it 0).z 0 = z := rfl
    rw [this] at a2
    linarith
  have eas : aff.s 0 = affS c r s z := by
    unfold affS
    rw [← eaz]
    simp only [c, r, s, z]; linarith
  have corr : ∀ rs : Fin 1 → ℝ, ∀ q : ℝ, rs 0 = q / s →
      (solve_kkt (Q_LU 0) d P.G P.A (S_LU 0) 0 rs 0 0).z 0 = -q / (s + c * z) ∧
      (solve_kkt (Q_LU 0) d P.G P.A (S_LU 0) 0 rs 0 0).s 0 = c * (-q / (s + c * z)) := by
    intro rs q hq
    have n2 := C44_solve_kkt P.Q P.G P.A P.F d hd (Q_LU 0) (S_LU 0) hQ hS 0 rs 0 0
    set w := solve_kkt (Q_LU 0) d P.G P.A (S_LU 0) 0 rs 0 0
    have b1 := newton_one hP n2
    have b2 := n2.compl 0
    simp only [dotProduct_zero, Pi.zero_apply, add_zero, sub_zero] at b1
    have e : w.s 0 = c * w.z 0 := by simp only [c]; linarith
    have ez : w.z 0 = -q / (s + c * z) := by
      rw [eq_div_iff hsum.ne']
      rw [e, hd0, hq, div_mul_eq_mul_div, div_add' _ _ _ hs.ne', div_eq_iff hs.ne', neg_mul,
        div_mul_cancel₀ _ hs.ne'] at b2
      linarith
    exact ⟨ez, by rw [e, ez]⟩
  have hmu : (it 0).mu = s * z := by
    simp only [Iter.mu, Finset.univ_unique, Fin.default_eq_zero, Finset.sum_singleton, Nat.cast_one, div_one]
    exact abs_of_pos (mul_pos hs hz)
  have gz := get_step_one (fun b => (it b).z) (fun b => (solve_kkt (Q_LU b) (fun i => (it b).z i / (it b).s i) P.G P.A
    (S_LU b) (P.rx (it b)) (it b).z (P.rz (it b)) (P.ry (it b))).z) hz
  have gs := get_step_one (fun b => (it b).s) (fun b => (solve_kkt (Q_LU b) (fun i => (it b).z i / (it b).s i) P.G P.A
    (S_LU b) (P.rx (it b)) (it b).z (P.rz (it b)) (P.ry (it b))).s) hs
  simp only [← hdd, ← haff, eaz, eas] at gz gs
  unfold pdStep
  simp only
  by_cases hz0 : affZ c r s z = 0
  · rw [gz.1 hz0]
    exact ⟨fun h => absurd hz0 h, fun it' h => by cases h⟩
  rw [gz.2 hz0]
  by_cases hs0 : affS c r s z = 0
  · rw [gs.1 hs0]
    exact ⟨fun _ h => absurd hs0 h, fun it' h => by cases h⟩
  rw [gs.2 hs0]
  simp only
  set q : ℝ := -(s * z) * affSig c r s z + affS c r s z * affZ c r s z with hq
  set rs : Fin 1 → Fin 1 → ℝ := fun b i => (-(it b).mu *
    ((∑ i, ((it b).s i + min (min (reach z (affZ c r s z)) (reach s (affS c r s z))) 1 *
      (solve_kkt (Q_LU b) (fun i => (it b).z i / (it b).s i) P.G P.A (S_LU b) (P.rx (it b)) (it b).z (P.rz (it b))
        (P.ry (it b))).s i) * ((it b).z i + min (min (reach z (affZ c r s z)) (reach s (affS c r s z))) 1 *
      (solve_kkt (Q_LU b) (fun i => (it b).z i / (it b).s i) P.G P.A (S_LU b) (P.rx (it b)) (it b).z (P.rz (it b))
        (P.ry (it b))).z i)) / ∑ i, (it b).s i * (it b).z i) ^ 3 +
    (solve_kkt (Q_LU b) (fun i => (it b).z i / (it b).s i) P.G P.A (S_LU b) (P.rx (it b)) (it b).z (P.rz (it b))
        (P.ry (it b))).s i * (solve_kkt (Q_LU b) (fun i => (it b).z i / (it b).s i) P.G P.A (S_LU b) (P.rx (it b))
        (it b).z (P.rz (it b)) (P.ry (it b))).z i) / (it b).s i with hrs
  have hrs0 : rs 0 0 = q / s := by
    rw [hrs, hq]
    simp only [Finset.univ_unique, Fin.default_eq_zero, Finset.sum_singleton, ← hdd, ← haff, eas, eaz, hmu, affSig,
      affStep]
    rfl
  obtain ⟨cz, cs⟩ := corr (rs 0) q hrs0
  have ez : aff.z 0 + (solve_kkt (Q_LU 0) d P.G P.A (S_LU 0) 0 (rs 0) 0 0).z 0 = dirZ c r s z := by
    rw [eaz, cz, dirZ, hq]
    congr 2
    ring
  have es : aff.s 0 + (solve_kkt (Q_LU 0) d P.G P.A (S_LU 0) 0 (rs 0) 0 0).s 0 = dirS c r s z := by
    rw [eas, cs, ← cz]
    unfold dirS
    rw [← ez, eaz, affS]
    ring
  have n2 := C44_solve_kkt P.Q P.G P.A P.F d hd (Q_LU 0) (S_LU 0) hQ hS 0 (rs 0) 0 0
  have n3 := newton_add n1 n2
  simp only [add_zero] at n3
  have gz' := get_step_one (fun b => (it b).z) (fun b => (solve_kkt (Q_LU b) (fun i => (it b).z i / (it b).s i) P.G P.A
    (S_LU b) (P.rx (it b)) (it b).z (P.rz (it b)) (P.ry (it b))).z +
    (solve_kkt (Q_LU b) (fun i => (it b).z i / (it b).s i) P.G P.A (S_LU b) 0 (rs b) 0 0).z) hz
  have gs' := get_step_one (fun b => (it b).s) (fun b => (solve_kkt (Q_LU b) (fun i => (it b).z i / (it b).s i) P.G P.A
    (S_LU b) (P.rx (it b)) (it b).z (P.rz (it b)) (P.ry (it b))).s +
    (solve_kkt (Q_LU b) (fun i => (it b).z i / (it b).s i) P.G P.A (S_LU b) 0 (rs b) 0 0).s) hs
  simp only [← hdd, ← haff, Pi.add_apply, ez, es] at gz' gs'
  by_cases hz1 : dirZ c r s z = 0
  · rw [gz'.1 hz1]
    exact ⟨fun _ _ h => absurd hz1 h, fun it' h => by cases h⟩
  rw [gz'.2 hz1]
  by_cases hs1 : dirS c r s z = 0
  · rw [gs'.1 hs1]
    exact ⟨fun _ _ _ h => absurd hs1 h, fun it' h => by cases h⟩
  rw [gs'.2 hs1]
  refine ⟨fun _ _ _ _ => ⟨_, rfl⟩, fun it' h => ?_⟩
  cases h
  refine ⟨hz0, hs0, hz1, hs1, ?_, ?_, ?_⟩
  · exact congrArg (fun t => s + dirStep c r s z * t) es
  · exact congrArg (fun t => z + dirStep c r s z * t) ez
  · exact residuals_move P (it 0) { x := _ + _, s := _ + _, z := _ + _, y := _ + _ } _ _ n3 _

/-! ## The scalar step -/

theorem reach_pos {v dv : ℝ} (hv : 0 < v) (hd : dv ≠ 0) : 0 < reach v dv := by
  unfold reach
  split_ifs with h
  · exact one_pos
  · exact div_pos_of_neg_of_neg (by linarith) (lt_of_le_of_ne (not_lt.1 h) hd)

theorem reach_keeps {v dv t : ℝ} (hv : 0 < v) (hd : dv ≠ 0) (ht : 0 ≤ t) (h : t ≤ 999 / 1000 * reach v dv) :
    v / 1000 ≤ v + t * dv := by
  unfold reach at h
  split_ifs at h with hp
  · have := mul_nonneg ht (le_of_lt hp)
    linarith
  · have hn : dv < 0 := lt_of_le_of_ne (not_lt.1 hp) hd
    have h1 := mul_le_mul_of_nonneg_right h (by linarith : 0 ≤ -dv)
    have e : 999 / 1000 * (-v / dv) * -dv = 999 / 1000 * v := by field_simp
    linarith

theorem dirStep_range {c r s z : ℝ} (hs : 0 < s) (hz : 0 < z) (h1 : dirZ c r s z ≠ 0) (h2 : dirS c r s z ≠ 0) :
    0 < dirStep c r s z ∧ dirStep c r s z ≤ 1 := by
  unfold dirStep
  exact ⟨lt_min (mul_pos (by norm_num) (lt_min (reach_pos hz h1) (reach_pos hs h2))) one_pos, min_le_right _ _⟩

/-- A step keeps at least a thousandth of the slack and of the multiplier. -/
theorem dirStep_keeps {c r s z : ℝ} (hs : 0 < s) (hz : 0 < z) (h1 : dirZ c r s z ≠ 0) (h2 : dirS c r s z ≠ 0) :
    s / 1000 ≤ s + dirStep c r s z * dirS c r s z ∧ z / 1000 ≤ z + dirStep c r s z * dirZ c r s z := by
  have h0 := (dirStep_range hs hz h1 h2).1.le
  have hle : dirStep c r s z ≤ 999 / 1000 * min (reach z (dirZ c r s z)) (reach s (dirS c r s z)) := min_le_left _ _
  refine ⟨reach_keeps hs h2 h0 (hle.trans ?_), reach_keeps hz h1 h0 (hle.trans ?_)⟩
  · exact mul_le_mul_of_nonneg_left (min_le_right _ _) (by norm_num)
  · exact mul_le_mul_of_nonneg_left (min_le_left _ _) (by norm_num)

/-- The first step of an inequality that has to act: with a soft one (small `c`) both the slack and the multiplier
are driven up. -/
theorem first_active {c ζ : ℝ} (hc : 0 < c) (hζ : 0 < ζ) (h : (1 + c * ζ) ^ 2 < c * ζ ^ 2) :
    dirStep c (1 + ζ) 1 ζ = 999 / 1000 ∧
    dirS c (1 + ζ) 1 ζ = (1 + c * ζ + ζ) * (c * ζ ^ 2 - (1 + c * ζ) ^ 2) / (1 + c * ζ) ^ 3 := by
  have hk : 0 < 1 + c * ζ := by positivity
  set k := 1 + c * ζ with hkd
  have eaz : affZ c (1 + ζ) 1 ζ = ζ ^ 2 / k := by
    unfold affZ; rw [← hkd]; congr 1; ring
  have eas : affS c (1 + ζ) 1 ζ = -(k + ζ) / k := by
    unfold affS
    rw [eaz, eq_div_iff hk.ne']
    field_simp
    rw [hkd]; ring
  have paz : 0 < affZ c (1 + ζ) 1 ζ := by rw [eaz]; positivity
  have nas : affS c (1 + ζ) 1 ζ < 0 := by
    rw [eas]; exact div_neg_of_neg_of_pos (by linarith) hk
  have est : affStep c (1 + ζ) 1 ζ = k / (k + ζ) := by
    unfold affStep reach
    rw [if_pos paz, if_neg (not_lt.2 nas.le), eas]
    have e : -(1:ℝ) / (-(k + ζ) / k) = k / (k + ζ) := by
      have : k + ζ ≠ 0 := by positivity
      field_simp
    have hle : k / (k + ζ) ≤ 1 := by rw [div_le_one (by positivity)]; linarith
    rw [e, min_eq_right hle, min_eq_left hle]
  have esig : affSig c (1 + ζ) 1 ζ = 0 := by
    unfold affSig
    rw [est, eas]
    have : k + ζ ≠ 0 := by positivity
    have e : 1 + k / (k + ζ) * (-(k + ζ) / k) = 0 := by field_simp; ring
    rw [e]; simp
  have edz : dirZ c (1 + ζ) 1 ζ = ζ ^ 2 / k * (1 + (k + ζ) / k ^ 2) := by
    unfold dirZ
    rw [esig, eas, eaz, ← hkd]
    field_simp
    ring
  have eds : dirS c (1 + ζ) 1 ζ = (k + ζ) * (c * ζ ^ 2 - k ^ 2) / k ^ 3 := by
    unfold dirS
    rw [edz]
    field_simp
    rw [hkd]; ring
  have pdz : 0 < dirZ c (1 + ζ) 1 ζ := by rw [edz]; positivity
  have pds : 0 < dirS c (1 + ζ) 1 ζ := by
    rw [eds]
    have : 0 < c * ζ ^ 2 - k ^ 2 := by linarith
    positivity
  refine ⟨?_, eds⟩
  unfold dirStep reach
  rw [if_pos pdz, if_pos pds]
  norm_num

/-- The first step of an inequality that should stay inactive. -/
theorem first_inactive {c s : ℝ} (hc : 0 < c) (hs : 0 < s) (h : (s + c) ^ 2 < c * s ^ 2) :
    dirStep c (-(c * (1 + s))) s 1 = 999 / 1000 ∧
    dirZ c (-(c * (1 + s))) s 1 = (s + c + c * s) * (c * s ^ 2 - (s + c) ^ 2) / (s + c) ^ 3 := by
  have hk : 0 < s + c := by positivity
  set k := s + c with hkd
  have eaz : affZ c (-(c * (1 + s))) s 1 = -(k + c * s) / k := by
    unfold affZ; rw [mul_one, ← hkd]; congr 1; rw [hkd]; ring
  have eas : affS c (-(c * (1 + s))) s 1 = c * s ^ 2 / k := by
    unfold affS
    rw [eaz, eq_div_iff hk.ne']
    field_simp
    rw [hkd]; ring
  have naz : affZ c (-(c * (1 + s))) s 1 < 0 := by
    rw [eaz]; exact div_neg_of_neg_of_pos (by nlinarith [mul_pos hc hs]) hk
  have pas : 0 < affS c (-(c * (1 + s))) s 1 := by rw [eas]; positivity
  have est : affStep c (-(c * (1 + s))) s 1 = k / (k + c * s) := by
    unfold affStep reach
    rw [if_pos pas, if_neg (not_lt.2 naz.le), eaz]
    have e : -(1:ℝ) / (-(k + c * s) / k) = k / (k + c * s) := by
      have : k + c * s ≠ 0 := by positivity
      field_simp
    have hle : k / (k + c * s) ≤ 1 := by
      rw [div_le_one (by positivity)]; nlinarith [mul_pos hc hs]
    rw [e, min_eq_left hle, min_eq_left hle]
  have esig : affSig c (-(c * (1 + s))) s 1 = 0 := by
    unfold affSig
    rw [est, eaz]
    have : k + c * s ≠ 0 := by positivity
    have e : 1 + k / (k + c * s) * (-(k + c * s) / k) = 0 := by field_simp; ring
    rw [e]; simp
  have edz : dirZ c (-(c * (1 + s))) s 1 = (k + c * s) * (c * s ^ 2 - k ^ 2) / k ^ 3 := by
    unfold dirZ
    rw [esig, eas, eaz, mul_one c, ← hkd]
    field_simp
    ring
  have pdz : 0 < dirZ c (-(c * (1 + s))) s 1 := by
    rw [edz]
    have : 0 < c * s ^ 2 - k ^ 2 := by linarith
    positivity
  have pds : 0 < dirS c (-(c * (1 + s))) s 1 := by
    unfold dirS
    have := mul_pos hc pdz
    have := mul_pos hc hs
    linarith
  refine ⟨?_, edz⟩
  unfold dirStep reach
  rw [if_pos pdz, if_pos pds]
  norm_num

/-- The step from a point with vanishing linear residuals. -/
theorem centred_step {c s z : ℝ} (hc : 0 < c) (hs : 0 < s) (hz : 0 < z) :
    let q := c * s * z / (s + c * z) ^ 2
    let κ := 1 + q - q ^ 3
    affZ c 0 s z ≠ 0 ∧ affS c 0 s z ≠ 0 ∧
    dirZ c 0 s z = -(s * z / (s + c * z) * κ) ∧ dirS c 0 s z = -(c * (s * z / (s + c * z) * κ)) ∧
    0 < q ∧ q ≤ 1 / 4 ∧ dirZ c 0 s z ≠ 0 ∧ dirS c 0 s z ≠ 0 ∧
    dirStep c 0 s z = min (999 / 1000 * min ((s + c * z) / (s * κ)) ((s + c * z) / (c * z * κ))) 1 ∧
    999 / 1000 ≤ dirStep c 0 s z := by
  intro q κ
  have hk : 0 < s + c * z := by positivity
  set k := s + c * z with hkd
  have hq0 : 0 < q := by positivity
  have hq4 : q ≤ 1 / 4 := by
    rw [div_le_iff₀ (by positivity)]; nlinarith [sq_nonneg (s - c * z)]
  have hκ : 1 ≤ κ := by
    have : q ^ 3 ≤ q := by nlinarith [mul_pos hq0 hq0]
    simp only [κ]; linarith
  have eaz : affZ c 0 s z = -(s * z / k) := by
    unfold affZ; rw [← hkd]; field_simp; ring
  have eas : affS c 0 s z = -(c * (s * z / k)) := by
    unfold affS; rw [eaz]; ring
  have naz : affZ c 0 s z < 0 := by rw [eaz]; have : 0 < s * z / k := by positivity
                                    linarith
  have nas : affS c 0 s z < 0 := by rw [eas]; have : 0 < c * (s * z / k) := by positivity
                                    linarith
  have est : affStep c 0 s z = 1 := by
    unfold affStep reach
    rw [if_neg (not_lt.2 naz.le), if_neg (not_lt.2 nas.le), eaz, eas]
    apply min_eq_right
    apply le_min
    · rw [neg_div_neg_eq, le_div_iff₀ (by positivity), one_mul, div_le_iff₀ hk, hkd]
      nlinarith [mul_pos hc (mul_pos hz hz)]
    · rw [neg_div_neg_eq, le_div_iff₀ (by positivity), one_mul, ← mul_div_assoc, div_le_iff₀ hk, hkd]
      nlinarith [mul_pos hs hs]
  have esig : affSig c 0 s z = q ^ 3 := by
    unfold affSig
    rw [est, eaz, eas]
    congr 1
    simp only [q]
    rw [div_eq_div_iff (by positivity) (by positivity)]
    field_simp
    rw [hkd]; ring
  have edz : dirZ c 0 s z = -(s * z / k * κ) := by
    unfold dirZ
    rw [esig, eas, eaz, ← hkd]
    have e : c * (s * z / k) * (s * z / k) = s * z * q := by
      simp only [q, ← hkd]; field_simp
    rw [neg_mul_neg, e]
    simp only [κ]
    field_simp
    ring
  have eds : dirS c 0 s z = -(c * (s * z / k * κ)) := by
    unfold dirS; rw [edz]; ring
  have pk : 0 < s * z / k * κ := by positivity
  have ndz : dirZ c 0 s z < 0 := by rw [edz]; linarith
  have nds : dirS c 0 s z < 0 := by rw [eds]; have := mul_pos hc pk; linarith
  have edir : dirStep c 0 s z = min (999 / 1000 * min (k / (s * κ)) (k / (c * z * κ))) 1 := by
    unfold dirStep reach
    rw [if_neg (not_lt.2 ndz.le), if_neg (not_lt.2 nds.le), edz, eds]
    congr 3
    · field_simp
    · field_simp
  refine ⟨naz.ne, nas.ne, edz, eds, hq0, hq4, ndz.ne, nds.ne, edir, ?_⟩
  rw [edir]
  have key : ∀ a b : ℝ, 0 < a → 0 < b → a + b = k → a * b = q * k ^ 2 → 1 ≤ k / (a * κ) := by
    intro a b ha hb hab hq
    rw [le_div_iff₀ (by positivity), one_mul]
    have h1 : a * κ ≤ a * (1 + q) := by
      have : 0 < q ^ 3 := by positivity
      apply mul_le_mul_of_nonneg_left _ ha.le
      simp only [κ]; linarith
    have h2 : a * q ≤ b := by
      have e : a * q * k ^ 2 ≤ b * k ^ 2 := by
        rw [mul_assoc, ← hq, ← hab]
        nlinarith [mul_pos ha hb, mul_pos hb hb, mul_pos ha ha]
      exact le_of_mul_le_mul_right e (by positivity)
    linarith
  have eq1 : c * s * z = q * k ^ 2 := by simp only [q, ← hkd]; field_simp
  apply le_min _ (by norm_num)
  have := key s (c * z) hs (by positivity) rfl (by linarith)
  have := key (c * z) s (by positivity) hs (by rw [hkd]; ring) (by linarith)
  have hm : 1 ≤ min (k / (s * κ)) (k / (c * z * κ)) := le_min (by assumption) this
  linarith

/-- From there the product of slack and multiplier falls at least by the factor 3/20. -/
theorem centred_contracts {c s z : ℝ} (hc : 0 < c) (hs : 0 < s) (hz : 0 < z) :
    (s + dirStep c 0 s z * dirS c 0 s z) * (z + dirStep c 0 s z * dirZ c 0 s z) ≤ 3 / 20 * (s * z) := by
  obtain ⟨-, -, edz, eds, hq0, hq4, h1, h2, -, hlo⟩ := centred_step hc hs hz
  have hhi := (dirStep_range hs hz h1 h2).2
  have hk : 0 < s + c * z := by positivity
  rw [edz, eds]
  set t := dirStep c 0 s z
  set q := c * s * z / (s + c * z) ^ 2 with hq
  set κ := 1 + q - q ^ 3 with hκ
  have e : (s + t * -(c * (s * z / (s + c * z) * κ))) * (z + t * -(s * z / (s + c * z) * κ)) =
      s * z * (1 - t * κ + (t * κ) ^ 2 * q) := by
    rw [hq]
    field_simp
    ring
  rw [e, mul_comm (3 / 20 : ℝ)]
  apply mul_le_mul_of_nonneg_left _ (by positivity)
  have k1 : 1 + 15 / 16 * q ≤ κ := by
    have : q ^ 3 ≤ 1 / 16 * q := by nlinarith [mul_pos hq0 hq0]
    rw [hκ]; linarith
  have k2 : κ ≤ 5 / 4 := by
    have : 0 < q ^ 3 := by positivity
    rw [hκ]; linarith
  have y1 : 999 / 1000 * (1 + 15 / 16 * q) ≤ t * κ := mul_le_mul hlo k1 (by positivity) (by linarith)
  have y2 : t * κ ≤ 5 / 4 := by nlinarith
  set y := t * κ
  set y0 := 999 / 1000 * (1 + 15 / 16 * q) with hy0
  have h3 : (y - y0) * ((y + y0) * q - 1) ≤ 0 := by
    apply mul_nonpos_of_nonneg_of_nonpos (by linarith)
    nlinarith
  have h4 : 1 - y0 + y0 ^ 2 * q ≤ 3 / 20 := by
    rw [hy0]; nlinarith [mul_pos hq0 hq0, mul_pos (mul_pos hq0 hq0) hq0]
  nlinarith

end LcpPhysics
