import Verif.Lemmas.Masked
import Verif.Lemmas.Kkt
import Mathlib.Tactic.Linarith
import Mathlib.Tactic.FieldSimp
import Mathlib.Tactic.Positivity

/-! # Lemmas on the interior point iteration -/

noncomputable section

namespace LcpPhysics
open Matrix

variable {nz nineq neq B n : ℕ}

theorem rowMin_le [NeZero n] (v : Fin n → ℝ) (i : Fin n) : rowMin v ≤ v i :=
  Finset.inf'_le _ (Finset.mem_univ i)

theorem exists_rowMin [NeZero n] (v : Fin n → ℝ) : ∃ i, rowMin v = v i := by
  obtain ⟨i, -, h⟩ := Finset.exists_mem_eq_inf' ⟨0, Finset.mem_univ (0 : Fin n)⟩ v
  exact ⟨i, h⟩

theorem lt_rowMin [NeZero n] (v : Fin n → ℝ) (c : ℝ) (h : ∀ i, c < v i) : c < rowMin v := by
  obtain ⟨i, hi⟩ := exists_rowMin v
  rw [hi]; exact h i

theorem le_rowMin [NeZero n] (v : Fin n → ℝ) (c : ℝ) (h : ∀ i, c ≤ v i) : c ≤ rowMin v := by
  obtain ⟨i, hi⟩ := exists_rowMin v
  rw [hi]; exact h i

theorem shiftPos_pos [NeZero n] (v : Fin n → ℝ) (i : Fin n) :
    0 < shiftPos v i ∧ (rowMin v ≤ 0 → 1 ≤ shiftPos v i) := by
  unfold shiftPos
  by_cases h : rowMin v ≤ 0
  · rw [if_pos h]
    have := rowMin_le v i
    exact ⟨by linarith, fun _ => by linarith⟩
  · rw [if_neg h]
    have := rowMin_le v i
    exact ⟨by linarith, fun h' => absurd h' h⟩

/-- What a successful `get_step` computes, row by row. -/
theorem get_step_spec [NeZero B] [NeZero n] {v dv : Fin B → Fin n → ℝ} {st : Fin B → ℝ}
    (h : get_step v dv = some st) :
    (∀ b i, dv b i ≠ 0) ∧ ∃ c : ℝ, 1 ≤ c ∧ ((∃ b i, c = -v b i / dv b i) ∨ c = 1) ∧
      (∀ b i, -v b i / dv b i ≤ c) ∧
      ∀ b, st b = rowMin fun i => if dv b i > 0 then c else -v b i / dv b i := by
  unfold get_step at h
  by_cases hz : ∃ b i, dv b i = 0
  · rw [if_pos hz] at h; cases h
  · rw [if_neg hz] at h
    push Not at hz
    cases h
    refine ⟨hz, _, le_max_left _ _, ?_, ?_, fun b => rfl⟩
    · rcases max_choice (1 : ℝ) ((Finset.univ : Finset (Fin B × Fin n)).sup' ⟨(0, 0), Finset.mem_univ _⟩
        fun k => -v k.1 k.2 / dv k.1 k.2) with hm | hm
      · exact Or.inr hm
      · obtain ⟨k, -, hk⟩ := Finset.exists_mem_eq_sup' ⟨(0, 0), Finset.mem_univ ((0, 0) : Fin B × Fin n)⟩
          fun k => -v k.1 k.2 / dv k.1 k.2
        exact Or.inl ⟨k.1, k.2, hm.trans hk⟩
    · intro b i
      refine le_trans ?_ (le_max_right _ _)
      exact Finset.le_sup' (fun k : Fin B × Fin n => -v k.1 k.2 / dv k.1 k.2) (Finset.mem_univ (b, i))

theorem get_step_pos [NeZero B] [NeZero n] {v dv : Fin B → Fin n → ℝ} {st : Fin B → ℝ}
    (h : get_step v dv = some st) (hv : ∀ b i, 0 < v b i) (b : Fin B) :
    0 < st b ∧ (∀ t : ℝ, 0 ≤ t → t ≤ st b → ∀ i, 0 ≤ v b i + t * dv b i) ∧
    (∀ t c : ℝ, 0 ≤ t → t ≤ c * st b → 0 ≤ c → ∀ i, (1 - c) * v b i ≤ v b i + t * dv b i) := by
  obtain ⟨hz, c, hc, -, -, hst⟩ := get_step_spec h
  have hpos : 0 < st b := by
    rw [hst]
    apply lt_rowMin
    intro i
    by_cases hd : dv b i > 0
    · rw [if_pos hd]; linarith
    · rw [if_neg hd]
      have hneg : dv b i < 0 := lt_of_le_of_ne (not_lt.1 hd) (hz b i)
      exact div_pos_of_neg_of_neg (by linarith [hv b i]) hneg
  have key : ∀ t c : ℝ, 0 ≤ t → t ≤ c * st b → 0 ≤ c → ∀ i, (1 - c) * v b i ≤ v b i + t * dv b i := by
    intro t k ht htk hk i
    by_cases hd : dv b i > 0
    · have h1 : 0 ≤ t * dv b i := mul_nonneg ht hd.le
      have h2 : 0 ≤ k * v b i := mul_nonneg hk (hv b i).le
      linarith
    · have hneg : dv b i < 0 := lt_of_le_of_ne (not_lt.1 hd) (hz b i)
      have hle : st b ≤ -v b i / dv b i := by
        have := rowMin_le (fun i => if dv b i > 0 then c else -v b i / dv b i) i
        rw [hst]
        simpa [hd] using this
      have h1 : st b * (-dv b i) ≤ v b i := by
        have := mul_le_mul_of_nonneg_right hle (by linarith : 0 ≤ -dv b i)
        have hne := hz b i
        have e : -v b i / dv b i * -dv b i = v b i := by field_simp
        linarith
      have h2 : t * (-dv b i) ≤ k * st b * (-dv b i) := mul_le_mul_of_nonneg_right htk (by linarith)
      have h3 : k * (st b * (-dv b i)) ≤ k * v b i := mul_le_mul_of_nonneg_left h1 hk
      linarith
  refine ⟨hpos, fun t ht hts i => ?_, key⟩
  have := key t 1 ht (by linarith) zero_le_one i
  linarith

/-- `a + t d`, component by component. -/
def Iter.move (a : Iter nz nineq neq) (t : ℝ) (d : Iter nz nineq neq) : Iter nz nineq neq :=
  { x := a.x + t • d.x, s := a.s + t • d.s, z := a.z + t • d.z, y := a.y + t • d.y }

/-- The residuals of the linear equations change linearly along a Newton direction. -/
theorem residuals_move (P : Lcp nz nineq neq) (v w : Iter nz nineq neq) (d : Fin nineq → ℝ) (rs : Fin nineq → ℝ)
    (h : Spec.NewtonStep P.Q P.G P.A P.F d (P.rx v) rs (P.rz v) (P.ry v) w.x w.s w.z w.y) (t : ℝ) :
    P.rx (v.move t w) = (1 - t) • P.rx v ∧ P.rz (v.move t w) = (1 - t) • P.rz v ∧
      P.ry (v.move t w) = (1 - t) • P.ry v := by
  have h1 := h.dual
  have h2 := h.ineq
  have h3 := h.eq
  rw [Matrix.mulVec_transpose, Matrix.mulVec_transpose] at h1
  refine ⟨?_, ?_, ?_⟩
  · have e : P.rx (v.move t w) = P.rx v + t • (P.Q *ᵥ w.x + w.z ᵥ* P.G + w.y ᵥ* P.A) := by
      simp only [Lcp.rx, Iter.move, Matrix.vecMul_transpose, Matrix.mulVec_add, Matrix.add_vecMul, Matrix.mulVec_smul,
        Matrix.smul_vecMul]
      simp only [smul_add]
      abel
    rw [e, h1]
    funext i; simp; ring
  · have e : P.rz (v.move t w) = P.rz v + t • (P.G *ᵥ w.x + w.s - P.F *ᵥ w.z) := by
      simp only [Lcp.rz, Iter.move, Matrix.vecMul_transpose, Matrix.mulVec_add, Matrix.mulVec_smul]
      simp only [smul_add, smul_sub]
      abel
    rw [e, h2]
    funext i; simp; ring
  · have e : P.ry (v.move t w) = P.ry v + t • (P.A *ᵥ w.x) := by
      simp only [Lcp.ry, Iter.move, Matrix.vecMul_transpose, Matrix.mulVec_add, Matrix.mulVec_smul]
      abel
    rw [e, h3]
    funext i; simp; ring

/-- Adding a correction that leaves the linear equations alone. -/
theorem newton_add {Q : Matrix (Fin nz) (Fin nz) ℝ} {G : Matrix (Fin nineq) (Fin nz) ℝ}
    {A : Matrix (Fin neq) (Fin nz) ℝ} {F : Matrix (Fin nineq) (Fin nineq) ℝ} {d : Fin nineq → ℝ}
    {rx rx' : Fin nz → ℝ} {rs rz rs' rz' : Fin nineq → ℝ} {ry ry' : Fin neq → ℝ} {a c : Iter nz nineq neq}
    (h : Spec.NewtonStep Q G A F d rx rs rz ry a.x a.s a.z a.y)
    (h' : Spec.NewtonStep Q G A F d rx' rs' rz' ry' c.x c.s c.z c.y) :
    Spec.NewtonStep Q G A F d (rx + rx') (rs + rs') (rz + rz') (ry + ry') (a.x + c.x) (a.s + c.s) (a.z + c.z)
      (a.y + c.y) := by
  refine ⟨?_, fun i => ?_, ?_, ?_⟩
  · have e : Q *ᵥ (a.x + c.x) + Gᵀ *ᵥ (a.z + c.z) + Aᵀ *ᵥ (a.y + c.y) =
        (Q *ᵥ a.x + Gᵀ *ᵥ a.z + Aᵀ *ᵥ a.y) + (Q *ᵥ c.x + Gᵀ *ᵥ c.z + Aᵀ *ᵥ c.y) := by
      simp only [Matrix.mulVec_add]; abel
    rw [e, h.dual, h'.dual]; abel
  · have h1 := h.compl i
    have h2 := h'.compl i
    simp only [Pi.add_apply]
    linarith
  · have e : G *ᵥ (a.x + c.x) + (a.s + c.s) - F *ᵥ (a.z + c.z) =
        (G *ᵥ a.x + a.s - F *ᵥ a.z) + (G *ᵥ c.x + c.s - F *ᵥ c.z) := by
      simp only [Matrix.mulVec_add]; abel
    rw [e, h.ineq, h'.ineq]; abel
  · rw [Matrix.mulVec_add, h.eq, h'.eq]; abel

/-- What a successful step is: directions, step lengths and the new iterate. -/
theorem pdStep_spec [NeZero B] [NeZero nineq] {P : Fin B → Lcp nz nineq neq} {Q_LU : Fin B → PackedLU nz}
    {S_LU : Fin B → PackedLU (neq + nineq)} {it it' : Fin B → Iter nz nineq neq}
    (h : pdStep P Q_LU S_LU it = some it') :
    ∃ (rs : Fin B → Fin nineq → ℝ) (stz sts : Fin B → ℝ),
      let d : Fin B → Fin nineq → ℝ := fun b i => (it b).z i / (it b).s i
      let aff : Fin B → Iter nz nineq neq := fun b => solve_kkt (Q_LU b) (d b) (P b).G (P b).A (S_LU b)
        ((P b).rx (it b)) (it b).z ((P b).rz (it b)) ((P b).ry (it b))
      let cor : Fin B → Iter nz nineq neq := fun b =>
        solve_kkt (Q_LU b) (d b) (P b).G (P b).A (S_LU b) 0 (rs b) 0 0
      let dx : Fin B → Iter nz nineq neq := fun b =>
        { x := (aff b).x + (cor b).x, s := (aff b).s + (cor b).s, z := (aff b).z + (cor b).z
          y := (aff b).y + (cor b).y }
      get_step (fun b => (it b).z) (fun b => (dx b).z) = some stz ∧
      get_step (fun b => (it b).s) (fun b => (dx b).s) = some sts ∧
      ∀ b, it' b = (it b).move (min (999 / 1000 * min (stz b) (sts b)) 1) (dx b) := by
  unfold pdStep at h
  simp only at h
  split at h
  · split at h
    · rename_i stz sts hz hs
      cases h
      exact ⟨_, stz, sts, hz, hs, fun b => rfl⟩
    · cases h
  · cases h

theorem batchM_some {α : Type} {g : Fin B → Option α} {r : Fin B → α} (h : batchM g = some r) (b : Fin B) :
    g b = some (r b) := by
  unfold batchM at h
  split_ifs at h with hs
  cases h
  simp

theorem batchM_none {α : Type} {g : Fin B → Option α} : batchM g = none ↔ ∃ b, g b = none := by
  unfold batchM
  split_ifs with hs
  · constructor
    · intro h; cases h
    · rintro ⟨b, hb⟩
      have := hs b
      rw [hb] at this; cases this
  · simp only [true_iff]
    push Not at hs
    obtain ⟨b, hb⟩ := hs
    exact ⟨b, by simpa using hb⟩

end LcpPhysics
