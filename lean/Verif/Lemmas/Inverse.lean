import Verif.Lemmas.Engine
import Mathlib.LinearAlgebra.Matrix.ToLinearEquiv

/-! # Lemmas about `torch.inverse` and the system matrix -/

noncomputable section

namespace LcpPhysics
open Spec

variable {σ φ : Type}

theorem mv_toMatrix (N : ℕ) (P : Mat) (x : Vec) (r : Fin N) :
    mv P N x r = (toMatrix N P).mulVec (fun i : Fin N => x i) r := by
  unfold mv Matrix.mulVec dotProduct toMatrix
  rw [Finset.sum_range]
  rfl

theorem ofMatrix_toMatrix {N : ℕ} (A : Matrix (Fin N) (Fin N) ℝ) : toMatrix N (ofMatrix A) = A := by
  ext i j
  simp [toMatrix, ofMatrix]

theorem torchInverse_ok {N : ℕ} {P inv : Mat} (h : torchInverse N P = .ok inv) :
    (toMatrix N P).det ≠ 0 ∧ inv = ofMatrix (toMatrix N P)⁻¹ := by
  unfold torchInverse at h
  split_ifs at h with hd
  injection h with h
  exact ⟨hd, h.symm⟩

/-- The inverse solves the system. -/
theorem torchInverse_solves {N : ℕ} {P inv : Mat} (h : torchInverse N P = .ok inv) (u : Vec) (r : ℕ)
    (hr : r < N) : mv P N (mv inv N u) r = u r := by
  obtain ⟨hd, rfl⟩ := torchInverse_ok h
  have hu : IsUnit (toMatrix N P).det := isUnit_iff_ne_zero.2 hd
  have h1 : (fun i : Fin N => mv (ofMatrix (toMatrix N P)⁻¹) N u i) =
      (toMatrix N P)⁻¹.mulVec fun i : Fin N => u i := by
    funext i
    rw [mv_toMatrix, ofMatrix_toMatrix]
  have := mv_toMatrix N P (mv (ofMatrix (toMatrix N P)⁻¹) N u) ⟨r, hr⟩
  rw [h1, Matrix.mulVec_mulVec, Matrix.mul_nonsing_inv _ hu, Matrix.one_mulVec] at this
  exact this

/-- and the solution is unique. -/
theorem torchInverse_unique {N : ℕ} {P inv : Mat} (h : torchInverse N P = .ok inv) (u x : Vec)
    (hx : ∀ r < N, mv P N x r = u r) (k : ℕ) (hk : k < N) : x k = mv inv N u k := by
  obtain ⟨hd, rfl⟩ := torchInverse_ok h
  have hu : IsUnit (toMatrix N P).det := isUnit_iff_ne_zero.2 hd
  have h2 := mv_toMatrix N (ofMatrix (toMatrix N P)⁻¹) u ⟨k, hk⟩
  have h1 : (fun i : Fin N => u i) = (toMatrix N P).mulVec fun i : Fin N => x i := by
    funext i
    rw [← mv_toMatrix, hx i i.2]
  rw [ofMatrix_toMatrix, h1, Matrix.mulVec_mulVec, Matrix.nonsing_inv_mul _ hu,
    Matrix.one_mulVec] at h2
  exact h2.symm

/-- A matrix with trivial kernel is inverted. -/
theorem torchInverse_of_kernel {N : ℕ} {P : Mat}
    (h : ∀ x : Vec, (∀ r < N, mv P N x r = 0) → ∀ k < N, x k = 0) :
    ∃ inv, torchInverse N P = .ok inv := by
  unfold torchInverse
  rw [if_neg]
  · exact ⟨_, rfl⟩
  · intro hd
    obtain ⟨v, hv, hz⟩ := Matrix.exists_mulVec_eq_zero_iff.2 hd
    apply hv
    funext i
    have := h (fun k => if hk : k < N then v ⟨k, hk⟩ else 0) ?_ i i.2
    · simpa using this
    · intro r hr
      have e := mv_toMatrix N P (fun k => if hk : k < N then v ⟨k, hk⟩ else 0) ⟨r, hr⟩
      simp only [Fin.is_lt, dite_true, Fin.eta, hz, Pi.zero_apply] at e
      exact e

/-- Rows of the system matrix. -/
theorem systemMatrix_mv (M Je : Mat) (n q : ℕ) (x : Vec) :
    (∀ k < n, mv (systemMatrix M Je n) (n + q) x k = mv M n x k - tmv Je q (fun r => x (n + r)) k) ∧
    (∀ r < q, mv (systemMatrix M Je n) (n + q) x (n + r) = mv Je n x r) := by
  constructor
  · intro k hk
    unfold mv tmv
    rw [Finset.sum_range_add, sub_eq_add_neg, ← Finset.sum_neg_distrib]
    congr 1
    · refine Finset.sum_congr rfl fun j hj => ?_
      unfold systemMatrix
      rw [if_pos hk, if_pos (Finset.mem_range.1 hj)]
    · refine Finset.sum_congr rfl fun j hj => ?_
      unfold systemMatrix
      rw [if_pos hk, if_neg (by omega), Nat.add_sub_cancel_left]; ring
  · intro r hr
    unfold mv
    rw [Finset.sum_range_add, Finset.sum_eq_zero (s := Finset.range q), add_zero]
    · refine Finset.sum_congr rfl fun j hj => ?_
      unfold systemMatrix
      rw [if_neg (by omega), if_pos (Finset.mem_range.1 hj), Nat.add_sub_cancel_left]
    · intro j hj
      unfold systemMatrix
      rw [if_neg (by omega), if_neg (by omega), zero_mul]

theorem forceCat_length {H : ForceHeap} {t : ℝ} : ∀ {n : ℕ} {fl : List V3},
    forceCat H t n = .ok fl → fl.length = n ∧
      ∀ i (h : i < n) (h' : i < fl.length), H.apply_forces i t = some fl[i] := by
  intro n
  induction n with
  | zero =>
    intro fl h
    unfold forceCat at h
    injection h with h
    subst h
    exact ⟨rfl, fun i h => absurd h (by omega)⟩
  | succ n ih =>
    intro fl h
    unfold forceCat at h
    cases h1 : forceCat H t n with
    | error e => rw [h1] at h; cases h
    | ok l =>
      rw [h1] at h
      cases h2 : H.apply_forces n t with
      | none => rw [h2] at h; cases h
      | some f =>
        rw [h2] at h
        injection h with h
        subst h
        obtain ⟨hl, hi⟩ := ih h1
        refine ⟨by simp [hl], fun i hlt h' => ?_⟩
        by_cases hin : i < n
        · rw [List.getElem_append_left (by omega)]
          exact hi i hin (by omega)
        · have : i = n := by omega
          subst this
          rw [List.getElem_append_right (by omega)]
          simp [h2, hl]

end LcpPhysics
