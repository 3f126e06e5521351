import Verif.Model.RoundedClockwise
import Verif.Props.RoundedHullInertia

/-! # C142: the test for the order of the vertices in double precision -/

noncomputable section

namespace LcpPhysics
open Spec Rounded

variable {A : Arith}

/-- The error of a term. -/
theorem clockTerm_error (h : DoubleArith A) {v w : V2} {R : ℝ} (hR : 1 ≤ R) (hv : |v.1| ≤ R ∧ |v.2| ≤ R) (hw : |w.1| ≤ R ∧ |w.2| ≤ R) :
    |fclockTerm A v w - (w.1 - v.1) * (w.2 + v.2)| ≤ 13 / 2 ^ 53 * R ^ 2 ∧ |(w.1 - v.1) * (w.2 + v.2)| ≤ 4 * R ^ 2 := by
  have e1 := any_error h.nearest (w.1 - v.1)
  have e2 := any_error h.nearest (w.2 + v.2)
  have e3 := any_error h.nearest (A.rnd (w.1 - v.1) * A.rnd (w.2 + v.2))
  have hη : (1 : ℝ) / 2 ^ 1074 ≤ 1 / 2 ^ 73 := one_div_le_one_div_of_le (by positivity) (pow_le_pow_right₀ (by norm_num) (by norm_num))
  have η0 : (0 : ℝ) ≤ 1 / 2 ^ 1074 := by positivity
  have x2 : |w.1 - v.1| ≤ 2 * R := by have := abs_sub w.1 v.1; linarith [hv.1, hw.1]
  have y2 : |w.2 + v.2| ≤ 2 * R := by have := abs_add_le w.2 v.2; linarith [hv.2, hw.2]
  unfold fclockTerm
  generalize (1 : ℝ) / 2 ^ 1074 = η at *
  generalize w.1 - v.1 = x at *
  generalize w.2 + v.2 = y at *
  generalize A.rnd x = p at *
  generalize A.rnd y = q at *
  generalize A.rnd (p * q) = r at *
  have xy : |x * y| ≤ 4 * R ^ 2 := by
    rw [abs_mul]
    calc |x| * |y| ≤ 2 * R * (2 * R) := mul_le_mul x2 y2 (abs_nonneg _) (by linarith)
      _ = _ := by ring
  refine ⟨?_, xy⟩
  have hRR : R ≤ R ^ 2 := by nlinarith
  have p1 : |p - x| ≤ 201 / 100 / 2 ^ 53 * R := by norm_num at *; linarith
  have q1 : |q - y| ≤ 201 / 100 / 2 ^ 53 * R := by norm_num at *; linarith
  have q2 : |q| ≤ 201 / 100 * R := by
    have := abs_add_le (q - y) y
    rw [sub_add_cancel] at this
    norm_num at *
    linarith
  have d : |p * q - x * y| ≤ 81 / 10 / 2 ^ 53 * R ^ 2 := by
    have e : p * q - x * y = (p - x) * q + x * (q - y) := by ring
    rw [e]
    refine (abs_add_le _ _).trans ?_
    rw [abs_mul, abs_mul]
    have a := mul_le_mul p1 q2 (abs_nonneg _) (by positivity)
    have b := mul_le_mul x2 q1 (abs_nonneg _) (by positivity)
    refine (add_le_add a b).trans ?_
    have : (0 : ℝ) ≤ R ^ 2 := by positivity
    norm_num
    nlinarith
  have pq : |p * q| ≤ 41 / 10 * R ^ 2 := by
    have := abs_add_le (p * q - x * y) (x * y)
    rw [sub_add_cancel] at this
    norm_num at *
    linarith
  have t := abs_add_le (r - p * q) (p * q - x * y)
  rw [sub_add_sub_cancel] at t
  norm_num at *
  linarith

/-- The error after `k` edges. -/
theorem clockTotal_error (h : DoubleArith A) {verts : List V2} {R : ℝ} (hR : 1 ≤ R) (hv : ∀ v ∈ verts, |v.1| ≤ R ∧ |v.2| ≤ R) (k : ℕ) :
    k ≤ 1000000 → |fclockTotal A verts k - ∑ i ∈ Finset.range k, ((vget verts ((i + 1) % verts.length)).1 - (vget verts i).1) *
      ((vget verts ((i + 1) % verts.length)).2 + (vget verts i).2)| ≤ (2 * k ^ 2 + 17 * k) / 2 ^ 53 * R ^ 2 ∧
    |∑ i ∈ Finset.range k, ((vget verts ((i + 1) % verts.length)).1 - (vget verts i).1) *
      ((vget verts ((i + 1) % verts.length)).2 + (vget verts i).2)| ≤ 4 * k * R ^ 2 := by
  induction k with
  | zero => intro _; simp [fclockTotal]
  | succ k ih =>
    intro hk
    obtain ⟨i1, i2⟩ := ih (by omega)
    have a := vget_small (by linarith : 0 ≤ R) hv k
    have b := vget_small (by linarith : 0 ≤ R) hv ((k + 1) % verts.length)
    obtain ⟨t1, t2⟩ := clockTerm_error h hR a b
    have st : fclockTotal A verts (k + 1) = A.rnd (fclockTotal A verts k + fclockTerm A (vget verts k) (vget verts ((k + 1) % verts.length))) := by
      unfold fclockTotal
      rw [List.range_succ, List.foldl_append]
      rfl
    rw [st, Finset.sum_range_succ]
    have e := any_error h.nearest (fclockTotal A verts k + fclockTerm A (vget verts k) (vget verts ((k + 1) % verts.length)))
    have hη : (1 : ℝ) / 2 ^ 1074 ≤ 1 / 2 ^ 73 := one_div_le_one_div_of_le (by positivity) (pow_le_pow_right₀ (by norm_num) (by norm_num))
    have hRR : 1 ≤ R ^ 2 := by nlinarith
    generalize (1 : ℝ) / 2 ^ 1074 = η at *
    generalize fclockTerm A (vget verts k) (vget verts ((k + 1) % verts.length)) = f at *
    generalize ((vget verts ((k + 1) % verts.length)).1 - (vget verts k).1) * ((vget verts ((k + 1) % verts.length)).2 + (vget verts k).2) = t at *
    generalize fclockTotal A verts k = s at *
    generalize ∑ i ∈ Finset.range k, ((vget verts ((i + 1) % verts.length)).1 - (vget verts i).1) *
      ((vget verts ((i + 1) % verts.length)).2 + (vget verts i).2) = T at *
    generalize A.rnd (s + f) = r at *
    generalize R ^ 2 = S at *
    have kr : (k : ℝ) ≤ 1000000 := by exact_mod_cast (by omega)
    have k0 : (0 : ℝ) ≤ k := k.cast_nonneg
    push_cast
    generalize (k : ℝ) = K at *
    have m : (2 * K ^ 2 + 17 * K) / 2 ^ 53 * S ≤ 1 / 2 * S := by
      refine mul_le_mul_of_nonneg_right ?_ (by linarith)
      rw [div_le_iff₀ (by norm_num)]
      nlinarith
    have ex : (2 * (K + 1) ^ 2 + 17 * (K + 1)) / 2 ^ 53 * S = (2 * K ^ 2 + 17 * K) / 2 ^ 53 * S + (4 * (K * S) + 19 * S) / 2 ^ 53 := by ring
    rw [ex]
    have ex2 : 4 * (K + 1) * S = 4 * K * S + 4 * S := by ring
    rw [ex2]
    refine ⟨?_, (abs_add_le _ _).trans (by linarith)⟩
    have ex3 : 4 * K * S = 4 * (K * S) := by ring
    rw [ex3] at i2
    generalize (2 * K ^ 2 + 17 * K) / 2 ^ 53 * S = E at *
    generalize K * S = KS at *
    have sf : |s + f| ≤ |s - T| + |f - t| + |T| + |t| := by
      have := abs_add_le (s - T + (f - t)) (T + t)
      rw [show s - T + (f - t) + (T + t) = s + f by ring] at this
      linarith [abs_add_le (s - T) (f - t), abs_add_le T t]
    have fin : |r - (T + t)| ≤ |r - (s + f)| + |s - T| + |f - t| := by
      have := abs_add_le (r - (s + f)) (s - T + (f - t))
      rw [show r - (s + f) + (s - T + (f - t)) = r - (T + t) by ring] at this
      linarith [abs_add_le (s - T) (f - t)]
    norm_num at *
    linarith

/-- C142: if the true total is not too near to zero the computed test gives the right answer. -/
theorem C142_right (h : DoubleArith A) {verts : List V2} {R : ℝ} (hR : 1 ≤ R) (hv : ∀ v ∈ verts, |v.1| ≤ R ∧ |v.2| ≤ R)
    (hn : verts.length ≤ 1000000) (hfar : (2 * verts.length ^ 2 + 17 * verts.length) / 2 ^ 53 * R ^ 2 < |clockwiseTotal verts|) :
    fis_clockwise A verts ↔ is_clockwise verts := by
  have e := (clockTotal_error h hR hv verts.length hn).1
  change |fclockTotal A verts verts.length - clockwiseTotal verts| ≤ _ at e
  unfold fis_clockwise is_clockwise
  obtain ⟨e1, e2⟩ := abs_le.1 e
  generalize (2 * (verts.length : ℝ) ^ 2 + 17 * verts.length) / 2 ^ 53 * R ^ 2 = E at *
  rcases lt_abs.1 hfar with c | c
  · constructor <;> intro <;> linarith
  · constructor <;> intro <;> linarith

theorem round_twice {rnd : ℝ → ℝ} (hr : Nearest rnd) (x : ℝ) : |rnd x| ≤ 2 * |x| := by
  have h := (hr x).2 0 rep_zero
  rw [zero_sub, abs_neg] at h
  have := abs_add_le (rnd x - x) x
  rw [sub_add_cancel] at this
  linarith

/-- C142: no hull with coordinates of at most `2^-540` passes: all its products are rounded to zero. -/
theorem C142_tiny (h : DoubleArith A) (verts : List V2) (hv : ∀ v ∈ verts, |v.1| ≤ 1 / 2 ^ 540 ∧ |v.2| ≤ 1 / 2 ^ 540) :
    ¬fis_clockwise A verts := by
  have term (i j : ℕ) : fclockTerm A (vget verts i) (vget verts j) = 0 := by
    have a := vget_small (by positivity) hv i
    have b := vget_small (by positivity) hv j
    have e : (1 : ℝ) / 2 ^ 538 = 4 * (1 / 2 ^ 540) := by
      rw [show (540 : ℕ) = 538 + 2 by norm_num, pow_add (2 : ℝ) 538 2]
      generalize (2 : ℝ) ^ 538 = c
      rw [show (2 : ℝ) ^ 2 = 4 by norm_num, mul_one_div, div_mul_eq_div_div_swap, div_self (by norm_num)]
    refine product_under h ?_ ?_
    · rw [e]
      refine (round_twice h.nearest _).trans ?_
      generalize (1 : ℝ) / 2 ^ 540 = c at *
      have := abs_sub (vget verts j).1 (vget verts i).1
      linarith [a.1, b.1]
    · rw [e]
      refine (round_twice h.nearest _).trans ?_
      generalize (1 : ℝ) / 2 ^ 540 = c at *
      have := abs_add_le (vget verts j).2 (vget verts i).2
      linarith [a.2, b.2]
  have tot : ∀ k, fclockTotal A verts k = 0 := by
    intro k
    induction k with
    | zero => rfl
    | succ k ih =>
      have st : fclockTotal A verts (k + 1) = A.rnd (fclockTotal A verts k + fclockTerm A (vget verts k) (vget verts ((k + 1) % verts.length))) := by
        unfold fclockTotal
        rw [List.range_succ, List.foldl_append]
        rfl
      rw [st, ih, term, add_zero, nearest_zero h.nearest]
  unfold fis_clockwise
  rw [tot]
  exact lt_irrefl 0

/-- The square with the half side `c`, in the order the program asks for. -/
def squareOf (c : ℝ) : List V2 := [(c, c), (-c, c), (-c, -c), (c, -c)]

theorem squareOf_total (c : ℝ) : clockwiseTotal (squareOf c) = -(8 * c ^ 2) := by
  simp only [clockwiseTotal, squareOf, List.length_cons, List.length_nil, Finset.sum_range_succ, Finset.sum_range_zero]
  norm_num [vget]
  ring

theorem squareOf_small {c : ℝ} (hc : 0 ≤ c) : ∀ v ∈ squareOf c, |v.1| ≤ c ∧ |v.2| ≤ c := by
  intro v hv
  simp only [squareOf, List.mem_cons, List.not_mem_nil, or_false] at hv
  have := abs_of_nonneg hc
  rcases hv with rfl | rfl | rfl | rfl <;> simp [this]

/-- C142: so a square may be in the right order and be refused. -/
theorem C142_refused (h : DoubleArith A) : is_clockwise (squareOf (1 / 2 ^ 540)) ∧ ¬fis_clockwise A (squareOf (1 / 2 ^ 540)) := by
  have p : (0 : ℝ) < 1 / 2 ^ 540 := by positivity
  refine ⟨?_, C142_tiny h _ (squareOf_small p.le)⟩
  unfold is_clockwise
  rw [squareOf_total]
  generalize (1 : ℝ) / 2 ^ 540 = c at *
  have : 0 < c ^ 2 := by positivity
  linarith

/-- C142: without rounding this is the test of the model. -/
theorem C142_exact (verts : List V2) : fis_clockwise .exact verts ↔ is_clockwise verts := by
  have tot : ∀ k, fclockTotal .exact verts k = ∑ i ∈ Finset.range k, ((vget verts ((i + 1) % verts.length)).1 - (vget verts i).1) *
      ((vget verts ((i + 1) % verts.length)).2 + (vget verts i).2) := by
    intro k
    induction k with
    | zero => simp [fclockTotal]
    | succ k ih =>
      rw [Finset.sum_range_succ, ← ih]
      unfold fclockTotal
      rw [List.range_succ, List.foldl_append]
      rfl
  unfold fis_clockwise is_clockwise
  rw [tot]
  rfl

/-- Squares with sides from 2 up to any size are accepted. -/
example (c : ℝ) (hc : 1 ≤ c) : fis_clockwise (doubleOf rne) (squareOf c) := by
  refine (C142_right (rounded_arith rne_nearest) hc (squareOf_small (by linarith)) (by simp [squareOf]) ?_).2 ?_
  · rw [squareOf_total, abs_neg, abs_of_pos (by positivity)]
    have : 0 < c ^ 2 := by positivity
    simp only [squareOf, List.length_cons, List.length_nil]
    norm_num
    linarith
  · unfold is_clockwise
    rw [squareOf_total]
    have : 0 < c ^ 2 := by positivity
    linarith

end LcpPhysics
