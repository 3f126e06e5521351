import Verif.Spec.Converge
import Verif.Lemmas.Plane
import Mathlib.Analysis.Calculus.MeanValue

/-! # The error of one coordinate of free flight -/

noncomputable section

namespace LcpPhysics
open Spec

/-- A function whose derivative stays within `C` of `c` changes by `c` times the time, to within `C` times the time. -/
theorem change_within {T : ℝ} {x u : ℝ → ℝ} (hx : ∀ t ∈ Set.Icc 0 T, HasDerivWithinAt x (u t) (Set.Icc 0 T) t) {s t c C : ℝ}
    (hs : 0 ≤ s) (hst : s ≤ t) (ht : t ≤ T) (hc : ∀ r ∈ Set.Icc s t, |u r - c| ≤ C) :
    |x t - x s - (t - s) * c| ≤ C * (t - s) := by
  have hsub : Set.Icc s t ⊆ Set.Icc 0 T := Set.Icc_subset_Icc hs ht
  have hd : ∀ r ∈ Set.Icc s t, HasDerivWithinAt (fun r => x r - c * r) (u r - c) (Set.Icc s t) r := by
    intro r hr
    have h1 := (hx r (hsub hr)).mono hsub
    have h2 := ((hasDerivAt_id r).const_mul c).hasDerivWithinAt (s := Set.Icc s t)
    refine (h1.sub h2).congr_deriv ?_
    simp
  have := Convex.norm_image_sub_le_of_norm_hasDerivWithin_le (f := fun r => x r - c * r) hd
    (fun r hr => by rw [Real.norm_eq_abs]; exact hc r hr) (convex_Icc s t) (Set.left_mem_Icc.2 hst) (Set.right_mem_Icc.2 hst)
  rw [Real.norm_eq_abs, Real.norm_eq_abs, abs_of_nonneg (sub_nonneg.2 hst)] at this
  rwa [show x t - c * t - (x s - c * s) = x t - x s - (t - s) * c by ring] at this

/-- Speed and place after `n` steps, against those of the motion with the acceleration `a`. -/
theorem euler_error {T A L h : ℝ} {x u a : ℝ → ℝ} (hx : ∀ t ∈ Set.Icc 0 T, HasDerivWithinAt x (u t) (Set.Icc 0 T) t)
    (hu : ∀ t ∈ Set.Icc 0 T, HasDerivWithinAt u (a t) (Set.Icc 0 T) t) (hA : ∀ t ∈ Set.Icc 0 T, |a t| ≤ A)
    (hL : ∀ s ∈ Set.Icc 0 T, ∀ t ∈ Set.Icc 0 T, |a s - a t| ≤ L * |s - t|) (hL0 : 0 ≤ L) (hh : 0 ≤ h) (v y : ℕ → ℝ)
    (hv0 : v 0 = u 0) (hy0 : y 0 = x 0) (hv : ∀ n, v (n + 1) = v n + h * a (n * h)) (hy : ∀ n, y (n + 1) = y n + h * v (n + 1))
    (n : ℕ) (hn : n * h ≤ T) : |v n - u (n * h)| ≤ L * (n * h) * h ∧ |y n - x (n * h)| ≤ n * h * (A + L * (n * h)) * h := by
  induction n with
  | zero => simp [hv0, hy0]
  | succ n ih =>
    have e : ((n + 1 : ℕ) : ℝ) * h = n * h + h := by push_cast; ring
    rw [e] at hn ⊢
    obtain ⟨i1, i2⟩ := ih (by linarith)
    have hn0 : 0 ≤ (n : ℝ) * h := by positivity
    set s := (n : ℝ) * h with hs
    have hT : ∀ r ∈ Set.Icc s (s + h), r ∈ Set.Icc 0 T := fun r hr => ⟨hn0.trans hr.1, hr.2.trans hn⟩
    have k1 := change_within hu hn0 (by linarith : s ≤ s + h) hn (c := a s) (C := L * h) (fun r hr => by
      refine (hL r (hT r hr) s (hT s ⟨le_rfl, by linarith⟩)).trans (mul_le_mul_of_nonneg_left ?_ hL0)
      rw [abs_of_nonneg (by linarith [hr.1])]; linarith [hr.2])
    rw [show s + h - s = h by ring] at k1
    have k2 : ∀ r ∈ Set.Icc s (s + h), |u r - u (s + h)| ≤ A * h := by
      intro r hr
      have q := change_within hu (hn0.trans hr.1) hr.2 hn (c := 0) (C := A) (fun q hq => by
        rw [sub_zero]; exact hA q (hT q ⟨hr.1.trans hq.1, hq.2⟩))
      rw [mul_zero, sub_zero, abs_sub_comm] at q
      have hA0 : 0 ≤ A := (abs_nonneg _).trans (hA s (hT s ⟨le_rfl, by linarith⟩))
      exact q.trans (mul_le_mul_of_nonneg_left (by linarith [hr.1]) hA0)
    have j1 : |v (n + 1) - u (s + h)| ≤ L * (s + h) * h := by
      rw [hv, ← hs]
      have : v n + h * a s - u (s + h) = (v n - u s) - (u (s + h) - u s - h * a s) := by ring
      rw [this]
      refine (abs_sub _ _).trans ?_
      nlinarith
    refine ⟨j1, ?_⟩
    have k3 := change_within hx hn0 (by linarith : s ≤ s + h) hn (c := v (n + 1)) (C := A * h + L * (s + h) * h) (fun r hr => by
      have : u r - v (n + 1) = (u r - u (s + h)) - (v (n + 1) - u (s + h)) := by ring
      rw [this]
      refine (abs_sub _ _).trans ?_
      linarith [k2 r hr])
    rw [show s + h - s = h by ring] at k3
    rw [hy]
    have : y n + h * v (n + 1) - x (s + h) = (y n - x s) - (x (s + h) - x s - h * v (n + 1)) := by ring
    rw [this]
    refine (abs_sub _ _).trans ?_
    have p1 : s * (A + L * s) * h ≤ s * (A + L * (s + h)) * h := by
      apply mul_le_mul_of_nonneg_right _ hh
      apply mul_le_mul_of_nonneg_left _ hn0
      nlinarith
    calc _ ≤ s * (A + L * s) * h + (A * h + L * (s + h) * h) * h := add_le_add i2 k3
      _ ≤ s * (A + L * (s + h)) * h + (A * h + L * (s + h) * h) * h := by linarith
      _ = _ := by ring

/-- Two points move apart or together by at most the sum of the errors of their coordinates. -/
theorem apart_within {d : ℝ} {a b a' b' : V3} (h1 : Within d a a') (h2 : Within d b b') :
    len (a'.xy - b'.xy) - 4 * d ≤ len (a.xy - b.xy) := by
  have hsum : ∀ p : V2, len p ≤ |p.1| + |p.2| := by
    intro p
    unfold len
    rw [Real.sqrt_le_left (by positivity), ← sq_abs p.1, ← sq_abs p.2]
    nlinarith [abs_nonneg p.1, abs_nonneg p.2]
  have e : a'.xy - b'.xy = (a.xy - b.xy) + ((a'.xy - a.xy) - (b'.xy - b.xy)) := by abel
  have := len_add_le (a.xy - b.xy) ((a'.xy - a.xy) - (b'.xy - b.xy))
  rw [← e] at this
  have q := hsum ((a'.xy - a.xy) - (b'.xy - b.xy))
  obtain ⟨-, x1, y1⟩ := h1
  obtain ⟨-, x2, y2⟩ := h2
  have e1 : |((a'.xy - a.xy) - (b'.xy - b.xy)).1| ≤ 2 * d := by
    show |(a'.x - a.x) - (b'.x - b.x)| ≤ _
    rw [abs_le] at *
    constructor <;> linarith [x1.1, x1.2, x2.1, x2.2]
  have e2 : |((a'.xy - a.xy) - (b'.xy - b.xy)).2| ≤ 2 * d := by
    show |(a'.y - a.y) - (b'.y - b.y)| ≤ _
    rw [abs_le] at *
    constructor <;> linarith [y1.1, y1.2, y2.1, y2.2]
  linarith

end LcpPhysics
