import Verif.Model.RoundedRecorder
import Verif.Props.Clock

/-!
# C136: the recorder in double precision
-/

noncomputable section

namespace LcpPhysics.Clock
open Spec

section
variable {rnd : ℝ → ℝ}

theorem filmed_dt (rdt : ℝ) (t : ℕ → ℝ) (n : ℕ) : (filmed rnd rdt t n).dt = rdt := by
  induction n with
  | zero => rfl
  | succ n ih =>
    unfold filmed recordR
    split_ifs <;> exact ih

/-- C136: without rounding this is the recorder of C58. -/
theorem C136_exact (r : Recorder) (t : ℝ) : recordR id r t = r.record t := rfl

/-- C136: frames are numbered consecutively from zero, one at most for each step. -/
theorem C136_numbers (rdt : ℝ) (t : ℕ → ℝ) (n : ℕ) :
    (filmed rnd rdt t n).files = List.range (filmed rnd rdt t n).frame ∧ (filmed rnd rdt t n).frame ≤ n := by
  induction n with
  | zero => exact ⟨rfl, le_rfl⟩
  | succ n ih =>
    unfold filmed recordR
    split_ifs with h
    · exact ⟨by rw [List.range_succ, ih.1], by have := ih.2; show _ + 1 ≤ _; omega⟩
    · exact ⟨ih.1, by have := ih.2; omega⟩

variable (hr : Nearest rnd) {dt : ℝ}
include hr

/-- Two steps of the clock are longer than the step length. -/
theorem two_steps (hd : Rep dt) (h0 : 0 < dt) (n : ℕ) (hn : n + 1 ≤ 2 ^ 51) :
    dt ≤ clockAt rnd dt (n + 2) - clockAt rnd dt n := by
  have e1 := add_error hr (clock_rep hr n (dt := dt)) hd
  have e2 := add_error hr (clock_rep hr (n + 1) (dt := dt)) hd
  have p0 : 0 ≤ clockAt rnd dt n := clock_mono hr h0.le (Nat.zero_le n)
  have p1 : clockAt rnd dt n ≤ clockAt rnd dt (n + 1) := clock_step_le hr h0.le n
  rw [abs_of_nonneg (by linarith : 0 ≤ clockAt rnd dt n + dt)] at e1
  rw [abs_of_nonneg (by linarith : 0 ≤ clockAt rnd dt (n + 1) + dt)] at e2
  have d1 : clockAt rnd dt (n + 1) = rnd (clockAt rnd dt n + dt) := rfl
  have d2 : clockAt rnd dt (n + 2) = rnd (clockAt rnd dt (n + 1) + dt) := rfl
  rw [← d1] at e1
  rw [← d2] at e2
  have l1 := (abs_le.1 e1).1
  have l2 := (abs_le.1 e2).1
  have hb := (abs_le.1 (C119_error hr hd h0 (n + 1) (by omega))).2
  have hN : ((n + 1 : ℕ) : ℝ) ≤ 2 ^ 51 := by exact_mod_cast hn
  have hN0 : (0 : ℝ) ≤ ((n + 1 : ℕ) : ℝ) := Nat.cast_nonneg _
  generalize ((n + 1 : ℕ) : ℝ) = N at *
  have hq : N ^ 2 / 2 ^ 53 * dt ≤ 2 ^ 49 * dt := by
    refine mul_le_mul_of_nonneg_right ?_ h0.le
    rw [div_le_iff₀ (by positivity)]
    calc N ^ 2 ≤ (2 ^ 51) ^ 2 := pow_le_pow_left₀ hN0 hN 2
      _ = 2 ^ 49 * 2 ^ 53 := by norm_num
  have hm : N * dt ≤ 2 ^ 51 * dt := mul_le_mul_of_nonneg_right hN h0.le
  generalize clockAt rnd dt (n + 1) = b at *
  generalize clockAt rnd dt (n + 2) = c at *
  generalize clockAt rnd dt n = a at *
  norm_num at *
  linarith

omit hr in
open Classical in
/-- Frames after `n` steps, if a step of the clock looks short once. -/
def framesAfter (rnd : ℝ → ℝ) (dt : ℝ) (n : ℕ) : ℕ :=
  if ∃ i < n, rnd (clockAt rnd dt (i + 1) - clockAt rnd dt i) < dt then n - 1 else n

theorem frames_same (hd : Rep dt) (h0 : 0 < dt) (n : ℕ) (hn : n ≤ 2 ^ 51) :
    (filmed rnd dt (clockAt rnd dt) n).frame = framesAfter rnd dt n ∧
    (filmed rnd dt (clockAt rnd dt) n).prev_t = clockAt rnd dt (framesAfter rnd dt n) := by
  induction n with
  | zero => simp [filmed, mkRecorder, framesAfter, clockAt]
  | succ n ih =>
    obtain ⟨i1, i2⟩ := ih (by omega)
    have hdt := filmed_dt (rnd := rnd) dt (clockAt rnd dt) n
    by_cases hs : ∃ i < n, rnd (clockAt rnd dt (i + 1) - clockAt rnd dt i) < dt
    · have hf : framesAfter rnd dt n = n - 1 := by unfold framesAfter; rw [if_pos hs]
      have hf' : framesAfter rnd dt (n + 1) = n := by
        unfold framesAfter
        rw [if_pos (by obtain ⟨i, hi, h⟩ := hs; exact ⟨i, by omega, h⟩)]
        rfl
      obtain ⟨m, rfl⟩ : ∃ m, n = m + 1 := by
        obtain ⟨i, hi, -⟩ := hs
        exact ⟨n - 1, by omega⟩
      rw [hf] at i1 i2
      simp only [Nat.add_sub_cancel] at i1 i2
      have hge : rnd (clockAt rnd dt (m + 1 + 1) - clockAt rnd dt m) ≥ dt := by
        have := nearest_mono hr (two_steps hr hd h0 m (by omega))
        rwa [nearest_id hr hd] at this
      rw [hf']
      unfold filmed recordR
      rw [i2, hdt, if_pos hge]
      exact ⟨by simp [i1], rfl⟩
    · have hf : framesAfter rnd dt n = n := by unfold framesAfter; rw [if_neg hs]
      rw [hf] at i1 i2
      by_cases hc : rnd (clockAt rnd dt (n + 1) - clockAt rnd dt n) ≥ dt
      · have hf' : framesAfter rnd dt (n + 1) = n + 1 := by
          unfold framesAfter
          rw [if_neg]
          rintro ⟨i, hi, h⟩
          rcases Nat.lt_succ_iff_lt_or_eq.1 hi with hi | rfl
          · exact hs ⟨i, hi, h⟩
          · linarith
        rw [hf']
        unfold filmed recordR
        rw [i2, hdt, if_pos hc]
        exact ⟨by simp [i1], rfl⟩
      · have hf' : framesAfter rnd dt (n + 1) = n := by
          unfold framesAfter
          rw [if_pos ⟨n, by omega, not_le.1 hc⟩]
          rfl
        rw [hf']
        unfold filmed recordR
        rw [i2, hdt, if_neg hc]
        exact ⟨i1, i2⟩

/-- C136: a recorder with the step length of the world writes a frame at every step as long as the computed difference of two times
does not fall short of the step length.  At the first step where it does it writes none; from then on it again writes one at every step,
and stays one frame behind. -/
theorem C136_same (hd : Rep dt) (h0 : 0 < dt) (n : ℕ) (hn : n ≤ 2 ^ 51) :
    ((∀ i < n, dt ≤ rnd (clockAt rnd dt (i + 1) - clockAt rnd dt i)) → (filmed rnd dt (clockAt rnd dt) n).frame = n) ∧
    ((∃ i < n, rnd (clockAt rnd dt (i + 1) - clockAt rnd dt i) < dt) → (filmed rnd dt (clockAt rnd dt) n).frame = n - 1) := by
  rw [(frames_same hr hd h0 n hn).1]
  unfold framesAfter
  constructor
  · intro h
    rw [if_neg]
    rintro ⟨i, hi, hc⟩
    exact absurd (h i hi) (not_le.2 hc)
  · intro h
    rw [if_pos h]

/-- C136: with the default step length, the double next to 1/30 (utils.py:27-28), a frame is lost among the first four; afterwards there
is one frame fewer than steps. -/
theorem C136_thirtieth (n : ℕ) (h4 : 4 ≤ n) (hn : n ≤ 2 ^ 51) :
    (filmed rnd (4803839602528529 / 2 ^ 57) (clockAt rnd (4803839602528529 / 2 ^ 57)) n).frame = n - 1 := by
  have rep (x : ℝ) (k : ℤ) (e : ℕ) (h : x = (k : ℝ) / 2 ^ e) (h1 : |k| < 2 ^ 53) (h2 : e ≤ 1074) : Rep x :=
    ⟨k, -e, by rw [h, zpow_neg, zpow_natCast, div_eq_mul_inv], h1, by omega⟩
  have hd : Rep ((4803839602528529 : ℝ) / 2 ^ 57) := rep _ 4803839602528529 57 (by norm_num) (by norm_num) (by norm_num)
  rw [(frames_same hr hd (by positivity) n hn).1]
  unfold framesAfter
  rw [if_pos]
  have c1 : clockAt rnd (4803839602528529 / 2 ^ 57) 1 = 4803839602528529 / 2 ^ 57 := by
    simp only [clockAt, tick, zero_add]
    exact nearest_id hr hd
  have c2 : clockAt rnd (4803839602528529 / 2 ^ 57) 2 = 4803839602528529 / 2 ^ 56 := by
    show rnd (clockAt rnd (4803839602528529 / 2 ^ 57) 1 + _) = _
    rw [c1, show (4803839602528529 / 2 ^ 57 + 4803839602528529 / 2 ^ 57 : ℝ) = 4803839602528529 / 2 ^ 56 by norm_num]
    exact nearest_id hr (rep _ 4803839602528529 56 (by norm_num) (by norm_num) (by norm_num))
  have hshort : Rep ((4803839602528528 : ℝ) / 2 ^ 57) := rep _ 4803839602528528 57 (by norm_num) (by norm_num) (by norm_num)
  have r3a : Rep ((7205759403792793 : ℝ) / 2 ^ 56) := rep _ 7205759403792793 56 (by norm_num) (by norm_num) (by norm_num)
  have r4 : Rep ((4803839602528529 : ℝ) / 2 ^ 55) := rep _ 4803839602528529 55 (by norm_num) (by norm_num) (by norm_num)
  have c3 : clockAt rnd (4803839602528529 / 2 ^ 57) 3 = 7205759403792793 / 2 ^ 56 ∨
      clockAt rnd (4803839602528529 / 2 ^ 57) 3 = 7205759403792794 / 2 ^ 56 := by
    show rnd (clockAt rnd (4803839602528529 / 2 ^ 57) 2 + _) = _ ∨ rnd (clockAt rnd (4803839602528529 / 2 ^ 57) 2 + _) = _
    rw [c2]
    obtain ⟨hy, hn⟩ := hr (4803839602528529 / 2 ^ 56 + 4803839602528529 / 2 ^ 57)
    have hc := hn _ r3a
    generalize rnd (4803839602528529 / 2 ^ 56 + 4803839602528529 / 2 ^ 57) = y at *
    rw [show (7205759403792793 / 2 ^ 56 - (4803839602528529 / 2 ^ 56 + 4803839602528529 / 2 ^ 57) : ℝ) = -(1 / 2 ^ 57) by norm_num,
      abs_neg, abs_of_pos (show (0 : ℝ) < 1 / 2 ^ 57 by positivity)] at hc
    obtain ⟨l, u⟩ := abs_le.1 hc
    obtain ⟨k, hk⟩ := rep_multiple hy (-56) (by
      rw [abs_of_nonneg (by norm_num at l ⊢; linarith)]
      norm_num at l ⊢
      linarith)
    rw [hk] at l u ⊢
    norm_num at l u ⊢
    have h1 : (7205759403792793 : ℝ) ≤ k := by linarith
    have h2 : (k : ℝ) ≤ 7205759403792794 := by linarith
    have h3 : (7205759403792793 : ℤ) ≤ k := by exact_mod_cast h1
    have h4 : k ≤ (7205759403792794 : ℤ) := by exact_mod_cast h2
    rcases (by omega : k = 7205759403792793 ∨ k = 7205759403792794) with rfl | rfl
    · left; norm_num
    · right; norm_num
  rcases c3 with c3 | c3
  · refine ⟨2, by omega, ?_⟩
    rw [c3, c2, show (7205759403792793 / 2 ^ 56 - 4803839602528529 / 2 ^ 56 : ℝ) = 4803839602528528 / 2 ^ 57 by norm_num,
      nearest_id hr hshort]
    norm_num
  · refine ⟨3, by omega, ?_⟩
    have c4 : clockAt rnd (4803839602528529 / 2 ^ 57) 4 = 4803839602528529 / 2 ^ 55 := by
      show rnd (clockAt rnd (4803839602528529 / 2 ^ 57) 3 + _) = _
      rw [c3]
      obtain ⟨hy, hn⟩ := hr (7205759403792794 / 2 ^ 56 + 4803839602528529 / 2 ^ 57)
      have hc := hn _ r4
      generalize rnd (7205759403792794 / 2 ^ 56 + 4803839602528529 / 2 ^ 57) = y at *
      rw [show (4803839602528529 / 2 ^ 55 - (7205759403792794 / 2 ^ 56 + 4803839602528529 / 2 ^ 57) : ℝ) = -(1 / 2 ^ 57) by norm_num,
        abs_neg, abs_of_pos (show (0 : ℝ) < 1 / 2 ^ 57 by positivity)] at hc
      obtain ⟨l, u⟩ := abs_le.1 hc
      obtain ⟨k, hk⟩ := rep_multiple hy (-55) (by
        rw [abs_of_nonneg (by norm_num at l ⊢; linarith)]
        norm_num at l ⊢
        linarith)
      rw [hk] at l u ⊢
      norm_num at l u ⊢
      have h1 : (4803839602528528 : ℝ) < k := by linarith
      have h2 : (k : ℝ) < 4803839602528530 := by linarith
      have h3 : (4803839602528528 : ℤ) < k := by exact_mod_cast h1
      have h4 : k < (4803839602528530 : ℤ) := by exact_mod_cast h2
      rw [(by omega : k = 4803839602528529)]
      norm_num
    rw [c4, c3, show (4803839602528529 / 2 ^ 55 - 7205759403792794 / 2 ^ 56 : ℝ) = 4803839602528528 / 2 ^ 57 by norm_num,
      nearest_id hr hshort]
    norm_num

/-- C136: no frame is lost as long as the multiples of the step length are double precision numbers. -/
theorem C136_lossless (n : ℕ) (h0 : 0 < dt) (hn : n ≤ 2 ^ 51) (hm : ∀ k ≤ n + 1, Rep (k * dt)) :
    (filmed rnd dt (clockAt rnd dt) n).frame = n := by
  have hd : Rep dt := by simpa using hm 1 (by omega)
  have hc : ∀ k ≤ n, clockAt rnd dt k = k * dt := by
    intro k
    induction k with
    | zero => intro _; simp [clockAt]
    | succ k ih =>
      intro hk
      show rnd (clockAt rnd dt k + dt) = _
      rw [ih (by omega), show (k : ℝ) * dt + dt = (k + 1 : ℕ) * dt by push_cast; ring]
      exact nearest_id hr (hm _ (by omega))
  rw [(frames_same hr hd h0 n hn).1]
  unfold framesAfter
  rw [if_neg]
  rintro ⟨i, hi, h⟩
  rw [hc (i + 1) (by omega), hc i (by omega), show ((i + 1 : ℕ) : ℝ) * dt - i * dt = dt by push_cast; ring, nearest_id hr hd] at h
  exact lt_irrefl _ h

theorem clockOf_rep (d : ℕ → ℝ) (n : ℕ) : Rep (clockOf rnd d n) := by
  cases n with
  | zero => exact rep_zero
  | succ n => exact (hr _).1

theorem clockOf_mono (d : ℕ → ℝ) (h0 : ∀ i, 0 ≤ d i) : Monotone (clockOf rnd d) := by
  refine monotone_nat_of_le_succ fun n => ?_
  have := nearest_mono hr (show clockOf rnd d n ≤ clockOf rnd d n + d n by linarith [h0 n])
  rwa [nearest_id hr (clockOf_rep hr d n)] at this

theorem filmed_rep (rdt : ℝ) (t : ℕ → ℝ) (n : ℕ) : Rep (filmed rnd rdt t n).prev_t := by
  induction n with
  | zero => exact rep_zero
  | succ n ih =>
    unfold filmed recordR
    split_ifs
    · exact (hr _).1
    · exact ih

/-- What a call does to the difference between the clock and the recorder's time. -/
theorem lag_step {rdt T a p d : ℝ} (hrd : Rep rdt) (h0 : 0 < rdt) (ha : Rep a) (hp : Rep p) (hd : Rep d) (ha0 : 0 ≤ a) (hp0 : 0 ≤ p)
    (hd0 : 0 ≤ d) (hdr : d ≤ rdt) (hT : rnd (a + d) ≤ T) (hrec : rdt ≤ rnd (rnd (a + d) - p)) :
    rnd (a + d) - rnd (p + rdt) ≤ a - p + 4 * T / 2 ^ 53 ∧ rnd (p + rdt) ≤ rnd (a + d) + 4 * T / 2 ^ 53 ∧
    |rnd (p + rdt) - (p + rdt)| ≤ 2 * T / 2 ^ 53 := by
  have e1 := add_error hr ha hd
  have e2 := add_error hr hp hrd
  have e3 := add_error hr (hr (a + d)).1 (rep_neg hp)
  rw [← sub_eq_add_neg] at e3
  have hpos : 0 < rnd (a + d) - p := by
    by_contra hc
    push Not at hc
    have := nearest_mono hr hc
    rw [nearest_zero hr] at this
    linarith
  rw [abs_of_nonneg (by linarith : 0 ≤ a + d)] at e1
  rw [abs_of_nonneg (by linarith : 0 ≤ p + rdt)] at e2
  rw [abs_of_pos hpos] at e3
  generalize rnd (rnd (a + d) - p) = q at *
  generalize rnd (a + d) = b at *
  generalize rnd (p + rdt) = p' at *
  obtain ⟨l1, u1⟩ := abs_le.1 e1
  obtain ⟨l2, u2⟩ := abs_le.1 e2
  obtain ⟨l3, u3⟩ := abs_le.1 e3
  norm_num at *
  refine ⟨by linarith, by linarith, abs_le.2 ⟨by linarith, by linarith⟩⟩

/-- C136: with steps of any lengths, shortened or not, but not longer than the interval of the recorder, the number of frames is right up
to one and to rounding: after `n` steps `F` frames stand for times between `t - rdt` and `t`, up to `6 n T 2^-53`, where `T` bounds the
times. -/
theorem C136_lag {rdt T : ℝ} (hrd : Rep rdt) (h0 : 0 < rdt) (d : ℕ → ℝ) (hd : ∀ i, Rep (d i)) (hd0 : ∀ i, 0 ≤ d i)
    (hdr : ∀ i, d i ≤ rdt) (n : ℕ) (hT : clockOf rnd d n ≤ T) :
    (filmed rnd rdt (clockOf rnd d) n).frame * rdt - 6 * n * T / 2 ^ 53 ≤ clockOf rnd d n ∧
    clockOf rnd d n ≤ ((filmed rnd rdt (clockOf rnd d) n).frame + 1) * rdt + 6 * n * T / 2 ^ 53 := by
  have hT0 : 0 ≤ T := le_trans (clockOf_mono hr d hd0 (Nat.zero_le n)) hT
  have key : ∀ k ≤ n, 0 ≤ (filmed rnd rdt (clockOf rnd d) k).prev_t ∧
      (filmed rnd rdt (clockOf rnd d) k).prev_t ≤ clockOf rnd d k + (4 * T / 2 ^ 53) * k ∧
      clockOf rnd d k - (filmed rnd rdt (clockOf rnd d) k).prev_t ≤ rdt + (4 * T / 2 ^ 53) * k ∧
      |(filmed rnd rdt (clockOf rnd d) k).prev_t - (filmed rnd rdt (clockOf rnd d) k).frame * rdt| ≤ (2 * T / 2 ^ 53) * k := by
    intro k
    induction k with
    | zero => intro _; simp [filmed, mkRecorder, clockOf, h0.le]
    | succ k ih =>
      intro hk
      obtain ⟨i0, i1, i2, i3⟩ := ih (by omega)
      have hdt := filmed_dt (rnd := rnd) rdt (clockOf rnd d) k
      have hp := filmed_rep hr rdt (clockOf rnd d) k
      have hmono := clockOf_mono hr d hd0 (Nat.le_succ k)
      have hTk := (clockOf_mono hr d hd0 hk).trans hT
      have ha0 := clockOf_mono hr d hd0 (Nat.zero_le k)
      have c1 : 0 ≤ 4 * T / 2 ^ 53 := by positivity
      have c2 : 0 ≤ 2 * T / 2 ^ 53 := by positivity
      unfold filmed recordR
      rw [hdt]
      split_ifs with hrec
      · obtain ⟨s1, s2, s3⟩ := lag_step hr hrd h0 (clockOf_rep hr d k) hp (hd k) ha0 i0 (hd0 k) (hdr k) hTk hrec
        have s4 : 0 ≤ rnd ((filmed rnd rdt (clockOf rnd d) k).prev_t + rdt) := by
          have := nearest_mono hr (show 0 ≤ (filmed rnd rdt (clockOf rnd d) k).prev_t + rdt by linarith)
          rwa [nearest_zero hr] at this
        have hck : clockOf rnd d (k + 1) = rnd (clockOf rnd d k + d k) := rfl
        have hk0 : (0 : ℝ) ≤ k := Nat.cast_nonneg k
        have m1 := mul_nonneg c1 hk0
        rw [← hck] at s1 s2
        refine ⟨s4, ?_, ?_, ?_⟩
        · push_cast
          show rnd _ ≤ _
          rw [mul_add, mul_one]
          linarith
        · push_cast
          show _ - rnd _ ≤ _
          rw [mul_add, mul_one]
          linarith
        · push_cast
          show |rnd _ - _| ≤ _
          have := abs_add_le (rnd ((filmed rnd rdt (clockOf rnd d) k).prev_t + rdt) - ((filmed rnd rdt (clockOf rnd d) k).prev_t + rdt))
            ((filmed rnd rdt (clockOf rnd d) k).prev_t - (filmed rnd rdt (clockOf rnd d) k).frame * rdt)
          rw [mul_add, mul_one]
          refine le_trans (le_of_eq ?_) (this.trans (by linarith))
          congr 1
          ring
      · have hlt : clockOf rnd d (k + 1) - (filmed rnd rdt (clockOf rnd d) k).prev_t < rdt := by
          by_contra hc
          push Not at hc
          have := nearest_mono hr hc
          rw [nearest_id hr hrd] at this
          exact hrec this
        have hk0 : (0 : ℝ) ≤ (k + 1 : ℕ) := Nat.cast_nonneg _
        have m1 := mul_nonneg c1 hk0
        refine ⟨i0, ?_, by linarith, ?_⟩
        · push_cast
          rw [mul_add, mul_one]
          linarith
        · push_cast
          rw [mul_add, mul_one]
          linarith
  obtain ⟨-, k1, k2, k3⟩ := key n le_rfl
  obtain ⟨l, u⟩ := abs_le.1 k3
  have e : 6 * n * T / 2 ^ 53 = (4 * T / 2 ^ 53) * n + (2 * T / 2 ^ 53) * n := by ring
  rw [e]
  constructor <;> linarith

end

/-- A hundred steps of 1/64 second, a hundred frames. -/
example : (filmed rne (1 / 2 ^ 6) (clockAt rne (1 / 2 ^ 6)) 100).frame = 100 := by
  refine C136_lossless rne_nearest 100 (by positivity) (by norm_num) fun k hk => ?_
  have := rep_nat k (by omega) (-6) (by norm_num)
  rwa [show (2 : ℝ) ^ (-6 : ℤ) = 1 / 2 ^ 6 by norm_num] at this

/-- Three hundred steps of a thirtieth of a second, ten seconds: 299 frames. -/
example : (filmed rne (4803839602528529 / 2 ^ 57) (clockAt rne (4803839602528529 / 2 ^ 57)) 300).frame = 299 :=
  C136_thirtieth rne_nearest 300 (by norm_num) (by norm_num)

/-- Without rounding there would be 300. -/
example : (filmed id (4803839602528529 / 2 ^ 57) (clockAt id (4803839602528529 / 2 ^ 57)) 300).frame = 300 := by
  have hc : ∀ k, clockAt id (4803839602528529 / 2 ^ 57) k = k * (4803839602528529 / 2 ^ 57) := by
    intro k
    induction k with
    | zero => simp [clockAt]
    | succ k ih =>
      show clockAt id (4803839602528529 / 2 ^ 57) k + 4803839602528529 / 2 ^ 57 = _
      rw [ih]
      push_cast
      ring
  have key : ∀ n, (filmed id (4803839602528529 / 2 ^ 57) (clockAt id (4803839602528529 / 2 ^ 57)) n).frame = n ∧
      (filmed id (4803839602528529 / 2 ^ 57) (clockAt id (4803839602528529 / 2 ^ 57)) n).prev_t = n * (4803839602528529 / 2 ^ 57) := by
    intro n
    induction n with
    | zero => simp [filmed, mkRecorder]
    | succ n ih =>
      have hdt := filmed_dt (rnd := id) (4803839602528529 / 2 ^ 57) (clockAt id (4803839602528529 / 2 ^ 57)) n
      unfold filmed recordR
      rw [hdt, ih.2, hc, if_pos (by simp only [id]; push_cast; linarith)]
      refine ⟨by simp [ih.1], ?_⟩
      simp only [id]
      push_cast
      ring
  exact (key 300).1

/-- Steps of an eighth and a quarter of a second by turns, filmed every half second, five hundred of them: the bound is far below
a frame. -/
example : ∃ F : ℕ, F = (filmed rne (1 / 2) (clockOf rne fun i => if i % 2 = 0 then 1 / 8 else 1 / 4) 500).frame ∧
    clockOf rne (fun i => if i % 2 = 0 then 1 / 8 else 1 / 4) 500 ≤ ((F : ℝ) + 1) * (1 / 2) +
      6 * (500 : ℕ) * clockOf rne (fun i => if i % 2 = 0 then 1 / 8 else 1 / 4) 500 / 2 ^ 53 := by
  refine ⟨_, rfl, (C136_lag rne_nearest ?_ (by norm_num) (fun i => if i % 2 = 0 then 1 / 8 else 1 / 4) ?_ ?_ ?_ 500 le_rfl).2⟩
  · exact ⟨1, -1, by norm_num, by norm_num, by norm_num⟩
  · intro i
    split_ifs
    · exact ⟨1, -3, by norm_num, by norm_num, by norm_num⟩
    · exact ⟨1, -2, by norm_num, by norm_num, by norm_num⟩
  · intro i; split_ifs <;> norm_num
  · intro i; split_ifs <;> norm_num

end LcpPhysics.Clock
