import Verif.Model.Clock
import Verif.Lemmas.Double
import Mathlib.Data.Nat.Log

/-!
# C119: the clock in double precision
-/

noncomputable section

namespace LcpPhysics.Clock
open Spec

section
variable {rnd : ℝ → ℝ} (hr : Nearest rnd) {dt : ℝ}
include hr

theorem clock_rep (n : ℕ) : Rep (clockAt rnd dt n) := by
  cases n with
  | zero => exact rep_zero
  | succ n => exact (hr _).1

theorem clock_step_le (hd : 0 ≤ dt) (n : ℕ) : clockAt rnd dt n ≤ clockAt rnd dt (n + 1) := by
  have := nearest_mono hr (show clockAt rnd dt n ≤ clockAt rnd dt n + dt by linarith)
  rwa [nearest_id hr (clock_rep hr n)] at this

theorem clock_mono (hd : 0 ≤ dt) {m n : ℕ} (h : m ≤ n) : clockAt rnd dt m ≤ clockAt rnd dt n :=
  monotone_nat_of_le_succ (clock_step_le hr hd) h

/-- C119: the clock is off by at most `n² 2^-53` steps after `n` steps, whatever the step length. -/
theorem C119_error (hd : Rep dt) (h0 : 0 < dt) : ∀ n : ℕ, n ≤ 2 ^ 53 →
    |clockAt rnd dt n - n * dt| ≤ n ^ 2 / 2 ^ 53 * dt := by
  intro n
  induction n with
  | zero => intro _; simp [clockAt]
  | succ n ih =>
    intro hn
    have hi := ih (by omega)
    have he := add_error hr (clock_rep hr n (dt := dt)) hd
    have ht0 : 0 ≤ clockAt rnd dt n := clock_mono hr h0.le (Nat.zero_le n)
    rw [abs_of_nonneg (by linarith : 0 ≤ clockAt rnd dt n + dt)] at he
    have hn' : (n : ℝ) ≤ 2 ^ 53 := by exact_mod_cast (by omega : n ≤ 2 ^ 53)
    have hn0 : (0 : ℝ) ≤ n := Nat.cast_nonneg n
    show |rnd (clockAt rnd dt n + dt) - (n + 1 : ℕ) * dt| ≤ _
    set t := clockAt rnd dt n
    have h1 := (abs_le.1 hi).2
    have tri : |rnd (t + dt) - (n + 1 : ℕ) * dt| ≤ |rnd (t + dt) - (t + dt)| + |t - n * dt| := by
      have := abs_add_le (rnd (t + dt) - (t + dt)) (t - n * dt)
      refine le_trans (le_of_eq ?_) this
      congr 1
      push_cast
      ring
    have key : 1 / 2 ^ 53 * (n * dt + n ^ 2 / 2 ^ 53 * dt + dt) + n ^ 2 / 2 ^ 53 * dt ≤ ((n + 1 : ℕ) : ℝ) ^ 2 / 2 ^ 53 * dt := by
      have e : ((n + 1 : ℕ) : ℝ) ^ 2 / 2 ^ 53 * dt - (1 / 2 ^ 53 * (n * dt + n ^ 2 / 2 ^ 53 * dt + dt) + n ^ 2 / 2 ^ 53 * dt) =
          1 / 2 ^ 53 * dt * (n * (1 - n / 2 ^ 53)) := by push_cast; ring
      have : 0 ≤ 1 / 2 ^ 53 * dt * (n * (1 - n / 2 ^ 53)) := by
        have : (n : ℝ) / 2 ^ 53 ≤ 1 := by rw [div_le_one (by positivity)]; exact hn'
        have : 0 ≤ 1 - (n : ℝ) / 2 ^ 53 := by linarith
        positivity
      linarith
    have mono : 1 / 2 ^ 53 * (t + dt) ≤ 1 / 2 ^ 53 * (n * dt + n ^ 2 / 2 ^ 53 * dt + dt) := by
      refine mul_le_mul_of_nonneg_left ?_ (by positivity)
      linarith
    linarith

omit hr in
/-- What the counting loop returns. -/
theorem loop_count (T : ℝ) : ∀ (n c N : ℕ), clockLoop rnd dt T n c (clockAt rnd dt c) = .done N →
    c ≤ N ∧ N ≤ c + n ∧ T ≤ clockAt rnd dt N ∧ ∀ m, c ≤ m → m < N → clockAt rnd dt m < T := by
  intro n
  induction n with
  | zero =>
    intro c N h
    unfold clockLoop at h
    split_ifs at h with ht
    injection h with h
    subst h
    exact ⟨le_rfl, le_rfl, not_lt.1 ht, fun m h1 h2 => by omega⟩
  | succ n ih =>
    intro c N h
    unfold clockLoop at h
    split_ifs at h with ht
    · obtain ⟨a1, a2, a3, a4⟩ := ih (c + 1) N h
      refine ⟨by omega, by omega, a3, fun m h1 h2 => ?_⟩
      rcases Nat.eq_or_lt_of_le h1 with rfl | h1
      · exact ht
      · exact a4 m h1 h2
    · injection h with h
      subst h
      exact ⟨le_rfl, by omega, not_lt.1 ht, fun m h1 h2 => by omega⟩

omit hr in
theorem loop_of_mono (hm : ∀ {m n : ℕ}, m ≤ n → clockAt rnd dt m ≤ clockAt rnd dt n) (T : ℝ) (N : ℕ) (h1 : T ≤ clockAt rnd dt N)
    (h2 : ∀ n, n + 1 = N → clockAt rnd dt n < T) (n : ℕ) (hn : N ≤ n) : clockLoop rnd dt T n 0 0 = .done N := by
  have lt : ∀ m < N, clockAt rnd dt m < T := by
    intro m hm'
    obtain ⟨N, rfl⟩ : ∃ M, N = M + 1 := ⟨N - 1, by omega⟩
    exact (hm (by omega)).trans_lt (h2 N rfl)
  have key : ∀ k c, c + k = N → ∀ n, k ≤ n → clockLoop rnd dt T n c (clockAt rnd dt c) = .done N := by
    intro k
    induction k with
    | zero =>
      intro c hc n _
      unfold clockLoop
      rw [if_neg (by rw [show c = N by omega]; exact not_lt.2 h1), show c = N by omega]
    | succ k ih =>
      intro c hc n hn
      obtain ⟨n, rfl⟩ : ∃ M, n = M + 1 := ⟨n - 1, by omega⟩
      unfold clockLoop
      rw [if_pos (lt c (by omega))]
      exact ih (c + 1) (by omega) n (by omega)
  exact key N 0 (by omega) n hn

theorem loop_of (hd : 0 ≤ dt) (T : ℝ) (N : ℕ) (h1 : T ≤ clockAt rnd dt N) (h2 : ∀ n, n + 1 = N → clockAt rnd dt n < T) (n : ℕ)
    (hn : N ≤ n) : clockLoop rnd dt T n 0 0 = .done N := loop_of_mono (clock_mono hr hd) T N h1 h2 n hn

/-- C119: so `run_world` makes the number of steps it should, up to one: between `T/dt - ε` and `T/dt + 1 + ε` where `ε = N²/2^53`. -/
theorem C119_steps (hd : Rep dt) (h0 : 0 < dt) (T : ℝ) (hT : 0 < T) (n N : ℕ) (hN : N ≤ 2 ^ 53)
    (h : clockLoop rnd dt T n 0 0 = .done N) :
    T / dt - (N : ℝ) ^ 2 / 2 ^ 53 ≤ N ∧ (N : ℝ) < T / dt + 1 + (N : ℝ) ^ 2 / 2 ^ 53 := by
  obtain ⟨-, -, h1, h2⟩ := loop_count T n 0 N h
  have hN0 : N ≠ 0 := by
    rintro rfl
    simp only [clockAt] at h1
    linarith
  obtain ⟨M, rfl⟩ := Nat.exists_eq_succ_of_ne_zero hN0
  have a1 := (abs_le.1 (C119_error hr hd h0 (M + 1) hN)).2
  have a2 := (abs_le.1 (C119_error hr hd h0 M (by omega))).1
  have a3 := h2 M (by omega) (by omega)
  have hM : (M : ℝ) ^ 2 ≤ ((M + 1 : ℕ) : ℝ) ^ 2 := by
    have : (0 : ℝ) ≤ M := Nat.cast_nonneg M
    push_cast
    nlinarith
  constructor
  · rw [sub_le_iff_le_add, div_le_iff₀ h0, add_mul]
    simp only [Nat.succ_eq_add_one] at *
    linarith
  · have : (M : ℝ) * dt - ((M + 1 : ℕ) : ℝ) ^ 2 / 2 ^ 53 * dt < T := by
      have : (M : ℝ) ^ 2 / 2 ^ 53 * dt ≤ ((M + 1 : ℕ) : ℝ) ^ 2 / 2 ^ 53 * dt := by gcongr
      linarith
    have h3 : (M : ℝ) - ((M + 1 : ℕ) : ℝ) ^ 2 / 2 ^ 53 < T / dt := by
      rw [lt_div_iff₀ h0, sub_mul]
      exact this
    simp only [Nat.succ_eq_add_one] at *
    push_cast at *
    linarith

/-- C119: and it returns, if it is asked for less than 2^25 steps. -/
theorem C119_returns (hd : Rep dt) (h0 : 0 < dt) (T : ℝ) (hT : T ≤ 2 ^ 25 * dt) :
    ∃ N ≤ 2 ^ 25 + 1, ∀ n, N ≤ n → clockLoop rnd dt T n 0 0 = .done N := by
  classical
  have hex : ∃ N, T ≤ clockAt rnd dt N := by
    refine ⟨2 ^ 25 + 1, ?_⟩
    have := (abs_le.1 (C119_error hr hd h0 (2 ^ 25 + 1) (by norm_num))).1
    push_cast at this
    norm_num at this hT ⊢
    nlinarith
  have hle : Nat.find hex ≤ 2 ^ 25 + 1 := by
    refine Nat.find_min' hex ?_
    have := (abs_le.1 (C119_error hr hd h0 (2 ^ 25 + 1) (by norm_num))).1
    push_cast at this
    norm_num at this hT ⊢
    nlinarith
  refine ⟨Nat.find hex, hle, fun n hn => ?_⟩
  exact loop_of hr h0.le T _ (Nat.find_spec hex) (fun m hm => by
    have := Nat.find_min hex (show m < Nat.find hex by omega)
    exact not_le.1 this) n hn

/-! ## step(fixed_dt=True) -/

theorem halved_between (d : ℝ) (hd : Rep d) (h0 : 0 ≤ d) (k : ℕ) :
    Rep (halved rnd d k) ∧ 0 ≤ halved rnd d k ∧ halved rnd d k ≤ d := by
  induction k with
  | zero => exact ⟨hd, h0, le_rfl⟩
  | succ k ih =>
    obtain ⟨i1, i2, i3⟩ := ih
    refine ⟨(hr _).1, ?_, ?_⟩
    · have := nearest_mono hr (show 0 ≤ halved rnd d k / 2 by positivity)
      rwa [nearest_zero hr] at this
    · have := nearest_mono hr (show halved rnd d k / 2 ≤ d by linarith)
      rwa [nearest_id hr hd] at this

theorem fixed_exact (e : ℝ) (he : Rep e) : ∀ (ks : List ℕ) (t t' : ℝ), Rep t → e ≤ 2 * t → t ≤ e → fixedLoop rnd e ks t = .done t' → t' = e := by
  intro ks
  induction ks with
  | nil =>
    intro t t' _ _ h h'
    unfold fixedLoop at h'
    split_ifs at h' with hlt
    injection h' with h'
    linarith [not_lt.1 hlt]
  | cons k ks ih =>
    intro t t' ht h2 hle h'
    unfold fixedLoop at h'
    split_ifs at h' with hlt
    · have hd : rnd (e - t) = e - t := nearest_id hr (rep_sub ht he h2 hle)
      obtain ⟨-, b2, b3⟩ := halved_between hr (e - t) (rep_sub ht he h2 hle) (by linarith) k
      rw [hd] at h'
      refine ih _ t' (hr _).1 ?_ ?_ h'
      · have := nearest_mono hr (show t ≤ t + halved rnd (e - t) k by linarith)
        rw [nearest_id hr ht] at this
        linarith
      · have := nearest_mono hr (show t + halved rnd (e - t) k ≤ e by linarith)
        rwa [nearest_id hr he] at this
    · injection h' with h'
      linarith [not_lt.1 hlt]

theorem fixed_ends (e : ℝ) (he : Rep e) : ∀ (ks ks' : List ℕ) (t : ℝ), Rep t → e ≤ 2 * t → t ≤ e →
    fixedLoop rnd e (ks ++ 0 :: ks') t = .done e := by
  intro ks ks'
  induction ks with
  | nil =>
    intro t ht h2 hle
    simp only [List.nil_append]
    unfold fixedLoop
    split_ifs with hlt
    · simp only [halved, tick]
      rw [nearest_id hr (rep_sub ht he h2 hle), show t + (e - t) = e by ring, nearest_id hr he]
      unfold fixedLoop
      rw [if_neg (lt_irrefl _)]
    · congr 1
      linarith [not_lt.1 hlt]
  | cons k ks ih =>
    intro t ht h2 hle
    simp only [List.cons_append]
    unfold fixedLoop
    split_ifs with hlt
    · have hd : rnd (e - t) = e - t := nearest_id hr (rep_sub ht he h2 hle)
      obtain ⟨-, b2, b3⟩ := halved_between hr (e - t) (rep_sub ht he h2 hle) (by linarith) k
      simp only [hd, tick]
      refine ih _ (hr _).1 ?_ ?_
      · have := nearest_mono hr (show t ≤ t + halved rnd (e - t) k by linarith)
        rw [nearest_id hr ht] at this
        linarith
      · have := nearest_mono hr (show t + halved rnd (e - t) k ≤ e by linarith)
        rwa [nearest_id hr he] at this
    · congr 1
      linarith [not_lt.1 hlt]

/-- C119: from a time that is at least one step, `step(fixed_dt=True)` ends exactly at the rounded `t + dt`, however its sub-steps
are cut; a whole sub-step is the last. -/
theorem C119_fixed (t : ℝ) (ht : Rep t) (h0 : 0 ≤ dt) (h : dt ≤ t) (ks : List ℕ) :
    (∀ t', fixedClock rnd dt ks t = .done t' → t' = rnd (t + dt)) ∧
    (∀ ks', fixedClock rnd dt (ks ++ 0 :: ks') t = .done (rnd (t + dt))) := by
  have he : Rep (rnd (t + dt)) := (hr _).1
  have h2t : Rep (2 * t) := by
    obtain ⟨m, e, rfl, h1, h2⟩ := ht
    exact ⟨m, e + 1, by rw [zpow_add_one₀ (by norm_num)]; ring, h1, by omega⟩
  have h1 : rnd (t + dt) ≤ 2 * t := by
    have := nearest_mono hr (show t + dt ≤ 2 * t by linarith)
    rwa [nearest_id hr h2t] at this
  have h2 : t ≤ rnd (t + dt) := by
    have := nearest_mono hr (show t ≤ t + dt by linarith)
    rwa [nearest_id hr ht] at this
  exact ⟨fun t' h' => fixed_exact hr _ he ks t t' ht h1 h2 h', fun ks' => fixed_ends hr _ he ks ks' t ht h1 h2⟩

/-- C119: so is the first step, if it is not cut. -/
theorem C119_fixed_first (hd : Rep dt) (ks : List ℕ) (h0 : 0 < dt) : fixedClock rnd dt (0 :: ks) 0 = .done dt := by
  unfold fixedClock fixedLoop
  simp only [zero_add, nearest_id hr hd, halved, tick, sub_zero]
  rw [if_pos h0]
  unfold fixedLoop
  rw [if_neg (lt_irrefl _)]

/-- C119: far out the clock stands still: from time 2^49 on a step of 1/30 is lost, and `run_world` with a later end does not
return. -/
theorem C119_stands (hd1 : 0 ≤ dt) (hd2 : dt < 1 / 16) : tick rnd dt (2 ^ 49) = 2 ^ 49 ∧
    ∀ (T : ℝ) (n c : ℕ), 2 ^ 49 < T → clockLoop rnd dt T n c (2 ^ 49) = .running := by
  have hrep : Rep (2 ^ 49) := ⟨2 ^ 49, 0, by norm_num, by norm_num, by norm_num⟩
  have h1 : tick rnd dt (2 ^ 49) = 2 ^ 49 := by
    unfold tick
    obtain ⟨hy, hn⟩ := hr (2 ^ 49 + dt)
    have hc := hn _ hrep
    have hlow := nearest_mono hr (show (2 ^ 49 : ℝ) ≤ 2 ^ 49 + dt by linarith)
    rw [nearest_id hr hrep] at hlow
    set y := rnd (2 ^ 49 + dt)
    rw [show (2 ^ 49 : ℝ) - (2 ^ 49 + dt) = -dt by ring, abs_neg, abs_of_nonneg hd1] at hc
    have hup : y < 2 ^ 49 + 1 / 8 := by
      have := (abs_le.1 hc).2
      linarith
    obtain ⟨k, hk⟩ := rep_multiple hy (-3) (by
      rw [abs_of_nonneg (by linarith [show (0 : ℝ) ≤ 2 ^ 49 by positivity])]
      norm_num at hlow ⊢
      exact hlow)
    rw [hk] at hlow hup ⊢
    norm_num at hlow hup ⊢
    have h3 : (4503599627370496 : ℝ) ≤ k := by linarith
    have h4 : (k : ℝ) < 4503599627370497 := by linarith
    have h5 : (4503599627370496 : ℤ) ≤ k := by exact_mod_cast h3
    have h6 : k < (4503599627370497 : ℤ) := by exact_mod_cast h4
    have : k = 4503599627370496 := by omega
    rw [this]
    norm_num
  refine ⟨h1, fun T n => ?_⟩
  induction n with
  | zero =>
    intro c hT
    unfold clockLoop
    rw [if_pos hT]
  | succ n ih =>
    intro c hT
    unfold clockLoop
    rw [if_pos hT, h1]
    exact ih (c + 1) hT

end

end LcpPhysics.Clock
