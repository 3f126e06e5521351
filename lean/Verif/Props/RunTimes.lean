import Verif.Props.RoundedRecorder
import Verif.Model.Demos

/-!
# C137: how long runs and pushes last in double precision
-/

noncomputable section

namespace LcpPhysics.Clock
open Spec

section
variable {rnd : ℝ → ℝ} (hr : Nearest rnd)
include hr

/-- Rounding to the numbers between two powers of two. -/
theorem round_grid (x : ℝ) (k q : ℕ) (h1 : 2 ^ 52 ≤ k) (h2 : k ≤ 2 ^ 53) (hq : q ≤ 1074) (hx : |x - k / 2 ^ q| < 1 / 2 ^ q / 2)
    (hlow : 2 ^ 52 / 2 ^ q ≤ x) : rnd x = k / 2 ^ q := by
  have hz : ((2 : ℝ) ^ (-(q : ℤ))) = 1 / 2 ^ q := by rw [zpow_neg, zpow_natCast, one_div]
  have hpow : (0 : ℝ) < 1 / 2 ^ q := by positivity
  have rep (j : ℕ) (hj : j ≤ 2 ^ 53) : Rep ((j : ℝ) / 2 ^ q) := by
    have := rep_nat j hj (-q) (by omega)
    rwa [hz, mul_one_div] at this
  obtain ⟨hy, hn⟩ := hr x
  have hc := hn _ (rep k h2)
  have hyl : 2 ^ 52 / 2 ^ q ≤ rnd x := by
    have := nearest_mono hr hlow
    rwa [nearest_id hr (by exact_mod_cast rep (2 ^ 52) (by norm_num))] at this
  obtain ⟨z, hzz⟩ := rep_multiple hy (-q) (by
    rw [abs_of_nonneg (le_trans (by positivity) hyl), zpow_add₀ (by norm_num), hz]
    refine le_trans (le_of_eq ?_) hyl
    norm_num
    ring)
  rw [hz] at hzz
  have hx' : |(k : ℝ) / 2 ^ q - x| < 1 / 2 ^ q / 2 := by rwa [abs_sub_comm]
  have hd : |((z : ℝ) - k) * (1 / 2 ^ q)| < 1 / 2 ^ q := by
    have e : ((z : ℝ) - k) * (1 / 2 ^ q) = (rnd x - x) + (x - k / 2 ^ q) := by rw [hzz]; ring
    rw [e]
    have := abs_add_le (rnd x - x) (x - k / 2 ^ q)
    linarith
  rw [abs_mul, abs_of_pos hpow] at hd
  have h3 : |(z : ℝ) - k| < 1 := by
    by_contra h
    push Not at h
    have := mul_le_mul_of_nonneg_right h hpow.le
    linarith
  have h4 : |z - (k : ℤ)| < 1 := by exact_mod_cast h3
  have h5 : z = k := by
    have := Int.abs_lt_one_iff.1 h4
    omega
  rw [hzz, h5]
  push_cast
  ring

variable {dt : ℝ}

/-- C137: between two powers of two the clock advances by a constant, the step length rounded to the distance of the numbers there. -/
theorem C137_binade (h0 : 0 ≤ dt) (n k q c N : ℕ) (h1 : 2 ^ 52 ≤ k) (h2 : k + N * c ≤ 2 ^ 53) (hq : q ≤ 1074)
    (hc : |dt - c / 2 ^ q| < 1 / 2 ^ q / 2) (hn : clockAt rnd dt n = k / 2 ^ q) :
    ∀ j ≤ N, clockAt rnd dt (n + j) = (k + j * c : ℕ) / 2 ^ q := by
  intro j
  induction j with
  | zero => intro _; simpa using hn
  | succ j ih =>
    intro hj
    show rnd (clockAt rnd dt (n + j) + dt) = _
    rw [ih (by omega)]
    have hle : k + (j + 1) * c ≤ 2 ^ 53 := by
      have := Nat.mul_le_mul_right c hj
      omega
    refine round_grid hr _ _ q (by omega) hle hq ?_ ?_
    · refine lt_of_eq_of_lt ?_ hc
      congr 1
      push_cast
      ring
    · have : (2 ^ 52 : ℝ) ≤ (k + j * c : ℕ) := by exact_mod_cast (by omega : 2 ^ 52 ≤ k + j * c)
      have := div_le_div_of_nonneg_right this (by positivity : (0 : ℝ) ≤ 2 ^ q)
      linarith

/-- The double next to 1/30 (utils.py:27-28). -/
local notation "δ" => ((4803839602528529 : ℝ) / 2 ^ 57)

theorem tick_4 : clockAt rnd δ 4 = (4803839602528529 : ℕ) / 2 ^ 55 := by
  have c1 : clockAt rnd δ 1 = (4803839602528529 : ℕ) / 2 ^ 57 := by
    show rnd (0 + δ) = _
    exact round_grid hr _ _ 57 (by norm_num) (by norm_num) (by norm_num) (by norm_num) (by norm_num)
  have c2 : clockAt rnd δ 2 = (4803839602528529 : ℕ) / 2 ^ 56 := by
    show rnd (clockAt rnd δ 1 + δ) = _
    rw [c1]
    exact round_grid hr _ _ 56 (by norm_num) (by norm_num) (by norm_num) (by norm_num) (by norm_num)
  have h3 : |clockAt rnd δ 3 - 3 * δ| ≤ 1 / 2 ^ 57 := by
    show |rnd (clockAt rnd δ 2 + δ) - _| ≤ _
    rw [c2]
    have := (hr ((4803839602528529 : ℕ) / 2 ^ 56 + δ)).2 ((7205759403792793 : ℝ) / 2 ^ 56)
      ⟨7205759403792793, -56, by norm_num, by norm_num, by norm_num⟩
    rw [show (3 * δ : ℝ) = (4803839602528529 : ℕ) / 2 ^ 56 + δ by norm_num]
    refine this.trans ?_
    norm_num [abs_of_neg]
  show rnd (clockAt rnd δ 3 + δ) = _
  obtain ⟨l, u⟩ := abs_le.1 h3
  refine round_grid hr _ _ 55 (by norm_num) (by norm_num) (by norm_num) (abs_lt.2 ⟨?_, ?_⟩) ?_
  · norm_num at l u ⊢; linarith
  · norm_num at l u ⊢; linarith
  · norm_num at l u ⊢; linarith

theorem ticks_4 : ∀ j ≤ 3, clockAt rnd δ (4 + j) = (4803839602528529 + j * 1200959900632132 : ℕ) / 2 ^ 55 :=
  C137_binade hr (by norm_num) 4 4803839602528529 55 1200959900632132 3 (by norm_num) (by norm_num) (by norm_num) (by norm_num [abs_lt]) (tick_4 hr)

theorem tick_8 : clockAt rnd δ 8 = (4803839602528529 : ℕ) / 2 ^ 54 := by
  show rnd (clockAt rnd δ (4 + 3) + δ) = _
  rw [ticks_4 hr 3 le_rfl]
  exact round_grid hr _ _ 54 (by norm_num) (by norm_num) (by norm_num) (by norm_num [abs_lt]) (by norm_num)

theorem ticks_8 : ∀ j ≤ 7, clockAt rnd δ (8 + j) = (4803839602528529 + j * 600479950316066 : ℕ) / 2 ^ 54 :=
  C137_binade hr (by norm_num) 8 4803839602528529 54 600479950316066 7 (by norm_num) (by norm_num) (by norm_num) (by norm_num [abs_lt]) (tick_8 hr)

theorem tick_16 : clockAt rnd δ 16 = (4803839602528529 : ℕ) / 2 ^ 53 := by
  show rnd (clockAt rnd δ (8 + 7) + δ) = _
  rw [ticks_8 hr 7 le_rfl]
  exact round_grid hr _ _ 53 (by norm_num) (by norm_num) (by norm_num) (by norm_num [abs_lt]) (by norm_num)

theorem ticks_16 : ∀ j ≤ 14, clockAt rnd δ (16 + j) = (4803839602528529 + j * 300239975158033 : ℕ) / 2 ^ 53 :=
  C137_binade hr (by norm_num) 16 4803839602528529 53 300239975158033 14 (by norm_num) (by norm_num) (by norm_num) (by norm_num [abs_lt]) (tick_16 hr)

theorem tick_31 : clockAt rnd δ 31 = (4653719614949512 : ℕ) / 2 ^ 52 := by
  show rnd (clockAt rnd δ (16 + 14) + δ) = _
  rw [ticks_16 hr 14 le_rfl]
  exact round_grid hr _ _ 52 (by norm_num) (by norm_num) (by norm_num) (by norm_num [abs_lt]) (by norm_num)

theorem ticks_31 : ∀ j ≤ 28, clockAt rnd δ (31 + j) = (4653719614949512 + j * 150119987579017 : ℕ) / 2 ^ 52 :=
  C137_binade hr (by norm_num) 31 4653719614949512 52 150119987579017 28 (by norm_num) (by norm_num) (by norm_num) (by norm_num [abs_lt]) (tick_31 hr)

theorem tick_60 : clockAt rnd δ 60 = (4503599627370502 : ℕ) / 2 ^ 51 := by
  show rnd (clockAt rnd δ (31 + 28) + δ) = _
  rw [ticks_31 hr 28 le_rfl]
  exact round_grid hr _ _ 51 (by norm_num) (by norm_num) (by norm_num) (by norm_num [abs_lt]) (by norm_num)

theorem ticks_60 : ∀ j ≤ 60, clockAt rnd δ (60 + j) = (4503599627370502 + j * 75059993789508 : ℕ) / 2 ^ 51 :=
  C137_binade hr (by norm_num) 60 4503599627370502 51 75059993789508 60 (by norm_num) (by norm_num) (by norm_num) (by norm_num [abs_lt]) (tick_60 hr)

theorem tick_121 : clockAt rnd δ 121 = (4541129624265245 : ℕ) / 2 ^ 50 := by
  show rnd (clockAt rnd δ (60 + 60) + δ) = _
  rw [ticks_60 hr 60 le_rfl]
  exact round_grid hr _ _ 50 (by norm_num) (by norm_num) (by norm_num) (by norm_num [abs_lt]) (by norm_num)

theorem ticks_121 : ∀ j ≤ 119, clockAt rnd δ (121 + j) = (4541129624265245 + j * 37529996894754 : ℕ) / 2 ^ 50 :=
  C137_binade hr (by norm_num) 121 4541129624265245 50 37529996894754 119 (by norm_num) (by norm_num) (by norm_num) (by norm_num [abs_lt]) (tick_121 hr)

theorem tick_241 : clockAt rnd δ 241 = (4522364625817863 : ℕ) / 2 ^ 49 := by
  show rnd (clockAt rnd δ (121 + 119) + δ) = _
  rw [ticks_121 hr 119 le_rfl]
  exact round_grid hr _ _ 49 (by norm_num) (by norm_num) (by norm_num) (by norm_num [abs_lt]) (by norm_num)

theorem ticks_241 : ∀ j ≤ 239, clockAt rnd δ (241 + j) = (4522364625817863 + j * 18764998447377 : ℕ) / 2 ^ 49 :=
  C137_binade hr (by norm_num) 241 4522364625817863 49 18764998447377 239 (by norm_num) (by norm_num) (by norm_num) (by norm_num [abs_lt]) (tick_241 hr)

theorem tick_481 : clockAt rnd δ 481 = (4512982126594172 : ℕ) / 2 ^ 48 := by
  show rnd (clockAt rnd δ (241 + 239) + δ) = _
  rw [ticks_241 hr 239 le_rfl]
  exact round_grid hr _ _ 48 (by norm_num) (by norm_num) (by norm_num) (by norm_num [abs_lt]) (by norm_num)

theorem ticks_481 : ∀ j ≤ 478, clockAt rnd δ (481 + j) = (4512982126594172 + j * 9382499223689 : ℕ) / 2 ^ 48 :=
  C137_binade hr (by norm_num) 481 4512982126594172 48 9382499223689 478 (by norm_num) (by norm_num) (by norm_num) (by norm_num [abs_lt]) (tick_481 hr)

theorem tick_960 : clockAt rnd δ 960 = (4503599627370601 : ℕ) / 2 ^ 47 := by
  show rnd (clockAt rnd δ (481 + 478) + δ) = _
  rw [ticks_481 hr 478 le_rfl]
  exact round_grid hr _ _ 47 (by norm_num) (by norm_num) (by norm_num) (by norm_num [abs_lt]) (by norm_num)

theorem ticks_960 : ∀ j ≤ 300, clockAt rnd δ (960 + j) = (4503599627370601 + j * 4691249611844 : ℕ) / 2 ^ 47 :=
  C137_binade hr (by norm_num) 960 4503599627370601 47 4691249611844 300 (by norm_num) (by norm_num) (by norm_num) (by norm_num [abs_lt]) (tick_960 hr)

theorem thirtieth_rep : Rep δ := ⟨4803839602528529, -57, by norm_num, by norm_num, by norm_num⟩

/-- C137: with the default step length `run_world` makes one step more than it would with exact steps of 1/30 when it runs for the
default ten seconds (world.py:246) or for the seven of demos/grad_demo.py:15: 301 and 211 steps.  For the twenty seconds of the demos and
tests and the forty of demos/demo.py:90 it makes 600 and 1200. -/
theorem C137_runs :
    (∀ n, 211 ≤ n → clockLoop rnd δ 7 n 0 0 = .done 211) ∧ (∀ n, 301 ≤ n → clockLoop rnd δ 10 n 0 0 = .done 301) ∧
    (∀ n, 600 ≤ n → clockLoop rnd δ 20 n 0 0 = .done 600) ∧ (∀ n, 1200 ≤ n → clockLoop rnd δ 40 n 0 0 = .done 1200) := by
  have key (T : ℝ) (N : ℕ) (h1 : T ≤ clockAt rnd δ (N + 1)) (h2 : clockAt rnd δ N < T) (n : ℕ) (hn : N + 1 ≤ n) :
      clockLoop rnd δ T n 0 0 = .done (N + 1) :=
    loop_of hr (by norm_num) T (N + 1) h1 (by intro m hm; rw [show m = N by omega]; exact h2) n hn
  refine ⟨key 7 210 ?_ ?_, key 10 300 ?_ ?_, key 20 599 ?_ ?_, key 40 1199 ?_ ?_⟩
  · rw [ticks_121 hr 90 (by norm_num)]; norm_num
  · rw [ticks_121 hr 89 (by norm_num)]; norm_num
  · rw [ticks_241 hr 60 (by norm_num)]; norm_num
  · rw [ticks_241 hr 59 (by norm_num)]; norm_num
  · rw [ticks_481 hr 119 (by norm_num)]; norm_num
  · rw [ticks_481 hr 118 (by norm_num)]; norm_num
  · rw [ticks_960 hr 240 (by norm_num)]; norm_num
  · rw [ticks_960 hr 239 (by norm_num)]; norm_num

/-- C137: the push of demos/demo.py:124-128 acts during the steps that begin at the times number 31 to 59, as with exact steps. -/
theorem C137_push (i : ℕ) : (1 < clockAt rnd δ i ∧ clockAt rnd δ i < 2) ↔ 31 ≤ i ∧ i ≤ 59 := by
  have h30 : clockAt rnd δ 30 < 1 := by rw [ticks_16 hr 14 (by norm_num)]; norm_num
  have h31 : 1 < clockAt rnd δ 31 := by rw [ticks_31 hr 0 (by norm_num)]; norm_num
  have h59 : clockAt rnd δ 59 < 2 := by rw [ticks_31 hr 28 (by norm_num)]; norm_num
  have h60 : 2 < clockAt rnd δ 60 := by rw [ticks_60 hr 0 (by norm_num)]; norm_num
  constructor
  · rintro ⟨h1, h2⟩
    constructor
    · by_contra h
      have := clock_mono hr (dt := δ) (by norm_num) (show i ≤ 30 by omega)
      linarith
    · by_contra h
      have := clock_mono hr (dt := δ) (by norm_num) (show 60 ≤ i by omega)
      linarith
  · rintro ⟨h1, h2⟩
    have a := clock_mono hr (dt := δ) (by norm_num) h1
    have b := clock_mono hr (dt := δ) (by norm_num) h2
    constructor <;> linarith

/-- C137: the force of the demo at the times of a run. -/
theorem C137_timed_force (i : ℕ) : Demos.timed_force (clockAt rnd δ i) = if 31 ≤ i ∧ i ≤ 59 then ⟨0, 1, 0⟩ else ⟨0, 0, 0⟩ := by
  unfold Demos.timed_force
  by_cases h : 31 ≤ i ∧ i ≤ 59
  · rw [if_pos h, if_pos ((C137_push hr i).2 h)]
    rfl
  · rw [if_neg h, if_neg (fun hc => h ((C137_push hr i).1 hc))]
    rfl

/-- C137: the impulses of forces.py:8-26, which act before time 0.1, act during the first three steps if the third time is rounded up
(ties to even do so), and during the first four if it is rounded down: the sum lies half way between two numbers. -/
theorem C137_impulse (i : ℕ) :
    (7205759403792794 / 2 ^ 56 ≤ clockAt rnd δ 3 → (clockAt rnd δ i < 7205759403792794 / 2 ^ 56 ↔ i < 3)) ∧
    (clockAt rnd δ 3 < 7205759403792794 / 2 ^ 56 → (clockAt rnd δ i < 7205759403792794 / 2 ^ 56 ↔ i < 4)) := by
  have h4 : 7205759403792794 / 2 ^ 56 < clockAt rnd δ 4 := by rw [tick_4 hr]; norm_num
  have h2 : clockAt rnd δ 2 < 7205759403792794 / 2 ^ 56 := by
    have c1 : clockAt rnd δ 1 = (4803839602528529 : ℕ) / 2 ^ 57 := by
      show rnd (0 + δ) = _
      exact round_grid hr _ _ 57 (by norm_num) (by norm_num) (by norm_num) (by norm_num) (by norm_num)
    have c2 : clockAt rnd δ 2 = (4803839602528529 : ℕ) / 2 ^ 56 := by
      show rnd (clockAt rnd δ 1 + δ) = _
      rw [c1]
      exact round_grid hr _ _ 56 (by norm_num) (by norm_num) (by norm_num) (by norm_num) (by norm_num)
    rw [c2]
    norm_num
  have mono {a b : ℕ} (h : a ≤ b) := clock_mono hr (dt := δ) (by norm_num) h
  constructor
  · intro h3
    constructor
    · intro h
      by_contra hc
      exact absurd h (not_lt.2 (h3.trans (mono (by omega))))
    · intro h
      exact (mono (show i ≤ 2 by omega)).trans_lt h2
  · intro h3
    constructor
    · intro h
      by_contra hc
      exact absurd h (not_lt.2 (h4.le.trans (mono (by omega))))
    · intro h
      exact (mono (show i ≤ 3 by omega)).trans_lt h3

/-- C137: a film of a run of ten seconds has 300 frames: of the 301 steps one is lost to the recorder (C136). -/
theorem C137_film (n N : ℕ) (hN : 301 ≤ n) (h : clockLoop rnd δ 10 n 0 0 = .done N) :
    (filmed rnd δ (clockAt rnd δ) N).frame = 300 := by
  rw [(C137_runs hr).2.1 n hN] at h
  injection h with h
  rw [← h]
  exact C136_thirtieth hr 301 (by norm_num) (by norm_num)

end

/-- C137: with exact steps of 1/30 ten seconds are 300 steps. -/
theorem C137_exact (T : ℕ) (n : ℕ) (hn : 30 * T ≤ n) : clockLoop id (1 / 30) T n 0 0 = .done (30 * T) := by
  have hc : ∀ k, clockAt id (1 / 30) k = k / 30 := by
    intro k
    induction k with
    | zero => simp [clockAt]
    | succ k ih =>
      show clockAt id (1 / 30) k + 1 / 30 = _
      rw [ih]
      push_cast
      ring
  refine loop_of_mono (fun {m n} h => ?_) T (30 * T) ?_ ?_ n hn
  · rw [hc, hc]
    have : (m : ℝ) ≤ n := by exact_mod_cast h
    linarith
  · rw [hc]
    push_cast
    linarith
  · intro m hm
    rw [hc, div_lt_iff₀ (by norm_num)]
    have : ((m : ℝ) + 1) = 30 * T := by exact_mod_cast hm
    linarith

/-- Rounding ties to even: the third time is the double next to 0.1. -/
theorem tick_3 : clockAt rne (4803839602528529 / 2 ^ 57) 3 = 7205759403792794 / 2 ^ 56 := by
  have c1 : clockAt rne (4803839602528529 / 2 ^ 57) 1 = (4803839602528529 : ℕ) / 2 ^ 57 := by
    show rne (0 + 4803839602528529 / 2 ^ 57) = _
    exact round_grid rne_nearest _ _ 57 (by norm_num) (by norm_num) (by norm_num) (by norm_num) (by norm_num)
  have c2 : clockAt rne (4803839602528529 / 2 ^ 57) 2 = (4803839602528529 : ℕ) / 2 ^ 56 := by
    show rne (clockAt rne (4803839602528529 / 2 ^ 57) 1 + 4803839602528529 / 2 ^ 57) = _
    rw [c1]
    exact round_grid rne_nearest _ _ 56 (by norm_num) (by norm_num) (by norm_num) (by norm_num) (by norm_num)
  show rne (clockAt rne (4803839602528529 / 2 ^ 57) 2 + 4803839602528529 / 2 ^ 57) = _
  rw [c2, show ((4803839602528529 : ℕ) / 2 ^ 56 + 4803839602528529 / 2 ^ 57 : ℝ) = 14411518807585587 / 2 ^ 57 by norm_num]
  have hlog : Int.log 2 |(14411518807585587 / 2 ^ 57 : ℝ)| = -4 := by
    rw [abs_of_pos (by norm_num)]
    apply le_antisymm
    · have : Int.log 2 (14411518807585587 / 2 ^ 57 : ℝ) < -3 := (Int.lt_zpow_iff_log_lt (by norm_num) (by norm_num)).1 (by norm_num)
      omega
    · exact (Int.zpow_le_iff_le_log (by norm_num) (by norm_num)).1 (by norm_num)
  unfold rne
  rw [if_neg (by norm_num), hlog]
  have hfl : ⌊(14411518807585587 / 2 : ℝ)⌋ = 7205759403792793 := by
    rw [Int.floor_eq_iff]
    norm_num
  have hev : roundEven ((14411518807585587 / 2 ^ 57 : ℝ) / (2 : ℝ) ^ (max (-4 - 52) (-1074) : ℤ)) = 7205759403792794 := by
    rw [show ((14411518807585587 / 2 ^ 57 : ℝ) / (2 : ℝ) ^ (max (-4 - 52) (-1074) : ℤ)) = 14411518807585587 / 2 by norm_num]
    unfold roundEven
    rw [if_pos (by rw [Int.fract, hfl]; norm_num), hfl, if_neg (by decide)]
    norm_num
  simp only [hev]
  norm_num

/-- C137: so in IEEE arithmetic the impulses act during the first three steps. -/
theorem C137_impulse_even (i : ℕ) : clockAt rne (4803839602528529 / 2 ^ 57) i < 7205759403792794 / 2 ^ 56 ↔ i < 3 :=
  (C137_impulse rne_nearest i).1 tick_3.ge

/-- C137: the impulses of the model, whose bound is 1/10 and not the double next to it, agree. -/
theorem C137_impulse_forces (i : ℕ) :
    vert_impulse (clockAt rne (4803839602528529 / 2 ^ 57) i) = (if i < 3 then ⟨0, 0, 1⟩ else ⟨0, 0, 0⟩) ∧
    hor_impulse (clockAt rne (4803839602528529 / 2 ^ 57) i) = (if i < 3 then ⟨0, 1, 0⟩ else ⟨0, 0, 0⟩) ∧
    rot_impulse (clockAt rne (4803839602528529 / 2 ^ 57) i) = (if i < 3 then ⟨1, 0, 0⟩ else ⟨0, 0, 0⟩) := by
  have h : clockAt rne (4803839602528529 / 2 ^ 57) i < 0.1 ↔ i < 3 := by
    constructor
    · intro h
      by_contra hc
      have := clock_mono rne_nearest (dt := 4803839602528529 / 2 ^ 57) (by norm_num) (show 3 ≤ i by omega)
      rw [tick_3] at this
      norm_num at this h
      linarith
    · intro h
      have h2 : clockAt rne (4803839602528529 / 2 ^ 57) 2 < 0.1 := by
        have c1 : clockAt rne (4803839602528529 / 2 ^ 57) 1 = (4803839602528529 : ℕ) / 2 ^ 57 := by
          show rne (0 + 4803839602528529 / 2 ^ 57) = _
          exact round_grid rne_nearest _ _ 57 (by norm_num) (by norm_num) (by norm_num) (by norm_num) (by norm_num)
        show rne (clockAt rne (4803839602528529 / 2 ^ 57) 1 + 4803839602528529 / 2 ^ 57) < _
        rw [c1, round_grid rne_nearest _ 4803839602528529 56 (by norm_num) (by norm_num) (by norm_num) (by norm_num) (by norm_num)]
        norm_num
      exact (clock_mono rne_nearest (dt := 4803839602528529 / 2 ^ 57) (by norm_num) (show i ≤ 2 by omega)).trans_lt h2
  unfold vert_impulse hor_impulse rot_impulse
  simp only [h]
  exact ⟨rfl, rfl, rfl⟩

/-- Ten seconds in IEEE arithmetic: 301 steps and 300 frames; with exact steps 300 steps. -/
example : clockLoop rne (4803839602528529 / 2 ^ 57) 10 1000 0 0 = .done 301 ∧
    (filmed rne (4803839602528529 / 2 ^ 57) (clockAt rne (4803839602528529 / 2 ^ 57)) 301).frame = 300 ∧
    clockLoop id (1 / 30) 10 1000 0 0 = .done 300 := by
  have h := (C137_runs rne_nearest).2.1 1000 (by norm_num)
  exact ⟨h, C137_film rne_nearest 1000 301 (by norm_num) h, by exact_mod_cast C137_exact 10 1000 (by norm_num)⟩

/-- Times between one and two seconds: each is 150119987579017 / 2^52 after the one before. -/
example : clockAt rne (4803839602528529 / 2 ^ 57) 45 = (4653719614949512 + 14 * 150119987579017 : ℕ) / 2 ^ 52 :=
  ticks_31 rne_nearest 14 (by norm_num)

end LcpPhysics.Clock
