import Verif.Props.RoundedFlight
import Verif.Props.RunTimes

/-! # C139: a body without forces in double precision -/

noncomputable section

namespace LcpPhysics
open Spec Rounded

variable {A : Arith}

/-- A positive double precision number has a mantissa above `2^52`, up to `2^53`. -/
theorem rep_mantissa {x : ℝ} (hx : Rep x) (h0 : 0 < x) : ∃ k e : ℤ, x = k * (2 : ℝ) ^ e ∧ 2 ^ 52 < k ∧ k ≤ 2 ^ 53 := by
  have h1 : (2 : ℝ) ^ (Int.clog 2 x - 1) < x := by exact_mod_cast Int.zpow_pred_clog_lt_self (b := 2) (by norm_num) h0
  have h2 : x ≤ (2 : ℝ) ^ (Int.clog 2 x) := by exact_mod_cast Int.self_le_zpow_clog (b := 2) (by norm_num) x
  obtain ⟨k, hk⟩ := rep_multiple hx (Int.clog 2 x - 53) (by
    rw [abs_of_pos h0, show Int.clog 2 x - 53 + 52 = Int.clog 2 x - 1 by ring]
    exact h1.le)
  generalize Int.clog 2 x = c at *
  have hp : (0 : ℝ) < 2 ^ (c - 53) := by positivity
  have e1 : (2 : ℝ) ^ (c - 1) = 2 ^ 52 * 2 ^ (c - 53) := by
    rw [show c - 1 = 52 + (c - 53) by ring, zpow_add₀ (by norm_num)]
    norm_num
  have e2 : (2 : ℝ) ^ c = 2 ^ 53 * 2 ^ (c - 53) := by
    conv_lhs => rw [show c = 53 + (c - 53) by ring, zpow_add₀ (by norm_num)]
    norm_num
  refine ⟨k, c - 53, hk, ?_, ?_⟩
  · rw [e1, hk] at h1
    have := lt_of_mul_lt_mul_right h1 hp.le
    exact_mod_cast this
  · rw [e2, hk] at h2
    have := le_of_mul_le_mul_right h2 hp
    exact_mod_cast this

/-- The rounded reciprocal times the number is less than one and half a unit in the last place. -/
theorem recip_lt {rnd : ℝ → ℝ} (hr : Nearest rnd) {m : ℝ} (hm : 0 < m) (hm2 : m ≤ 2 ^ 1000) : rnd (1 / m) * m < 1 + 1 / 2 ^ 53 := by
  have hi : 0 < 1 / m := by positivity
  have hlow : (2 : ℝ) ^ (-1000 : ℤ) ≤ rnd (1 / m) := by
    have rep : Rep ((2 : ℝ) ^ (-1000 : ℤ)) := ⟨1, -1000, by norm_num, by norm_num, by norm_num⟩
    have hle : (2 : ℝ) ^ (-1000 : ℤ) ≤ 1 / m := by
      rw [show (2 : ℝ) ^ (-1000 : ℤ) = 1 / 2 ^ 1000 by rw [zpow_neg, one_div]; norm_cast]
      exact one_div_le_one_div_of_le hm hm2
    have := nearest_mono hr hle
    rwa [nearest_id hr rep] at this
  have hpos : 0 < rnd (1 / m) := lt_of_lt_of_le (by positivity) hlow
  obtain ⟨k, e, hk, k1, k2⟩ := rep_mantissa (hr (1 / m)).1 hpos
  have hp : (0 : ℝ) < 2 ^ e := by positivity
  have he : -1074 ≤ e := by
    by_contra hc
    push Not at hc
    have h1 : (2 : ℝ) ^ e ≤ 2 ^ (-1075 : ℤ) := zpow_le_zpow_right₀ (by norm_num) (by omega)
    have h2 : (k : ℝ) ≤ 2 ^ 53 := by exact_mod_cast k2
    have h3 : (k : ℝ) * 2 ^ e ≤ 2 ^ 53 * 2 ^ (-1075 : ℤ) := mul_le_mul h2 h1 hp.le (by positivity)
    have h4 : (2 : ℝ) ^ 53 * 2 ^ (-1075 : ℤ) = 2 ^ (-1022 : ℤ) := by
      rw [show (-1022 : ℤ) = 53 + (-1075) by norm_num, zpow_add₀ (by norm_num)]
      norm_cast
    have h5 : (2 : ℝ) ^ (-1022 : ℤ) < 2 ^ (-1000 : ℤ) := zpow_lt_zpow_right₀ (by norm_num) (by norm_num)
    rw [hk] at hlow
    rw [h4] at h3
    linarith
  have hy : Rep (((k - 1 : ℤ) : ℝ) * 2 ^ e) := rep_of_le (k - 1) e (by rw [abs_of_nonneg (by omega)]; omega) he
  have hn := (hr (1 / m)).2 _ hy
  rw [hk] at hn ⊢
  push_cast at hn
  have hkR : (2 : ℝ) ^ 52 + 1 ≤ k := by exact_mod_cast k1
  generalize (2 : ℝ) ^ e = p at *
  have hhalf : ((k : ℝ) - 1 / 2) * p ≤ 1 / m := by
    by_contra hc
    push Not at hc
    have u1 : (k : ℝ) * p - 1 / m ≤ |((k : ℝ) - 1) * p - 1 / m| := (le_abs_self _).trans hn
    rcases abs_cases (((k : ℝ) - 1) * p - 1 / m) with ⟨h, -⟩ | ⟨h, -⟩
    · rw [h] at u1
      linarith
    · rw [h] at u1
      linarith
  rw [le_div_iff₀ hm] at hhalf
  have hpm : 0 < p * m := by positivity
  have e1 : ((k : ℝ) - 1 / 2) * p * m = (k - 1 / 2) * (p * m) := by ring
  have e2 : (k : ℝ) * p * m = k * (p * m) := by ring
  rw [e1] at hhalf
  rw [e2]
  have h6 : (2 ^ 52 + 1 / 2 : ℝ) * (p * m) ≤ (k - 1 / 2) * (p * m) := mul_le_mul_of_nonneg_right (by linarith) hpm.le
  generalize p * m = q at *
  have e3 : ((k : ℝ) - 1 / 2) * q = k * q - 1 / 2 * q := by ring
  rw [e3] at hhalf h6
  norm_num at h6 ⊢
  linarith

/-- Numbers less than half a unit above a power of two are rounded to it, or below. -/
theorem round_power {rnd : ℝ → ℝ} (hr : Nearest rnd) {x : ℝ} {j : ℤ} (hj : -1074 ≤ j) (hx : x < (1 + 1 / 2 ^ 53) * 2 ^ j) :
    rnd x ≤ 2 ^ j := by
  have rep : Rep ((2 : ℝ) ^ j) := ⟨1, j, by norm_num, by norm_num, hj⟩
  rcases le_or_gt x ((2 : ℝ) ^ j) with h | h
  · have := nearest_mono hr h
    rwa [nearest_id hr rep] at this
  · have hp : (0 : ℝ) < 2 ^ j := by positivity
    have hn := (hr x).2 _ rep
    have hlow := nearest_mono hr h.le
    rw [nearest_id hr rep] at hlow
    obtain ⟨k, hk⟩ := rep_multiple (hr x).1 (j - 52) (by
      rw [abs_of_pos (lt_of_lt_of_le hp hlow), sub_add_cancel]
      exact hlow)
    rw [abs_sub_comm, abs_sub_comm ((2 : ℝ) ^ j), abs_of_pos (sub_pos.2 h)] at hn
    have hup := (abs_le.1 hn).1
    have e : (2 : ℝ) ^ j = 2 ^ 52 * 2 ^ (j - 52) := by
      conv_lhs => rw [show j = 52 + (j - 52) by ring, zpow_add₀ (by norm_num)]
      norm_num
    have hq : (0 : ℝ) < 2 ^ (j - 52) := by positivity
    rw [hk] at hup ⊢
    rw [e] at hx hup ⊢
    generalize (2 : ℝ) ^ (j - 52) = q at *
    have : (k : ℝ) * q < (2 ^ 52 + 1) * q := by
      norm_num at hx hup ⊢
      linarith
    have h1 : (k : ℝ) < 2 ^ 52 + 1 := lt_of_mul_lt_mul_right this hq.le
    have h2 : k < 2 ^ 52 + 1 := by exact_mod_cast h1
    have h3 : (k : ℝ) ≤ 2 ^ 52 := by exact_mod_cast (by omega : k ≤ 2 ^ 52)
    exact mul_le_mul_of_nonneg_right h3 hq.le

theorem fvel_mono (h : DoubleArith A) {m dt f : ℝ} (hm : 0 < m) : Monotone fun v => fvel A m v dt f := by
  intro a b hab
  have hi : 0 ≤ A.rnd (1 / m) := by
    have := nearest_mono h.nearest (show (0 : ℝ) ≤ 1 / m by positivity)
    rwa [nearest_zero h.nearest] at this
  refine nearest_mono h.nearest (mul_le_mul_of_nonneg_left (nearest_mono h.nearest ?_) hi)
  have := nearest_mono h.nearest (mul_le_mul_of_nonneg_left hab hm.le)
  linarith

/-- C139: the order of velocities is kept: of two bodies of the same mass under the same force the faster one stays at least as fast. -/
theorem C139_order (h : DoubleArith A) {m dt f a b : ℝ} (hm : 0 < m) (hab : a ≤ b) : fvel A m a dt f ≤ fvel A m b dt f :=
  fvel_mono h hm hab

/-- C139: without a force a velocity below a power of two stays below it. -/
theorem C139_bounded (h : DoubleArith A) {m dt v : ℝ} {j : ℤ} (hm : 0 < m) (hm2 : m ≤ 2 ^ 1000) (hj : -1074 ≤ j) (hmj : Rep (m * 2 ^ j))
    (hv : v ≤ 2 ^ j) : fvel A m v dt 0 ≤ 2 ^ j := by
  refine (fvel_mono h hm hv).trans ?_
  show fvel A m (2 ^ j) dt 0 ≤ _
  unfold fvel
  rw [mul_zero, nearest_zero h.nearest, add_zero, nearest_id h.nearest hmj, nearest_id h.nearest hmj]
  refine round_power h.nearest hj ?_
  have hp : (0 : ℝ) < 2 ^ j := by positivity
  have := mul_lt_mul_of_pos_right (recip_lt h.nearest hm hm2) hp
  rwa [← mul_assoc]

theorem fvel_nonneg (h : DoubleArith A) {m dt v : ℝ} (hm : 0 < m) (hv : 0 ≤ v) : 0 ≤ fvel A m v dt 0 := by
  have := fvel_mono h (dt := dt) (f := 0) hm hv
  have e : fvel A m 0 dt 0 = 0 := by
    unfold fvel
    rw [mul_zero, mul_zero, nearest_zero h.nearest, add_zero, nearest_zero h.nearest, mul_zero, nearest_zero h.nearest]
  calc (0 : ℝ) = fvel A m 0 dt 0 := e.symm
    _ ≤ _ := this

/-- A monotone sequence of integers between bounds settles. -/
theorem settles {u : ℕ → ℤ} {a b : ℤ} (hb : ∀ n, a ≤ u n ∧ u n ≤ b) (hu : Monotone u ∨ Antitone u) : ∃ N, ∀ n, N ≤ n → u n = u N := by
  have up : ∀ (w : ℕ → ℤ) (c : ℤ), Monotone w → (∀ n, w n ≤ c) → ∃ N, ∀ n, N ≤ n → w n = w N := by
    intro w c hw hc
    by_contra hcon
    push Not at hcon
    have key : ∀ k : ℕ, ∃ n, w 0 + k ≤ w n := by
      intro k
      induction k with
      | zero => exact ⟨0, by simp⟩
      | succ k ih =>
        obtain ⟨n, hn⟩ := ih
        obtain ⟨n', h1, h2⟩ := hcon n
        have h3 := hw h1
        exact ⟨n', by push_cast; omega⟩
    obtain ⟨n, hn⟩ := key (c - w 0 + 1).toNat
    have h1 := hc n
    have h2 := hc 0
    omega
  rcases hu with hu | hu
  · exact up u b hu fun n => (hb n).2
  · obtain ⟨N, hN⟩ := up (fun n => -u n) (-a) (fun m n h => neg_le_neg (hu h)) fun n => neg_le_neg (hb n).1
    exact ⟨N, fun n hn => by have := hN n hn; omega⟩

/-- C139: the speed of a body without a force only falls or only rises, stays below the next power of two, and after some time does
not change any more. -/
theorem C139_settles (h : DoubleArith A) {m dt v : ℝ} {j : ℤ} (hm : 0 < m) (hm2 : m ≤ 2 ^ 1000) (hj : -1074 ≤ j) (hmj : Rep (m * 2 ^ j))
    (hv : Rep v) (hv0 : 0 ≤ v) (hvj : v ≤ 2 ^ j) (u : ℕ → ℝ) (u0 : u 0 = v) (hu : ∀ n, u (n + 1) = fvel A m (u n) dt 0) :
    (Monotone u ∨ Antitone u) ∧ (∀ n, 0 ≤ u n ∧ u n ≤ 2 ^ j) ∧ ∃ N, ∀ n, N ≤ n → u n = u N := by
  have hb : ∀ n, 0 ≤ u n ∧ u n ≤ 2 ^ j := by
    intro n
    induction n with
    | zero => rw [u0]; exact ⟨hv0, hvj⟩
    | succ n ih =>
      rw [hu]
      exact ⟨fvel_nonneg h hm ih.1, C139_bounded h hm hm2 hj hmj ih.2⟩
  have hmono : Monotone u ∨ Antitone u := by
    rcases le_total (u 0) (u 1) with h1 | h1
    · left
      refine monotone_nat_of_le_succ fun n => ?_
      induction n with
      | zero => exact h1
      | succ n ih =>
        rw [hu n, hu (n + 1)]
        exact fvel_mono h hm ih
    · right
      refine antitone_nat_of_succ_le fun n => ?_
      induction n with
      | zero => exact h1
      | succ n ih =>
        rw [hu n, hu (n + 1)]
        exact fvel_mono h hm ih
  refine ⟨hmono, hb, ?_⟩
  have hrep : ∀ n, Rep (u n) := by
    intro n
    cases n with
    | zero => rw [u0]; exact hv
    | succ n => rw [hu]; exact (h.nearest _).1
  choose z hz using fun n => rep_lattice (hrep n)
  obtain ⟨c, hc⟩ := rep_lattice (⟨1, j, by norm_num, by norm_num, hj⟩ : Rep ((2 : ℝ) ^ j))
  have hp : (0 : ℝ) < (2 : ℝ) ^ (-1074 : ℤ) := by positivity
  have le_iff : ∀ a b : ℤ, (a : ℝ) * (2 : ℝ) ^ (-1074 : ℤ) ≤ b * (2 : ℝ) ^ (-1074 : ℤ) → a ≤ b := by
    intro a b hab
    exact_mod_cast le_of_mul_le_mul_right hab hp
  obtain ⟨N, hN⟩ := settles (u := z) (a := 0) (b := c)
    (fun n => ⟨le_iff _ _ (by rw [← hz]; simpa using (hb n).1), le_iff _ _ (by rw [← hz, ← hc]; exact (hb n).2)⟩)
    (hmono.imp (fun hm a b hab => le_iff _ _ (by rw [← hz, ← hz]; exact hm hab))
      (fun hm a b hab => le_iff _ _ (by rw [← hz, ← hz]; exact hm hab)))
  exact ⟨N, fun n hn => by rw [hz n, hz N, hN n hn]⟩

/-- C139: so a body without forces, moving and turning in the positive directions, settles to a velocity. -/
theorem C139_flight (h : DoubleArith A) {m I dt : ℝ} {j : ℤ} {v : V3} (hm : 0 < m) (hm2 : m ≤ 2 ^ 1000) (hI : 0 < I) (hI2 : I ≤ 2 ^ 1000)
    (hj : -1074 ≤ j) (hmj : Rep (m * 2 ^ j)) (hIj : Rep (I * 2 ^ j)) (hv : RepPose v) (hv0 : 0 ≤ v.r ∧ 0 ≤ v.x ∧ 0 ≤ v.y)
    (hvj : v.r ≤ 2 ^ j ∧ v.x ≤ 2 ^ j ∧ v.y ≤ 2 ^ j) :
    ∃ N, ∀ n, N ≤ n → freeVel A dt m I (fun _ => 0) v n = freeVel A dt m I (fun _ => 0) v N := by
  obtain ⟨-, -, N1, h1⟩ := C139_settles h (dt := dt) hI hI2 hj hIj hv.1 hv0.1 hvj.1 (fun n => (freeVel A dt m I (fun _ => 0) v n).r) rfl
    (fun n => rfl)
  obtain ⟨-, -, N2, h2⟩ := C139_settles h (dt := dt) hm hm2 hj hmj hv.2.1 hv0.2.1 hvj.2.1 (fun n => (freeVel A dt m I (fun _ => 0) v n).x) rfl
    (fun n => rfl)
  obtain ⟨-, -, N3, h3⟩ := C139_settles h (dt := dt) hm hm2 hj hmj hv.2.2 hv0.2.2 hvj.2.2 (fun n => (freeVel A dt m I (fun _ => 0) v n).y) rfl
    (fun n => rfl)
  refine ⟨max N1 (max N2 N3), fun n hn => ?_⟩
  have a1 : N1 ≤ max N1 (max N2 N3) := le_max_left _ _
  have a2 : N2 ≤ max N1 (max N2 N3) := (le_max_left _ _).trans (le_max_right _ _)
  have a3 : N3 ≤ max N1 (max N2 N3) := (le_max_right _ _).trans (le_max_right _ _)
  apply V3.ext
  · exact (h1 n (a1.trans hn)).trans (h1 _ a1).symm
  · exact (h2 n (a2.trans hn)).trans (h2 _ a2).symm
  · exact (h3 n (a3.trans hn)).trans (h3 _ a3).symm

/-- Mass 49 at speed one: after the first step it is slower (C135), it never gets faster again, and settles. -/
example (dt : ℝ) : (∀ n, (freeVel (doubleOf rne) dt 49 1 (fun _ => 0) ⟨0, 1, 0⟩ (n + 1)).x ≤ 1 - 1 / 2 ^ 53) ∧
    ∃ N, ∀ n, N ≤ n → freeVel (doubleOf rne) dt 49 1 (fun _ => 0) ⟨0, 1, 0⟩ n = freeVel (doubleOf rne) dt 49 1 (fun _ => 0) ⟨0, 1, 0⟩ N := by
  have hA := rounded_arith rne_nearest
  have big : (49 : ℝ) ≤ 2 ^ 1000 := le_trans (by norm_num : (49 : ℝ) ≤ 2 ^ 6) (pow_le_pow_right₀ (by norm_num) (by norm_num))
  have r1 : Rep 1 := ⟨1, 0, by norm_num, by norm_num, by norm_num⟩
  have r49 : Rep (49 * 2 ^ (0 : ℤ)) := ⟨49, 0, by norm_num, by norm_num, by norm_num⟩
  constructor
  · obtain ⟨hmono, -, -⟩ := C139_settles hA (dt := dt) (m := 49) (j := 0) (by norm_num) big (by norm_num) r49 r1 (by norm_num) (by norm_num)
      (fun n => (freeVel (doubleOf rne) dt 49 1 (fun _ => 0) ⟨0, 1, 0⟩ n).x) rfl (fun n => rfl)
    have first : (freeVel (doubleOf rne) dt 49 1 (fun _ => 0) ⟨0, 1, 0⟩ 1).x = 1 - 1 / 2 ^ 53 := C135_slows hA dt
    rcases hmono with hmono | hmono
    · have : (1 : ℝ) ≤ (freeVel (doubleOf rne) dt 49 1 (fun _ => 0) ⟨0, 1, 0⟩ 1).x := hmono (Nat.zero_le 1)
      rw [first] at this
      norm_num at this
    · intro n
      rw [← first]
      exact hmono (by omega)
  · exact C139_flight hA (j := 0) (by norm_num) big (by norm_num) (one_le_pow₀ (by norm_num)) (by norm_num) r49 (by simpa using r1)
      ⟨rep_zero, r1, rep_zero⟩ ⟨le_rfl, zero_le_one, le_rfl⟩ ⟨by norm_num, by norm_num, by norm_num⟩

end LcpPhysics
