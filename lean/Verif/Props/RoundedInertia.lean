import Verif.Model.RoundedInertia
import Verif.Spec.RoundedInertia
import Verif.Props.RoundedFlight

/-! # C140: moments of inertia in double precision -/

noncomputable section

namespace LcpPhysics
open Spec Rounded

variable {A : Arith}

/-- Between the powers of `1 - w` and of `1 + w`, `w` slightly more than `2^-53`. -/
def Scaled (k : ℕ) (x y : ℝ) : Prop := 0 < y ∧ (1 - 1001 / 1000 / 2 ^ 53) ^ k * y ≤ x ∧ x ≤ (1 + 1001 / 1000 / 2 ^ 53) ^ k * y

theorem scaled_refl {y : ℝ} (h : 0 < y) : Scaled 0 y y := ⟨h, by simp, by simp⟩

theorem Scaled.mul {j k : ℕ} {x y x' y' : ℝ} (h : Scaled j x y) (h' : Scaled k x' y') : Scaled (j + k) (x * x') (y * y') := by
  obtain ⟨h1, h2, h3⟩ := h
  obtain ⟨h1', h2', h3'⟩ := h'
  have p : ∀ n : ℕ, (0 : ℝ) < (1 - 1001 / 1000 / 2 ^ 53) ^ n := fun n => pow_pos (by norm_num) n
  have q : ∀ n : ℕ, (0 : ℝ) < (1 + 1001 / 1000 / 2 ^ 53) ^ n := fun n => pow_pos (by norm_num) n
  have a1 := mul_pos (p j) h1
  have a2 := mul_pos (p k) h1'
  refine ⟨mul_pos h1 h1', ?_, ?_⟩
  · rw [pow_add (1 - 1001 / 1000 / 2 ^ 53 : ℝ) j k]
    calc _ = ((1 - 1001 / 1000 / 2 ^ 53 : ℝ) ^ j * y) * ((1 - 1001 / 1000 / 2 ^ 53 : ℝ) ^ k * y') := by ring
      _ ≤ x * x' := mul_le_mul h2 h2' a2.le (by linarith)
  · rw [pow_add (1 + 1001 / 1000 / 2 ^ 53 : ℝ) j k]
    calc x * x' ≤ ((1 + 1001 / 1000 / 2 ^ 53 : ℝ) ^ j * y) * ((1 + 1001 / 1000 / 2 ^ 53 : ℝ) ^ k * y') :=
          mul_le_mul h3 h3' (by linarith) (mul_pos (q j) h1).le
      _ = _ := by ring

theorem Scaled.add {k : ℕ} {x y x' y' : ℝ} (h : Scaled k x y) (h' : Scaled k x' y') : Scaled k (x + x') (y + y') := by
  obtain ⟨h1, h2, h3⟩ := h
  obtain ⟨h1', h2', h3'⟩ := h'
  exact ⟨by linarith, by rw [mul_add]; linarith, by rw [mul_add]; linarith⟩

theorem Scaled.div {k : ℕ} {x y c : ℝ} (h : Scaled k x y) (hc : 0 < c) : Scaled k (x / c) (y / c) := by
  obtain ⟨h1, h2, h3⟩ := h
  refine ⟨by positivity, ?_, ?_⟩
  · rw [← mul_div_assoc]
    exact div_le_div_of_nonneg_right h2 hc.le
  · rw [← mul_div_assoc]
    exact div_le_div_of_nonneg_right h3 hc.le

/-- One more rounding, if the number is not tiny. -/
theorem Scaled.round {rnd : ℝ → ℝ} (hr : Nearest rnd) {k : ℕ} {x y : ℝ} (h : Scaled k x y) (hx : 1 / 2 ^ 1000 ≤ x) :
    Scaled (k + 1) (rnd x) y := by
  obtain ⟨h1, h2, h3⟩ := h
  have he := any_error hr x
  have hx0 : 0 < x := lt_of_lt_of_le (by positivity) hx
  rw [abs_of_pos hx0] at he
  have hη : (1 : ℝ) / 2 ^ 1074 ≤ 1 / 1000 / 2 ^ 53 * x := by
    have e : (1 : ℝ) / 2 ^ 1074 = 1 / 2 ^ 74 * (1 / 2 ^ 1000) := by
      rw [one_div_mul_one_div, ← pow_add]
    rw [e]
    have := mul_le_mul_of_nonneg_left hx (show (0 : ℝ) ≤ 1 / 2 ^ 74 by positivity)
    refine this.trans (mul_le_mul_of_nonneg_right (by norm_num) hx0.le)
  obtain ⟨l, u⟩ := abs_le.1 he
  generalize (1 : ℝ) / 2 ^ 1074 = η at *
  have p : (0 : ℝ) ≤ (1 - 1001 / 1000 / 2 ^ 53) := by norm_num
  have q : (0 : ℝ) ≤ (1 + 1001 / 1000 / 2 ^ 53) := by norm_num
  refine ⟨h1, ?_, ?_⟩
  · have a := mul_le_mul_of_nonneg_left h2 p
    rw [pow_succ (1 - 1001 / 1000 / 2 ^ 53 : ℝ) k]
    have e : (1 - 1001 / 1000 / 2 ^ 53 : ℝ) ^ k * (1 - 1001 / 1000 / 2 ^ 53) * y = (1 - 1001 / 1000 / 2 ^ 53) *
      ((1 - 1001 / 1000 / 2 ^ 53 : ℝ) ^ k * y) := by ring
    rw [e]
    refine a.trans ?_
    norm_num at l hη ⊢
    linarith
  · have a := mul_le_mul_of_nonneg_left h3 q
    rw [pow_succ (1 + 1001 / 1000 / 2 ^ 53 : ℝ) k]
    have e : (1 + 1001 / 1000 / 2 ^ 53 : ℝ) ^ k * (1 + 1001 / 1000 / 2 ^ 53) * y = (1 + 1001 / 1000 / 2 ^ 53) *
      ((1 + 1001 / 1000 / 2 ^ 53 : ℝ) ^ k * y) := by ring
    rw [e]
    refine le_trans ?_ a
    norm_num at u hη ⊢
    linarith

/-- A lower bound from a lower bound. -/
theorem Scaled.low {k : ℕ} {x y b : ℝ} (h : Scaled k x y) (hk : k ≤ 10) (hb : 2 * b ≤ y) (hb0 : 0 ≤ b) : b ≤ x := by
  refine le_trans ?_ h.2.1
  have h1 : (1 / 2 : ℝ) ≤ (1 - 1001 / 1000 / 2 ^ 53) ^ k := by
    calc (1 / 2 : ℝ) ≤ (1 - 1001 / 1000 / 2 ^ 53) ^ 10 := by norm_num
      _ ≤ _ := pow_le_pow_of_le_one (by norm_num) (by norm_num) hk
  have := mul_le_mul h1 hb (by linarith) (by positivity)
  linarith

/-- Without rounding these are the moments of inertia of the model. -/
theorem inertia_exact (rad mass : ℝ) (dims : V2) :
    fcircleInertia .exact rad mass = circleInertia rad mass ∧ frectInertia .exact dims mass = rectInertia dims mass := ⟨rfl, rfl⟩

theorem tiny {n k : ℕ} (h : k + 1 ≤ n) : 2 * ((1 : ℝ) / 2 ^ n) ≤ (1 / 2) ^ k := by
  obtain ⟨d, rfl⟩ := Nat.exists_eq_add_of_le h
  rw [one_div_pow, pow_add, pow_succ]
  have hd : (1 : ℝ) ≤ 2 ^ d := one_le_pow₀ (by norm_num)
  have hp : (0 : ℝ) < 2 ^ k := by positivity
  rw [show 2 * (1 / (2 ^ k * 2 * 2 ^ d)) = 1 / 2 ^ k * (1 / (2 : ℝ) ^ d) by field_simp]
  have : (1 : ℝ) / 2 ^ d ≤ 1 := by rw [div_le_one (by positivity)]; exact hd
  nlinarith [show (0 : ℝ) < 1 / 2 ^ k by positivity]

theorem usual_pow {x : ℝ} (h : UsualSize x) : 0 < x ∧ (1 / 2 : ℝ) ^ 200 ≤ x :=
  ⟨lt_of_lt_of_le (by positivity) h.1, by rw [one_div_pow]; exact h.1⟩

/-- C140: the moment of inertia of a disc is right up to four units of `2^-53`, and positive. -/
theorem C140_circle (h : DoubleArith A) {rad mass : ℝ} (hr : UsualSize rad) (hm : UsualSize mass) :
    RelWithin (4 / 2 ^ 53) (fcircleInertia A rad mass) (discMoment rad mass) ∧ 0 < fcircleInertia A rad mass := by
  obtain ⟨r0, r1⟩ := usual_pow hr
  obtain ⟨m0, m1⟩ := usual_pow hm
  have l1 : (1 / 2 : ℝ) ^ 400 ≤ mass * rad := by
    rw [show (400 : ℕ) = 200 + 200 by norm_num, pow_add]
    exact mul_le_mul m1 r1 (by positivity) m0.le
  have l2 : (1 / 2 : ℝ) ^ 600 ≤ mass * rad * rad := by
    rw [show (600 : ℕ) = 400 + 200 by norm_num, pow_add]
    exact mul_le_mul l1 r1 (by positivity) (by positivity)
  have l3 : (1 / 2 : ℝ) ^ 601 ≤ mass * rad * rad / 2 := by
    rw [show (601 : ℕ) = 600 + 1 by norm_num, pow_succ]
    generalize ((1 : ℝ) / 2) ^ 600 = c at *
    linarith
  have s1 := (scaled_refl m0).mul (scaled_refl r0)
  have s2 := s1.round h.nearest (s1.low (by norm_num) ((tiny (n := 1000) (k := 400) (by norm_num)).trans l1) (by positivity))
  have s3 := s2.mul (scaled_refl r0)
  have s4 := s3.round h.nearest (s3.low (by norm_num) ((tiny (n := 1000) (k := 600) (by norm_num)).trans l2) (by positivity))
  have s5 := s4.div (show (0 : ℝ) < 2 by norm_num)
  have s6 := s5.round h.nearest (s5.low (by norm_num) ((tiny (n := 1000) (k := 601) (by norm_num)).trans l3) (by positivity))
  obtain ⟨p, a, b⟩ := s6
  have e : discMoment rad mass = mass * rad * rad / 2 := by unfold discMoment; ring
  unfold RelWithin
  rw [e]
  change _ ≤ fcircleInertia A rad mass at a
  change fcircleInertia A rad mass ≤ _ at b
  generalize mass * rad * rad / 2 = y at *
  norm_num at a b ⊢
  refine ⟨abs_le.2 ⟨by linarith, by linarith⟩, by linarith⟩

/-- C140: that of a rectangle up to six. -/
theorem C140_rect (h : DoubleArith A) {a b mass : ℝ} (ha : UsualSize a) (hb : UsualSize b) (hm : UsualSize mass) :
    RelWithin (6 / 2 ^ 53) (frectInertia A (a, b) mass) (boxMoment a b mass) ∧ 0 < frectInertia A (a, b) mass := by
  obtain ⟨a0, a1⟩ := usual_pow ha
  obtain ⟨b0, b1⟩ := usual_pow hb
  obtain ⟨m0, m1⟩ := usual_pow hm
  have sq (x : ℝ) (x0 : 0 < x) (x1 : (1 / 2 : ℝ) ^ 200 ≤ x) : (1 / 2 : ℝ) ^ 400 ≤ x ^ 2 := by
    rw [show (400 : ℕ) = 200 * 2 by norm_num, pow_mul]
    exact pow_le_pow_left₀ (by positivity) x1 2
  have la := sq a a0 a1
  have lb := sq b b0 b1
  have lab : (1 / 2 : ℝ) ^ 400 ≤ a ^ 2 + b ^ 2 := by linarith [sq_nonneg b]
  have l2 : (1 / 2 : ℝ) ^ 600 ≤ mass * (a ^ 2 + b ^ 2) := by
    rw [show (600 : ℕ) = 200 + 400 by norm_num, pow_add]
    exact mul_le_mul m1 lab (by positivity) m0.le
  have l3 : (1 / 2 : ℝ) ^ 604 ≤ mass * (a ^ 2 + b ^ 2) / 12 := by
    rw [show (604 : ℕ) = 600 + 4 by norm_num, pow_add]
    have : (0 : ℝ) ≤ (1 / 2) ^ 600 := by positivity
    generalize ((1 : ℝ) / 2) ^ 600 = c at *
    norm_num
    linarith
  have sa := (scaled_refl (show 0 < a ^ 2 by positivity)).round h.nearest
    ((scaled_refl (show 0 < a ^ 2 by positivity)).low (by norm_num) ((tiny (n := 1000) (k := 400) (by norm_num)).trans la) (by positivity))
  have sb := (scaled_refl (show 0 < b ^ 2 by positivity)).round h.nearest
    ((scaled_refl (show 0 < b ^ 2 by positivity)).low (by norm_num) ((tiny (n := 1000) (k := 400) (by norm_num)).trans lb) (by positivity))
  have s1 := sa.add sb
  have s2 := s1.round h.nearest (s1.low (by norm_num) ((tiny (n := 1000) (k := 400) (by norm_num)).trans lab) (by positivity))
  have s3 := (scaled_refl m0).mul s2
  have s4 := s3.round h.nearest (s3.low (by norm_num) ((tiny (n := 1000) (k := 600) (by norm_num)).trans l2) (by positivity))
  have s5 := s4.div (show (0 : ℝ) < 12 by norm_num)
  have s6 := s5.round h.nearest (s5.low (by norm_num) ((tiny (n := 1000) (k := 604) (by norm_num)).trans l3) (by positivity))
  obtain ⟨p, u, v⟩ := s6
  unfold RelWithin boxMoment
  change _ ≤ frectInertia A (a, b) mass at u
  change frectInertia A (a, b) mass ≤ _ at v
  generalize mass * (a ^ 2 + b ^ 2) / 12 = y at *
  norm_num at u v ⊢
  refine ⟨abs_le.2 ⟨by linarith, by linarith⟩, by linarith⟩

/-- C140: so the moments may be used in C135: they are not above `2^1000`. -/
theorem C140_moderate (h : DoubleArith A) {rad mass : ℝ} (hr : UsualSize rad) (hm : UsualSize mass) : fcircleInertia A rad mass ≤ 2 ^ 1000 := by
  obtain ⟨h1, -⟩ := C140_circle h hr hm
  obtain ⟨r0, -⟩ := usual_pow hr
  obtain ⟨m0, -⟩ := usual_pow hm
  have h2 := (abs_le.1 h1).2
  have h3 : discMoment rad mass ≤ 2 ^ 600 / 2 := by
    unfold discMoment
    have : mass * rad ^ 2 ≤ 2 ^ 200 * (2 ^ 200) ^ 2 := mul_le_mul hm.2 (pow_le_pow_left₀ r0.le hr.2 2) (by positivity) (by positivity)
    have e : (2 : ℝ) ^ 200 * (2 ^ 200) ^ 2 = 2 ^ 600 := by rw [← pow_mul, ← pow_add]
    rw [e] at this
    linarith
  have h4 : (2 : ℝ) ^ 600 ≤ 2 ^ 1000 := pow_le_pow_right₀ (by norm_num) (by norm_num)
  have h5 : 0 < discMoment rad mass := by unfold discMoment; positivity
  generalize (2 : ℝ) ^ 1000 = T at *
  generalize (2 : ℝ) ^ 600 = S at *
  norm_num at h2
  linarith

/-- A ball of radius 30 and a plank of 900 by 10 (demos/demo.py:130-135), mass one. -/
example : RelWithin (4 / 2 ^ 53) (fcircleInertia (doubleOf rne) 30 1) 450 ∧ RelWithin (6 / 2 ^ 53) (frectInertia (doubleOf rne) (900, 10) 1) (202525 / 3) := by
  have us (x : ℝ) (h1 : 1 ≤ x) (h2 : x ≤ 1000) : UsualSize x :=
    ⟨le_trans (by rw [div_le_one (by positivity)]; exact one_le_pow₀ (by norm_num)) h1,
      h2.trans (le_trans (by norm_num : (1000 : ℝ) ≤ 2 ^ 10) (pow_le_pow_right₀ (by norm_num) (by norm_num)))⟩
  have c := (C140_circle (rounded_arith rne_nearest) (us 30 (by norm_num) (by norm_num)) (us 1 le_rfl (by norm_num))).1
  have r := (C140_rect (rounded_arith rne_nearest) (us 900 (by norm_num) (by norm_num)) (us 10 (by norm_num) (by norm_num))
    (us 1 le_rfl (by norm_num))).1
  rw [show discMoment 30 1 = 450 by norm_num [discMoment]] at c
  rw [show boxMoment 900 10 1 = 202525 / 3 by norm_num [boxMoment]] at r
  exact ⟨c, r⟩

end LcpPhysics
