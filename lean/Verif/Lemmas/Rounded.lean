import Verif.Lemmas.Double
import Verif.Lemmas.Bodies
import Verif.Spec.Rounded
import Mathlib.Analysis.Complex.Trigonometric
import Mathlib.Analysis.SpecialFunctions.Trigonometric.Bounds

/-! # Rounding errors of rotations -/

noncomputable section

namespace LcpPhysics
open Spec Rounded

variable {A : Arith}

/-- The error of rounding any number. -/
theorem any_error {rnd : ℝ → ℝ} (hr : Nearest rnd) (x : ℝ) : |rnd x - x| ≤ 1 / 2 ^ 53 * |x| + 1 / 2 ^ 1074 := by
  set p : ℝ := (2 : ℝ) ^ (-1074 : ℤ) with hp
  have hp0 : 0 < p := by positivity
  have hpe : p = 1 / 2 ^ 1074 := by rw [hp, zpow_neg, one_div]; norm_cast
  set z := roundEven (x / p)
  have h1 : |(z : ℝ) * p - x| ≤ p / 2 := by
    have := roundEven_half (x / p)
    have e : (z : ℝ) * p - x = (z - x / p) * p := by field_simp
    rw [e, abs_mul, abs_of_pos hp0]
    nlinarith
  obtain ⟨y, hy, h2⟩ := near_rep (z * p) ⟨z, rfl⟩
  have h3 := (hr x).2 y hy
  have h4 : |(z : ℝ) * p| ≤ |x| + p / 2 := by
    have := abs_sub_abs_le_abs_sub ((z : ℝ) * p) x
    linarith
  have h5 : |y - x| ≤ |y - z * p| + |(z : ℝ) * p - x| := abs_sub_le _ _ _
  have hu : (0 : ℝ) < 1 / 2 ^ 53 := by positivity
  have hu1 : (1 : ℝ) / 2 ^ 53 ≤ 1 := by norm_num
  rw [← hpe]
  nlinarith

/-- The error of a sum of two rounded products. -/
theorem dot_error {rnd : ℝ → ℝ} (hr : Nearest rnd) (c s x y : ℝ) :
    |rnd (rnd (c * x) + rnd (s * y)) - (c * x + s * y)| ≤ (2 / 2 ^ 53 + 1 / 2 ^ 106) * (|c * x| + |s * y|) + 3 / 2 ^ 1074 := by
  have h1 := any_error hr (c * x)
  have h2 := any_error hr (s * y)
  have h3 := add_error hr (hr (c * x)).1 (hr (s * y)).1
  set P := rnd (c * x)
  set Q := rnd (s * y)
  have hu : (0 : ℝ) < 1 / 2 ^ 53 := by positivity
  have ht : (0 : ℝ) < 1 / 2 ^ 1074 := by positivity
  have e1 : |P + Q| ≤ |c * x| + |s * y| + (|P - c * x| + |Q - s * y|) := by
    have : P + Q = (c * x + s * y) + ((P - c * x) + (Q - s * y)) := by ring
    rw [this]
    refine (abs_add_le _ _).trans ?_
    exact add_le_add (abs_add_le _ _) (abs_add_le _ _)
  have e2 : |rnd (P + Q) - (c * x + s * y)| ≤ |rnd (P + Q) - (P + Q)| + (|P - c * x| + |Q - s * y|) := by
    have : rnd (P + Q) - (c * x + s * y) = (rnd (P + Q) - (P + Q)) + ((P - c * x) + (Q - s * y)) := by ring
    rw [this]
    exact (abs_add_le _ _).trans (add_le_add le_rfl (abs_add_le _ _))
  set S := |c * x| + |s * y|
  have hE : |P - c * x| + |Q - s * y| ≤ 1 / 2 ^ 53 * S + 2 * (1 / 2 ^ 1074) := by
    have : (1 : ℝ) / 2 ^ 53 * S = 1 / 2 ^ 53 * |c * x| + 1 / 2 ^ 53 * |s * y| := by ring
    linarith
  have hS : 0 ≤ S := by positivity
  have e3 : |rnd (P + Q) - (P + Q)| ≤ 1 / 2 ^ 53 * (S + (1 / 2 ^ 53 * S + 2 * (1 / 2 ^ 1074))) :=
    h3.trans (mul_le_mul_of_nonneg_left (e1.trans (by linarith)) hu.le)
  have e4 : (1 : ℝ) / 2 ^ 53 * (S + (1 / 2 ^ 53 * S + 2 * (1 / 2 ^ 1074))) =
      (1 / 2 ^ 53 + 1 / 2 ^ 106) * S + 2 / 2 ^ 53 * (1 / 2 ^ 1074) := by ring
  have e5 : (2 : ℝ) / 2 ^ 53 * (1 / 2 ^ 1074) ≤ 1 / 2 ^ 1074 := by
    have : (2 : ℝ) / 2 ^ 53 ≤ 1 := by norm_num
    nlinarith
  have e6 : (2 / 2 ^ 53 + 1 / 2 ^ 106 : ℝ) * S + 3 / 2 ^ 1074 = (1 / 2 ^ 53 + 1 / 2 ^ 106) * S + 1 / 2 ^ 1074 + (1 / 2 ^ 53 * S + 2 * (1 / 2 ^ 1074)) := by
    ring
  rw [e6]
  linarith

theorem sum_le_len (v : V2) : |v.1| + |v.2| ≤ 3 / 2 * len v := by
  have h0 := len_nonneg v
  have h1 : len v ^ 2 = v.1 ^ 2 + v.2 ^ 2 := by rw [len_sq]; simp [Spec.inner, sq]
  apply abs_le_of_sq_le_sq' _ (by positivity) |>.2
  nlinarith [sq_abs v.1, sq_abs v.2, sq_nonneg (|v.1| - |v.2|)]

theorem trig_sum (a : ℝ) : |Real.cos a| + |Real.sin a| ≤ 3 / 2 := by
  have := Real.cos_sq_add_sin_sq a
  apply abs_le_of_sq_le_sq' _ (by norm_num) |>.2
  nlinarith [sq_abs (Real.cos a), sq_abs (Real.sin a), sq_nonneg (|Real.cos a| - |Real.sin a|)]

theorem len_le_sum (v : V2) : len v ≤ |v.1| + |v.2| := by
  apply abs_le_of_sq_le_sq' _ (by positivity) |>.2
  rw [len_sq]
  simp only [Spec.inner]
  nlinarith [sq_abs v.1, sq_abs v.2, mul_nonneg (abs_nonneg v.1) (abs_nonneg v.2)]

theorem turn_scalar {u C S x y L E1 E2 t : ℝ} (hu : 0 ≤ u) (hu1 : u ≤ 1 / 100) (hC : C + S ≤ 3 / 2 + 4 * u) (hC0 : 0 ≤ C + S)
    (hx : 0 ≤ x) (hy : 0 ≤ y)
    (hL : x + y ≤ 3 / 2 * L) (h1 : E1 ≤ (2 * u + u ^ 2) * (C * x + S * y) + 3 * t + 2 * u * (x + y))
    (h2 : E2 ≤ (2 * u + u ^ 2) * (S * x + C * y) + 3 * t + 2 * u * (x + y)) : E1 + E2 ≤ 11 * u * L + 6 * t := by
  have hL0 : 0 ≤ L := by linarith
  have e : E1 + E2 ≤ (2 * u + u ^ 2) * ((C + S) * (x + y)) + 6 * t + 4 * u * (x + y) := by nlinarith
  have e1 : (C + S) * (x + y) ≤ (3 / 2 + 4 * u) * (3 / 2 * L) := mul_le_mul hC hL (by linarith) (by linarith)
  have e2 : (3 / 2 + 4 * u) * (3 / 2 * L) ≤ 2.31 * L := by nlinarith
  have e3 : (2 * u + u ^ 2) * ((C + S) * (x + y)) ≤ (2.01 * u) * (2.31 * L) := by
    apply mul_le_mul _ (e1.trans e2) (mul_nonneg hC0 (by linarith)) (by linarith)
    nlinarith
  have e4 : 4 * u * (x + y) ≤ 4 * u * (3 / 2 * L) := mul_le_mul_of_nonneg_left hL (by linarith)
  have := mul_nonneg hu hL0
  nlinarith

/-- The error of a rounded rotation. -/
theorem turn_error (h : DoubleArith A) (a : ℝ) (v : V2) : len (turn A a v - rot a v) ≤ 11 / 2 ^ 53 * len v + 1 / 2 ^ 1071 := by
  obtain ⟨x, y⟩ := v
  have hc := h.cos a
  have hs := h.sin a
  have h1 := dot_error h.nearest (A.fcos a) (-A.fsin a) x y
  have h2 := dot_error h.nearest (A.fsin a) (A.fcos a) x y
  set c := A.fcos a
  set s := A.fsin a
  have hu52 : (1 : ℝ) / 2 ^ 52 = 2 * (1 / 2 ^ 53) := by norm_num
  have hu106 : (2 : ℝ) / 2 ^ 53 + 1 / 2 ^ 106 = 2 * (1 / 2 ^ 53) + (1 / 2 ^ 53) ^ 2 := by norm_num
  rw [hu52] at hc hs
  rw [hu106] at h1 h2
  have hu0 : (0 : ℝ) ≤ 1 / 2 ^ 53 := by positivity
  have hu1 : (1 : ℝ) / 2 ^ 53 ≤ 1 / 100 := by norm_num
  have ht : (1 : ℝ) / 2 ^ 1071 = 8 * (1 / 2 ^ 1074) := by
    rw [show (1074 : ℕ) = 3 + 1071 from rfl, pow_add]; field_simp; norm_num
  have ht0 : (0 : ℝ) < 1 / 2 ^ 1074 := by positivity
  have h3 : (3 : ℝ) / 2 ^ 1074 = 3 * (1 / 2 ^ 1074) := by ring
  have h11 : (11 : ℝ) / 2 ^ 53 = 11 * (1 / 2 ^ 53) := by ring
  rw [h3] at h1 h2
  rw [h11, ht]
  generalize (1 : ℝ) / 2 ^ 53 = u at *
  generalize (1 : ℝ) / 2 ^ 1074 = t at *
  refine (len_le_sum _).trans ?_
  have hcs : |c| + |s| ≤ 3 / 2 + 4 * u := by
    have := trig_sum a
    have := abs_sub_abs_le_abs_sub c (Real.cos a)
    have := abs_sub_abs_le_abs_sub s (Real.sin a)
    linarith
  have k1 : |(turn A a (x, y) - rot a (x, y)).1| ≤ (2 * u + u ^ 2) * (|c| * |x| + |s| * |y|) + 3 * t + 2 * u * (|x| + |y|) := by
    have e : (turn A a (x, y) - rot a (x, y)).1 = (A.rnd (A.rnd (c * x) + A.rnd (-s * y)) - (c * x + -s * y)) +
        ((c - Real.cos a) * x + -((s - Real.sin a) * y)) := by
      simp only [turn, rot, Prod.fst_sub]; ring
    rw [e]
    refine (abs_add_le _ _).trans (add_le_add ?_ ((abs_add_le _ _).trans ?_))
    · rw [abs_mul, abs_mul, abs_neg] at h1; exact h1
    · rw [abs_neg, abs_mul, abs_mul]
      nlinarith [abs_nonneg x, abs_nonneg y, mul_le_mul_of_nonneg_right hc (abs_nonneg x), mul_le_mul_of_nonneg_right hs (abs_nonneg y)]
  have k2 : |(turn A a (x, y) - rot a (x, y)).2| ≤ (2 * u + u ^ 2) * (|s| * |x| + |c| * |y|) + 3 * t + 2 * u * (|x| + |y|) := by
    have e : (turn A a (x, y) - rot a (x, y)).2 = (A.rnd (A.rnd (s * x) + A.rnd (c * y)) - (s * x + c * y)) +
        ((s - Real.sin a) * x + (c - Real.cos a) * y) := by
      simp only [turn, rot, Prod.snd_sub]; ring
    rw [e]
    refine (abs_add_le _ _).trans (add_le_add ?_ ((abs_add_le _ _).trans ?_))
    · rw [abs_mul, abs_mul] at h2; exact h2
    · rw [abs_mul, abs_mul]
      nlinarith [abs_nonneg x, abs_nonneg y, mul_le_mul_of_nonneg_right hc (abs_nonneg y), mul_le_mul_of_nonneg_right hs (abs_nonneg x)]
  have := turn_scalar hu0 hu1 hcs (by positivity) (abs_nonneg x) (abs_nonneg y) (sum_le_len (x, y)) k1 k2
  linarith

theorem rot_angle_near (a b : ℝ) (v : V2) : len (rot a v - rot b v) ≤ |a - b| * len v := by
  have h0 := len_nonneg v
  apply abs_le_of_sq_le_sq' _ (by positivity) |>.2
  rw [mul_pow, sq_abs, len_sq, len_sq]
  have e : Spec.inner (rot a v - rot b v) (rot a v - rot b v) = (2 - 2 * Real.cos (a - b)) * Spec.inner v v := by
    have h1 := Real.cos_sq_add_sin_sq a
    have h2 := Real.cos_sq_add_sin_sq b
    rw [Real.cos_sub]
    simp only [Spec.inner, rot, Prod.fst_sub, Prod.snd_sub]
    linear_combination (v.1 * v.1 + v.2 * v.2) * (h1 + h2)
  rw [e]
  apply mul_le_mul_of_nonneg_right _ (inner_self_nonneg v)
  have := Real.one_sub_sq_div_two_le_cos (x := a - b)
  linarith

/-- What `set_p` does to one vertex. -/
def turnedV (A : Arith) (d : ℝ) (v : V2) : V2 := if A.rnd d ≠ 0 then turn A (A.rnd d) v else v

/-- Its error. -/
theorem turned_error (h : DoubleArith A) {d : ℝ} (hd : |A.rnd d - d| ≤ 1 / 2 ^ 53 * |d|) (v : V2) :
    len (turnedV A d v - rot d v) ≤ (11 / 2 ^ 53 + 1 / 2 ^ 53 * |d|) * len v + 1 / 2 ^ 1071 := by
  have h0 := len_nonneg v
  unfold turnedV
  split_ifs with hz
  · have h1 := turn_error h (A.rnd d) v
    have h2 := rot_angle_near (A.rnd d) d v
    have h3 := len_add_le (turn A (A.rnd d) v - rot (A.rnd d) v) (rot (A.rnd d) v - rot d v)
    rw [sub_add_sub_cancel] at h3
    have h4 := mul_le_mul_of_nonneg_right hd h0
    rw [add_mul]
    linarith
  · push Not at hz
    rw [hz, zero_sub, abs_neg] at hd
    have : d = 0 := by
      by_contra hne
      have := abs_pos.mpr hne
      have : (1 : ℝ) / 2 ^ 53 < 1 := by norm_num
      nlinarith
    rw [this, rot_zero, sub_self]
    have : len (0 : V2) = 0 := by simp [len]
    rw [this]
    positivity

/-- Two lists of vertices: the second is the first turnedV by `d`, up to the error of one call. -/
def Turned (d : ℝ) (vs ws : List V2) : Prop :=
  List.Forall₂ (fun v w => len (w - rot d v) ≤ (11 / 2 ^ 53 + 1 / 2 ^ 53 * |d|) * len v + 1 / 2 ^ 1071) vs ws

theorem turned_self (vs : List V2) : Turned 0 vs vs := by
  refine List.forall₂_same.mpr fun v _ => ?_
  have h0 := len_nonneg v
  have : len (0 : V2) = 0 := by simp [len]
  rw [rot_zero, sub_self, this]
  positivity

theorem setP_p (b : Body) (q : V3) : (setP A b q).p = q := by
  unfold setP; cases b.shape <;> rfl

theorem setP_v (b : Body) (q : V3) : (setP A b q).v = b.v := by
  unfold setP; cases b.shape <;> rfl

theorem setP_rectForm (b : Body) (q : V3) (h : b.RectForm) : (setP A b q).RectForm := by
  unfold setP Body.RectForm at *
  cases hs : b.shape with
  | circle r => simp [Body.baseSetP, hs]
  | hull vs => simp [Body.baseSetP]
  | rect d vs =>
    rw [hs] at h
    obtain ⟨v0, v1, rfl⟩ := h
    simp only [Body.baseSetP]
    split_ifs with h0
    · exact ⟨_, _, rfl⟩
    · exact ⟨_, _, rfl⟩

theorem setP_turned (h : DoubleArith A) (b : Body) (q : V3) (hf : b.RectForm) (hp : Rep b.p.r) (hq : Rep q.r) :
    Turned (q.r - b.p.r) b.verts (setP A b q).verts := by
  have hd : |A.rnd (q.r - b.p.r) - (q.r - b.p.r)| ≤ 1 / 2 ^ 53 * |q.r - b.p.r| := by
    have := add_error h.nearest hq (rep_neg hp)
    rwa [← sub_eq_add_neg] at this
  have key := fun v => turned_error h hd v
  unfold setP Body.verts Body.RectForm at *
  cases hs : b.shape with
  | circle r => simp [Body.baseSetP, hs, Turned]
  | hull vs =>
    simp only [Body.baseSetP, Turned]
    have e : (if A.rnd (q.r - b.p.r) ≠ 0 then hullTurn A (A.rnd (q.r - b.p.r)) vs else vs) = vs.map (turnedV A (q.r - b.p.r)) := by
      unfold turnedV
      split_ifs with h0
      · rfl
      · simp
    rw [e, List.forall₂_map_right_iff]
    exact List.forall₂_same.mpr fun v _ => key v
  | rect d vs =>
    rw [hs] at hf
    obtain ⟨v0, v1, rfl⟩ := hf
    simp only [Body.baseSetP, Turned]
    have e : (if A.rnd (q.r - b.p.r) ≠ 0 then rectTurn A (A.rnd (q.r - b.p.r)) [v0, v1, -v0, -v1] else [v0, v1, -v0, -v1]) =
        [turnedV A (q.r - b.p.r) v0, turnedV A (q.r - b.p.r) v1, -turnedV A (q.r - b.p.r) v0, -turnedV A (q.r - b.p.r) v1] := by
      unfold turnedV
      split_ifs with h0 <;> rfl
    rw [e]
    have neg : ∀ v, len (-turnedV A (q.r - b.p.r) v - rot (q.r - b.p.r) (-v)) ≤
        (11 / 2 ^ 53 + 1 / 2 ^ 53 * |q.r - b.p.r|) * len (-v) + 1 / 2 ^ 1071 := by
      intro v
      rw [rot_map_neg, len_neg, ← neg_sub', len_neg]
      exact key v
    exact .cons (key v0) (.cons (key v1) (.cons (neg v0) (.cons (neg v1) .nil)))

theorem moved_rep (h : DoubleArith A) (p v : V3) (dt : ℝ) : RepPose (moved A p v dt) :=
  ⟨(h.nearest _).1, (h.nearest _).1, (h.nearest _).1⟩

theorem op_rep (h : DoubleArith A) (b : Body) (o : BodyOp) (ho : ∀ q, o = .setP q → RepPose q) (hp : RepPose b.p) : RepPose (op A b o).p := by
  cases o with
  | setP q => simp only [op, setP_p]; exact ho q rfl
  | move dt => simp only [op, move, setP_p]; exact moved_rep h _ _ _
  | setV v => exact hp

theorem op_rectFormR (b : Body) (o : BodyOp) (h : b.RectForm) : (op A b o).RectForm := by
  cases o with
  | setP q => exact setP_rectForm b q h
  | move dt => exact setP_rectForm b _ h
  | setV v => exact h

theorem op_turned (h : DoubleArith A) (b : Body) (o : BodyOp) (ho : ∀ q, o = .setP q → RepPose q) (hf : b.RectForm) (hp : RepPose b.p) :
    Turned ((op A b o).p.r - b.p.r) b.verts (op A b o).verts := by
  cases o with
  | setP q => simp only [op, setP_p]; exact setP_turned h b q hf hp.1 (ho q rfl).1
  | move dt => simp only [op, move, setP_p]; exact setP_turned h b _ hf hp.1 (moved_rep h _ _ _).1
  | setV v => simp only [op, sub_self]; exact turned_self _

theorem turning_nonneg (b : Body) (ops : List BodyOp) : 0 ≤ turning A b ops := by
  induction ops generalizing b with
  | nil => exact le_rfl
  | cons o os ih => exact add_nonneg (abs_nonneg _) (ih _)

/-- The recurrence of the drift. -/
theorem drift_scalar {R L d κ η E E' x : ℝ} {n : ℕ} (hR : 0 ≤ R) (hη : 0 ≤ η) (hκ : 0 ≤ κ) (hE : 1 ≤ E') (hd : d ≤ κ * R + η) (hL : L ≤ R + d)
    (hx : x ≤ (L + n * η) * E' - L) (hEE : (1 + κ) * E' ≤ E) : x + d ≤ (R + (n + 1) * η) * E - R := by
  have hE0 : 0 ≤ E' - 1 := by linarith
  have h1 : L * (E' - 1) ≤ (R + d) * (E' - 1) := mul_le_mul_of_nonneg_right hL hE0
  have h2 : (R + d) * E' ≤ (R + (κ * R + η)) * E' := by nlinarith
  have h3 : (R + (κ * R + η) + n * η) * E' ≤ (R + (n + 1) * η) * ((1 + κ) * E') := by
    have : 0 ≤ κ * ((n + 1) * η) * E' := by positivity
    nlinarith
  have h4 : (R + (n + 1) * η) * ((1 + κ) * E') ≤ (R + (n + 1) * η) * E := mul_le_mul_of_nonneg_left hEE (by positivity)
  nlinarith

theorem run_drift (h : DoubleArith A) (b : Body) (ops : List BodyOp) (ho : RepOps ops) (hf : b.RectForm) (hp : RepPose b.p) :
    List.Forall₂ (fun v w => len (w - rot ((run A b ops).p.r - b.p.r) v) ≤ driftBound (len v) ops.length (turning A b ops))
      b.verts (run A b ops).verts := by
  induction ops generalizing b with
  | nil =>
    refine List.forall₂_same.mpr fun v _ => ?_
    have : len (0 : V2) = 0 := by simp [len]
    simp [run, rot_zero, this, driftBound, turning]
  | cons o os ih =>
    have hs : ∀ q, o = .setP q → RepPose q := fun q e => ho q (by simp [e])
    have h1 := op_turned h b o hs hf hp
    have h2 := ih (op A b o) (fun q hq => ho q (List.mem_cons_of_mem _ hq)) (op_rectFormR b o hf) (op_rep h b o hs hp)
    change List.Forall₂ _ b.verts (run A (op A b o) os).verts
    unfold Turned at h1
    rw [List.forall₂_iff_get] at h1 h2 ⊢
    refine ⟨h1.1.trans h2.1, fun i hi hj => ?_⟩
    have k1 := h1.2 i hi (h1.1 ▸ hi)
    have k2 := h2.2 i (h1.1 ▸ hi) hj
    set v := b.verts.get ⟨i, hi⟩
    set w := (op A b o).verts.get ⟨i, h1.1 ▸ hi⟩
    set x := (run A (op A b o) os).verts.get ⟨i, hj⟩
    set d := (op A b o).p.r - b.p.r
    set e := (run A (op A b o) os).p.r - (op A b o).p.r
    have he : (run A b (o :: os)).p.r - b.p.r = d + e := by simp only [d, e]; change (run A (op A b o) os).p.r - _ = _; ring
    rw [he, ← rot_add]
    have t1 : len (x - rot e (rot d v)) ≤ len (x - rot e w) + len (w - rot d v) := by
      have := len_add_le (x - rot e w) (rot e w - rot e (rot d v))
      rwa [sub_add_sub_cancel, ← rot_map_sub, rot_len] at this
    refine t1.trans ?_
    have hT := turning_nonneg (A := A) (op A b o) os
    unfold driftBound at k2 ⊢
    have hlen : len w ≤ len v + len (w - rot d v) := by
      have := len_add_le (rot d v) (w - rot d v)
      rwa [add_sub_cancel, rot_len] at this
    have hu : (0 : ℝ) ≤ 1 / 2 ^ 53 := by positivity
    rw [List.length_cons]
    push_cast
    refine drift_scalar (len_nonneg v) (by positivity) (by positivity) (Real.one_le_exp (by positivity)) k1 hlen k2 ?_
    rw [turning]
    have hex : 1 + (11 / 2 ^ 53 + 1 / 2 ^ 53 * |d|) ≤ Real.exp (11 / 2 ^ 53 + 1 / 2 ^ 53 * |d|) := by
      linarith [Real.add_one_le_exp ((11 / 2 ^ 53 + 1 / 2 ^ 53 * |d|) : ℝ)]
    refine (mul_le_mul_of_nonneg_right hex (Real.exp_pos _).le).trans_eq ?_
    rw [← Real.exp_add]
    congr 1
    ring

end LcpPhysics
