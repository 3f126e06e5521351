import Verif.Lemmas.RoundedContact
import Verif.Props.RoundedWorld

/-! # C134: the contact of two circles in double precision -/

noncomputable section

namespace LcpPhysics
open Spec Rounded

variable {A : Arith}

/-- C134: what is computed without rounding is the contact of the model in exact arithmetic. -/
theorem C134_exact (eps r1 r2 : ℝ) (c1 c2 : V2) : circleContact .exact eps r1 r2 c1 c2 = circleCircle eps r1 r2 c1 c2 := by
  have hn : fnorm .exact (fdiff .exact c1 c2) = nrm (c1 - c2) := rfl
  have hp : circlePen .exact r1 r2 c1 c2 = r1 + r2 - nrm (c1 - c2) := rfl
  unfold circleContact circleCircle
  simp only [hp, hn]
  split
  · rfl
  · have hd : fdir .exact c1 c2 = (1 / nrm (c1 - c2)) • (c1 - c2) := by
      apply Prod.ext
      · change (c1.1 - c2.1) / nrm (c1 - c2) = 1 / nrm (c1 - c2) * (c1.1 - c2.1)
        ring
      · change (c1.2 - c2.2) / nrm (c1 - c2) = 1 / nrm (c1 - c2) * (c1.2 - c2.2)
        ring
    have hf : ∀ r P, farm .exact r P = r - P / 2 := fun _ _ => rfl
    have hi : ∀ x, Arith.exact.rnd x = x := fun _ => rfl
    simp only [hd, hf, hi]
    congr 2
    · apply Prod.ext <;> simp <;> ring
    · apply Prod.ext <;> simp <;> ring

/-- C134: contacts are reported as in the strict worlds of C123, with the same penetration. -/
theorem C134_pens (A : Arith) (nc : ℕ → List ℕ) (eps : ℝ) (bs : List Body) (ps : List (ℕ × ℕ)) :
    pens A nc eps bs ps = ps.flatMap fun p => if p.1 ∈ nc p.2 then []
      else (circleContact A eps (bodyAt bs p.1).rad (bodyAt bs p.2).rad (bodyAt bs p.1).pos (bodyAt bs p.2).pos).map Pt.pen := by
  unfold pens circleContact
  congr 1
  funext p
  split
  · rfl
  · simp only
    split <;> simp

/-- C134: whether a contact is reported is right except within rounding of the margin. -/
theorem C134_reported (h : DoubleArith A) (eps : ℝ) {r1 r2 : ℝ} {c1 c2 : V2} (hr : RepRadii r1 r2) (hc : RepCentres c1 c2) :
    (Spec.dist c1 c2 - (r1 + r2) ≤ eps - (7 / 2 ^ 53 * (r1 + r2 + Spec.dist c1 c2) + 1 / 2 ^ 530) →
      (circleContact A eps r1 r2 c1 c2).length = 1) ∧
    (eps + (7 / 2 ^ 53 * (r1 + r2 + Spec.dist c1 c2) + 1 / 2 ^ 530) < Spec.dist c1 c2 - (r1 + r2) →
      circleContact A eps r1 r2 c1 c2 = []) := by
  have e := abs_le.mp (circlePen_error h hr.rep1 hr.rep2 (add_nonneg hr.nonneg1 hr.nonneg2) hc.x1 hc.y1 hc.x2 hc.y2)
  generalize 7 / 2 ^ 53 * (r1 + r2 + Spec.dist c1 c2) + 1 / 2 ^ 530 = b at e ⊢
  unfold circleContact
  simp only
  constructor
  · intro h1
    rw [if_neg (by linarith)]
    rfl
  · intro h1
    rw [if_pos (by linarith)]

/-- C134: unless the centres are closer than `2^-470`, the reported normal points from the second centre to the first, up to 15 units of
`2^-53`, and nothing is divided by zero. -/
theorem C134_direction (h : DoubleArith A) {eps r1 r2 : ℝ} {c1 c2 : V2} (hc : RepCentres c1 c2) (hf : 1 / 2 ^ 470 ≤ Spec.dist c1 c2)
    {c : Pt} (hm : c ∈ circleContact A eps r1 r2 c1 c2) :
    c.nan = false ∧ Spec.dist c.normal (towards c1 c2) ≤ 15 / 2 ^ 53 ∧ |len c.normal - 1| ≤ 15 / 2 ^ 53 := by
  have hL : 0 < Spec.dist c1 c2 := lt_of_lt_of_le (by positivity) hf
  unfold circleContact at hm
  simp only at hm
  split at hm
  · cases hm
  rw [List.mem_singleton] at hm
  subst hm
  have hN := abs_le.mp (fnorm_far h hc hf)
  have hpos : fnorm A (fdiff A c1 c2) ≠ 0 := by
    have : (6 : ℝ) * (1 / 2 ^ 53) ≤ 1 / 2 := by norm_num
    have := mul_le_mul_of_nonneg_right this hL.le
    intro h0
    rw [h0] at hN
    linarith
  obtain ⟨d1, d2⟩ := fdir_error h hc hf
  have hd : Spec.dist (fdir A c1 c2) (towards c1 c2) ≤ 15 / 2 ^ 53 := by
    refine (len_le_parts (v := fdir A c1 c2 - towards c1 c2) (by positivity) d1 d2).trans ?_
    norm_num
  refine ⟨by simp [hpos], hd, ?_⟩
  have h1 := towards_len hL
  rw [← h1, abs_le]
  have k1 := len_add_le (fdir A c1 c2) (towards c1 c2 - fdir A c1 c2)
  have k2 := len_add_le (towards c1 c2) (fdir A c1 c2 - towards c1 c2)
  rw [add_sub_cancel] at k1 k2
  have k3 : len (towards c1 c2 - fdir A c1 c2) = Spec.dist (fdir A c1 c2) (towards c1 c2) := by
    rw [← len_neg, neg_sub]; rfl
  have k4 : len (fdir A c1 c2 - towards c1 c2) = Spec.dist (fdir A c1 c2) (towards c1 c2) := rfl
  rw [k3] at k1
  rw [k4] at k2
  simp only
  constructor <;> linarith

/-- C134: the two reported points, seen from the two centres, are the middle of the overlap (or of the gap), up to rounding; so they lie
within rounding of one another. -/
theorem C134_points (h : DoubleArith A) {eps r1 r2 : ℝ} {c1 c2 : V2} (hr : RepRadii r1 r2) (hc : RepCentres c1 c2)
    (hf : 1 / 2 ^ 470 ≤ Spec.dist c1 c2) {c : Pt} (hm : c ∈ circleContact A eps r1 r2 c1 c2) :
    Spec.dist (c1 + c.p1) (middle r1 r2 c1 c2) ≤ 18 / 2 ^ 53 * (r1 + r2 + Spec.dist c1 c2) ∧
    Spec.dist (c2 + c.p2) (middle r1 r2 c1 c2) ≤ 18 / 2 ^ 53 * (r1 + r2 + Spec.dist c1 c2) ∧
    Spec.dist (c1 + c.p1) (c2 + c.p2) ≤ 36 / 2 ^ 53 * (r1 + r2 + Spec.dist c1 c2) := by
  have hL : 0 < Spec.dist c1 c2 := lt_of_lt_of_le (by positivity) hf
  have hR := add_nonneg hr.nonneg1 hr.nonneg2
  have hpen := circlePen_error h hr.rep1 hr.rep2 hR hc.x1 hc.y1 hc.x2 hc.y2
  unfold circleContact at hm
  simp only at hm
  split at hm
  · cases hm
  rw [List.mem_singleton] at hm
  subst hm
  simp only
  obtain ⟨d1, d2⟩ := fdir_error h hc hf
  have hlen := towards_len hL
  have hn := abs_le_len (towards c1 c2)
  rw [hlen] at hn
  have hlin : c1 - c2 = Spec.dist c1 c2 • towards c1 c2 := by
    unfold towards
    rw [smul_smul, mul_one_div_cancel hL.ne', one_smul]
  generalize hP : circlePen A r1 r2 c1 c2 = P at *
  generalize hn' : fdir A c1 c2 = n' at *
  generalize hnn : towards c1 c2 = n at *
  have hmid : middle r1 r2 c1 c2 = (1 / 2 : ℝ) • ((c1 - r1 • n) + (c2 + r2 • n)) := by unfold middle; rw [hnn]
  generalize hLL : Spec.dist c1 c2 = L at *
  set S := r1 + r2 + L with hS
  have hS0 : 0 < S := by linarith
  have ht : (1 : ℝ) / 2 ^ 1074 ≤ 1 / 2 ^ 53 * S / 100 := by
    have e1 : (1 : ℝ) / 2 ^ 1074 ≤ 1 / 2 ^ 53 * (1 / 2 ^ 470) / 100 := by
      have e : (2 : ℝ) ^ 1074 = 2 ^ 53 * 2 ^ 470 * 2 ^ 551 := by rw [← pow_add, ← pow_add]
      have e2 : (100 : ℝ) ≤ 2 ^ 551 := le_trans (by norm_num : (100 : ℝ) ≤ 2 ^ 7) (pow_le_pow_right₀ (by norm_num) (by norm_num))
      rw [e]
      have key : ∀ X Y Z : ℝ, 0 < X → 0 < Y → 100 ≤ Z → 1 / (X * Y * Z) ≤ 1 / X * (1 / Y) / 100 := by
        intro X Y Z hX hY hZ
        rw [one_div_mul_one_div, div_div]
        exact one_div_le_one_div_of_le (by positivity) (mul_le_mul_of_nonneg_left hZ (by positivity))
      exact key _ _ _ (by positivity) (by positivity) e2
    have e2 : (1 : ℝ) / 2 ^ 53 * (1 / 2 ^ 470) ≤ 1 / 2 ^ 53 * S := mul_le_mul_of_nonneg_left (by linarith) (by positivity)
    linarith
  have hpen' : |P - (r1 + r2 - L)| ≤ 8 * (1 / 2 ^ 53) * S := by
    refine hpen.trans ?_
    have e1 : (1 : ℝ) / 2 ^ 530 ≤ 1 / 2 ^ 53 * (1 / 2 ^ 470) := by
      rw [one_div_mul_one_div, ← pow_add]
      exact one_div_le_one_div_of_le (by positivity) (pow_le_pow_right₀ (by norm_num) (by norm_num))
    have e2 : (1 : ℝ) / 2 ^ 53 * (1 / 2 ^ 470) ≤ 1 / 2 ^ 53 * S := mul_le_mul_of_nonneg_left (by linarith) (by positivity)
    have e3 : (7 : ℝ) / 2 ^ 53 = 7 * (1 / 2 ^ 53) := by ring
    rw [e3]
    linarith
  have arm : ∀ r, Rep r → 0 ≤ r → r ≤ r1 + r2 → |farm A r P - (r - (r1 + r2 - L) / 2)| ≤ 6 * (1 / 2 ^ 53) * S ∧
      |r - (r1 + r2 - L) / 2| ≤ S / 2 := by
    intro r k1 k2 k3
    have a2 := any_error h.nearest (P / 2)
    have a3 := add_error h.nearest k1 (rep_neg (h.nearest (P / 2)).1)
    rw [← sub_eq_add_neg] at a3
    exact arm_scalar (by positivity) (by norm_num) k2 k3 hL.le hS ht hpen' a2 a3
  obtain ⟨a1, b1⟩ := arm r1 hr.rep1 hr.nonneg1 (by linarith [hr.nonneg2])
  obtain ⟨a2, b2⟩ := arm r2 hr.rep2 hr.nonneg2 (by linarith [hr.nonneg1])
  have neg : ∀ x y : ℝ, |x - y| ≤ 10 * (1 / 2 ^ 53) → |-x - -y| ≤ 10 * (1 / 2 ^ 53) := by
    intro x y hxy
    rwa [show -x - -y = -(x - y) by ring, abs_neg]
  have p1x := point_scalar (by positivity) (by norm_num) hS0.le ht (by rw [abs_neg]; exact hn.1) (neg _ _ d1) a1 b1
    (any_error h.nearest (-n'.1 * farm A r1 P))
  have p1y := point_scalar (by positivity) (by norm_num) hS0.le ht (by rw [abs_neg]; exact hn.2) (neg _ _ d2) a1 b1
    (any_error h.nearest (-n'.2 * farm A r1 P))
  have p2x := point_scalar (by positivity) (by norm_num) hS0.le ht hn.1 d1 a2 b2 (any_error h.nearest (n'.1 * farm A r2 P))
  have p2y := point_scalar (by positivity) (by norm_num) hS0.le ht hn.2 d2 a2 b2 (any_error h.nearest (n'.2 * farm A r2 P))
  have lx : c1.1 - c2.1 = L * n.1 := congrArg Prod.fst hlin
  have ly : c1.2 - c2.2 = L * n.2 := congrArg Prod.snd hlin
  have hconst : (3 : ℝ) / 2 * (12 * (1 / 2 ^ 53) * S) = 18 / 2 ^ 53 * S := by ring
  have q1 : Spec.dist (c1 + (A.rnd (-n'.1 * farm A r1 P), A.rnd (-n'.2 * farm A r1 P))) (middle r1 r2 c1 c2) ≤ 18 / 2 ^ 53 * S := by
    rw [← hconst, hmid]
    refine len_le_parts (by positivity) ?_ ?_
    · refine le_trans (le_of_eq ?_) p1x
      congr 1
      simp
      linear_combination (1 / 2 : ℝ) * lx
    · refine le_trans (le_of_eq ?_) p1y
      congr 1
      simp
      linear_combination (1 / 2 : ℝ) * ly
  have q2 : Spec.dist (c2 + (A.rnd (n'.1 * farm A r2 P), A.rnd (n'.2 * farm A r2 P))) (middle r1 r2 c1 c2) ≤ 18 / 2 ^ 53 * S := by
    rw [← hconst, hmid]
    refine len_le_parts (by positivity) ?_ ?_
    · refine le_trans (le_of_eq ?_) p2x
      congr 1
      simp
      linear_combination (-1 / 2 : ℝ) * lx
    · refine le_trans (le_of_eq ?_) p2y
      congr 1
      simp
      linear_combination (-1 / 2 : ℝ) * ly
  refine ⟨q1, q2, ?_⟩
  have q3 := Spec.dist_triangle (c1 + (A.rnd (-n'.1 * farm A r1 P), A.rnd (-n'.2 * farm A r1 P))) (middle r1 r2 c1 c2)
    (c2 + (A.rnd (n'.1 * farm A r2 P), A.rnd (n'.2 * farm A r2 P)))
  rw [Spec.dist_comm (middle r1 r2 c1 c2)] at q3
  have e3 : (36 : ℝ) / 2 ^ 53 * S = 18 / 2 ^ 53 * S + 18 / 2 ^ 53 * S := by ring
  linarith

/-- C134: distinct centres closer than `2^-538` in each coordinate are taken for one point: the direction is a division by zero. -/
theorem C134_underflow (h : DoubleArith A) {eps r1 r2 : ℝ} (he : 0 ≤ eps) (hr : RepRadii r1 r2) {c1 c2 : V2}
    (hx : |c1.1 - c2.1| ≤ 1 / 2 ^ 538) (hy : |c1.2 - c2.2| ≤ 1 / 2 ^ 538) :
    ∃ c, circleContact A eps r1 r2 c1 c2 = [c] ∧ c.nan = true := by
  have hrep : Rep (1 / 2 ^ 538 : ℝ) := by
    refine ⟨1, -538, ?_, by norm_num, by norm_num⟩
    rw [zpow_neg, one_div, Int.cast_one, one_mul]
    norm_cast
  have small : ∀ x : ℝ, |x| ≤ 1 / 2 ^ 538 → A.rnd (A.rnd x * A.rnd x) = 0 := by
    intro x hx
    obtain ⟨x1, x2⟩ := abs_le.mp hx
    have m1 := nearest_mono h.nearest x2
    have m2 := nearest_mono h.nearest x1
    rw [nearest_id h.nearest hrep] at m1
    rw [nearest_id h.nearest (rep_neg hrep)] at m2
    have m3 : |A.rnd x| ≤ 1 / 2 ^ 538 := abs_le.mpr ⟨m2, m1⟩
    apply rnd_under h
    rw [abs_mul]
    refine (mul_le_mul m3 m3 (abs_nonneg _) (by positivity)).trans_lt ?_
    rw [one_div_mul_one_div, ← pow_add]
    exact one_div_lt_one_div_of_lt (by positivity) (pow_lt_pow_right₀ (by norm_num) (by norm_num))
  have hN : fnorm A (fdiff A c1 c2) = 0 := by
    unfold fnorm fdiff
    simp only
    rw [small _ hx, small _ hy, add_zero, nearest_zero h.nearest, Real.sqrt_zero, nearest_zero h.nearest]
  have hP : 0 ≤ circlePen A r1 r2 c1 c2 := by
    change 0 ≤ A.rnd (A.rnd (r1 + r2) - fnorm A (fdiff A c1 c2))
    rw [hN, sub_zero, nearest_id h.nearest (h.nearest _).1]
    have := nearest_mono h.nearest (add_nonneg hr.nonneg1 hr.nonneg2)
    rwa [nearest_zero h.nearest] at this
  unfold circleContact
  simp only
  rw [if_neg (by linarith)]
  exact ⟨_, rfl, by simp [hN]⟩

/-! ## In strict worlds -/

theorem move_rad (A : Arith) {b : Body} (hc : b.isCircle = true) (dt : ℝ) : (move A b dt).rad = b.rad := by
  unfold move
  rw [circle_setP hc, circle_set_form hc]
  rfl

theorem stepped_rads {eps : ℝ} {bs : List Body} (hb : ∀ b ∈ bs, DoubleCircle eps b) (v : Vec) (dt : ℝ) :
    ((setVs bs v).map fun b => move A b dt).map Body.rad = bs.map Body.rad := by
  apply List.ext_getElem
  · simp [setVs_length]
  intro i h1 h2
  have hi : i < bs.length := by simpa using h2
  have hi' : i < (setVs bs v).length := by rwa [setVs_length]
  have hc := (setVs_circles hb v _ (List.getElem_mem hi')).circle.circle
  simp only [List.getElem_map]
  rw [move_rad A hc]
  simp [setVs]
  rfl

theorem rad_at {bs cs : List Body} (h : bs.map Body.rad = cs.map Body.rad) {i : ℕ} (hi : i < bs.length) :
    (bodyAt bs i).rad = (bodyAt cs i).rad := by
  have hl : bs.length = cs.length := by simpa using congrArg List.length h
  have hi' : i < cs.length := hl ▸ hi
  have := congrArg (fun l => l[i]?) h
  simpa [bodyAt, List.getD_eq_getElem?_getD, hi, hi'] using this

/-- C134: what the handler reports for two circles of an accepted world. -/
def GoodContact (b1 b2 : Body) (c : Pt) : Prop :=
  c.nan = false ∧ Spec.dist c.normal (towards b1.pos b2.pos) ≤ 15 / 2 ^ 53 ∧
    Spec.dist (b1.pos + c.p1) (middle b1.rad b2.rad b1.pos b2.pos) ≤ 18 / 2 ^ 53 * (b1.rad + b2.rad + Spec.dist b1.pos b2.pos) ∧
    Spec.dist (b2.pos + c.p2) (middle b1.rad b2.rad b1.pos b2.pos) ≤ 18 / 2 ^ 53 * (b1.rad + b2.rad + Spec.dist b1.pos b2.pos)

/-- Circles large enough for the tolerance. -/
def LargeFor (S : WorldSetup) (bs : List Body) : Prop :=
  ∀ i < bs.length, ∀ j < bs.length, i ≠ j → i ∉ S.nc j →
    2 * S.tol ≤ (bodyAt bs i).rad + (bodyAt bs j).rad ∧ 1 / 2 ^ 460 ≤ (bodyAt bs i).rad + (bodyAt bs j).rad

/-- C134: along every run of a strict world of circles that are large enough for the tolerance, whatever the velocities, no contact is a
division by zero, and the normals and points are right up to rounding. -/
theorem C134_run {S : WorldSetup} (h : DoubleArith A) (ht : TinyToZero A.rnd) (hS : GoodSetup S) (hd : S.dt ≤ 2 ^ 1024) (w : Circles)
    (hw : RoundedScene A S w) (hl : LargeFor S w.bodies) (vs : List Vec) :
    ∃ w', strictRun A S 2100 w vs = .done w' ∧ w'.bodies.map Body.rad = w.bodies.map Body.rad ∧
      ∀ i < w'.bodies.length, ∀ j < w'.bodies.length, i ≠ j → i ∉ S.nc j →
        ∀ c ∈ circleContact A S.eps (bodyAt w'.bodies i).rad (bodyAt w'.bodies j).rad (bodyAt w'.bodies i).pos (bodyAt w'.bodies j).pos,
          GoodContact (bodyAt w'.bodies i) (bodyAt w'.bodies j) c := by
  have hm : S.dt ≤ 2 ^ 2098 * (1 / 2 ^ 1074) := by
    have : (2 : ℝ) ^ 2098 = 2 ^ 1024 * 2 ^ 1074 := by rw [← pow_add]
    rw [this, mul_assoc, mul_one_div, div_self (by positivity), mul_one]
    exact hd
  have key : ∃ w', strictRun A S 2100 w vs = .done w' ∧ RoundedScene A S w' ∧ w'.bodies.map Body.rad = w.bodies.map Body.rad := by
    clear hl
    induction vs generalizing w with
    | nil => exact ⟨w, rfl, hw, rfl⟩
    | cons v vs ih =>
      obtain ⟨j, -, h1, -, h2⟩ := C123_step h ht hS 2098 hm w hw v 2100 (by norm_num)
      obtain ⟨w', h3, h4, h5⟩ := ih _ h2
      exact ⟨w', by rw [strictRun, h1]; exact h3, h4, h5.trans (stepped_rads hw.bodies v _)⟩
  obtain ⟨w', h1, h2, h3⟩ := key
  refine ⟨w', h1, h3, ?_⟩
  intro i hi j hj hij hx c hc
  have hlen : w'.bodies.length = w.bodies.length := by simpa using congrArg List.length h3
  have hn := C123_kept h hS _ h2.bodies h2.kept i hi j hj hij hx
  obtain ⟨l1, l2⟩ := hl i (hlen ▸ hi) j (hlen ▸ hj) hij hx
  rw [← rad_at h3 hi, ← rad_at h3 hj] at l1 l2
  have di := h2.bodies _ (bodyAt_mem hi)
  have dj := h2.bodies _ (bodyAt_mem hj)
  generalize bodyAt w'.bodies i = b1 at *
  generalize bodyAt w'.bodies j = b2 at *
  have hrep : RepCentres b1.pos b2.pos := ⟨di.pose.2.1, di.pose.2.2, dj.pose.2.1, dj.pose.2.2⟩
  have hrad : RepRadii b1.rad b2.rad := ⟨di.radius, dj.radius, di.circle.rad, dj.circle.rad⟩
  have hf : 1 / 2 ^ 470 ≤ Spec.dist b1.pos b2.pos := by
    unfold overlapDepth roundingDepth at hn
    have e1 : (14 : ℝ) / 2 ^ 53 ≤ 1 / 4 := by norm_num
    have e2 := mul_le_mul_of_nonneg_right e1 (show 0 ≤ b1.rad + b2.rad from add_nonneg di.circle.rad dj.circle.rad)
    have e3 : (1 : ℝ) / 2 ^ 530 ≤ 1 / 2 ^ 470 := one_div_le_one_div_of_le (by positivity) (pow_le_pow_right₀ (by norm_num) (by norm_num))
    have e4 : (1 : ℝ) / 2 ^ 460 = 1024 * (1 / 2 ^ 470) := by
      have : (2 : ℝ) ^ 470 = 2 ^ 460 * 1024 := by rw [show (470 : ℕ) = 460 + 10 from rfl, pow_add]; norm_num
      rw [this]
      have k : ∀ X : ℝ, X ≠ 0 → 1 / X = 1024 * (1 / (X * 1024)) := fun X hX => by field_simp
      exact k _ (by positivity)
    rw [e4] at l2
    have e5 : (0 : ℝ) < 1 / 2 ^ 470 := by positivity
    generalize (1 : ℝ) / 2 ^ 470 = a at *
    generalize (1 : ℝ) / 2 ^ 530 = b at *
    linarith
  obtain ⟨f1, f2, -⟩ := C134_direction h hrep hf hc
  obtain ⟨g1, g2, -⟩ := C134_points h hrad hrep hf hc
  exact ⟨f1, f2, g1, g2⟩

/-! ## Examples -/

theorem rep_halves (m : ℤ) (hm : |m| < 2 ^ 53) : Rep ((m : ℝ) / 2) :=
  ⟨m, -1, by rw [zpow_neg_one, div_eq_mul_inv], hm, by norm_num⟩

/-- Two discs of radius one, half a unit deep in one another. -/
theorem pair_centres : RepCentres ((3 / 2, 0) : V2) (0, 0) ∧ RepRadii 1 1 ∧ Spec.dist ((3 / 2, 0) : V2) (0, 0) = 3 / 2 := by
  have h3 : Rep (3 / 2 : ℝ) := by have := rep_halves 3 (by norm_num); push_cast at this; exact this
  have h1 : Rep (1 : ℝ) := by have := rep_halves 2 (by norm_num); push_cast at this; norm_num at this; exact this
  refine ⟨⟨h3, rep_zero, rep_zero, rep_zero⟩, ⟨h1, h1, by norm_num, by norm_num⟩, ?_⟩
  unfold Spec.dist len
  simp only [Prod.mk_sub_mk, sub_zero]
  rw [show ((3 : ℝ) / 2) ^ 2 + 0 ^ 2 = (3 / 2) ^ 2 by ring]
  exact Real.sqrt_sq (by norm_num)

theorem pair_far : (1 : ℝ) / 2 ^ 470 ≤ Spec.dist ((3 / 2, 0) : V2) (0, 0) := by
  rw [pair_centres.2.2]
  have : (1 : ℝ) / 2 ^ 470 ≤ 1 / 2 ^ 0 := one_div_le_one_div_of_le (by positivity) (pow_le_pow_right₀ (by norm_num) (by norm_num))
  linarith

/-- Example for `C134_reported`, `C134_direction` and `C134_points`: the discs meet near `(3/4, 0)`. -/
example : ∃ c, circleContact (doubleOf rne) (1 / 10) 1 1 (3 / 2, 0) (0, 0) = [c] ∧ c.nan = false ∧
    Spec.dist c.normal (1, 0) ≤ 15 / 2 ^ 53 ∧ Spec.dist ((3 / 2, 0) + c.p1) (3 / 4, 0) ≤ 63 / 2 ^ 53 ∧
    Spec.dist c.p2 (3 / 4, 0) ≤ 63 / 2 ^ 53 := by
  have hA := rounded_arith rne_nearest
  obtain ⟨hc, hr, hd⟩ := pair_centres
  have hrep := (C134_reported hA (1 / 10) hr hc).1 (by
    rw [hd]
    have : (1 : ℝ) / 2 ^ 530 ≤ 1 / 2 ^ 1 := one_div_le_one_div_of_le (by positivity) (pow_le_pow_right₀ (by norm_num) (by norm_num))
    have k : (7 : ℝ) / 2 ^ 53 * (1 + 1 + 3 / 2) ≤ 1 / 20 := by norm_num
    generalize (1 : ℝ) / 2 ^ 530 = e at *
    linarith)
  obtain ⟨c, hcc⟩ := List.length_eq_one_iff.mp hrep
  have hm : c ∈ circleContact (doubleOf rne) (1 / 10) 1 1 ((3 / 2, 0) : V2) (0, 0) := by rw [hcc]; exact List.mem_singleton.mpr rfl
  have ht : towards ((3 / 2, 0) : V2) (0, 0) = (1, 0) := by unfold towards; rw [hd]; ext <;> simp
  have hmid : middle 1 1 ((3 / 2, 0) : V2) (0, 0) = (3 / 4, 0) := by unfold middle; rw [ht]; ext <;> norm_num
  obtain ⟨e1, e2, -⟩ := C134_direction hA hc pair_far hm
  obtain ⟨f1, f2, -⟩ := C134_points hA hr hc pair_far hm
  rw [ht] at e2
  rw [hmid, hd] at f1 f2
  have k : (18 : ℝ) / 2 ^ 53 * (1 + 1 + 3 / 2) = 63 / 2 ^ 53 := by norm_num
  rw [k] at f1 f2
  have z : ((0, 0) : V2) + c.p2 = c.p2 := by ext <;> simp
  rw [z] at f2
  exact ⟨c, hcc, e1, e2, f1, f2⟩

/-- Example for `C134_underflow`: different centres, of which exact arithmetic makes a contact that is a number. -/
example : (∃ c, circleContact (doubleOf rne) (1 / 10) 1 1 (1 / 2 ^ 538, 0) (0, 0) = [c] ∧ c.nan = true) ∧
    ∀ c ∈ circleCircle (1 / 10) 1 1 ((1 / 2 ^ 538, 0) : V2) (0, 0), c.nan = false := by
  refine ⟨C134_underflow (rounded_arith rne_nearest) (by norm_num) pair_centres.2.1 ?_ ?_, ?_⟩
  · rw [sub_zero, abs_of_nonneg (by positivity)]
  · rw [sub_zero, abs_zero]; positivity
  · intro c hc
    unfold circleCircle at hc
    simp only at hc
    split at hc
    · cases hc
    · rw [List.mem_singleton] at hc
      subst hc
      have : nrm (((1 / 2 ^ 538, 0) : V2) - (0, 0)) ≠ 0 := by
        unfold nrm
        apply ne_of_gt
        apply Real.sqrt_pos.mpr
        have : (0 : ℝ) < 1 / 2 ^ 538 := by positivity
        generalize (1 : ℝ) / 2 ^ 538 = e at *
        simp
        positivity
      simpa using this

/-- Example for `C134_run`: the touching circles under any velocities. -/
example (vs : List Vec) : ∃ w', strictRun (doubleOf rne) touchingSetup 2100 touching vs = .done w' ∧
    ∀ c ∈ circleContact (doubleOf rne) (1 / 10) (bodyAt w'.bodies 0).rad (bodyAt w'.bodies 1).rad (bodyAt w'.bodies 0).pos
      (bodyAt w'.bodies 1).pos, GoodContact (bodyAt w'.bodies 0) (bodyAt w'.bodies 1) c := by
  obtain ⟨w', h1, h2, h3⟩ := C134_run (rounded_arith rne_nearest) rne_tiny touching_good (by
    change (1 : ℝ) ≤ 2 ^ 1024
    exact one_le_pow₀ (by norm_num)) touching (touching_scene rne_nearest) (by
      intro i hi j hj _ _
      have hr : ∀ k < 2, (bodyAt touching.bodies k).rad = 1 := by
        intro k hk
        interval_cases k <;> rfl
      rw [hr i hi, hr j hj]
      refine ⟨by norm_num [touchingSetup], ?_⟩
      have : (1 : ℝ) / 2 ^ 460 ≤ 1 / 2 ^ 0 := one_div_le_one_div_of_le (by positivity) (pow_le_pow_right₀ (by norm_num) (by norm_num))
      linarith) vs
  have hl : w'.bodies.length = 2 := by simpa [touching] using congrArg List.length h2
  exact ⟨w', h1, h3 0 (by omega) 1 (by omega) (by norm_num) (by simp [touchingSetup])⟩

end LcpPhysics
