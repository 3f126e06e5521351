import Verif.Lemmas.RoundedWorld
import Verif.Props.RoundedBody
import Verif.Props.CircleWorld
import Verif.Props.OdeContacts

/-! # C123: strict worlds of circles in double precision -/

noncomputable section

namespace LcpPhysics
open Spec Rounded

variable {A : Arith} {S : WorldSetup}

/-! ## Circles -/

theorem circle_setP {b : Body} (hc : b.isCircle = true) (q : V3) : setP A b q = b.op (.setP q) := by
  unfold Body.isCircle at hc
  unfold setP Body.op Body.set_p
  cases hs : b.shape with
  | circle r => rfl
  | hull vs => rw [hs] at hc; cases hc
  | rect d vs => rw [hs] at hc; cases hc

theorem circle_set_form {b : Body} (hc : b.isCircle = true) (q : V3) :
    b.op (.setP q) = { b with p := q, geom := { b.geom with pos := q.xy } } := by
  unfold Body.isCircle at hc
  unfold Body.op Body.set_p
  cases hs : b.shape with
  | circle r => simp [Body.baseSetP, hs]
  | hull vs => rw [hs] at hc; cases hc
  | rect d vs => rw [hs] at hc; cases hc

theorem doubleCircle_set {eps : ℝ} {b : Body} (h : DoubleCircle eps b) {q : V3} (hq : RepPose q) : DoubleCircle eps (setP A b q) := by
  rw [circle_setP h.circle.circle]
  refine ⟨circleBody_op h.circle _, ?_, ?_⟩
  · rw [circle_set_form h.circle.circle]; exact hq
  · rw [circle_set_form h.circle.circle]; exact h.radius

theorem doubleCircle_vel {eps : ℝ} {b : Body} (h : DoubleCircle eps b) (v : V3) : DoubleCircle eps { b with v := v } :=
  ⟨circleBody_op h.circle (.setV v), h.pose, h.radius⟩

theorem doubleCircle_move (ha : DoubleArith A) {eps : ℝ} {b : Body} (h : DoubleCircle eps b) (dt : ℝ) : DoubleCircle eps (move A b dt) :=
  doubleCircle_set h (moved_rep ha _ _ _)

/-- A circle put back where it was is the circle it was. -/
theorem circle_back {b : Body} (ha : Alive b) (hc : b.isCircle = true) (dt : ℝ) : setP A (move A b dt) b.p = b := by
  have hg := (circle_geom ha hc).2
  have hc' : (move A b dt).isCircle = true := by
    unfold move
    rw [circle_setP hc, circle_set_form hc]; exact hc
  rw [circle_setP hc', circle_set_form hc']
  unfold move
  rw [circle_setP hc, circle_set_form hc]
  obtain ⟨p, v, mass, ang, res, fric, eps, shape, geom⟩ := b
  obtain ⟨kind, pos, quat⟩ := geom
  simp only [Body.pos] at hg
  simp only [hg]

theorem circle_still {b : Body} (ha : Alive b) (hc : b.isCircle = true) : setP A b b.p = b := by
  have hg := (circle_geom ha hc).2
  rw [circle_setP hc, circle_set_form hc]
  obtain ⟨p, v, mass, ang, res, fric, eps, shape, geom⟩ := b
  obtain ⟨kind, pos, quat⟩ := geom
  simp only [Body.pos] at hg
  simp only [hg]

theorem undo_circles (bs : List Body) (hb : ∀ b ∈ bs, Alive b ∧ b.isCircle = true) (dt : ℝ) :
    setPs A (bs.map fun b => move A b dt) (cat3 (bs.map Body.p)) = bs := by
  unfold setPs
  apply List.ext_getElem
  · simp
  intro i h1 h2
  have hi : i < (bs.map Body.p).length := by simpa using h2
  simp only [List.getElem_map, List.getElem_zipIdx, Nat.zero_add]
  rw [cat3_slice _ _ hi, List.getElem_map]
  obtain ⟨ha, hc⟩ := hb _ (List.getElem_mem h2)
  exact circle_back ha hc dt

theorem setVs_poses (bs : List Body) (v : Vec) : (setVs bs v).map Body.p = bs.map Body.p := by
  unfold setVs
  apply List.ext_getElem
  · simp
  intro i h1 h2
  simp

theorem setVs_length (bs : List Body) (v : Vec) : (setVs bs v).length = bs.length := by simp [setVs]

theorem setVs_bodyAt (bs : List Body) (v : Vec) (i : ℕ) (hi : i < bs.length) : bodyAt (setVs bs v) i = { bodyAt bs i with v := slice3 v i } := by
  have hi' : i < (setVs bs v).length := by rwa [setVs_length]
  have h1 : bodyAt (setVs bs v) i = (setVs bs v)[i] := by simp [bodyAt, List.getD_eq_getElem?_getD, hi']
  have h2 : bodyAt bs i = bs[i] := by simp [bodyAt, List.getD_eq_getElem?_getD, hi]
  rw [h1, h2]
  simp [setVs]

theorem setVs_circles {eps : ℝ} {bs : List Body} (hb : ∀ b ∈ bs, DoubleCircle eps b) (v : Vec) : ∀ b ∈ setVs bs v, DoubleCircle eps b := by
  intro b h
  obtain ⟨i, hi, rfl⟩ := mem_bodyAt h
  rw [setVs_length] at hi
  rw [setVs_bodyAt bs v i hi]
  exact doubleCircle_vel (hb _ (bodyAt_mem hi)) _

/-! ## Whether a step is kept -/

/-- What the test looks at. -/
theorem accepts_congr (hg : GeomOnly S.pairs) (hp : BroadPhase S.pairs) {bs cs : List Body} (hl : bs.length = cs.length)
    (h : ∀ i < bs.length, (bodyAt bs i).geom = (bodyAt cs i).geom ∧ (bodyAt bs i).rad = (bodyAt cs i).rad ∧
      (bodyAt bs i).pos = (bodyAt cs i).pos) (ha : Accepts A S bs) : Accepts A S cs := by
  have hm : bs.map Body.geom = cs.map Body.geom := by
    apply List.ext_getElem
    · simpa using hl
    intro i h1 h2
    simp only [List.length_map] at h1 h2
    have := (h i h1).1
    simpa [bodyAt, List.getD_eq_getElem?_getD, h1, h2] using this
  intro x hx
  unfold pens at hx
  obtain ⟨p, hpp, hx⟩ := List.mem_flatMap.mp hx
  have hpb := (hg bs cs hm p).mpr hpp
  obtain ⟨v1, v2, -⟩ := hp.valid bs p hpb
  apply ha
  unfold pens
  refine List.mem_flatMap.mpr ⟨p, hpb, ?_⟩
  rw [(h _ v1).2.1, (h _ v1).2.2, (h _ v2).2.1, (h _ v2).2.2]
  exact hx

theorem accepts_vel (hg : GeomOnly S.pairs) (hp : BroadPhase S.pairs) {bs : List Body} (v : Vec) (ha : Accepts A S bs) :
    Accepts A S (setVs bs v) := by
  refine accepts_congr hg hp (setVs_length bs v).symm ?_ ha
  intro i hi
  rw [setVs_bodyAt bs v i hi]
  exact ⟨rfl, rfl, rfl⟩

/-- C123: the error of the computed penetration. -/
theorem C123_penetration (h : DoubleArith A) {eps : ℝ} {b1 b2 : Body} (h1 : DoubleCircle eps b1) (h2 : DoubleCircle eps b2) :
    |circlePen A b1.rad b2.rad b1.pos b2.pos - overlapDepth b1 b2| ≤
      7 / 2 ^ 53 * (b1.rad + b2.rad + Spec.dist b1.pos b2.pos) + 1 / 2 ^ 530 :=
  circlePen_error h h1.radius h2.radius (add_nonneg h1.circle.rad h2.circle.rad) h1.pose.2.1 h1.pose.2.2 h2.pose.2.1 h2.pose.2.2

/-- C123: a test that is passed means that no two circles overlap by more than `tol`, up to a few units in the last place of their radii. -/
theorem C123_kept (h : DoubleArith A) (hS : GoodSetup S) (bs : List Body) (hb : ∀ b ∈ bs, DoubleCircle S.eps b) (ha : Accepts A S bs) :
    NearlyNoOverlap S bs := by
  intro i hi j hj hij hx
  by_contra hlt
  push Not at hlt
  have di := hb _ (bodyAt_mem hi)
  have dj := hb _ (bodyAt_mem hj)
  have r0 : 0 ≤ (bodyAt bs i).rad + (bodyAt bs j).rad := add_nonneg di.circle.rad dj.circle.rad
  have hη : (0 : ℝ) < 1 / 2 ^ 530 := by positivity
  have hrd : 0 ≤ roundingDepth (bodyAt bs i) (bodyAt bs j) := by unfold roundingDepth; positivity
  have htol := hS.tol
  have hpos : 0 < overlapDepth (bodyAt bs i) (bodyAt bs j) := by linarith
  have hdist : Spec.dist (bodyAt bs i).pos (bodyAt bs j).pos ≤ (bodyAt bs i).rad + (bodyAt bs j).rad := by
    unfold overlapDepth at hpos; linarith
  have bound : ∀ b1 b2 : Body, DoubleCircle S.eps b1 → DoubleCircle S.eps b2 →
      overlapDepth b1 b2 = overlapDepth (bodyAt bs i) (bodyAt bs j) → b1.rad + b2.rad = (bodyAt bs i).rad + (bodyAt bs j).rad →
      Spec.dist b1.pos b2.pos = Spec.dist (bodyAt bs i).pos (bodyAt bs j).pos →
      S.tol < circlePen A b1.rad b2.rad b1.pos b2.pos := by
    intro b1 b2 d1 d2 ho hr hd
    have e := (abs_le.mp (C123_penetration h d1 d2)).1
    rw [ho, hr, hd] at e
    unfold roundingDepth at hlt
    have : (7 : ℝ) / 2 ^ 53 * ((bodyAt bs i).rad + (bodyAt bs j).rad + Spec.dist (bodyAt bs i).pos (bodyAt bs j).pos) ≤
        7 / 2 ^ 53 * (2 * ((bodyAt bs i).rad + (bodyAt bs j).rad)) := mul_le_mul_of_nonneg_left (by linarith) (by positivity)
    have e2 : (7 : ℝ) / 2 ^ 53 * (2 * ((bodyAt bs i).rad + (bodyAt bs j).rad)) = 14 / 2 ^ 53 * ((bodyAt bs i).rad + (bodyAt bs j).rad) := by ring
    linarith
  have found : ∀ a b : ℕ, (a, b) ∈ S.pairs bs → a ∉ S.nc b →
      S.tol < circlePen A (bodyAt bs a).rad (bodyAt bs b).rad (bodyAt bs a).pos (bodyAt bs b).pos → False := by
    intro a b hp hn hlt'
    have heps := hS.eps
    have := ha (circlePen A (bodyAt bs a).rad (bodyAt bs b).rad (bodyAt bs a).pos (bodyAt bs b).pos) (by
      unfold pens
      refine List.mem_flatMap.mpr ⟨(a, b), hp, ?_⟩
      simp only
      rw [if_neg hn, if_neg (by linarith)]
      exact List.mem_singleton_self _)
    linarith
  obtain ⟨c, hc, hcij⟩ := near_reported hS.symm hS.broad hS.eps (fun b hb' => (hb b hb').circle) hi hj hij hx (by linarith [hS.eps])
  have hmem := (circleContacts_mem hc).1
  rcases hcij with ⟨e1, e2⟩ | ⟨e1, e2⟩
  · rw [e1, e2] at hmem
    exact found i j hmem hx (bound _ _ di dj rfl rfl rfl)
  · rw [e1, e2] at hmem
    exact found j i hmem (fun h' => hx (hS.symm _ _ h')) (bound _ _ dj di (overlapDepth_comm _ _) (add_comm _ _) (Spec.dist_comm _ _))

/-- C123: a test that is failed is failed for a reason: two circles overlap by more than `tol` less the rounding error. -/
theorem C123_refused (h : DoubleArith A) (hS : GoodSetup S) (bs : List Body) (hb : ∀ b ∈ bs, DoubleCircle S.eps b) (ha : ¬ Accepts A S bs) :
    ∃ i < bs.length, ∃ j < bs.length, i ≠ j ∧ i ∉ S.nc j ∧
      S.tol - (7 / 2 ^ 53 * ((bodyAt bs i).rad + (bodyAt bs j).rad + Spec.dist (bodyAt bs i).pos (bodyAt bs j).pos) + 1 / 2 ^ 530) <
        overlapDepth (bodyAt bs i) (bodyAt bs j) := by
  unfold Accepts at ha
  push Not at ha
  obtain ⟨x, hx, hlt⟩ := ha
  unfold pens at hx
  obtain ⟨⟨i, j⟩, hp, hx⟩ := List.mem_flatMap.mp hx
  simp only at hx
  split_ifs at hx with hn hd
  · simp at hx
  · simp at hx
  · rw [List.mem_singleton] at hx
    obtain ⟨v1, v2, v3⟩ := hS.broad.valid bs _ hp
    refine ⟨i, v1, j, v2, v3, hn, ?_⟩
    have e := (abs_le.mp (C123_penetration h (hb _ (bodyAt_mem v1)) (hb _ (bodyAt_mem v2)))).2
    rw [← hx] at e
    linarith

/-! ## The loop -/

theorem shortened_succ (rnd : ℝ → ℝ) (dt : ℝ) (k : ℕ) : shortened rnd (rnd (dt / 2)) k = shortened rnd dt (k + 1) := by
  induction k with
  | zero => rfl
  | succ k ih => rw [shortened, ih]; rfl

theorem strictLoop_succ (bs : List Body) (hb : ∀ b ∈ bs, Alive b ∧ b.isCircle = true) (fuel : ℕ) (dt : ℝ) :
    (Accepts A S (bs.map fun b => move A b dt) ∧ strictLoop A S (cat3 (bs.map Body.p)) (fuel + 1) bs dt =
      .done (bs.map fun b => move A b dt, dt)) ∨
    (¬ Accepts A S (bs.map fun b => move A b dt) ∧ strictLoop A S (cat3 (bs.map Body.p)) (fuel + 1) bs dt =
      strictLoop A S (cat3 (bs.map Body.p)) fuel bs (A.rnd (dt / 2))) := by
  by_cases h : Accepts A S (bs.map fun b => move A b dt)
  · exact .inl ⟨h, by rw [strictLoop]; exact if_pos h⟩
  · refine .inr ⟨h, ?_⟩
    rw [strictLoop]
    rw [if_neg h, undo_circles bs hb dt]

/-- The loop keeps the first of the shortened steps that passes the test. -/
theorem strictLoop_first (bs : List Body) (hb : ∀ b ∈ bs, Alive b ∧ b.isCircle = true) (dt : ℝ) (k fuel : ℕ) (hk : k < fuel)
    (ha : Accepts A S (bs.map fun b => move A b (shortened A.rnd dt k))) :
    ∃ j ≤ k, Accepts A S (bs.map fun b => move A b (shortened A.rnd dt j)) ∧
      (∀ l < j, ¬ Accepts A S (bs.map fun b => move A b (shortened A.rnd dt l))) ∧
      strictLoop A S (cat3 (bs.map Body.p)) fuel bs dt = .done (bs.map fun b => move A b (shortened A.rnd dt j), shortened A.rnd dt j) := by
  induction k generalizing fuel dt with
  | zero =>
    obtain ⟨f, rfl⟩ : ∃ f, fuel = f + 1 := ⟨fuel - 1, by omega⟩
    rcases strictLoop_succ (A := A) (S := S) bs hb f dt with ⟨h1, h2⟩ | ⟨h1, h2⟩
    · exact ⟨0, le_rfl, h1, fun l hl => absurd hl (Nat.not_lt_zero _), h2⟩
    · exact absurd ha h1
  | succ k ih =>
    obtain ⟨f, rfl⟩ : ∃ f, fuel = f + 1 := ⟨fuel - 1, by omega⟩
    rcases strictLoop_succ (A := A) (S := S) bs hb f dt with ⟨h1, h2⟩ | ⟨h1, h2⟩
    · exact ⟨0, Nat.zero_le _, h1, fun l hl => absurd hl (Nat.not_lt_zero _), h2⟩
    · rw [← shortened_succ] at ha
      obtain ⟨j, hj, a1, a2, a3⟩ := ih (A.rnd (dt / 2)) f (by omega) ha
      rw [shortened_succ] at a1 a3
      refine ⟨j + 1, by omega, a1, ?_, by rw [h2, a3]⟩
      intro l hl
      cases l with
      | zero => exact h1
      | succ l => rw [← shortened_succ]; exact a2 l (by omega)

theorem strictLoop_done (bs : List Body) (hb : ∀ b ∈ bs, Alive b ∧ b.isCircle = true) (dt : ℝ) (fuel : ℕ) (r : List Body × ℝ)
    (h : strictLoop A S (cat3 (bs.map Body.p)) fuel bs dt = .done r) :
    ∃ j < fuel, r = (bs.map fun b => move A b (shortened A.rnd dt j), shortened A.rnd dt j) ∧ Accepts A S r.1 := by
  induction fuel generalizing dt with
  | zero => cases h
  | succ f ih =>
    rcases strictLoop_succ (A := A) (S := S) bs hb f dt with ⟨h1, h2⟩ | ⟨h1, h2⟩
    · rw [h2] at h
      cases h
      exact ⟨0, by omega, rfl, h1⟩
    · rw [h2] at h
      obtain ⟨j, hj, hr, ha⟩ := ih _ h
      rw [shortened_succ] at hr
      exact ⟨j + 1, by omega, hr, ha⟩

/-! ## Halving ends at zero -/

theorem shortened_nonneg (h : Nearest A.rnd) {dt : ℝ} (hd : 0 ≤ dt) (k : ℕ) : 0 ≤ shortened A.rnd dt k := by
  induction k with
  | zero => exact hd
  | succ k ih =>
    have := nearest_mono h (div_nonneg ih (by norm_num : (0 : ℝ) ≤ 2))
    rwa [nearest_zero h] at this

theorem shortened_le (h : Nearest A.rnd) {dt : ℝ} (m : ℕ) (hd : dt ≤ 2 ^ m * (1 / 2 ^ 1074)) (k : ℕ) (hk : k ≤ m) :
    shortened A.rnd dt k ≤ 2 ^ (m - k) * (1 / 2 ^ 1074) := by
  have e : (2 : ℝ) ^ (-1074 : ℤ) = 1 / 2 ^ 1074 := by rw [zpow_neg, one_div]; norm_cast
  induction k with
  | zero => simpa [shortened] using hd
  | succ k ih =>
    have h1 := ih (by omega)
    have h2 : shortened A.rnd dt k / 2 ≤ 2 ^ (m - (k + 1)) * (1 / 2 ^ 1074) := by
      have : (2 : ℝ) ^ (m - k) = 2 * 2 ^ (m - (k + 1)) := by
        rw [show m - k = (m - (k + 1)) + 1 by omega, pow_succ]; ring
      rw [this] at h1
      linarith
    have h3 : Rep (2 ^ (m - (k + 1)) * (1 / 2 ^ 1074)) := by
      refine ⟨1, (m - (k + 1) : ℕ) + (-1074), ?_, by norm_num, by omega⟩
      rw [zpow_add₀ (by norm_num), e]
      push_cast
      rw [zpow_natCast]
      ring
    have := nearest_mono h h2
    rwa [nearest_id h h3] at this

theorem shortened_zero (h : Nearest A.rnd) (ht : TinyToZero A.rnd) {dt : ℝ} (hd0 : 0 ≤ dt) (m : ℕ) (hd : dt ≤ 2 ^ m * (1 / 2 ^ 1074)) :
    shortened A.rnd dt (m + 1) = 0 := by
  have h1 := shortened_le h m hd m le_rfl
  rw [Nat.sub_self, pow_zero, one_mul] at h1
  apply le_antisymm _ (shortened_nonneg h hd0 _)
  have h2 : shortened A.rnd dt m / 2 ≤ 1 / 2 ^ 1075 := by
    have : (1 : ℝ) / 2 ^ 1075 = 1 / 2 ^ 1074 / 2 := by rw [div_div, ← pow_succ]
    rw [this]
    linarith
  have := nearest_mono h h2
  rwa [ht] at this

theorem move_zero (h : DoubleArith A) {eps : ℝ} {b : Body} (hb : DoubleCircle eps b) : move A b 0 = b := by
  have hz := nearest_zero h.nearest
  have : moved A b.p b.v 0 = b.p := by
    unfold moved
    simp only [mul_zero, hz, add_zero, nearest_id h.nearest hb.pose.1, nearest_id h.nearest hb.pose.2.1, nearest_id h.nearest hb.pose.2.2]
  unfold move
  rw [this]
  exact circle_still hb.circle.alive hb.circle.circle

theorem alive_circles {eps : ℝ} {bs : List Body} (hb : ∀ b ∈ bs, DoubleCircle eps b) : ∀ b ∈ bs, Alive b ∧ b.isCircle = true :=
  fun b h => ⟨(hb b h).circle.alive, (hb b h).circle.circle⟩

/-- C123: whatever the velocities, a strict step returns: it moves the bodies once, by the first of the shortened lengths for which the test is
passed, and leaves a world to which all this applies again. -/
theorem C123_step (h : DoubleArith A) (ht : TinyToZero A.rnd) (hS : GoodSetup S) (m : ℕ) (hm : S.dt ≤ 2 ^ m * (1 / 2 ^ 1074))
    (w : Circles) (hw : RoundedScene A S w) (v : Vec) (fuel : ℕ) (hf : m + 1 < fuel) :
    ∃ j ≤ m + 1, strictStep A S fuel w v =
        .done ⟨(setVs w.bodies v).map fun b => move A b (shortened A.rnd S.dt j), A.rnd (w.t + shortened A.rnd S.dt j)⟩ ∧
      (∀ l < j, ¬ Accepts A S ((setVs w.bodies v).map fun b => move A b (shortened A.rnd S.dt l))) ∧
      RoundedScene A S ⟨(setVs w.bodies v).map fun b => move A b (shortened A.rnd S.dt j), A.rnd (w.t + shortened A.rnd S.dt j)⟩ := by
  have hc := setVs_circles hw.bodies v
  have hz := shortened_zero h.nearest ht hS.dt m hm
  have hstill : ((setVs w.bodies v).map fun b => move A b (shortened A.rnd S.dt (m + 1))) = setVs w.bodies v := by
    rw [hz]
    conv_rhs => rw [← List.map_id (setVs w.bodies v)]
    exact List.map_congr_left fun b hb => move_zero h (hc b hb)
  obtain ⟨j, hj, a1, a2, a3⟩ := strictLoop_first (A := A) (S := S) (setVs w.bodies v) (alive_circles hc) S.dt (m + 1) fuel hf
    (by rw [hstill]; exact accepts_vel hS.geom hS.broad v hw.kept)
  refine ⟨j, hj, ?_, a2, ⟨?_, a1⟩⟩
  · unfold strictStep
    rw [← setVs_poses w.bodies v, a3]
    rfl
  · intro b hb
    obtain ⟨c, hcm, rfl⟩ := List.mem_map.mp hb
    exact doubleCircle_move h (hc c hcm) _

/-- C123: a strict world of circles in double precision never hangs and never interpenetrates by more than `tol` and a few units in the
last place of the radii: whatever the velocities, every step of a run returns within 2100 attempts (steps are shorter than `2^1024`). -/
theorem C123_run (h : DoubleArith A) (ht : TinyToZero A.rnd) (hS : GoodSetup S) (hd : S.dt ≤ 2 ^ 1024) (w : Circles) (hw : RoundedScene A S w)
    (vs : List Vec) : ∃ w', strictRun A S 2100 w vs = .done w' ∧ RoundedScene A S w' ∧ NearlyNoOverlap S w'.bodies := by
  have hm : S.dt ≤ 2 ^ 2098 * (1 / 2 ^ 1074) := by
    have : (2 : ℝ) ^ 2098 = 2 ^ 1024 * 2 ^ 1074 := by rw [← pow_add]
    rw [this, mul_assoc, mul_one_div, div_self (by positivity), mul_one]
    exact hd
  induction vs generalizing w with
  | nil => exact ⟨w, rfl, hw, C123_kept h hS _ hw.bodies hw.kept⟩
  | cons v vs ih =>
    obtain ⟨j, -, h1, -, h2⟩ := C123_step h ht hS 2098 hm w hw v 2100 (by norm_num)
    obtain ⟨w', h3, h4⟩ := ih _ h2
    exact ⟨w', by rw [strictRun, h1]; exact h3, h4⟩

/-- C123: what a run does, call by call: the last call of `step` starts from where the others ended, and uses its own answer of the
engine. -/
theorem C123_calls (S : WorldSetup) (fuel : ℕ) (w : Circles) (vs : List Vec) (v : Vec) :
    strictRun A S fuel w (vs ++ [v]) = (strictRun A S fuel w vs).bind fun w => strictStep A S fuel w v := by
  induction vs generalizing w with
  | nil => show (strictStep A S fuel w v).bind _ = strictStep A S fuel w v; cases strictStep A S fuel w v <;> rfl
  | cons u us ih =>
    show (strictStep A S fuel w u).bind _ = ((strictStep A S fuel w u).bind _).bind _
    cases strictStep A S fuel w u with
    | done w1 => exact ih w1
    | raised e => rfl
    | running => rfl

/-! ## The number of attempts -/

theorem shortened_exact (h : Nearest A.rnd) {dt : ℝ} (hd : Rep dt) (h1 : 1 / 2 ^ 500 ≤ dt) (k : ℕ) (hk : k ≤ 500) :
    shortened A.rnd dt k = dt / 2 ^ k := by
  obtain ⟨m, e, hm, hm1, he⟩ := hd
  have he' : -574 ≤ e := by
    by_contra hc
    push Not at hc
    have h0 : 0 < dt := lt_of_lt_of_le (by positivity) h1
    have h2 : dt ≤ 2 ^ 53 * (2 : ℝ) ^ (-574 : ℤ) := by
      have a1 : dt ≤ |(m : ℝ)| * 2 ^ e := by rw [hm]; exact mul_le_mul_of_nonneg_right (le_abs_self _) (by positivity)
      have a2 : |(m : ℝ)| ≤ 2 ^ 53 := by
        have : ((|m| : ℤ) : ℝ) ≤ ((2 ^ 53 : ℤ) : ℝ) := by exact_mod_cast hm1.le
        rw [Int.cast_abs] at this
        exact_mod_cast this
      have a3 : (2 : ℝ) ^ e ≤ 2 ^ (-574 : ℤ) := zpow_le_zpow_right₀ (by norm_num) (by omega)
      exact a1.trans (mul_le_mul a2 a3 (by positivity) (by positivity))
    have h3 : (2 : ℝ) ^ 53 * 2 ^ (-574 : ℤ) = 2 ^ (-521 : ℤ) := by
      rw [← zpow_natCast, ← zpow_add₀ (by norm_num)]; norm_num
    have h4 : (1 : ℝ) / 2 ^ 500 = 2 ^ (-500 : ℤ) := by rw [zpow_neg, one_div]; norm_cast
    rw [h3] at h2
    rw [h4] at h1
    have h5 : (2 : ℝ) ^ (-521 : ℤ) < 2 ^ (-500 : ℤ) := zpow_lt_zpow_right₀ (by norm_num) (by norm_num)
    exact absurd (h1.trans h2) (not_le.mpr h5)
  induction k with
  | zero => simp [shortened]
  | succ k ih =>
    rw [shortened, ih (by omega), div_div, ← pow_succ]
    apply nearest_id h
    refine ⟨m, e - (k + 1 : ℕ), ?_, hm1, by omega⟩
    rw [hm, zpow_sub₀ (by norm_num), zpow_natCast]
    ring

/-- C123: the number of attempts is bounded by the number of halvings after which the positions do not change any more. -/
theorem C123_attempts (h : DoubleArith A) (hS : GoodSetup S) (hd : Rep S.dt) (hd1 : 1 / 2 ^ 500 ≤ S.dt) (w : Circles) (hw : RoundedScene A S w)
    (v : Vec) (k : ℕ) (hk : k ≤ 500) (hv : ∀ i < w.bodies.length, Unfelt S.dt k (bodyAt w.bodies i) (slice3 v i)) (fuel : ℕ) (hf : k < fuel) :
    ∃ w', strictStep A S fuel w v = .done w' ∧ RoundedScene A S w' := by
  have hc := setVs_circles hw.bodies v
  have hk2 := shortened_exact (A := A) h.nearest hd hd1 k hk
  have hp : (0 : ℝ) < 2 ^ k := by positivity
  have hstill : Accepts A S ((setVs w.bodies v).map fun b => move A b (shortened A.rnd S.dt k)) := by
    refine accepts_congr hS.geom hS.broad (by simp) ?_ (accepts_vel hS.geom hS.broad v hw.kept)
    intro i hi
    have hi' : i < w.bodies.length := by rwa [setVs_length] at hi
    have hdc := hc _ (bodyAt_mem hi)
    rw [bodyAt_map _ _ _ hi]
    obtain ⟨u1, u2⟩ := hv i hi'
    have hvel : (bodyAt (setVs w.bodies v) i).v = slice3 v i := by rw [setVs_bodyAt _ _ _ hi']
    have hpose : (bodyAt (setVs w.bodies v) i).p = (bodyAt w.bodies i).p := by rw [setVs_bodyAt _ _ _ hi']
    rw [← hvel, ← hpose] at u1 u2
    set b := bodyAt (setVs w.bodies v) i
    have hg := (circle_geom hdc.circle.alive hdc.circle.circle).2
    have red : ∀ x y : ℝ, (y = 0 ∨ (1 / 2 ^ 900 ≤ |x| ∧ |y| * S.dt ≤ 2 ^ k * (1 / 2 ^ 56 * |x|))) →
        (y = 0 ∨ (1 / 2 ^ 900 ≤ |x| ∧ |y| * (S.dt / 2 ^ k) ≤ 1 / 2 ^ 56 * |x|)) := by
      rintro x y (h0 | ⟨h1, h2⟩)
      · exact .inl h0
      · refine .inr ⟨h1, ?_⟩
        rw [← mul_div_assoc, div_le_iff₀ hp, mul_comm (1 / 2 ^ 56 * |x|)]
        exact h2
    have hn : 0 ≤ S.dt / 2 ^ k := div_nonneg hS.dt hp.le
    have s1 := coordinate_stall h.nearest hdc.pose.2.1 (red _ _ u1) hn
    have s2 := coordinate_stall h.nearest hdc.pose.2.2 (red _ _ u2) hn
    have hxy : (moved A b.p b.v (shortened A.rnd S.dt k)).xy = b.pos := by
      rw [hk2]
      unfold moved Body.pos V3.xy
      simp only [s1, s2]
    unfold move
    rw [circle_setP hdc.circle.circle, circle_set_form hdc.circle.circle]
    refine ⟨?_, rfl, hxy.symm⟩
    simp only [hxy, ← hg]
  obtain ⟨j, -, a1, -, a3⟩ := strictLoop_first (A := A) (S := S) (setVs w.bodies v) (alive_circles hc) S.dt k fuel hf hstill
  refine ⟨⟨(setVs w.bodies v).map fun b => move A b (shortened A.rnd S.dt j), A.rnd (w.t + shortened A.rnd S.dt j)⟩, ?_, ⟨?_, a1⟩⟩
  · unfold strictStep
    rw [← setVs_poses w.bodies v, a3]
    rfl
  · intro b hb
    obtain ⟨c, hcm, rfl⟩ := List.mem_map.mp hb
    exact doubleCircle_move h (hc c hcm) _

/-- C123: the clock does not run backwards. -/
theorem C123_clock (h : DoubleArith A) (hS : GoodSetup S) (w w' : Circles) (hw : RoundedScene A S w) (ht : Rep w.t) (v : Vec) (fuel : ℕ)
    (hs : strictStep A S fuel w v = .done w') : w.t ≤ w'.t ∧ Rep w'.t ∧
      ∃ j < fuel, w'.t = A.rnd (w.t + shortened A.rnd S.dt j) ∧ w'.bodies = (setVs w.bodies v).map fun b => move A b (shortened A.rnd S.dt j) := by
  unfold strictStep at hs
  obtain ⟨r, h1, h2⟩ := Run.bind_eq_done.mp hs
  rw [← setVs_poses w.bodies v] at h1
  obtain ⟨j, hj, rfl, -⟩ := strictLoop_done (A := A) (S := S) _ (alive_circles (setVs_circles hw.bodies v)) _ _ _ h1
  cases h2
  refine ⟨?_, (h.nearest _).1, j, hj, rfl, rfl⟩
  have := nearest_mono h.nearest (le_add_of_nonneg_right (shortened_nonneg h.nearest hS.dt j) : w.t ≤ w.t + shortened A.rnd S.dt j)
  rwa [nearest_id h.nearest ht] at this

/-! ## Without rounding -/

theorem pens_exact (nc : ℕ → List ℕ) (eps : ℝ) (bs : List Body) (ps : List (ℕ × ℕ)) :
    pens .exact nc eps bs ps = (circleContacts nc eps bs ps).map Contact.pen := by
  unfold pens circleContacts
  rw [List.map_flatMap]
  congr 1
  funext p
  have hpen : circlePen .exact (bodyAt bs p.1).rad (bodyAt bs p.2).rad (bodyAt bs p.1).pos (bodyAt bs p.2).pos =
      (bodyAt bs p.1).rad + (bodyAt bs p.2).rad - nrm ((bodyAt bs p.1).pos - (bodyAt bs p.2).pos) := by
    simp [circlePen, fnorm, Arith.exact, nrm]
  rw [hpen]
  unfold circleCircle
  simp only
  split_ifs <;> simp

theorem move_exact (b : Body) (dt : ℝ) : move .exact b dt = b.move dt := by
  change setP _ _ _ = Body.set_p _ _
  rw [setP_exact]
  congr 1
  apply V3.ext <;> simp [moved, Arith.exact] <;> ring

theorem isCircle_set {b : Body} (hc : b.isCircle = true) (q : V3) : (b.set_p q).isCircle = true := by
  have := circle_set_form hc q
  simp only [Body.op] at this
  rw [this]; exact hc

open Classical in
theorem strictLoop_exact (f : ℕ) (nc : ℕ → List ℕ) (pairs : List Body → List (ℕ × ℕ)) (hp : BroadPhase pairs) (H : ForceHeap) (lcp : LcpSolver)
    (mi : ℕ) (start : Vec) (rots : List (ℝ × ℝ)) (D : ℝ) (fuel : ℕ) (w : World (Option Mat) Finder) (hs : w.strict_no_pen = true)
    (hb : ∀ b ∈ w.bodies, b.isCircle = true) (dt : ℝ) :
    (stepLoop (pdipmEnv 2 H lcp mi (diffCollide f nc pairs)) start rots fuel w dt = .running ∧
      strictLoop .exact ⟨nc, pairs, w.eps, w.tol, D⟩ start fuel w.bodies dt = .running) ∨
    ∃ r, stepLoop (pdipmEnv 2 H lcp mi (diffCollide f nc pairs)) start rots fuel w dt = .done r ∧
      strictLoop .exact ⟨nc, pairs, w.eps, w.tol, D⟩ start fuel w.bodies dt = .done (r.1.bodies, r.2) ∧
      r.1.post_stab = w.post_stab ∧ r.1.t = w.t := by
  induction fuel generalizing w dt with
  | zero => exact .inl ⟨rfl, rfl⟩
  | succ n ih =>
    set w1 := (w.moveBodies dt).moveJoints dt with hw1
    have hbod : w1.bodies = w.bodies.map fun b => move .exact b dt := by
      change (w.bodies.map fun b => b.move dt) = _
      exact List.map_congr_left fun b _ => (move_exact b dt).symm
    have hcirc : ∀ b ∈ w1.bodies, b.isCircle = true := by
      intro b h
      have h : b ∈ w.bodies.map fun b => b.move dt := h
      obtain ⟨c, hc, rfl⟩ := List.mem_map.mp h
      exact isCircle_set (hb c hc) _
    have hcol : (pdipmEnv 2 H lcp mi (diffCollide f nc pairs)).collide w1.eps w1.fnd w1.bodies =
        .ok (w1.fnd, circleContacts nc w1.eps w1.bodies (pairs w1.bodies)) :=
      collide_circles hp (fun i hi => hcirc _ (bodyAt_mem hi)) w1.fnd
    set w2 : World (Option Mat) Finder := { w1 with contacts := circleContacts nc w1.eps w1.bodies (pairs w1.bodies), fnd := w1.fnd } with hw2
    have hfind : w1.find_contacts (pdipmEnv 2 H lcp mi (diffCollide f nc pairs)) = .done w2 := by
      unfold World.find_contacts
      rw [hcol]
    have hacc : Accepts .exact ⟨nc, pairs, w.eps, w.tol, D⟩ (w.bodies.map fun b => move .exact b dt) ↔ w2.noPen := by
      unfold Accepts World.noPen
      simp only
      rw [pens_exact, ← hbod]
      simp only [List.mem_map, forall_exists_index, and_imp, forall_apply_eq_imp_iff₂]
      exact Iff.rfl
    have hstep : stepLoop (pdipmEnv 2 H lcp mi (diffCollide f nc pairs)) start rots (n + 1) w dt =
        (if w2.noPen then .done (w2, dt) else if ¬ w2.strict_no_pen ∧ dt < w2.dt / 4 then .done (w2, dt)
          else stepLoop (pdipmEnv 2 H lcp mi (diffCollide f nc pairs)) start rots n ((w2.set_p start).restoreJoints rots) (dt / 2)) := by
      rw [stepLoop, ← hw1, hfind]
      rfl
    rw [hstep, strictLoop]
    by_cases ha : w2.noPen
    · rw [if_pos ha, if_pos (hacc.mpr ha)]
      exact .inr ⟨_, rfl, by rw [← hbod], rfl, rfl⟩
    · rw [if_neg ha, if_neg (fun h => ha (hacc.mp h)), if_neg (fun h => h.1 hs)]
      have hset : setPs .exact (w.bodies.map fun b => move .exact b dt) start = ((w2.set_p start).restoreJoints rots).bodies := by
        rw [← hbod]
        unfold setPs
        simp only [setP_exact]
        rfl
      rw [hset]
      refine ih ((w2.set_p start).restoreJoints rots) hs ?_ (dt / 2)
      intro b h
      have h : b ∈ w1.bodies.zipIdx.map fun bi => bi.1.set_p (slice3 start bi.2) := h
      obtain ⟨c, hc, rfl⟩ := List.mem_map.mp h
      exact isCircle_set (hcirc _ (List.fst_mem_of_mem_zipIdx hc)) _

/-- C123: without rounding the model is that of the other theorems on strict worlds. -/
theorem C123_exact (fuel f : ℕ) (nc : ℕ → List ℕ) (pairs : List Body → List (ℕ × ℕ)) (hp : BroadPhase pairs) (H : ForceHeap) (lcp : LcpSolver) (mi : ℕ)
    (w : World (Option Mat) Finder) (hs : w.strict_no_pen = true) (hn : w.post_stab = false) (hb : ∀ b ∈ w.bodies, b.isCircle = true)
    (r : Option Mat × Vec) (hsolve : pdipmSolve 2 H lcp mi w w.dt = .ok r) :
    strictStep .exact ⟨nc, pairs, w.eps, w.tol, w.dt⟩ fuel ⟨w.bodies, w.t⟩ r.2 =
      (w.step_dt (pdipmEnv 2 H lcp mi (diffCollide f nc pairs)) fuel w.dt).bind fun w' => .done ⟨w'.bodies, w'.t⟩ := by
  obtain ⟨e, v⟩ := r
  unfold strictStep World.step_dt
  have hso : Run.ofExcept ((pdipmEnv 2 H lcp mi (diffCollide f nc pairs)).solve_dynamics w w.dt) = .done (e, v) := by
    change Run.ofExcept (pdipmSolve 2 H lcp mi w w.dt) = _
    rw [hsolve]; rfl
  simp only
  rw [hso, Run.bind_done]
  set w1 := ({ w with eng := e } : World (Option Mat) Finder).set_v v with hw1
  have hbod : setVs w.bodies v = w1.bodies := rfl
  have hcirc : ∀ b ∈ w1.bodies, b.isCircle = true := by
    intro b h
    have h : b ∈ w.bodies.zipIdx.map fun bi => { bi.1 with v := slice3 v bi.2 } := h
    obtain ⟨c, hc, rfl⟩ := List.mem_map.mp h
    have := hb c.1 (List.fst_mem_of_mem_zipIdx hc)
    exact this
  rcases strictLoop_exact f nc pairs hp H lcp mi (cat3 (w.bodies.map Body.p)) (w.joints.map fun j => (j.rot1, j.rot2)) w.dt fuel w1 hs hcirc w.dt
    with ⟨h1, h2⟩ | ⟨r, h1, h2, h3, h4⟩
  · rw [hbod]
    change (strictLoop _ ⟨nc, pairs, w1.eps, w1.tol, w.dt⟩ _ _ _ _).bind _ = _
    rw [h1, h2]
    rfl
  · rw [hbod]
    change (strictLoop _ ⟨nc, pairs, w1.eps, w1.tol, w.dt⟩ _ _ _ _).bind _ = _
    have h3 : r.1.post_stab = false := by rw [h3]; exact hn
    rw [h1, h2, Run.bind_done, Run.bind_done]
    simp only [h3, Bool.false_eq_true, if_false]
    rw [Run.bind_done, Run.bind_done]
    simp only
    rw [h4]
    rfl

/-! ## Two circles pressed together -/

/-- A circle of radius one. -/
def unitDisc (x : ℝ) : Body := mkCircle (.two (x, 1)) 1 {}

/-- Two circles that touch, of a world with `tol` zero. -/
def touching : Circles := ⟨[unitDisc 3, unitDisc 5], 0⟩

/-- The world. -/
def touchingSetup : WorldSetup := ⟨fun _ => [], allPairs, 1 / 10, 0, 1⟩

/-- Velocities by which the second circle is pressed against the first. -/
def pressing : Vec := cat3 [0, ⟨0, -1, 0⟩]

theorem rep_small (n : ℕ) (hn : n ≤ 2 ^ 53) : Rep n := by simpa using rep_nat n hn 0 (by norm_num)

theorem unitDisc_double (n : ℕ) (hn : n ≤ 2 ^ 53) : DoubleCircle (1 / 10) (unitDisc n) := by
  refine ⟨⟨⟨_, [], .circle (.two (n, 1)) 1 {}, rfl⟩, rfl, ?_, ?_⟩, ⟨?_, ?_, ?_⟩, ?_⟩
  · change (0 : ℝ) ≤ 1; norm_num
  · change (1 / 10 : ℝ) ≤ 2 * 0.1; norm_num
  · exact rep_zero
  · exact rep_small n hn
  · change Rep 1
    exact_mod_cast rep_small 1 (by norm_num)
  · change Rep 1
    exact_mod_cast rep_small 1 (by norm_num)

theorem allPairs_two (a b : Body) : allPairs [a, b] = [(0, 1)] := by
  simp [allPairs, List.range_succ]

theorem touching_good : GoodSetup touchingSetup where
  symm := by simp [touchingSetup]
  broad := allPairs_broad
  geom := by
    intro bs cs h p
    have : bs.length = cs.length := by simpa using congrArg List.length h
    obtain ⟨i, j⟩ := p
    change (i, j) ∈ allPairs bs ↔ (i, j) ∈ allPairs cs
    rw [allPairs_mem, allPairs_mem, this]
  eps := by norm_num [touchingSetup]
  tol := le_rfl
  dt := by norm_num [touchingSetup]

theorem touching_circles : ∀ b ∈ touching.bodies, DoubleCircle touchingSetup.eps b := by
  intro b hb
  simp only [touching, List.mem_cons, List.not_mem_nil, or_false] at hb
  rcases hb with rfl | rfl
  · exact_mod_cast unitDisc_double 3 (by norm_num)
  · exact_mod_cast unitDisc_double 5 (by norm_num)

theorem touching_scene {rnd : ℝ → ℝ} (hr : Nearest rnd) : RoundedScene (doubleOf rnd) touchingSetup touching := by
  refine ⟨touching_circles, ?_⟩
  have n2 : rnd 2 = 2 := nearest_id hr (by exact_mod_cast rep_small 2 (by norm_num))
  have n4 : rnd 4 = 4 := nearest_id hr (by exact_mod_cast rep_small 4 (by norm_num))
  have m2 : rnd (-2) = -2 := nearest_id hr (rep_neg (by exact_mod_cast rep_small 2 (by norm_num)))
  have hs : Real.sqrt 4 = 2 := by rw [show (4 : ℝ) = 2 ^ 2 by norm_num]; exact Real.sqrt_sq (by norm_num)
  have hp : circlePen (doubleOf rnd) (unitDisc 3).rad (unitDisc 5).rad (unitDisc 3).pos (unitDisc 5).pos = 0 := by
    change rnd (rnd (1 + 1) - rnd (Real.sqrt (rnd (rnd (rnd (3 - 5) * rnd (3 - 5)) + rnd (rnd (1 - 1) * rnd (1 - 1)))))) = 0
    rw [show (3 : ℝ) - 5 = -2 by norm_num, sub_self, nearest_zero hr, m2, show (-2 : ℝ) * -2 = 4 by norm_num, n4, mul_zero, nearest_zero hr, add_zero, n4,
      hs, n2, show (1 : ℝ) + 1 = 2 by norm_num, n2, sub_self, nearest_zero hr]
  intro x hx
  change x ∈ pens _ _ _ [unitDisc 3, unitDisc 5] (allPairs [unitDisc 3, unitDisc 5]) at hx
  rw [allPairs_two] at hx
  unfold pens at hx
  simp only [List.flatMap_cons, List.flatMap_nil, List.append_nil] at hx
  change x ∈ (if 0 ∈ ([] : List ℕ) then [] else if circlePen (doubleOf rnd) (unitDisc 3).rad (unitDisc 5).rad (unitDisc 3).pos (unitDisc 5).pos < -(1 / 10) then []
    else [circlePen (doubleOf rnd) (unitDisc 3).rad (unitDisc 5).rad (unitDisc 3).pos (unitDisc 5).pos]) at hx
  rw [hp, if_neg (by simp), if_neg (by norm_num), List.mem_singleton] at hx
  exact hx.le

theorem pressed_bodies : setVs touching.bodies pressing = [{ unitDisc 3 with v := 0 }, { unitDisc 5 with v := ⟨0, -1, 0⟩ }] := by
  simp only [setVs, touching, List.zipIdx_cons, List.zipIdx_nil, List.map_cons, List.map_nil]
  rfl

/-- C123: two circles that touch and are pressed together, with `tol` zero.  In exact arithmetic the step never returns; in double
precision it does, within 55 attempts, but the clock has hardly moved: by less than `2^-47` instead of 1. -/
theorem C123_pressed {rnd : ℝ → ℝ} (hr : Nearest rnd) : (∀ fuel, strictStep .exact touchingSetup fuel touching pressing = .running) ∧
    ∃ w', strictStep (doubleOf rnd) touchingSetup 55 touching pressing = .done w' ∧ w'.t ≤ 1 / 2 ^ 47 := by
  constructor
  · have key : ∀ fuel (dt : ℝ), 0 < dt → dt ≤ 1 → strictLoop .exact touchingSetup (cat3 ((setVs touching.bodies pressing).map Body.p)) fuel
        (setVs touching.bodies pressing) dt = .running := by
      intro fuel
      induction fuel with
      | zero => intro dt _ _; rfl
      | succ n ih =>
        intro dt h0 h1
        rcases strictLoop_succ (A := .exact) (S := touchingSetup) (setVs touching.bodies pressing)
          (alive_circles (setVs_circles touching_circles _)) n dt with ⟨h2, -⟩ | ⟨-, h3⟩
        · exfalso
          rw [pressed_bodies] at h2
          simp only [List.map_cons, List.map_nil] at h2
          have h4 := h2 dt (by
            change dt ∈ pens _ _ _ _ (allPairs _)
            rw [allPairs_two]
            unfold pens
            simp only [List.flatMap_cons, List.flatMap_nil, List.append_nil]
            have hp : circlePen .exact 1 1 ((3 : ℝ) + 0 * dt, (1 : ℝ) + 0 * dt) ((5 : ℝ) + -1 * dt, (1 : ℝ) + 0 * dt) = dt := by
              simp only [circlePen, fnorm, Arith.exact, id]
              rw [show ((3 : ℝ) + 0 * dt - (5 + -1 * dt)) * (3 + 0 * dt - (5 + -1 * dt)) + (1 + 0 * dt - (1 + 0 * dt)) * (1 + 0 * dt - (1 + 0 * dt)) =
                (2 - dt) ^ 2 by ring, Real.sqrt_sq (by linarith)]
              ring
            change dt ∈ (if 0 ∈ ([] : List ℕ) then [] else if circlePen .exact 1 1 ((3 : ℝ) + 0 * dt, (1 : ℝ) + 0 * dt) ((5 : ℝ) + -1 * dt, (1 : ℝ) + 0 * dt) < -(1 / 10)
              then [] else [circlePen .exact 1 1 ((3 : ℝ) + 0 * dt, (1 : ℝ) + 0 * dt) ((5 : ℝ) + -1 * dt, (1 : ℝ) + 0 * dt)])
            rw [hp, if_neg (by simp), if_neg (by linarith)]
            exact List.mem_singleton_self _)
          have h4 : dt ≤ 0 := h4
          linarith
        · rw [h3]
          exact ih _ (half_pos h0) (by change dt / 2 ≤ 1; linarith)
    intro fuel
    unfold strictStep
    rw [← setVs_poses touching.bodies pressing]
    change (strictLoop _ _ _ fuel _ 1).bind _ = _
    rw [key fuel 1 (by norm_num) le_rfl]
    rfl
  · have ha := rounded_arith hr
    have r1 : Rep 1 := by exact_mod_cast rep_small 1 (by norm_num)
    have r5 : Rep 5 := by exact_mod_cast rep_small 5 (by norm_num)
    have hunf : ∀ i < touching.bodies.length, Unfelt touchingSetup.dt 54 (bodyAt touching.bodies i) (slice3 pressing i) := by
      intro i hi
      have hi : i < 2 := hi
      interval_cases i
      · exact ⟨.inl rfl, .inl rfl⟩
      · refine ⟨.inr ⟨?_, ?_⟩, .inl rfl⟩
        · change (1 : ℝ) / 2 ^ 900 ≤ |5|
          rw [abs_of_pos (by norm_num)]
          have : (1 : ℝ) / 2 ^ 900 ≤ 1 := by
            rw [div_le_one (by positivity)]
            exact one_le_pow₀ (by norm_num)
          linarith
        · change |(-1 : ℝ)| * 1 ≤ 2 ^ 54 * (1 / 2 ^ 56 * |5|)
          norm_num
    obtain ⟨w', h1, h2⟩ := C123_attempts ha touching_good (S := touchingSetup) r1 (by
        change (1 : ℝ) / 2 ^ 500 ≤ 1
        rw [div_le_one (by positivity)]
        exact one_le_pow₀ (by norm_num)) touching (touching_scene hr) pressing 54 (by norm_num) hunf 55 (by norm_num)
    refine ⟨w', h1, ?_⟩
    obtain ⟨-, -, j, -, h3, h4⟩ := C123_clock ha touching_good touching w' (touching_scene hr) rep_zero pressing 55 h1
    have hn := C123_kept ha touching_good _ h2.bodies h2.kept
    rw [pressed_bodies] at h4
    set d := shortened (doubleOf rnd).rnd touchingSetup.dt j with hd
    have hdr : Rep d := by
      rw [hd]
      cases j with
      | zero => exact r1
      | succ j => exact (hr _).1
    have hd0 : 0 ≤ d := shortened_nonneg (A := doubleOf rnd) hr touching_good.dt j
    simp only [List.map_cons, List.map_nil] at h4
    have h5 := hn 0 (by rw [h4]; simp) 1 (by rw [h4]; simp) (by norm_num) (by simp [touchingSetup])
    rw [h4] at h5
    change 1 + 1 - Spec.dist ((rnd (3 + rnd (0 * d)), rnd (1 + rnd (0 * d))) : V2) (rnd (5 + rnd (-1 * d)), rnd (1 + rnd (0 * d))) ≤
      0 + (14 / 2 ^ 53 * (1 + 1) + 1 / 2 ^ 530) at h5
    have r3 : Rep 3 := by exact_mod_cast rep_small 3 (by norm_num)
    rw [zero_mul, nearest_zero hr, add_zero, add_zero, nearest_id hr r3, nearest_id hr r1, neg_one_mul, nearest_id hr (rep_neg hdr)] at h5
    have e1 := (abs_le.mp (add_error hr r5 (rep_neg hdr))).2
    have hd1 : d ≤ 1 := by
      have hle : ∀ k, shortened (doubleOf rnd).rnd touchingSetup.dt k ≤ 1 := by
        intro k
        induction k with
        | zero => exact le_rfl
        | succ k ih =>
          have h0 := shortened_nonneg (A := doubleOf rnd) hr touching_good.dt k
          have := nearest_mono hr (show shortened (doubleOf rnd).rnd touchingSetup.dt k / 2 ≤ 1 by linarith)
          rwa [nearest_id hr r1] at this
      exact hle j
    rw [abs_of_nonneg (by linarith)] at e1
    have hdist : Spec.dist ((3, 1) : V2) (rnd (5 + -d), 1) = rnd (5 + -d) - 3 := by
      have h6 : 3 ≤ rnd (5 + -d) := by
        have := nearest_mono hr (show (3 : ℝ) ≤ 5 + -d by linarith)
        rwa [nearest_id hr r3] at this
      unfold Spec.dist len
      simp only [Prod.fst_sub, Prod.snd_sub, sub_self]
      rw [show (3 - rnd (5 + -d)) ^ 2 + (0 : ℝ) ^ 2 = (rnd (5 + -d) - 3) ^ 2 by ring]
      exact Real.sqrt_sq (by linarith)
    rw [hdist] at h5
    have h7 : (1 : ℝ) / 2 ^ 530 ≤ 1 / 2 ^ 53 := one_div_le_one_div_of_le (by positivity) (pow_le_pow_right₀ (by norm_num) (by norm_num))
    have h8 : d ≤ 1 / 2 ^ 47 := by
      generalize (1 : ℝ) / 2 ^ 530 = η at *
      norm_num at *
      linarith
    rw [h3]
    have h9 := nearest_mono hr (show touching.t + d ≤ 1 / 2 ^ 47 by change 0 + d ≤ _; linarith)
    have r47 : Rep (1 / 2 ^ 47) := by
      have := rep_nat 1 (by norm_num) (-47) (by norm_num)
      norm_num at this ⊢
      exact this
    rwa [nearest_id hr r47] at h9

/-- Example for `C123_kept`, `C123_step` and `C123_run`: the touching circles, with ties to even, under any velocities. -/
example (vs : List Vec) : ∃ w', strictRun (doubleOf rne) touchingSetup 2100 touching vs = .done w' ∧
    RoundedScene (doubleOf rne) touchingSetup w' ∧ NearlyNoOverlap touchingSetup w'.bodies :=
  C123_run (rounded_arith rne_nearest) rne_tiny touching_good (by
    change (1 : ℝ) ≤ 2 ^ 1024
    exact one_le_pow₀ (by norm_num)) touching (touching_scene rne_nearest) vs

/-- Example for `C123_refused`: circles that overlap. -/
example : ¬ Accepts (doubleOf rne) touchingSetup [unitDisc 3, unitDisc 4] ∧
    ∃ i < 2, ∃ j < 2, i ≠ j ∧ -(1 / 1000) < overlapDepth (bodyAt [unitDisc 3, unitDisc 4] i) (bodyAt [unitDisc 3, unitDisc 4] j) := by
  have hb : ∀ b ∈ [unitDisc 3, unitDisc 4], DoubleCircle touchingSetup.eps b := by
    intro b hb
    simp only [List.mem_cons, List.not_mem_nil, or_false] at hb
    rcases hb with rfl | rfl
    · exact_mod_cast unitDisc_double 3 (by norm_num)
    · exact_mod_cast unitDisc_double 4 (by norm_num)
  have hd : Spec.dist (unitDisc 3).pos (unitDisc 4).pos = 1 := by
    change Spec.dist ((3, 1) : V2) (4, 1) = 1
    unfold Spec.dist len
    norm_num
  have hd' : Spec.dist (unitDisc 4).pos (unitDisc 3).pos = 1 := by rw [Spec.dist_comm, hd]
  have hη : (1 : ℝ) / 2 ^ 530 ≤ 1 / 2 ^ 53 := one_div_le_one_div_of_le (by positivity) (pow_le_pow_right₀ (by norm_num) (by norm_num))
  have hno : ¬ Accepts (doubleOf rne) touchingSetup [unitDisc 3, unitDisc 4] := by
    intro h
    have := C123_kept (rounded_arith rne_nearest) touching_good _ hb h 0 (by simp) 1 (by simp) (by norm_num) (by simp [touchingSetup])
    change 1 + 1 - Spec.dist (unitDisc 3).pos (unitDisc 4).pos ≤ 0 + (14 / 2 ^ 53 * (1 + 1) + 1 / 2 ^ 530) at this
    rw [hd] at this
    generalize (1 : ℝ) / 2 ^ 530 = η at *
    norm_num at *
    linarith
  refine ⟨hno, ?_⟩
  obtain ⟨i, hi, j, hj, hij, -, h⟩ := C123_refused (rounded_arith rne_nearest) touching_good _ hb hno
  have hi : i < 2 := hi
  have hj : j < 2 := hj
  refine ⟨i, hi, j, hj, hij, lt_of_le_of_lt ?_ h⟩
  have hr : ∀ k < 2, (bodyAt [unitDisc 3, unitDisc 4] k).rad = 1 := by
    intro k hk
    interval_cases k <;> rfl
  have hdd : Spec.dist (bodyAt [unitDisc 3, unitDisc 4] i).pos (bodyAt [unitDisc 3, unitDisc 4] j).pos = 1 := by
    interval_cases i <;> interval_cases j
    · exact absurd rfl hij
    · exact hd
    · exact hd'
    · exact absurd rfl hij
  rw [hr i hi, hr j hj, hdd]
  change _ ≤ (0 : ℝ) - _
  generalize (1 : ℝ) / 2 ^ 530 = η at *
  norm_num at *
  linarith

/-- Example for `C123_exact`: the world of `C27`. -/
example (mi fuel f : ℕ) (fnd : Finder) : ∃ r, strictStep .exact ⟨fun _ => [], allPairs, (hangWorld 0 fnd).eps, (hangWorld 0 fnd).tol, (hangWorld 0 fnd).dt⟩
      fuel ⟨(hangWorld 0 fnd).bodies, (hangWorld 0 fnd).t⟩ r =
    ((hangWorld 0 fnd).step_dt (pdipmEnv 2 hangForces exactLcp mi (diffCollide f (fun _ => []) allPairs)) fuel (hangWorld 0 fnd).dt).bind
      fun w' => .done ⟨w'.bodies, w'.t⟩ := by
  have hscene := hang_scene f mi 0 fnd
  obtain ⟨r, hr⟩ := exact_engine_answers (mi := mi) hscene.joints (hscene.contactsOk allPairs_broad)
    (by simp [hangWorld]) (hang_forces 0) (hang_law 0 (by norm_num))
  exact ⟨r.2, C123_exact fuel f _ allPairs allPairs_broad hangForces exactLcp mi _ hscene.strict hscene.nostab
    (fun b hb => (hscene.bodies b hb).circle) r hr⟩

end LcpPhysics
