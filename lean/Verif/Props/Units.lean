import Verif.Lemmas.Units
import Verif.Props.Galilei

/-!
# C108: units of length and time
-/

noncomputable section

namespace LcpPhysics
open Spec

/-! ## The law of impact -/

variable {φ : Type}

theorem pointVel_units (U : Units) (u : V3) (p : V2) :
    pointVel (U.vel u) (U.len • p) = (U.len / U.time) • pointVel u p := by
  have := U.time_pos.ne'
  ext <;> simp [pointVel, Units.vel] <;> field_simp

theorem contactVel_units {U : Units} {n : ℕ} {v V : Vec} (hV : ∀ i < n, twist V i = U.vel (twist v i)) {c : Contact}
    (h1 : c.i1 < n) (h2 : c.i2 < n) : contactVel (U.contact c) V = (U.len / U.time) • contactVel c v := by
  have e1 : (U.contact c).i1 = c.i1 := rfl
  have e2 : (U.contact c).i2 = c.i2 := rfl
  have e3 : (U.contact c).p1 = U.len • c.p1 := rfl
  have e4 : (U.contact c).p2 = U.len • c.p2 := rfl
  unfold contactVel
  rw [e1, e2, e3, e4, hV _ h1, hV _ h2, pointVel_units, pointVel_units, smul_sub]

theorem inner_scale_right (k : ℝ) (a b : V2) : Spec.inner a (k • b) = k * Spec.inner a b := dot_scale_right k a b

theorem normalVel_units {U : Units} {n : ℕ} {v V : Vec} (hV : ∀ i < n, twist V i = U.vel (twist v i)) {c : Contact}
    (h1 : c.i1 < n) (h2 : c.i2 < n) : normalVel (U.contact c) V = U.len / U.time * normalVel c v := by
  unfold normalVel
  rw [contactVel_units hV h1 h2, inner_scale_right]
  rfl

theorem slipVel_units {U : Units} {n : ℕ} {v V : Vec} (hV : ∀ i < n, twist V i = U.vel (twist v i)) {c : Contact}
    (h1 : c.i1 < n) (h2 : c.i2 < n) : slipVel (U.contact c) V = U.len / U.time * slipVel c v := by
  unfold slipVel
  rw [contactVel_units hV h1 h2, inner_scale_right]
  rfl

/-- The velocity that the other units write as `X`. -/
def unscale (U : Units) (X : Vec) : Vec := stack fun i =>
  ⟨U.time * (twist X i).r, U.time * (twist X i).x / U.len, U.time * (twist X i).y / U.len⟩

theorem unscale_vel (U : Units) (X : Vec) (i : ℕ) : twist X i = U.vel (twist (unscale U X) i) := by
  have h1 := U.time_pos.ne'
  have h2 := U.len_pos.ne'
  unfold unscale
  rw [twist_stack]
  apply V3.ext <;> simp [Units.vel] <;> field_simp

theorem bodyAt_units_consts (U : Units) (bs : List Body) {i : ℕ} (h : i < bs.length) :
    (bodyAt (bs.map U.body) i).mass = (bodyAt bs i).mass ∧
    (bodyAt (bs.map U.body) i).ang_inertia = U.len ^ 2 * (bodyAt bs i).ang_inertia ∧
    (bodyAt (bs.map U.body) i).restitution = (bodyAt bs i).restitution ∧
    (bodyAt (bs.map U.body) i).fric_coeff = (bodyAt bs i).fric_coeff := by
  rw [bodyAt_units U bs h]
  exact ⟨rfl, rfl, rfl, rfl⟩

theorem momentum_units (U : Units) (bs : List Body) {v V : Vec}
    (hV : ∀ i < bs.length, twist V i = U.vel (twist v i)) (X : Vec) :
    momentumPower (bs.map U.body) X V = (U.len / U.time) ^ 2 * momentumPower bs (unscale U X) v := by
  have ht := U.time_pos.ne'
  unfold momentumPower
  rw [List.length_map, Finset.mul_sum]
  refine Finset.sum_congr rfl fun i hi => ?_
  have hi := Finset.mem_range.1 hi
  obtain ⟨h1, h2, -, -⟩ := bodyAt_units_consts U bs hi
  rw [h1, h2, hV i hi, unscale_vel U X i]
  simp only [Units.vel]
  field_simp

theorem force_units (U : Units) (n : ℕ) (f : ℕ → V3) (X : Vec) :
    forcePower n (fun i => U.impulse (f i)) X = (U.len / U.time) ^ 2 * forcePower n f (unscale U X) := by
  have ht := U.time_pos.ne'
  unfold forcePower
  rw [Finset.mul_sum]
  refine Finset.sum_congr rfl fun i _ => ?_
  rw [unscale_vel U X i]
  simp only [Units.impulse, Units.vel]
  field_simp

theorem contactPower_units (U : Units) {n : ℕ} (cs : List Contact) (hc : ∀ c ∈ cs, c.i1 < n ∧ c.i2 < n)
    (pn pt : ℕ → ℝ) (X : Vec) :
    contactPower (cs.map U.contact) (fun i => U.len / U.time * pn i) (fun i => U.len / U.time * pt i) X =
      (U.len / U.time) ^ 2 * contactPower cs pn pt (unscale U X) := by
  unfold contactPower
  rw [List.length_map, Finset.mul_sum]
  refine Finset.sum_congr rfl fun i hi => ?_
  have hi := Finset.mem_range.1 hi
  rw [List.getElem?_map, List.getElem?_eq_getElem hi]
  obtain ⟨h1, h2⟩ := hc _ (List.getElem_mem hi)
  have hX : ∀ i < n, twist X i = U.vel (twist (unscale U X) i) := fun i _ => unscale_vel U X i
  simp only [Option.map_some]
  rw [normalVel_units hX h1 h2, slipVel_units hX h1 h2]
  ring

/-- How the velocities of a constraint scale: translations by `len / time`, rotations by `1 / time`. -/
def jointScale (U : Units) (k : JKind) : List ℝ :=
  match k with
  | .revolute => [U.len / U.time, U.len / U.time]
  | .fixed => [U.len / U.time, U.len / U.time, 1 / U.time]
  | .yc => [U.len / U.time]
  | .xc => [U.len / U.time]
  | .rotc => [1 / U.time]
  | .total => [1 / U.time, U.len / U.time, U.len / U.time]

/-- The factors of all rows. -/
def jointScales (U : Units) (js : List Joint) : List ℝ := js.flatMap fun j => jointScale U j.kind

theorem jointScales_pos (U : Units) (js : List Joint) : ∀ x ∈ jointScales U js, 0 < x := by
  intro x hx
  obtain ⟨j, -, hx⟩ := List.mem_flatMap.1 hx
  have h1 := U.time_pos
  have h2 := U.len_pos
  have p1 : 0 < U.len / U.time := div_pos h2 h1
  have p2 : 0 < 1 / U.time := div_pos one_pos h1
  cases hk : j.kind <;> rw [hk] at hx <;> simp [jointScale] at hx <;> aesop

theorem jointVel_units {U : Units} {n : ℕ} {v V : Vec} (hV : ∀ i < n, twist V i = U.vel (twist v i)) {j : Joint}
    (hj : j.Valid n) : jointVel (U.joint j) V = List.zipWith (· * ·) (jointScale U j.kind) (jointVel j v) := by
  obtain ⟨kind, i1, i2, pos, pos1, pos2, r1, rot1, rot2⟩ := j
  obtain ⟨h1, h2⟩ := hj
  simp only at h1 h2
  have ht := U.time_pos.ne'
  have e1 := hV i1 h1
  have key : ∀ u2 V2' : V3, V2' = U.vel u2 → pointVel (twist V i1) (U.len • pos1) - pointVel V2' (U.len • pos2) =
      (U.len / U.time) • (pointVel (twist v i1) pos1 - pointVel u2 pos2) := by
    intro u2 V2' h
    rw [e1, h, pointVel_units, pointVel_units, smul_sub]
  have z : (0 : V3) = U.vel 0 := by apply V3.ext <;> simp [Units.vel]
  cases i2 with
  | none =>
    have k := key 0 0 z
    cases kind <;> simp only [jointVel, Units.joint, jointScale]
    all_goals first | rw [k] | rw [e1]
    all_goals simp [Units.vel, e1]
    all_goals first | exact ⟨by ring, by ring, by ring⟩ | ring
  | some m =>
    have e2 := hV m (h2 m rfl)
    have k := key (twist v m) (twist V m) e2
    cases kind <;> simp only [jointVel, Units.joint, jointScale]
    all_goals first | rw [k] | rw [e1]
    all_goals simp [Units.vel, e1, e2]
    all_goals first | exact ⟨by ring, by ring, by ring⟩ | ring

theorem jointScale_length (U : Units) (j : Joint) (v : Vec) : (jointScale U j.kind).length = (jointVel j v).length := by
  obtain ⟨kind, i1, i2, pos, pos1, pos2, r1, rot1, rot2⟩ := j
  cases kind <;> rfl

theorem jointScales_length (U : Units) (js : List Joint) (v : Vec) :
    (jointScales U js).length = (jointVels js v).length := by
  induction js with
  | nil => rfl
  | cons j js ih =>
    unfold jointScales jointVels at *
    rw [List.flatMap_cons, List.flatMap_cons, List.length_append, List.length_append, ih, jointScale_length U j v]

theorem jointVels_units {U : Units} {n : ℕ} {v V : Vec} (hV : ∀ i < n, twist V i = U.vel (twist v i)) {js : List Joint}
    (hj : ∀ j ∈ js, j.Valid n) :
    jointVels (js.map U.joint) V = List.zipWith (· * ·) (jointScales U js) (jointVels js v) := by
  induction js with
  | nil => rfl
  | cons j js ih =>
    have ih := ih fun j hm => hj j (by simp [hm])
    unfold jointScales jointVels at *
    rw [List.map_cons, List.flatMap_cons, List.flatMap_cons, List.flatMap_cons, jointVel_units hV (hj j (by simp)), ih,
      List.zipWith_append (jointScale_length U j v)]

theorem jointVels_units_length {U : Units} {n : ℕ} {v V : Vec} (hV : ∀ i < n, twist V i = U.vel (twist v i))
    {js : List Joint} (hj : ∀ j ∈ js, j.Valid n) : (jointVels (js.map U.joint) V).length = (jointVels js v).length := by
  rw [jointVels_units hV hj, List.length_zipWith, jointScales_length U js v, min_self]

theorem jointVels_units_get {U : Units} {n : ℕ} {v V : Vec} (hV : ∀ i < n, twist V i = U.vel (twist v i))
    {js : List Joint} (hj : ∀ j ∈ js, j.Valid n) {r : ℕ} (hr : r < (jointVels js v).length) :
    (jointVels (js.map U.joint) V).getD r 0 = (jointScales U js).getD r 1 * (jointVels js v).getD r 0 := by
  have hs : r < (jointScales U js).length := by rw [jointScales_length U js v]; exact hr
  rw [jointVels_units hV hj]
  simp [List.getD_eq_getElem?_getD, hr, hs]

theorem jointScales_get_pos (U : Units) (js : List Joint) (r : ℕ) : 0 < (jointScales U js).getD r 1 := by
  by_cases h : r < (jointScales U js).length
  · simp only [List.getD_eq_getElem?_getD, List.getElem?_eq_getElem h, Option.getD_some]
    exact jointScales_pos U js _ (List.getElem_mem h)
  · simp [List.getD_eq_getElem?_getD, List.getElem?_eq_none (not_lt.1 h)]

theorem jointPower_units {U : Units} {n : ℕ} {js : List Joint} (hj : ∀ j ∈ js, j.Valid n) (l X : Vec) :
    jointPower (js.map U.joint) (fun r => (U.len / U.time) ^ 2 * l r / (jointScales U js).getD r 1) X =
      (U.len / U.time) ^ 2 * jointPower js l (unscale U X) := by
  have hX : ∀ i < n, twist X i = U.vel (twist (unscale U X) i) := fun i _ => unscale_vel U X i
  unfold jointPower
  rw [jointVels_units_length hX hj, Finset.mul_sum]
  refine Finset.sum_congr rfl fun r hr => ?_
  rw [jointVels_units_get hX hj (Finset.mem_range.1 hr)]
  have := (jointScales_get_pos U js r).ne'
  field_simp

theorem jointVels_units_zero {U : Units} {n : ℕ} {v V : Vec} (hV : ∀ i < n, twist V i = U.vel (twist v i))
    {js : List Joint} (hj : ∀ j ∈ js, j.Valid n) (h : ∀ r ∈ jointVels js v, r = 0) :
    ∀ r ∈ jointVels (js.map U.joint) V, r = 0 := by
  rw [jointVels_units hV hj]
  intro r hr
  obtain ⟨i, hi, rfl⟩ := List.getElem_of_mem hr
  rw [List.getElem_zipWith, h _ (List.getElem_mem _), mul_zero]

/-- C108: the law of impact, with restitution, friction and joints, in other units: velocities, impulses and slip
speeds are multiplied by the factors of their dimension. -/
theorem C108_law (U : Units) (bs : List Body) (js : List Joint) (cs : List Contact) (f : ℕ → V3)
    (v v' V V' l : Vec) (pn a b g : ℕ → ℝ) (h : ContactLaw bs js cs f v v' l pn a b g)
    (hj : ∀ j ∈ js, j.Valid bs.length)
    (hc : ∀ c ∈ cs, c.i1 < bs.length ∧ c.i2 < bs.length)
    (hV : ∀ i < bs.length, twist V i = U.vel (twist v i)) (hV' : ∀ i < bs.length, twist V' i = U.vel (twist v' i)) :
    ContactLaw (bs.map U.body) (js.map U.joint) (cs.map U.contact) (fun i => U.impulse (f i)) V V'
      (fun r => (U.len / U.time) ^ 2 * l r / (jointScales U js).getD r 1)
      (fun i => U.len / U.time * pn i) (fun i => U.len / U.time * a i) (fun i => U.len / U.time * b i)
      (fun i => U.len / U.time * g i) := by
  have hp : 0 < U.len / U.time := div_pos U.len_pos U.time_pos
  set q := U.len / U.time with hq
  have mean : ∀ c ∈ cs, meanRestitution (bs.map U.body) (U.contact c) = meanRestitution bs c ∧
      meanFriction (bs.map U.body) (U.contact c) = meanFriction bs c := by
    intro c hcm
    obtain ⟨h1, h2⟩ := hc c hcm
    have e1 : (U.contact c).i1 = c.i1 := rfl
    have e2 : (U.contact c).i2 = c.i2 := rfl
    unfold meanRestitution meanFriction
    rw [e1, e2, (bodyAt_units_consts U bs h1).2.2.1, (bodyAt_units_consts U bs h2).2.2.1,
      (bodyAt_units_consts U bs h1).2.2.2, (bodyAt_units_consts U bs h2).2.2.2]
    exact ⟨rfl, rfl⟩
  refine ⟨?_, jointVels_units_zero hV' hj h.joints, ?_, ?_, ?_, ?_⟩
  · intro X
    have d := h.dynamics (unscale U X)
    have e : (fun i => q * a i - q * b i) = fun i => q * (a i - b i) := by funext i; ring
    rw [momentum_units U bs hV', momentum_units U bs hV, List.length_map, force_units, e, contactPower_units U cs hc,
      jointPower_units hj, d]
    ring
  · intro i hi
    rw [List.length_map] at hi
    obtain ⟨h1, h2, h3, h4⟩ := h.nonneg i hi
    exact ⟨by positivity, by positivity, by positivity, by positivity⟩
  · intro i hi
    rw [List.length_map] at hi
    obtain ⟨h1, h2⟩ := hc _ (List.getElem_mem hi)
    rw [List.getElem_map, normalVel_units hV' h1 h2, normalVel_units hV h1 h2, (mean _ (List.getElem_mem hi)).1, ← hq]
    obtain ⟨r1, r2⟩ := h.restitution i hi
    constructor
    · have := mul_nonneg hp.le r1
      linarith
    · linear_combination q ^ 2 * r2
  · intro i hi
    rw [List.length_map] at hi
    obtain ⟨h1, h2⟩ := hc _ (List.getElem_mem hi)
    rw [List.getElem_map, slipVel_units hV' h1 h2, ← hq]
    obtain ⟨r1, r2, r3, r4⟩ := h.slip i hi
    refine ⟨?_, ?_, ?_, ?_⟩
    · have := mul_nonneg hp.le r1
      linarith
    · linear_combination q ^ 2 * r2
    · have := mul_nonneg hp.le r3
      linarith
    · linear_combination q ^ 2 * r4
  · intro i hi
    rw [List.length_map] at hi
    rw [List.getElem_map, (mean _ (List.getElem_mem hi)).2]
    obtain ⟨r1, r2⟩ := h.cone i hi
    constructor
    · have := mul_nonneg hp.le r1
      linarith
    · linear_combination q ^ 2 * r2

/-- C108: the law of the post-stabilization in other units: the displacement rate is a velocity. -/
theorem C108_post_law (U : Units) (bs : List Body) (js : List Joint) (cs : List Contact) (v dp V DP l : Vec)
    (pn : ℕ → ℝ) (h : PostStabLaw bs js cs v dp l pn) (hj : ∀ j ∈ js, j.Valid bs.length)
    (hc : ∀ c ∈ cs, c.i1 < bs.length ∧ c.i2 < bs.length)
    (hV : ∀ i < bs.length, twist V i = U.vel (twist v i))
    (hD : ∀ i < bs.length, twist DP i = U.vel (twist dp i)) :
    PostStabLaw (bs.map U.body) (js.map U.joint) (cs.map U.contact) V DP
      (fun r => (U.len / U.time) ^ 2 * l r / (jointScales U js).getD r 1) (fun i => U.len / U.time * pn i) := by
  have hp : 0 < U.len / U.time := div_pos U.len_pos U.time_pos
  have hs : ∀ i < bs.length, twist (DP + V) i = U.vel (twist (dp + v) i) := by
    intro i hi
    have a : twist (DP + V) i = twist DP i + twist V i := rfl
    have b : twist (dp + v) i = twist dp i + twist v i := rfl
    rw [a, b, hV i hi, hD i hi]
    apply V3.ext <;> simp [Units.vel] <;> ring
  set q := U.len / U.time with hq
  have mean : ∀ c ∈ cs, meanRestitution (bs.map U.body) (U.contact c) = meanRestitution bs c := by
    intro c hcm
    obtain ⟨h1, h2⟩ := hc c hcm
    have e1 : (U.contact c).i1 = c.i1 := rfl
    have e2 : (U.contact c).i2 = c.i2 := rfl
    unfold meanRestitution
    rw [e1, e2, (bodyAt_units_consts U bs h1).2.2.1, (bodyAt_units_consts U bs h2).2.2.1]
  refine ⟨?_, jointVels_units_zero hs hj h.joints, ?_, ?_⟩
  · intro X
    have d := h.dynamics (unscale U X)
    have e : (fun _ : ℕ => (0 : ℝ)) = fun _ => q * 0 := by funext i; ring
    rw [momentum_units U bs hD, e, contactPower_units U cs hc pn (fun _ => 0), jointPower_units hj, d]
    ring
  · intro i hi
    rw [List.length_map] at hi
    have := h.nonneg i hi
    positivity
  · intro i hi
    rw [List.length_map] at hi
    obtain ⟨h1, h2⟩ := hc _ (List.getElem_mem hi)
    rw [List.getElem_map, normalVel_units hD h1 h2, normalVel_units hV h1 h2, mean _ (List.getElem_mem hi), ← hq]
    obtain ⟨r1, r2⟩ := h.contacts i hi
    constructor
    · have := mul_nonneg hp.le r1
      linarith
    · linear_combination q ^ 2 * r2

/-! ## Moving -/

theorem map_units_move (U : Units) (d : ℝ) (bs : List Body) :
    ((bs.map U.body).map fun b => b.move (U.time * d)) = (bs.map fun b => b.move d).map U.body := by
  simp only [List.map_map, Function.comp_def, move_units]

theorem polar_scale (k r th : ℝ) : polar_to_cart (k * r) th = k • polar_to_cart r th := by
  ext <;> simp [polar_to_cart] <;> ring

theorem units_update_pos (U : Units) (bs : List Body) (j : Joint) (hv : j.Valid bs.length) :
    (U.joint j).update_pos (bs.map U.body) = U.joint (j.update_pos bs) := by
  obtain ⟨kind, i1, i2, pos, pos1, pos2, r1, rot1, rot2⟩ := j
  obtain ⟨h1, h2⟩ := hv
  simp only at h1 h2
  have e1 : (bodyAt (bs.map U.body) i1).pos = U.len • (bodyAt bs i1).pos := by rw [bodyAt_units U bs h1]; rfl
  have e2 : (bodyAt (bs.map U.body) i1).p.r = (bodyAt bs i1).p.r := by rw [bodyAt_units U bs h1]; rfl
  cases i2 with
  | none =>
    cases kind <;> simp only [Joint.update_pos, Units.joint, e1, e2, polar_scale, smul_add, smul_sub]
  | some k =>
    have e3 : (bodyAt (bs.map U.body) k).pos = U.len • (bodyAt bs k).pos := by
      rw [bodyAt_units U bs (h2 k rfl)]; rfl
    cases kind <;> simp only [Joint.update_pos, Units.joint, e1, e2, e3, polar_scale, smul_add, smul_sub]

theorem units_spin (U : Units) (bs : List Body) {i : ℕ} (h : i < bs.length) (d : ℝ) :
    (bodyAt (bs.map U.body) i).v.r * (U.time * d) = (bodyAt bs i).v.r * d := by
  rw [bodyAt_units U bs h]
  have := U.time_pos.ne'
  simp only [Units.body, Units.vel]
  field_simp

theorem units_move (U : Units) (bs : List Body) (j : Joint) (d : ℝ) (hv : j.Valid bs.length) :
    (U.joint j).move (bs.map U.body) (U.time * d) = U.joint (j.move bs d) := by
  have hv1 := units_spin U bs hv.1 d
  obtain ⟨kind, i1, i2, pos, pos1, pos2, r1, rot1, rot2⟩ := j
  simp only at hv1
  have key := fun a b => units_update_pos U bs ⟨kind, i1, i2, pos, pos1, pos2, r1, a, b⟩ hv
  cases i2 with
  | none =>
    cases kind <;> simp only [Joint.move, Units.joint, hv1] <;> exact key _ _
  | some k =>
    have hv2 := units_spin U bs (hv.2 k rfl) d
    cases kind <;> simp only [Joint.move, Units.joint, hv1, hv2] <;> exact key _ _

theorem units_drift (U : Units) (bs : List Body) (j : Joint) (d : ℝ) (hv : j.Valid bs.length) :
    (U.joint j).drift (bs.map U.body) (U.time * d) = U.joint (j.drift bs d) := by
  obtain ⟨kind, i1, i2, pos, pos1, pos2, r1, rot1, rot2⟩ := j
  cases i2 with
  | none => cases kind <;> rfl
  | some k =>
    have hv2 := units_spin U bs (hv.2 k rfl) d
    cases kind <;> simp only [Joint.drift, Units.joint, hv2]

theorem drift_valid {j : Joint} {n : ℕ} (h : j.Valid n) (bs : List Body) (d : ℝ) : (j.drift bs d).Valid n := by
  obtain ⟨kind, i1, i2, pos, pos1, pos2, r1, rot1, rot2⟩ := j
  cases i2 <;> cases kind <;> exact h

theorem sameIn_set_v {U : Units} {w w' : World (Option Mat) φ} (h : SameIn U w w') (e e' : Option Mat)
    {v v' : Vec} (hv : ∀ i < w.bodies.length, twist v' i = U.vel (twist v i)) :
    SameIn U (({ w with eng := e } : World (Option Mat) φ).set_v v)
      (({ w' with eng := e' } : World (Option Mat) φ).set_v v') := by
  refine ⟨h.t, h.dt, h.eps, h.tol, h.post_stab, h.strict, ?_, h.joints, h.contacts, ?_, h.fnd⟩
  · simp only [World.set_v]
    rw [h.bodies]
    apply List.ext_getElem
    · simp
    · intro n h1 h2
      simp only [List.length_map, List.length_zipIdx] at h1
      simp only [List.getElem_map, List.getElem_zipIdx, Nat.zero_add, slice3_twist]
      rw [hv n h1]
      rfl
  · intro i hi
    rw [set_v_length] at hi
    exact hv i hi

theorem sameIn_accepted {U : Units} {w w' : World (Option Mat) φ} (h : SameIn U w w') (d q : ℝ) (f : φ)
    (hj : ∀ j ∈ w.joints, j.Valid w.bodies.length) (cs : List Contact) :
    SameIn U (w.accepted d q f cs) (w'.accepted (U.time * d) (U.time * q) f (cs.map U.contact)) := by
  refine ⟨h.t, h.dt, h.eps, h.tol, h.post_stab, h.strict, ?_, ?_, rfl, ?_, rfl⟩
  · simp only [World.accepted]
    rw [h.bodies, map_units_move]
  · simp only [World.accepted]
    rw [h.joints, h.bodies, map_units_move, List.map_map (f := U.joint), List.map_map (g := U.joint)]
    refine List.map_congr_left fun j hjm => ?_
    simp only [Function.comp_apply]
    rw [units_drift U w.bodies j q (hj j hjm), units_move U _ _ d]
    rw [List.length_map]
    exact drift_valid (hj j hjm) _ _
  · intro i hi
    simp only [World.accepted, List.length_map] at hi
    exact h.v i hi

theorem sameIn_moved {U : Units} {w w' : World (Option Mat) φ} (h : SameIn U w w') (d : ℝ)
    (hj : ∀ j ∈ w.joints, j.Valid w.bodies.length) :
    SameIn U ((w.moveBodies d).moveJoints d) ((w'.moveBodies (U.time * d)).moveJoints (U.time * d)) := by
  refine ⟨h.t, h.dt, h.eps, h.tol, h.post_stab, h.strict, ?_, ?_, h.contacts, ?_, h.fnd⟩
  · simp only [World.moveBodies, World.moveJoints]
    rw [h.bodies, map_units_move]
  · simp only [World.moveBodies, World.moveJoints]
    rw [h.joints, h.bodies, map_units_move, List.map_map (f := U.joint), List.map_map (g := U.joint)]
    refine List.map_congr_left fun j hjm => ?_
    simp only [Function.comp_apply]
    rw [units_move U _ _ d]
    rw [List.length_map]
    exact hj j hjm
  · intro i hi
    simp only [World.moveBodies, World.moveJoints, List.length_map] at hi
    exact h.v i hi

/-! ## Steps -/

/-- A contact search that gives the same contacts in other units, for bodies of the kind `Q`. -/
def ScalesContacts (U : Units) (Q : Body → Prop) (collide : ℝ → φ → List Body → Except Err (φ × List Contact)) : Prop :=
  ∀ eps f bs, (∀ b ∈ bs, Q b) →
    collide (U.len * eps) f (bs.map U.body) = (collide eps f bs).map fun r => (r.1, r.2.map U.contact)

/-- A kind of bodies that moving and changes of velocity preserve. -/
structure Lasting (Q : Body → Prop) : Prop where
  move : ∀ b d, Q b → Q (b.move d)
  vel : ∀ (b : Body) u, Q b → Q { b with v := u }

theorem units_pen (U : Units) (cs : List Contact) (tol : ℝ) :
    (∀ c ∈ cs.map U.contact, c.pen ≤ U.len * tol) ↔ ∀ c ∈ cs, c.pen ≤ tol := by
  constructor
  · intro h c hc
    have := h (U.contact c) (List.mem_map.2 ⟨c, hc, rfl⟩)
    exact (mul_le_mul_iff_right₀ U.len_pos).1 this
  · intro h c hc
    obtain ⟨c0, hc0, rfl⟩ := List.mem_map.1 hc
    exact (mul_le_mul_iff_right₀ U.len_pos).2 (h c0 hc0)

theorem units_accepts {U : Units} {w w' : World (Option Mat) φ} (hs : SameIn U w w') (d : ℝ) (cs : List Contact) :
    w'.accepts (U.time * d) (cs.map U.contact) ↔ w.accepts d cs := by
  unfold World.accepts
  rw [hs.tol, hs.strict, hs.dt, units_pen, mul_div_assoc, mul_lt_mul_iff_right₀ U.time_pos]

theorem units_specLoop {U : Units} {Q : Body → Prop} {env env' : Env (Option Mat) φ} {w w' : World (Option Mat) φ}
    (hcol : ScalesContacts U Q env.collide) (hl : Lasting Q) (hQ : ∀ b ∈ w.bodies, Q b)
    (hsame : env'.collide = env.collide) (hs : SameIn U w w') :
    ∀ (fuel : ℕ) (f : φ) (d q : ℝ) (r), specLoop env w fuel f d q = .done r →
    ∃ (d2 q2 : ℝ) (g : φ) (cs : List Contact), r = (w.accepted d2 q2 g cs, d2) ∧
      specLoop env' w' fuel f (U.time * d) (U.time * q) =
        .done (w'.accepted (U.time * d2) (U.time * q2) g (cs.map U.contact), U.time * d2) ∧
      ∃ f0, env.collide w.eps f0 (w.bodies.map fun b => b.move d2) = .ok (g, cs)
  | 0, _, _, _, _, h => by cases h
  | fuel + 1, f, d, q, r, h1 => by
    unfold specLoop at h1 ⊢
    have hQ' : ∀ b ∈ w.bodies.map fun b => b.move d, Q b := by
      intro b hb
      obtain ⟨b0, hb0, rfl⟩ := List.mem_map.1 hb
      exact hl.move b0 d (hQ b0 hb0)
    rw [hsame, hs.eps, hs.bodies, map_units_move, hcol _ _ _ hQ']
    cases c1 : env.collide w.eps f (w.bodies.map fun b => b.move d) with
    | error e => rw [c1] at h1; cases h1
    | ok x =>
      obtain ⟨g, cs⟩ := x
      rw [c1] at h1
      simp only [ok_map] at h1 ⊢
      have hacc := units_accepts hs d cs
      by_cases ha : w.accepts d cs
      · rw [if_pos ha] at h1
        rw [if_pos (hacc.2 ha)]
        injection h1 with h1
        exact ⟨d, q, g, cs, h1.symm, rfl, f, c1⟩
      · rw [if_neg ha] at h1
        rw [if_neg fun hh => ha (hacc.1 hh)]
        have e1 : U.time * d / 2 = U.time * (d / 2) := by ring
        have e2 : U.time * q + U.time * d = U.time * (q + d) := by ring
        rw [e1, e2]
        exact units_specLoop hcol hl hQ hsame hs fuel g (d / 2) (q + d) r h1

/-- The invariant of the pair of runs. -/
structure SameRun (U : Units) (Q : Body → Prop) (w w' : World (Option Mat) φ) : Prop where
  same : SameIn U w w'
  inv : EngineInv w
  inv' : EngineInv w'
  pos : ∀ b ∈ w.bodies, 0 < b.mass ∧ 0 < b.ang_inertia
  slick : ∀ b ∈ w.bodies, b.fric_coeff = 0
  kind : ∀ b ∈ w.bodies, Q b

theorem impulse_units (U : Units) (fl : List V3) (dt : ℝ) (i : ℕ) :
    impulse (fl.map U.force) (U.time * dt) i = U.impulse (impulse fl dt i) := by
  have ht := U.time_pos.ne'
  unfold impulse
  simp only [List.getD_eq_getElem?_getD, List.getElem?_map]
  cases fl[i]? with
  | none => apply V3.ext <;> simp [Units.impulse]
  | some x => apply V3.ext <;> simp [Units.force, Units.impulse] <;> field_simp

theorem units_solve {U : Units} {Q : Body → Prop} {H H' : ForceHeap} {lcp lcp' : LcpSolver} {mi mi' : ℕ}
    (hx : Exact lcp) (hx' : Exact lcp') {w w' : World (Option Mat) φ} (h : SameRun U Q w w')
    (hH : ∀ t fl fl', forceCat H t w.bodies.length = .ok fl → forceCat H' (U.time * t) w.bodies.length = .ok fl' →
      fl' = fl.map U.force)
    {dt : ℝ} {e e' : Option Mat} {v v' : Vec} (h1 : pdipmSolve 2 H lcp mi w dt = .ok (e, v))
    (h2 : pdipmSolve 2 H' lcp' mi' w' (U.time * dt) = .ok (e', v')) :
    ∀ i < w.bodies.length, twist v' i = U.vel (twist v i) := by
  obtain ⟨fl, l, pn, a, b, g, hf, law⟩ := C38_engine_contact_law H lcp mi w dt e v h.inv.joints h.inv.contacts
    h.inv.cache.ok hx h1
  obtain ⟨fl', l', pn', a', b', g', hf', law'⟩ := C38_engine_contact_law H' lcp' mi' w' _ e' v' h.inv'.joints
    h.inv'.contacts h.inv'.cache.ok hx' h2
  have sn := h.same
  have hlen : w'.bodies.length = w.bodies.length := by rw [sn.bodies, List.length_map]
  rw [sn.t, hlen] at hf'
  have hfl := hH _ _ _ hf hf'
  have hci : ∀ c ∈ w.contacts, c.i1 < w.bodies.length ∧ c.i2 < w.bodies.length :=
    fun c hc => ⟨(h.inv.contacts c hc).1, (h.inv.contacts c hc).2.1⟩
  set V' : Vec := stack fun i => U.vel (twist v i) with hV'
  have hVV : ∀ i < w.bodies.length, twist V' i = U.vel (twist v i) := fun i _ => twist_stack _ i
  have law2 := C108_law U w.bodies w.joints w.contacts _ w.v v w'.v V' l pn a b g law h.inv.good.valid hci sn.v hVV
  rw [sn.contacts, sn.bodies, sn.joints] at law'
  have slick : ∀ b ∈ w.bodies.map U.body, b.fric_coeff = 0 := by
    intro b hb
    obtain ⟨b0, hb0, rfl⟩ := List.mem_map.1 hb
    exact h.slick b0 hb0
  have mu : ∀ c ∈ w.contacts.map U.contact, meanFriction (w.bodies.map U.body) c = 0 := by
    intro c hc
    obtain ⟨c0, hc0, rfl⟩ := List.mem_map.1 hc
    obtain ⟨q1, q2⟩ := hci c0 hc0
    have z1 := slick _ (bodyAt_mem' (bs := w.bodies.map U.body) (by rw [List.length_map]; exact q1))
    have z2 := slick _ (bodyAt_mem' (bs := w.bodies.map U.body) (by rw [List.length_map]; exact q2))
    have e1 : (U.contact c0).i1 = c0.i1 := rfl
    have e2 : (U.contact c0).i2 = c0.i2 := rfl
    unfold meanFriction
    rw [e1, e2, z1, z2]
    norm_num
  have same := C82_same_impact 1 one_pos (w.bodies.map U.body) (w.bodies.map U.body) _ _
    (w.contacts.map U.contact) (w.contacts.map U.contact) _ _ w'.v V' w'.v v' _ l' _ _ _ _ pn' a' b' g' law2 law' rfl
    (fun i _ => ⟨by ring, by ring, rfl⟩) (by
      intro i hi
      rw [List.length_map] at hi
      obtain ⟨m1, m2, -, -⟩ := bodyAt_units_consts U w.bodies hi
      obtain ⟨p1, p2⟩ := h.pos _ (bodyAt_mem' hi)
      have := U.len_pos
      rw [m1, m2]
      exact ⟨p1, by positivity⟩) (by
      intro i _
      subst hfl
      rw [impulse_units]
      apply V3.ext <;> simp) (fun _ _ => rfl) (fun _ => Iff.rfl)
    (sameContacts_refl _) (by
      intro c hc
      obtain ⟨c0, hc0, rfl⟩ := List.mem_map.1 hc
      rw [List.length_map]
      exact hci c0 hc0) mu mu
  rw [List.length_map] at same
  intro i hi
  rw [twist_congr same hi, hVV i hi]

theorem units_postStab {U : Units} {lcp lcp' : LcpSolver} (hx : Exact lcp) (hx' : Exact lcp')
    {w w' : World (Option Mat) φ} (sn : SameIn U w w') (hj : JointsOk w) (hc : ContactsOk w) (hcc : CacheInv w)
    (hj' : JointsOk w') (hc' : ContactsOk w') (hcc' : CacheInv w')
    (pos : ∀ b ∈ w.bodies, 0 < b.mass ∧ 0 < b.ang_inertia)
    {dp dp' : Vec} (h1 : pdipmPostStab lcp w = .ok dp) (h2 : pdipmPostStab lcp' w' = .ok dp') :
    ∀ i < w.bodies.length, twist dp' i = U.vel (twist dp i) := by
  obtain ⟨l, pn, law⟩ := C62_post_stab_law lcp w dp hj hc hcc.ok hx h1
  obtain ⟨l', pn', law'⟩ := C62_post_stab_law lcp' w' dp' hj' hc' hcc'.ok hx' h2
  have hci : ∀ c ∈ w.contacts, c.i1 < w.bodies.length ∧ c.i2 < w.bodies.length :=
    fun c hcm => ⟨(hc c hcm).1, (hc c hcm).2.1⟩
  have hjv : ∀ j ∈ w.joints, j.Valid w.bodies.length :=
    fun j hjm => ⟨(hj j hjm).1, fun k hk => ((hj j hjm).2 k hk).1⟩
  set D : Vec := stack fun i => U.vel (twist dp i) with hD
  have hDD : ∀ i < w.bodies.length, twist D i = U.vel (twist dp i) := fun i _ => twist_stack _ i
  have law2 := C108_post_law U w.bodies w.joints w.contacts w.v dp w'.v D l pn law hjv hci sn.v hDD
  rw [sn.contacts, sn.bodies, sn.joints] at law'
  have same := C82_same_correction 1 one_pos (w.bodies.map U.body) (w.bodies.map U.body) _ _
    (w.contacts.map U.contact) (w.contacts.map U.contact) w'.v w'.v D dp' _ l' _ pn' law2 law' rfl
    (fun i _ => ⟨by ring, by ring, rfl⟩) (by
      intro i hi
      rw [List.length_map] at hi
      obtain ⟨m1, m2, -, -⟩ := bodyAt_units_consts U w.bodies hi
      obtain ⟨p1, p2⟩ := pos _ (bodyAt_mem' hi)
      have := U.len_pos
      rw [m1, m2]
      exact ⟨p1, by positivity⟩) (fun _ _ => rfl) (fun _ => Iff.rfl) (by
      intro j hjm
      obtain ⟨j0, hj0, rfl⟩ := List.mem_map.1 hjm
      rw [List.length_map]
      exact hjv j0 hj0) (sameContacts_refl _) (by
      intro c hc
      obtain ⟨c0, hc0, rfl⟩ := List.mem_map.1 hc
      rw [List.length_map]
      exact hci c0 hc0)
  rw [List.length_map] at same
  intro i hi
  rw [twist_congr same hi, hDD i hi]

theorem half_vel (U : Units) {dp dp' : Vec} {n : ℕ} (h : ∀ i < n, twist dp' i = U.vel (twist dp i)) :
    ∀ i < n, twist (fun k => dp' k / 2) i = U.vel (twist (fun k => dp k / 2) i) := by
  intro i hi
  rw [half_twist, half_twist, h i hi]
  apply V3.ext <;> simp [Units.vel] <;> ring

theorem lasting_set_v {Q : Body → Prop} (hl : Lasting Q) {w : World (Option Mat) φ} (h : ∀ b ∈ w.bodies, Q b) (v : Vec) :
    ∀ b ∈ (w.set_v v).bodies, Q b := by
  intro b hb
  simp only [World.set_v, List.mem_map] at hb
  obtain ⟨⟨b0, i⟩, hm, rfl⟩ := hb
  exact hl.vel b0 _ (h b0 (List.fst_mem_of_mem_zipIdx hm))

theorem lasting_move {Q : Body → Prop} (hl : Lasting Q) {bs : List Body} (h : ∀ b ∈ bs, Q b) (d : ℝ) :
    ∀ b ∈ bs.map fun b => b.move d, Q b := by
  intro b hb
  obtain ⟨b0, hb0, rfl⟩ := List.mem_map.1 hb
  exact hl.move b0 d (h b0 hb0)

/-- The corrected worlds before the last contact search. -/
theorem units_corrected {U : Units} {w w' : World (Option Mat) φ} (sn : SameIn U w w')
    (hj : ∀ j ∈ w.joints, j.Valid w.bodies.length) {dp dp' : Vec}
    (hdp : ∀ i < w.bodies.length, twist dp' i = U.vel (twist dp i)) (d : ℝ) :
    SameIn U ((((w.set_v fun k => dp k / 2).moveBodies d).moveJoints d).set_v w.v)
      ((((w'.set_v fun k => dp' k / 2).moveBodies (U.time * d)).moveJoints (U.time * d)).set_v w'.v) := by
  have s3 : SameIn U (w.set_v fun k => dp k / 2) (w'.set_v fun k => dp' k / 2) :=
    sameIn_set_v sn w.eng w'.eng (half_vel U hdp)
  have s4 := sameIn_moved s3 d (by
    intro j hjm
    rw [set_v_length]
    exact hj j hjm)
  exact sameIn_set_v s4 w.eng w'.eng (by
    intro i hi
    simp only [World.moveBodies, World.moveJoints, List.length_map, set_v_length] at hi
    exact sn.v i hi)

theorem units_postBlock {U : Units} {Q : Body → Prop} {H H' : ForceHeap} {lcp lcp' : LcpSolver} {mi mi' : ℕ}
    (hx : Exact lcp) (hx' : Exact lcp') {collide : ℝ → φ → List Body → Except Err (φ × List Contact)}
    (hcol : ScalesContacts U Q collide) (hl : Lasting Q) {w w' : World (Option Mat) φ} (hQ : ∀ b ∈ w.bodies, Q b)
    (sn : SameIn U w w') (hj : JointsOk w) (hc : ContactsOk w) (hcc : CacheInv w)
    (hj' : JointsOk w') (hc' : ContactsOk w') (hcc' : CacheInv w')
    (pos : ∀ b ∈ w.bodies, 0 < b.mass ∧ 0 < b.ang_inertia) {d : ℝ} {u : World (Option Mat) φ}
    (h1 : postStab (pdipmEnv 2 H lcp mi collide) w d = .done u)
    (hret : ∃ dp', pdipmPostStab lcp' w' = .ok dp') :
    ∃ u', postStab (pdipmEnv 2 H' lcp' mi' collide) w' (U.time * d) = .done u' ∧ SameIn U u u' ∧
      (∀ b ∈ u.bodies, Q b) ∧ u.t = w.t := by
  unfold postStab at h1 ⊢
  simp only at h1 ⊢
  rw [Run.bind_eq_done] at h1
  obtain ⟨dp, p1, h1⟩ := h1
  obtain ⟨dp', p2⟩ := hret
  have p1 : pdipmPostStab lcp w = .ok dp := by
    change Run.ofExcept (pdipmPostStab lcp _) = _ at p1
    cases hq : pdipmPostStab lcp w with
    | error z => rw [hq] at p1; cases p1
    | ok z => rw [hq] at p1; injection p1 with p1; rw [p1]
  have p3 : Run.ofExcept ((pdipmEnv 2 H' lcp' mi' collide).post_stabilization w') = .done dp' := by
    change Run.ofExcept (pdipmPostStab lcp' w') = _
    rw [p2]; rfl
  rw [p3, Run.bind_done]
  have hjv : ∀ j ∈ w.joints, j.Valid w.bodies.length :=
    fun j hjm => ⟨(hj j hjm).1, fun k hk => ((hj j hjm).2 k hk).1⟩
  have hdp := units_postStab hx hx' sn hj hc hcc hj' hc' hcc' pos p1 p2
  have s5 := units_corrected sn hjv hdp d
  have k5 : ∀ b ∈ ((((w.set_v fun k => dp k / 2).moveBodies d).moveJoints d).set_v w.v).bodies, Q b :=
    lasting_set_v hl (lasting_move hl (lasting_set_v hl hQ _) d) _
  have t5 : ((((w.set_v fun k => dp k / 2).moveBodies d).moveJoints d).set_v w.v).t = w.t := rfl
  generalize (((w.set_v fun k => dp k / 2).moveBodies d).moveJoints d).set_v w.v = z at *
  generalize (((w'.set_v fun k => dp' k / 2).moveBodies (U.time * d)).moveJoints (U.time * d)).set_v w'.v = z' at *
  unfold World.find_contacts at h1 ⊢
  change (match collide z.eps z.fnd z.bodies with
    | .error e => .raised e
    | .ok (f, cs) => .done { z with contacts := cs, fnd := f } : Run (World (Option Mat) φ)) = _ at h1
  change ∃ u', (match collide z'.eps z'.fnd z'.bodies with
    | .error e => .raised e
    | .ok (f, cs) => .done { z' with contacts := cs, fnd := f } : Run (World (Option Mat) φ)) = _ ∧ _
  have k2 : collide z'.eps z'.fnd z'.bodies = (collide z.eps z.fnd z.bodies).map fun r => (r.1, r.2.map U.contact) := by
    rw [s5.eps, s5.fnd, s5.bodies, hcol _ _ _ k5]
  rw [k2]
  cases c1 : collide z.eps z.fnd z.bodies with
  | error er => rw [c1] at h1; cases h1
  | ok o =>
    rw [c1] at h1
    simp only [ok_map] at h1 ⊢
    injection h1 with h1
    subst h1
    exact ⟨_, rfl, ⟨s5.t, s5.dt, s5.eps, s5.tol, s5.post_stab, s5.strict, s5.bodies, s5.joints, rfl, s5.v, rfl⟩, k5, t5⟩

/-- The solver answers the problems of the second world: whenever the first engine answers, so does the second. -/
structure Answers (U : Units) (H H' : ForceHeap) (lcp lcp' : LcpSolver) (mi mi' : ℕ) (Q : Body → Prop) (N : ℕ)
    (φ : Type) : Prop where
  solve : ∀ (w w' : World (Option Mat) φ) dt r, w.bodies.length = N → SameRun U Q w w' → pdipmSolve 2 H lcp mi w dt = .ok r →
    ∃ r', pdipmSolve 2 H' lcp' mi' w' (U.time * dt) = .ok r'
  post : ∀ (w w' : World (Option Mat) φ) dp, SameIn U w w' → JointsOk w → ContactsOk w → CacheInv w → JointsOk w' →
    ContactsOk w' → CacheInv w' → (∀ b ∈ w.bodies, 0 < b.mass ∧ 0 < b.ang_inertia) → pdipmPostStab lcp w = .ok dp →
    ∃ dp', pdipmPostStab lcp' w' = .ok dp'

theorem units_step {U : Units} {Q : Body → Prop} {H H' : ForceHeap} {lcp lcp' : LcpSolver} {mi mi' : ℕ} (hx : Exact lcp)
    (hx' : Exact lcp') {collide : ℝ → φ → List Body → Except Err (φ × List Contact)} (hfo : FinderOk collide)
    (hcol : ScalesContacts U Q collide) (hl : Lasting Q) {w w' : World (Option Mat) φ} (h : SameRun U Q w w')
    (hH : ∀ t fl fl', forceCat H t w.bodies.length = .ok fl → forceCat H' (U.time * t) w.bodies.length = .ok fl' →
      fl' = fl.map U.force)
    {fuel : ℕ} {dt : ℝ} {u : World (Option Mat) φ}
    (h1 : w.step_dt (pdipmEnv 2 H lcp mi collide) fuel dt = .done u)
    (hret : Answers U H H' lcp lcp' mi mi' Q w.bodies.length φ ∨
      ∃ u', w'.step_dt (pdipmEnv 2 H' lcp' mi' collide) fuel (U.time * dt) = .done u') :
    ∃ u', w'.step_dt (pdipmEnv 2 H' lcp' mi' collide) fuel (U.time * dt) = .done u' ∧ SameRun U Q u u' := by
  have i1 := step_inv hfo h.inv h1
  have hst := step_dt_statics h.inv.good h1
  have core : ∃ u', w'.step_dt (pdipmEnv 2 H' lcp' mi' collide) fuel (U.time * dt) = .done u' ∧ SameIn U u u' ∧
      ∀ b ∈ u.bodies, Q b := by
    rw [step_dt_eq _ fuel w h.inv.good dt, Run.bind_eq_done] at h1
    rw [step_dt_eq _ fuel w' h.inv'.good (U.time * dt)] at hret ⊢
    obtain ⟨⟨e, v⟩, s1, h1⟩ := h1
    have s1 : pdipmSolve 2 H lcp mi w dt = .ok (e, v) := by
      change Run.ofExcept (pdipmSolve 2 H lcp mi w dt) = _ at s1
      cases hq : pdipmSolve 2 H lcp mi w dt with
      | error x => rw [hq] at s1; cases s1
      | ok x => rw [hq] at s1; injection s1 with s1; rw [s1]
    obtain ⟨⟨e', v'⟩, s2⟩ : ∃ r', pdipmSolve 2 H' lcp' mi' w' (U.time * dt) = .ok r' := by
      rcases hret with hret | ⟨u', hret⟩
      · exact hret.solve w w' dt _ rfl h s1
      · rw [Run.bind_eq_done] at hret
        obtain ⟨r', s2, -⟩ := hret
        change Run.ofExcept (pdipmSolve 2 H' lcp' mi' w' (U.time * dt)) = _ at s2
        cases hq : pdipmSolve 2 H' lcp' mi' w' (U.time * dt) with
        | error x => rw [hq] at s2; cases s2
        | ok x => exact ⟨x, rfl⟩
    have s3 : Run.ofExcept ((pdipmEnv 2 H' lcp' mi' collide).solve_dynamics w' (U.time * dt)) = .done (e', v') := by
      change Run.ofExcept (pdipmSolve 2 H' lcp' mi' w' (U.time * dt)) = _
      rw [s2]; rfl
    rw [s3, Run.bind_done] at hret ⊢
    have hv := units_solve hx hx' h hH s1 s2
    have sn1 : SameIn U (({ w with eng := e } : World (Option Mat) φ).set_v v)
        (({ w' with eng := e' } : World (Option Mat) φ).set_v v') :=
      sameIn_set_v h.same e e' hv
    simp only at h1 hret ⊢
    rw [Run.bind_eq_done] at h1
    obtain ⟨r, l1, h1⟩ := h1
    have hQ1 : ∀ b ∈ (({ w with eng := e } : World (Option Mat) φ).set_v v).bodies, Q b :=
      lasting_set_v (w := ({ w with eng := e } : World (Option Mat) φ)) hl h.kind v
    obtain ⟨d, q, g, cs, rfl, l2', f0, k1⟩ := units_specLoop (env := pdipmEnv 2 H lcp mi collide)
      (env' := pdipmEnv 2 H' lcp' mi' collide) hcol hl hQ1 rfl sn1 fuel _ _ _ _ l1
    have hfnd : w'.fnd = w.fnd := h.same.fnd
    have l2 : specLoop (pdipmEnv 2 H' lcp' mi' collide) (({ w' with eng := e' } : World (Option Mat) φ).set_v v') fuel
        w'.fnd (U.time * dt) 0 = .done ((({ w' with eng := e' } : World (Option Mat) φ).set_v v').accepted (U.time * d)
          (U.time * q) g (cs.map U.contact), U.time * d) := by
      have := l2'
      generalize ({ w' with eng := e' } : World (Option Mat) φ).set_v v' = q at this ⊢
      rw [hfnd]
      rw [mul_zero] at this
      exact this
    rw [l2, Run.bind_done] at hret ⊢
    have hval : ∀ j ∈ (({ w with eng := e } : World (Option Mat) φ).set_v v).joints,
        j.Valid (({ w with eng := e } : World (Option Mat) φ).set_v v).bodies.length := by
      intro j hj
      rw [set_v_length]
      exact h.inv.good.valid j hj
    have sn2 := sameIn_accepted sn1 d q g hval cs
    simp only at h1 hret ⊢
    set x := ({ w with eng := e } : World (Option Mat) φ).set_v v with hxdef
    set x' := ({ w' with eng := e' } : World (Option Mat) φ).set_v v' with hx'def
    by_cases hp : w.post_stab = true
    · have hp' : w'.post_stab = true := by rw [h.same.post_stab]; exact hp
      have hpa : (x.accepted d q g cs).post_stab = true := hp
      have hpa' : (x'.accepted (U.time * d) (U.time * q) g (cs.map U.contact)).post_stab = true := hp'
      rw [if_pos hpa, Run.bind_eq_done] at h1
      rw [if_pos hpa'] at hret ⊢
      obtain ⟨y, h1, hy⟩ := h1
      have ss : SameStatics w (x.accepted d q g cs) :=
        (sameStatics_set_v w v e).trans (sameStatics_accepted _ _ _ _ _)
      have ss' : SameStatics w' (x'.accepted (U.time * d) (U.time * q) g (cs.map U.contact)) :=
        (sameStatics_set_v w' v' e').trans (sameStatics_accepted _ _ _ _ _)
      have pos2 : ∀ b ∈ (x.accepted d q g cs).bodies, 0 < b.mass ∧ 0 < b.ang_inertia := by
        intro b hb
        have : b.consts ∈ w.bodies.map Body.consts := ss.1 ▸ List.mem_map.2 ⟨b, hb, rfl⟩
        obtain ⟨b0, hb0, he⟩ := List.mem_map.1 this
        have hq := h.pos b0 hb0
        simp only [Body.consts, Prod.mk.injEq] at he
        rw [← he.1, ← he.2.1]
        exact hq
      have hcs : ContactsOk (x.accepted d q g cs) := fun c hc => hfo _ _ _ _ _ k1 c hc
      have hcs' : ContactsOk (x'.accepted (U.time * d) (U.time * q) g (cs.map U.contact)) := by
        have k2 : collide (U.len * x.eps) f0 (x'.bodies.map fun b => b.move (U.time * d)) = .ok (g, cs.map U.contact) := by
          rw [sn1.bodies, map_units_move, hcol _ _ _ (lasting_move hl hQ1 d)]
          change collide x.eps f0 (x.bodies.map fun b => b.move d) = .ok (g, cs) at k1
          rw [k1]
          rfl
        exact fun c hc => hfo _ _ _ _ _ k2 c hc
      have hQ2 : ∀ b ∈ (x.accepted d q g cs).bodies, Q b := lasting_move hl hQ1 d
      have j1 := jointsOk_congr ss h.inv.joints
      have j2 := jointsOk_congr ss' h.inv'.joints
      have c1 := solve_cacheInv ss h.inv.cache s1
      have c2 := solve_cacheInv ss' h.inv'.cache s2
      have hpr : ∃ dp', pdipmPostStab lcp' (x'.accepted (U.time * d) (U.time * q) g (cs.map U.contact)) = .ok dp' := by
        rcases hret with hret | ⟨u', hret⟩
        · have hpp := h1
          unfold postStab at hpp
          simp only at hpp
          rw [Run.bind_eq_done] at hpp
          obtain ⟨dp, p1, -⟩ := hpp
          change Run.ofExcept (pdipmPostStab lcp _) = _ at p1
          cases hq : pdipmPostStab lcp (x.accepted d q g cs) with
          | error z => rw [hq] at p1; cases p1
          | ok z => exact hret.post _ _ z sn2 j1 hcs c1 j2 hcs' c2 pos2 hq
        · rw [Run.bind_eq_done] at hret
          obtain ⟨y', hpp, -⟩ := hret
          unfold postStab at hpp
          simp only at hpp
          rw [Run.bind_eq_done] at hpp
          obtain ⟨dp, p1, -⟩ := hpp
          change Run.ofExcept (pdipmPostStab lcp' _) = _ at p1
          cases hq : pdipmPostStab lcp' (x'.accepted (U.time * d) (U.time * q) g (cs.map U.contact)) with
          | error z => rw [hq] at p1; cases p1
          | ok z => exact ⟨z, rfl⟩
      obtain ⟨y', h2, ty, hQy, yt⟩ := units_postBlock (mi := mi) (mi' := mi') (H := H) (H' := H') hx hx' hcol hl hQ2 sn2
        j1 hcs c1 j2 hcs' c2 pos2 h1 hpr
      rw [h2, Run.bind_done]
      injection hy with hy
      subst hy
      refine ⟨_, rfl, ⟨?_, ty.dt, ty.eps, ty.tol, ty.post_stab, ty.strict, ty.bodies, ty.joints, ty.contacts, ty.v,
        ty.fnd⟩, hQy⟩
      change y'.t + U.time * d = U.time * (y.t + d)
      rw [ty.t]
      ring
    · have hp' : ¬ w'.post_stab = true := by rw [h.same.post_stab]; exact hp
      have hpa : ¬ (x.accepted d q g cs).post_stab = true := hp
      have hpa' : ¬ (x'.accepted (U.time * d) (U.time * q) g (cs.map U.contact)).post_stab = true := hp'
      rw [if_neg hpa] at h1
      rw [if_neg hpa']
      simp only [Run.bind] at h1 ⊢
      injection h1 with h1
      subst h1
      refine ⟨_, rfl, ⟨?_, sn2.dt, sn2.eps, sn2.tol, sn2.post_stab, sn2.strict, sn2.bodies, sn2.joints, sn2.contacts,
        sn2.v, sn2.fnd⟩, lasting_move hl hQ1 d⟩
      change w'.t + U.time * d = U.time * (w.t + d)
      rw [h.same.t]
      ring
  obtain ⟨u', h2, core, hQu⟩ := core
  have i2 := step_inv hfo h.inv' h2
  have hcons : ∀ (P : ℝ × ℝ × ℝ × ℝ → Prop), (∀ b ∈ w.bodies, P b.consts) → ∀ b ∈ u.bodies, P b.consts := by
    intro P hP b hb
    have : b.consts ∈ w.bodies.map Body.consts := hst.1 ▸ List.mem_map.2 ⟨b, hb, rfl⟩
    obtain ⟨b0, hb0, he⟩ := List.mem_map.1 this
    rw [← he]
    exact hP b0 hb0
  exact ⟨u', h2, core, i1, i2, hcons (fun c => 0 < c.1 ∧ 0 < c.2.1) h.pos, hcons (fun c => c.2.2.2 = 0) h.slick, hQu⟩

theorem units_run {U : Units} {Q : Body → Prop} {H H' : ForceHeap} {lcp lcp' : LcpSolver} {mi mi' : ℕ} (hx : Exact lcp)
    (hx' : Exact lcp') {collide : ℝ → φ → List Body → Except Err (φ × List Contact)} (hfo : FinderOk collide)
    (hcol : ScalesContacts U Q collide) (hl : Lasting Q) {N : ℕ}
    (hH : ∀ t fl fl', forceCat H t N = .ok fl → forceCat H' (U.time * t) N = .ok fl' → fl' = fl.map U.force)
    {fuel : ℕ} {T : ℝ} : ∀ (n : ℕ) {w w' : World (Option Mat) φ},
    w.bodies.length = N → SameRun U Q w w' → ∀ {u : World (Option Mat) φ},
    runWorld (pdipmEnv 2 H lcp mi collide) fuel T n w = .done u →
    (Answers U H H' lcp lcp' mi mi' Q N φ ∨
      ∃ u', runWorld (pdipmEnv 2 H' lcp' mi' collide) fuel (U.time * T) n w' = .done u') →
    ∃ u', runWorld (pdipmEnv 2 H' lcp' mi' collide) fuel (U.time * T) n w' = .done u' ∧ SameRun U Q u u' := by
  intro n
  have hlt : ∀ {w w' : World (Option Mat) φ}, SameRun U Q w w' → (w'.t < U.time * T ↔ w.t < T) := by
    intro w w' h
    rw [h.same.t, mul_lt_mul_iff_right₀ U.time_pos]
  induction n with
  | zero =>
    intro w w' hN h u h1 hret
    unfold runWorld at h1 ⊢
    by_cases ht : w.t < T
    · rw [if_pos ht] at h1; cases h1
    · rw [if_neg ht] at h1
      rw [if_neg (by rw [hlt h]; exact ht)]
      injection h1 with h1
      subst h1
      exact ⟨_, rfl, h⟩
  | succ n ih =>
    intro w w' hN h u h1 hret
    unfold runWorld at h1 hret ⊢
    by_cases ht : w.t < T
    · rw [if_pos ht] at h1
      rw [if_pos (by rw [hlt h]; exact ht)] at hret ⊢
      simp only at h1 hret ⊢
      rw [Run.bind_eq_done] at h1
      obtain ⟨x, a1, b1⟩ := h1
      simp only [World.step, Bool.false_eq_true, if_false] at a1 hret ⊢
      rw [h.same.dt] at hret ⊢
      obtain ⟨x', a2, hx2⟩ := units_step (mi' := mi') (H' := H') hx hx' hfo hcol hl h (by rw [hN]; exact hH) a1 (by
        rcases hret with hret | ⟨u', hret⟩
        · exact Or.inl (hN ▸ hret)
        · rw [Run.bind_eq_done] at hret
          obtain ⟨x', a2, -⟩ := hret
          exact Or.inr ⟨x', a2⟩)
      rw [a2, Run.bind_done] at hret ⊢
      exact ih ((sameStatics_length (step_dt_statics h.inv.good a1)).trans hN) hx2 b1 hret
    · rw [if_neg ht] at h1
      rw [if_neg (by rw [hlt h]; exact ht)]
      injection h1 with h1
      subst h1
      exact ⟨_, rfl, h⟩

/-! ## The rescaled run returns -/

/-- An invertible system matrix means independent constraints. -/
theorem independent_of_inverse {σ : Type} {w : World σ φ} (hj : JointsOk w) {inv : Mat}
    (hi : torchInverse (3 * w.bodies.length + w.num_constraints)
      (systemMatrix w.M w.Je (3 * w.bodies.length)) = .ok inv) : Independent w := by
  intro l hl r hr
  set n := 3 * w.bodies.length with hn
  let x : Vec := fun k => if k < n then 0 else l (k - n)
  have hxl : ∀ r, x (n + r) = l r := fun r => by simp [x]
  obtain ⟨m1, m2⟩ := systemMatrix_mv w.M w.Je n w.num_constraints x
  have hx0 : ∀ k < n, x k = 0 := fun k hk => by simp [x, hk]
  have hz : ∀ k < n + w.num_constraints, mv (systemMatrix w.M w.Je n) (n + w.num_constraints) x k = 0 := by
    intro k hk
    by_cases h : k < n
    · rw [m1 k h, mv_congr w.M n x (fun _ => 0) hx0]
      have e : (fun r => x (n + r)) = l := funext hxl
      rw [e]
      have := hl fun j => if j = k then 1 else 0
      rw [← sum_Je w hj, Finset.sum_eq_single k] at this
      · simp only [if_true, one_mul] at this
        rw [this]
        simp [mv]
      · intro j _ hjk; rw [if_neg hjk, zero_mul]
      · intro hq; exact absurd (Finset.mem_range.2 h) hq
    · have := m2 (k - n) (by omega)
      rw [show n + (k - n) = k by omega] at this
      rw [this, mv_congr w.Je n x (fun _ => 0) hx0]
      simp [mv]
  have := torchInverse_unique hi (fun _ => 0) x hz (n + r) (by omega)
  rw [hxl] at this
  rw [this]
  simp [mv]

theorem independent_units {σ σ' : Type} {U : Units} {w : World σ φ} {w' : World σ' φ} (sn : SameIn U w w')
    (hj : ∀ j ∈ w.joints, j.Valid w.bodies.length) (h : Independent w) : Independent w' := by
  intro l hl r hr
  have hq : 0 < U.len / U.time := div_pos U.len_pos U.time_pos
  have hX : ∀ u : Vec, ∀ i < w.bodies.length, twist (stack fun i => U.vel (twist u i)) i = U.vel (twist u i) :=
    fun u i _ => twist_stack _ i
  have hr' : r < w.num_constraints := by
    rw [C32_row_count w' (stack fun i => U.vel (twist 0 i)), sn.joints, jointVels_units_length (hX 0) hj] at hr
    rwa [C32_row_count w 0]
  have := h (fun r => l r * (jointScales U w.joints).getD r 1) (by
    intro u
    have e := hl (stack fun i => U.vel (twist u i))
    rw [sn.joints] at e
    unfold jointPower at e ⊢
    rw [jointVels_units_length (hX u) hj] at e
    refine Eq.trans (Finset.sum_congr rfl fun r hr => ?_) e
    rw [jointVels_units_get (hX u) hj (Finset.mem_range.1 hr)]
    ring) r hr'
  exact (mul_eq_zero.1 this).resolve_right (jointScales_get_pos U w.joints r).ne'

theorem units_body_pos {U : Units} {w w' : World (Option Mat) φ} (sn : SameIn U w w')
    (pos : ∀ b ∈ w.bodies, 0 < b.mass ∧ 0 < b.ang_inertia) : ∀ b ∈ w'.bodies, 0 < b.mass ∧ 0 < b.ang_inertia := by
  intro b hb
  rw [sn.bodies] at hb
  obtain ⟨b0, hb0, rfl⟩ := List.mem_map.1 hb
  have := U.len_pos
  obtain ⟨p1, p2⟩ := pos b0 hb0
  exact ⟨p1, by simp only [Units.body]; positivity⟩

theorem units_contacts_nil {U : Units} {w w' : World (Option Mat) φ} (sn : SameIn U w w') (h : w'.contacts = []) :
    w.contacts = [] := by
  rw [sn.contacts] at h
  exact List.map_eq_nil_iff.1 h

theorem exact_answers (U : Units) (H H' : ForceHeap) (lcp : LcpSolver) (mi mi' : ℕ) (Q : Body → Prop) (N : ℕ)
    (hx : Exact lcp)
    (hH : ∀ t fl, forceCat H t N = .ok fl → forceCat H' (U.time * t) N = .ok (fl.map U.force)) :
    Answers U H H' lcp exactLcp mi mi' Q N φ := by
  constructor
  · intro w w' dt r hN h h1
    obtain ⟨e, v⟩ := r
    obtain ⟨fl, l, pn, a, b, g, hf, law⟩ := C38_engine_contact_law H lcp mi w dt e v h.inv.joints h.inv.contacts
      h.inv.cache.ok hx h1
    have sn := h.same
    have hlen : w'.bodies.length = w.bodies.length := by rw [sn.bodies, List.length_map]
    have hf' : forceCat H' w'.t w'.bodies.length = .ok (fl.map U.force) := by
      rw [sn.t, hlen, hN]
      rw [hN] at hf
      exact hH _ _ hf
    by_cases hne : w'.contacts = []
    · have hind : Independent w := by
        have hnc := units_contacts_nil sn hne
        unfold pdipmSolve at h1
        simp only [hf, hnc, if_true] at h1
        cases he : w.eng with
        | some inv => exact independent_of_inverse h.inv.joints (h.inv.cache inv he).2
        | none =>
          rw [he] at h1
          simp only at h1
          cases hi : torchInverse (3 * w.bodies.length + w.num_constraints)
            (systemMatrix w.M w.Je (3 * w.bodies.length)) with
          | error z => rw [hi] at h1; cases h1
          | ok inv => exact independent_of_inverse h.inv.joints hi
      exact C35_no_contact_succeeds 2 H' exactLcp mi' w' _ h.inv'.joints (units_body_pos sn h.pos)
        (independent_units sn h.inv.good.valid hind) hne _ hf'
    · have hci : ∀ c ∈ w.contacts, c.i1 < w.bodies.length ∧ c.i2 < w.bodies.length :=
        fun c hc => ⟨(h.inv.contacts c hc).1, (h.inv.contacts c hc).2.1⟩
      have law2 := C108_law U w.bodies w.joints w.contacts _ w.v v w'.v (stack fun i => U.vel (twist v i)) l pn a b g law
        h.inv.good.valid hci sn.v (fun i _ => twist_stack _ i)
      have ef : impulse (fl.map U.force) (U.time * dt) = fun i => U.impulse (impulse fl dt i) := by
        funext i
        exact impulse_units U fl dt i
      rw [← ef, ← sn.joints, ← sn.bodies, ← sn.contacts] at law2
      exact (C74_exact_engine_returns H' mi' w' _ h.inv'.joints h.inv'.contacts hne _ hf' _ _ _ _ _ _ law2).2
  · intro w w' dp sn hj hc hcc hj' hc' hcc' pos h1
    have hjv : ∀ j ∈ w.joints, j.Valid w.bodies.length :=
      fun j hjm => ⟨(hj j hjm).1, fun k hk => ((hj j hjm).2 k hk).1⟩
    by_cases hne : w'.contacts = []
    · have hind : Independent w := by
        have hnc := units_contacts_nil sn hne
        unfold pdipmPostStab at h1
        simp only [hnc, if_true] at h1
        cases he : w.eng with
        | some inv => exact independent_of_inverse hj (hcc inv he).2
        | none =>
          rw [he] at h1
          simp only at h1
          cases hi : torchInverse (3 * w.bodies.length + w.num_constraints)
            (systemMatrix w.M w.Je (3 * w.bodies.length)) with
          | error z => rw [hi] at h1; cases h1
          | ok inv => exact independent_of_inverse hj hi
      unfold pdipmPostStab
      simp only [hne, if_true]
      cases w'.eng with
      | some inv => exact ⟨_, rfl⟩
      | none =>
        obtain ⟨inv, hi⟩ := system_invertible w' hj' (units_body_pos sn pos) (independent_units sn hjv hind)
        simp only [hi]
        exact ⟨_, rfl⟩
    · obtain ⟨l, pn, law⟩ := C62_post_stab_law lcp w dp hj hc hcc.ok hx h1
      have hci : ∀ c ∈ w.contacts, c.i1 < w.bodies.length ∧ c.i2 < w.bodies.length :=
        fun c hcm => ⟨(hc c hcm).1, (hc c hcm).2.1⟩
      have law2 := C108_post_law U w.bodies w.joints w.contacts w.v dp w'.v (stack fun i => U.vel (twist dp i)) l pn law
        hjv hci sn.v (fun i _ => twist_stack _ i)
      rw [← sn.joints, ← sn.bodies, ← sn.contacts] at law2
      exact exact_postStab_returns w' hj' hc' hne _ _ _ law2

theorem forceCat_units_ok {U : Units} {H H' : ForceHeap} (t : ℝ) : ∀ (N : ℕ) (fl : List V3),
    (∀ i < N, ∀ t, H'.apply_forces i (U.time * t) = (H.apply_forces i t).map U.force) →
    forceCat H t N = .ok fl → forceCat H' (U.time * t) N = .ok (fl.map U.force)
  | 0, fl, _, h1 => by
    unfold forceCat at h1 ⊢
    injection h1 with h1
    subst h1
    rfl
  | N + 1, fl, hobj, h1 => by
    unfold forceCat at h1 ⊢
    cases c1 : forceCat H t N with
    | error e => rw [c1] at h1; cases h1
    | ok l =>
      rw [c1] at h1
      rw [forceCat_units_ok t N l (fun i hi => hobj i (by omega)) c1, hobj N (by omega)]
      cases ha : H.apply_forces N t with
      | none => rw [ha] at h1; cases h1
      | some x =>
        rw [ha] at h1
        simp only [Option.map_some] at h1 ⊢
        injection h1 with h1
        subst h1
        simp

/-- C108: runs in other units. Two worlds that show the same frictionless scene, with any joints and shapes, the second
measured in other units of length and time, keep showing the same scene: clocks (hence step sizes), positions,
velocities, joints and contacts stay in proportion. -/
theorem units_same_run (U : Units) (Q : Body → Prop) (hl : Lasting Q) (H H' : ForceHeap) (lcp lcp' : LcpSolver)
    (hx : Exact lcp) (hx' : Exact lcp') (mi mi' : ℕ)
    (collide : ℝ → φ → List Body → Except Err (φ × List Contact)) (hfo : FinderOk collide)
    (hcol : ScalesContacts U Q collide)
    (w w' : World (Option Mat) φ) (h : SameRun U Q w w')
    (hH : ∀ i < w.bodies.length, ∀ t, H'.apply_forces i (U.time * t) = (H.apply_forces i t).map U.force)
    (fuel n : ℕ) (T : ℝ) (u : World (Option Mat) φ)
    (h1 : runWorld (pdipmEnv 2 H lcp mi collide) fuel T n w = .done u) :
    (∀ u', runWorld (pdipmEnv 2 H' lcp' mi' collide) fuel (U.time * T) n w' = .done u' → SameIn U u u') ∧
    ∃ u', runWorld (pdipmEnv 2 H' exactLcp mi' collide) fuel (U.time * T) n w' = .done u' ∧ SameIn U u u' := by
  have hH1 : ∀ t fl, forceCat H t w.bodies.length = .ok fl →
      forceCat H' (U.time * t) w.bodies.length = .ok (fl.map U.force) := fun t fl a => forceCat_units_ok t _ fl hH a
  have hH2 : ∀ t fl fl', forceCat H t w.bodies.length = .ok fl →
      forceCat H' (U.time * t) w.bodies.length = .ok fl' → fl' = fl.map U.force := by
    intro t fl fl' a b
    have := hH1 t fl a
    rw [b] at this
    injection this
  constructor
  · intro u' h2
    obtain ⟨x, hx1, hs⟩ := units_run (mi' := mi') hx hx' hfo hcol hl hH2 n rfl h h1 (Or.inr ⟨u', h2⟩)
    rw [h2] at hx1
    injection hx1 with hx1
    rw [hx1]
    exact hs.same
  · obtain ⟨x, hx1, hs⟩ := units_run (mi' := mi') hx exactLcp_exact hfo hcol hl hH2 n rfl h h1
      (Or.inl (exact_answers U H H' lcp mi mi' Q _ hx hH1))
    exact ⟨x, hx1, hs.same⟩

end LcpPhysics
