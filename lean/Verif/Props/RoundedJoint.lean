import Verif.Spec.RoundedJoint
import Verif.Props.RoundedWorld
import Verif.Props.Joints
import Mathlib.Analysis.Real.Pi.Bounds

/-! # C127: constraints in double precision -/

noncomputable section

namespace LcpPhysics
open Spec Rounded

variable {A : Arith}

/-! ## Without rounding -/

theorem toCart_exact (r θ : ℝ) : toCart .exact r θ = polar_to_cart r θ := rfl

theorem addV_exact (a b : V2) : addV .exact a b = a + b := rfl

theorem subV_exact (a b : V2) : subV .exact a b = a - b := rfl

theorem jointUpdate_exact (bs : List Body) (j : Joint) : jointUpdate .exact bs j = j.update_pos bs := by
  obtain ⟨kind, i1, i2, pos, pos1, pos2, r1, rot1, rot2⟩ := j
  cases kind <;> cases i2 <;> rfl

theorem jointMove_exact (bs : List Body) (dt : ℝ) (j : Joint) : jointMove .exact bs dt j = j.move bs dt := by
  obtain ⟨kind, i1, i2, pos, pos1, pos2, r1, rot1, rot2⟩ := j
  cases kind <;> cases i2 <;> rfl

/-- C127: without rounding the constructor is that of the other properties; so are `move` and `update_pos` (see `C127_exact`). -/
theorem C127_exact_made (bs : List Body) (i1 : ℕ) (i2 : Option ℕ) (pos : V2) :
    newJoint .exact atan2 (2 * Real.pi) bs i1 i2 pos = mkJoint bs i1 i2 pos := by
  have hp : ∀ v, toPolar .exact atan2 (2 * Real.pi) v = cart_to_polar v := by
    intro v
    have hn : fnorm .exact v = nrm v := by simp only [fnorm, Arith.exact, id, nrm]
    unfold toPolar cart_to_polar
    simp only [hn, and_true]
    rfl
  unfold newJoint mkJoint
  simp only [hp, subV_exact]
  cases i2 <;> rfl

/-- C127: without rounding this is the loop of the world model, whatever ends it. -/
theorem C127_exact {σ φ : Type} (env : Env σ φ) (start_p : Vec) (rots : List (ℝ × ℝ)) (fuel : ℕ) (w w' : World σ φ) (dt d : ℝ)
    (h : stepLoop env start_p rots fuel w dt = .done (w', d)) :
    ∃ k, attempts .exact start_p (rots.map Prod.fst) k ⟨w.bodies, w.joints⟩ dt = ⟨w'.bodies, w'.joints⟩ ∧ d = dt / 2 ^ k := by
  have hmove : ∀ w : World σ φ, ∀ dt, moveAll .exact dt ⟨w.bodies, w.joints⟩ = ⟨((w.moveBodies dt).moveJoints dt).bodies, ((w.moveBodies dt).moveJoints dt).joints⟩ := by
    intro w dt
    have hb : (w.bodies.map fun b => move .exact b dt) = w.bodies.map fun b => b.move dt := by
      refine List.map_congr_left fun b _ => ?_
      have := C122_exact b [.move dt]
      exact this
    unfold moveAll World.moveBodies World.moveJoints
    simp only [hb]
    rw [show jointMove .exact (w.bodies.map fun b => b.move dt) dt = fun j => j.move (w.bodies.map fun b => b.move dt) dt from
      funext fun j => jointMove_exact _ dt j]
  induction fuel generalizing w dt with
  | zero => simp [stepLoop] at h
  | succ fuel ih =>
    unfold stepLoop at h
    obtain ⟨w1, h1, h2⟩ := Run.bind_eq_done.mp h
    have hfc : w1.bodies = ((w.moveBodies dt).moveJoints dt).bodies ∧ w1.joints = ((w.moveBodies dt).moveJoints dt).joints := by
      unfold World.find_contacts at h1
      split at h1
      · simp at h1
      · injection h1 with h1
        rw [← h1]; exact ⟨rfl, rfl⟩
    have hend : w1 = w' ∧ dt = d → ∃ k, attempts .exact start_p (rots.map Prod.fst) k ⟨w.bodies, w.joints⟩ dt = ⟨w'.bodies, w'.joints⟩ ∧ d = dt / 2 ^ k := by
      rintro ⟨rfl, rfl⟩
      refine ⟨0, ?_, by simp⟩
      rw [attempts, hmove, hfc.1, hfc.2]
    split_ifs at h2 with c1 c2
    · injection h2 with h2; injection h2 with h3 h4; exact hend ⟨h3, h4⟩
    · injection h2 with h2; injection h2 with h3 h4; exact hend ⟨h3, h4⟩
    · obtain ⟨k, hk, hd⟩ := ih _ _ h2
      refine ⟨k + 1, ?_, by rw [hd, pow_succ]; field_simp⟩
      rw [attempts, hmove, ← hfc.1, ← hfc.2, ← hk]
      have hb : setPs .exact w1.bodies start_p = (w1.set_p start_p).bodies := by
        unfold setPs World.set_p
        refine List.map_congr_left fun b _ => ?_
        exact setP_exact _ _
      have hp : putBack .exact start_p (rots.map Prod.fst) ⟨w1.bodies, w1.joints⟩ =
          ⟨((w1.set_p start_p).restoreJoints rots).bodies, ((w1.set_p start_p).restoreJoints rots).joints⟩ := by
        unfold putBack World.restoreJoints
        simp only [hb]
        congr 1
        rw [List.zip_map_right, List.map_map]
        exact List.map_congr_left fun j _ => jointUpdate_exact _ _
      rw [hp]
      rfl

/-! ## Undone attempts -/

/-- The same poses and velocities. -/
def SamePV (bs bs' : List Body) : Prop := bs.length = bs'.length ∧ ∀ i, (bodyAt bs i).p = (bodyAt bs' i).p ∧ (bodyAt bs i).v = (bodyAt bs' i).v

theorem jointUpdate_congr {bs bs' : List Body} (h : SamePV bs bs') (j : Joint) : jointUpdate A bs j = jointUpdate A bs' j := by
  obtain ⟨kind, i1, i2, pos, pos1, pos2, r1, rot1, rot2⟩ := j
  have e : ∀ i, (bodyAt bs i).pos = (bodyAt bs' i).pos := fun i => by unfold Body.pos; rw [(h.2 i).1]
  cases kind <;> cases i2 <;> simp [jointUpdate, e, (h.2 i1).1]

theorem jointMove_congr {bs bs' : List Body} (h : SamePV bs bs') (dt : ℝ) (j : Joint) : jointMove A bs dt j = jointMove A bs' dt j := by
  obtain ⟨kind, i1, i2, pos, pos1, pos2, r1, rot1, rot2⟩ := j
  cases kind <;> cases i2 <;> simp only [jointMove, jointUpdate_congr h, (h.2 _).2]

/-- A constraint moved, set back and moved again is the constraint moved at once, apart from `rot2`. -/
theorem undone_move (j : Joint) (bs1 bs2 bs : List Body) (dt1 dt r : ℝ) :
    noRot2 (jointMove A bs dt (jointUpdate A bs2 { jointMove A bs1 dt1 j with rot1 := j.rot1, rot2 := r })) = noRot2 (jointMove A bs dt j) := by
  obtain ⟨kind, i1, i2, pos, pos1, pos2, r1, rot1, rot2⟩ := j
  cases kind <;> cases i2 <;> rfl

theorem noRot2_update (bs : List Body) (j : Joint) (r : ℝ) : jointUpdate A bs { j with rot2 := r } = { jointUpdate A bs j with rot2 := r } := by
  obtain ⟨kind, i1, i2, pos, pos1, pos2, r1, rot1, rot2⟩ := j
  cases kind <;> cases i2 <;> rfl

/-- Ready to be moved like `j0`. -/
def Ready (A : Arith) (j j0 : Joint) : Prop := ∀ bs dt, noRot2 (jointMove A bs dt j) = noRot2 (jointMove A bs dt j0)

theorem ready_back {j j0 : Joint} (h : Ready A j j0) (bs1 bs2 : List Body) (dt1 : ℝ) :
    Ready A (jointUpdate A bs2 { jointMove A bs1 dt1 j with rot1 := j0.rot1 }) j0 := by
  intro bs dt
  have h1 := h bs1 dt1
  have e : ({ jointMove A bs1 dt1 j with rot1 := j0.rot1 } : Joint) =
      { jointMove A bs1 dt1 j0 with rot1 := j0.rot1, rot2 := (jointMove A bs1 dt1 j).rot2 } := by
    simp only [noRot2, Joint.mk.injEq] at h1 ⊢
    simp [h1]
  rw [e]
  exact undone_move j0 bs1 bs2 bs dt1 dt _

theorem shortened_shift (rnd : ℝ → ℝ) (dt : ℝ) (k : ℕ) : shortened rnd (rnd (dt / 2)) k = shortened rnd dt (k + 1) := by
  induction k with
  | zero => rfl
  | succ k ih => rw [shortened, ih]; rfl

theorem samePV_move {bs bs0 : List Body} (h : SamePV bs bs0) (dt : ℝ) : SamePV (bs.map fun b => move A b dt) (bs0.map fun b => move A b dt) := by
  refine ⟨by simpa using h.1, fun i => ?_⟩
  by_cases hi : i < bs.length
  · rw [bodyAt_map _ _ _ hi, bodyAt_map _ _ _ (h.1 ▸ hi)]
    simp only [move, setP_p, setP_v, (h.2 i).1, (h.2 i).2, and_self]
  · have h1 : bs[i]? = none := List.getElem?_eq_none (by omega)
    have h2 : bs0[i]? = none := List.getElem?_eq_none (by rw [← h.1]; omega)
    simp [bodyAt, List.getD_eq_getElem?_getD, h1, h2]

theorem samePV_back {bs bs0 : List Body} (h : SamePV bs bs0) (dt : ℝ) :
    SamePV (setPs A (bs.map fun b => move A b dt) (cat3 (bs0.map Body.p))) bs0 := by
  have hl : (setPs A (bs.map fun b => move A b dt) (cat3 (bs0.map Body.p))).length = bs0.length := by simp [setPs, h.1]
  refine ⟨hl, fun i => ?_⟩
  by_cases hi : i < bs0.length
  · have hib : i < bs.length := h.1 ▸ hi
    have e1 : bodyAt (setPs A (bs.map fun b => move A b dt) (cat3 (bs0.map Body.p))) i =
        setP A (move A (bodyAt bs i) dt) (bodyAt bs0 i).p := by
      have hs : slice3 (cat3 (bs0.map Body.p)) i = (bodyAt bs0 i).p := by
        rw [cat3_slice _ _ (by simpa using hi)]
        simp [bodyAt, List.getD_eq_getElem?_getD, hi]
      unfold bodyAt at hs ⊢
      rw [← hs]
      simp [setPs, List.getD_eq_getElem?_getD, hib]
    rw [e1]
    simp only [setP_p, setP_v, move, (h.2 i).2, and_self]
  · have h1 : (setPs A (bs.map fun b => move A b dt) (cat3 (bs0.map Body.p))).length ≤ i := by rw [hl]; omega
    have h2 : bs0.length ≤ i := by omega
    simp [bodyAt, List.getD_eq_getElem?_getD, h1, h2]

theorem attempts_spec (bs0 : List Body) (js0 : List Joint) (k : ℕ) (bs : List Body) (js : List Joint) (dt : ℝ) (hb : SamePV bs bs0)
    (hj : List.Forall₂ (Ready A) js js0) :
    SamePV (attempts A (cat3 (bs0.map Body.p)) (js0.map Joint.rot1) k ⟨bs, js⟩ dt).bodies (bs0.map fun b => move A b (shortened A.rnd dt k)) ∧
    (attempts A (cat3 (bs0.map Body.p)) (js0.map Joint.rot1) k ⟨bs, js⟩ dt).joints.map noRot2 =
      js0.map fun j => noRot2 (jointMove A (bs0.map fun b => move A b (shortened A.rnd dt k)) (shortened A.rnd dt k) j) := by
  induction k generalizing bs js dt with
  | zero =>
    have h1 := samePV_move (A := A) hb dt
    refine ⟨h1, ?_⟩
    simp only [attempts, moveAll, shortened]
    rw [List.map_map]
    have : js0.map (fun j => noRot2 (jointMove A (bs0.map fun b => move A b dt) dt j)) =
        js0.map (fun j => noRot2 (jointMove A (bs.map fun b => move A b dt) dt j)) :=
      List.map_congr_left fun j _ => by rw [jointMove_congr h1]
    rw [this]
    induction hj with
    | nil => rfl
    | cons h _ ih => simp only [List.map_cons, Function.comp]; rw [h]; congr 1; exact ih (List.map_congr_left fun j _ => by rw [jointMove_congr h1])
  | succ k ih =>
    have := ih (setPs A (bs.map fun b => move A b dt) (cat3 (bs0.map Body.p)))
      ((((js.map (jointMove A (bs.map fun b => move A b dt) dt)).zip (js0.map Joint.rot1)).map fun jc =>
        jointUpdate A (setPs A (bs.map fun b => move A b dt) (cat3 (bs0.map Body.p))) { jc.1 with rot1 := jc.2 })) (A.rnd (dt / 2))
      (samePV_back hb dt) (by
        generalize setPs A (bs.map fun b => move A b dt) (cat3 (bs0.map Body.p)) = bs2
        generalize (bs.map fun b => move A b dt) = bs1
        clear ih
        induction hj with
        | nil => exact .nil
        | cons h _ ih => exact .cons (ready_back h bs1 bs2 dt) ih)
    rw [shortened_shift] at this
    exact this

/-- C127: undone attempts leave no trace: after a step the poses, velocities and constraints (but `rot2`, which nothing reads) are those
of a single attempt with the accepted length. -/
theorem C127_step (w : Jointed) (c : Call) :
    let d := shortened A.rnd c.dt c.undone
    let w' := stepJ A w c
    w'.bodies.length = w.bodies.length ∧
    (∀ i < w.bodies.length, (bodyAt w'.bodies i).p = moved A (bodyAt w.bodies i).p (slice3 c.v i) d ∧ (bodyAt w'.bodies i).v = slice3 c.v i) ∧
    w'.joints.map noRot2 = w.joints.map fun j => noRot2 (jointMove A w'.bodies d j) := by
  intro d w'
  have h := attempts_spec (A := A) (setVs w.bodies c.v) w.joints c.undone (setVs w.bodies c.v) w.joints c.dt ⟨rfl, fun _ => ⟨rfl, rfl⟩⟩
    (List.forall₂_same.mpr fun j _ _ _ => rfl)
  rw [setVs_poses] at h
  obtain ⟨h1, h2⟩ := h
  have hb : SamePV w'.bodies ((setVs w.bodies c.v).map fun b => move A b d) := h1
  refine ⟨by rw [hb.1]; simp [setVs_length], fun i hi => ?_, ?_⟩
  · obtain ⟨e1, e2⟩ := hb.2 i
    rw [e1, e2, bodyAt_map _ _ _ (by rwa [setVs_length]), setVs_bodyAt _ _ _ hi]
    simp only [move, setP_p, setP_v, and_self]
  · refine h2.trans (List.map_congr_left fun j _ => ?_)
    rw [jointMove_congr hb]

/-! ## The anchor of a joint -/

/-- What a step makes of a joint. -/
theorem joint_step (w : Jointed) (c : Call) (k : ℕ) (j : Joint) (hk : w.joints[k]? = some j) (hj : j.kind = .revolute) (hi : j.i1 < w.bodies.length) :
    ∃ j' e, (stepJ A w c).joints[k]? = some j' ∧ j'.kind = .revolute ∧ j'.i1 = j.i1 ∧ j'.i2 = j.i2 ∧ j'.r1 = j.r1 ∧
      j'.rot1 = A.rnd (j.rot1 + e) ∧ bodyAngle (stepJ A w c) j.i1 = A.rnd (bodyAngle w j.i1 + e) ∧
      j'.pos1 = toCart A j.r1 j'.rot1 ∧ j'.pos = addV A (bodyAt (stepJ A w c).bodies j.i1).pos j'.pos1 ∧
      ∀ i2, j.i2 = some i2 → j'.pos2 = subV A j'.pos (bodyAt (stepJ A w c).bodies i2).pos := by
  obtain ⟨-, h2, h3⟩ := C127_step (A := A) w c
  obtain ⟨p1, v1⟩ := h2 j.i1 hi
  have h4 := congrArg (fun l => l[k]?) h3
  simp only [List.getElem?_map, hk, Option.map_some, Option.map_eq_some_iff] at h4
  obtain ⟨j', e1, e2⟩ := h4
  refine ⟨j', A.rnd ((slice3 c.v j.i1).r * shortened A.rnd c.dt c.undone), e1, ?_⟩
  have hr : bodyAngle (stepJ A w c) j.i1 = A.rnd (bodyAngle w j.i1 + A.rnd ((slice3 c.v j.i1).r * shortened A.rnd c.dt c.undone)) := by
    unfold bodyAngle; rw [p1]; rfl
  obtain ⟨kind, i1, i2, pos, pos1, pos2, r1, rot1, rot2⟩ := j
  obtain ⟨kind', i1', i2', pos', pos1', pos2', r1', rot1', rot2'⟩ := j'
  simp only at hj
  subst hj
  simp only at p1 v1 hr
  cases i2 with
  | none =>
    simp only [noRot2, jointMove, jointUpdate, Joint.mk.injEq, v1] at e2
    obtain ⟨rfl, rfl, rfl, rfl, rfl, rfl, rfl, rfl, -⟩ := e2
    exact ⟨rfl, rfl, rfl, rfl, rfl, hr, rfl, rfl, fun i2 h => by cases h⟩
  | some b =>
    simp only [noRot2, jointMove, jointUpdate, Joint.mk.injEq, v1] at e2
    obtain ⟨rfl, rfl, rfl, rfl, rfl, rfl, rfl, rfl, -⟩ := e2
    exact ⟨rfl, rfl, rfl, rfl, rfl, hr, rfl, rfl, fun i2 h => by cases h; rfl⟩

theorem runJ_snoc (w : Jointed) (cs : List Call) (c : Call) : runJ A w (cs ++ [c]) = stepJ A (runJ A w cs) c := by
  simp [runJ]

theorem runJ_length (w : Jointed) (cs : List Call) : (runJ A w cs).bodies.length = w.bodies.length := by
  induction cs using List.reverseRecOn with
  | nil => rfl
  | append_singleton cs c ih => rw [runJ_snoc, (C127_step (A := A) _ c).1, ih]

theorem anchorAngle_eq {w : Jointed} {k : ℕ} {j : Joint} (h : w.joints[k]? = some j) : anchorAngle w k = j.rot1 := by
  simp [anchorAngle, List.getD_eq_getElem?_getD, h]

/-- C127: throughout a run a joint keeps its bodies and the stored distance of its anchor, and the stored angle of the anchor follows that
of the body up to the rounding of the two sums in each step. -/
theorem C127_angle (h : DoubleArith A) (w : Jointed) (cs : List Call) (k : ℕ) (j : Joint) (hk : w.joints[k]? = some j) (hj : j.kind = .revolute)
    (hi : j.i1 < w.bodies.length) (B : ℝ) (hB : AnglesBelow A B w cs k j.i1) :
    ∃ j', (runJ A w cs).joints[k]? = some j' ∧ j'.kind = .revolute ∧ j'.i1 = j.i1 ∧ j'.i2 = j.i2 ∧ j'.r1 = j.r1 ∧
      |(j'.rot1 - j.rot1) - (bodyAngle (runJ A w cs) j.i1 - bodyAngle w j.i1)| ≤ cs.length * (4 / 2 ^ 53 * B + 1 / 2 ^ 1072) := by
  induction cs using List.reverseRecOn with
  | nil => exact ⟨j, hk, hj, rfl, rfl, rfl, by simp [runJ]⟩
  | append_singleton cs c ih =>
    have hB' : AnglesBelow A B w cs k j.i1 := by
      intro m hm
      have := hB m (by simp; omega)
      rwa [List.take_append_of_le_length hm] at this
    obtain ⟨j1, k1, k2, k3, k4, k5, k6⟩ := ih hB'
    obtain ⟨j2, e, s1, s2, s3, s4, s5, s6, s7, -, -, -⟩ := joint_step (A := A) (runJ A w cs) c k j1 k1 k2 (by rw [k3, runJ_length]; exact hi)
    rw [k3] at s7
    refine ⟨j2, by rw [runJ_snoc]; exact s1, s2, s3.trans k3, s4.trans k4, s5.trans k5, ?_⟩
    have hlast := hB (cs ++ [c]).length le_rfl
    rw [List.take_length, runJ_snoc, anchorAngle_eq s1] at hlast
    obtain ⟨b1, b2⟩ := hlast
    rw [runJ_snoc]
    have near : ∀ x : ℝ, |A.rnd x| ≤ B → |A.rnd x - x| ≤ 2 / 2 ^ 53 * B + 1 / 2 ^ 1073 := by
      intro x hx
      have e1 := any_error h.nearest x
      have e2 : |x| ≤ |A.rnd x| + |A.rnd x - x| := by
        have := abs_sub (A.rnd x) (A.rnd x - x)
        rwa [sub_sub_cancel] at this
      have e3 : (1 : ℝ) / 2 ^ 1073 = 2 * (1 / 2 ^ 1074) := by rw [pow_succ]; field_simp
      rw [e3]
      generalize (1 : ℝ) / 2 ^ 1074 = η at *
      have hη : 0 ≤ η ∨ η < 0 := le_or_gt _ _
      have a0 := abs_nonneg (A.rnd x - x)
      rcases hη with hη | hη
      · linarith
      · have := abs_nonneg x
        linarith
    have n1 := near _ (s7 ▸ b1)
    have n2 := near _ (s6 ▸ b2)
    rw [← s7] at n1
    rw [← s6] at n2
    have hsplit : j2.rot1 - j.rot1 - (bodyAngle (stepJ A (runJ A w cs) c) j.i1 - bodyAngle w j.i1) =
        (j1.rot1 - j.rot1 - (bodyAngle (runJ A w cs) j.i1 - bodyAngle w j.i1)) + (j2.rot1 - (j1.rot1 + e)) -
        (bodyAngle (stepJ A (runJ A w cs) c) j.i1 - (bodyAngle (runJ A w cs) j.i1 + e)) := by ring
    rw [hsplit]
    have a1 := abs_sub (j1.rot1 - j.rot1 - (bodyAngle (runJ A w cs) j.i1 - bodyAngle w j.i1) + (j2.rot1 - (j1.rot1 + e)))
      (bodyAngle (stepJ A (runJ A w cs) c) j.i1 - (bodyAngle (runJ A w cs) j.i1 + e))
    have a2 := abs_add_le (j1.rot1 - j.rot1 - (bodyAngle (runJ A w cs) j.i1 - bodyAngle w j.i1)) (j2.rot1 - (j1.rot1 + e))
    have e3 : (1 : ℝ) / 2 ^ 1072 = 2 * (1 / 2 ^ 1073) := by rw [pow_succ]; field_simp
    rw [e3] at k6 ⊢
    rw [List.length_append, List.length_singleton]
    push_cast
    linarith

/-- The rounded conversion to Cartesian coordinates. -/
theorem toCart_error (h : DoubleArith A) (r θ : ℝ) : len (toCart A r θ - polar_to_cart r θ) ≤ 8 / 2 ^ 53 * |r| + 1 / 2 ^ 1073 := by
  have comp : ∀ c f : ℝ, |c| ≤ 1 → |f - c| ≤ 1 / 2 ^ 52 → |A.rnd (f * r) - c * r| ≤ 4 / 2 ^ 53 * |r| + 1 / 2 ^ 1074 := by
    intro c f hc hf
    have e1 := any_error h.nearest (f * r)
    have e2 : |f * r - c * r| ≤ 1 / 2 ^ 52 * |r| := by
      rw [← sub_mul, abs_mul]; exact mul_le_mul_of_nonneg_right hf (abs_nonneg _)
    have e3 : |f * r| ≤ 2 * |r| := by
      rw [abs_mul]
      refine mul_le_mul_of_nonneg_right ?_ (abs_nonneg _)
      have := abs_sub_abs_le_abs_sub f c
      have : (1 : ℝ) / 2 ^ 52 ≤ 1 := by norm_num
      linarith
    have e4 := abs_sub_le (A.rnd (f * r)) (f * r) (c * r)
    have e5 : (1 : ℝ) / 2 ^ 52 = 2 / 2 ^ 53 := by norm_num
    rw [e5] at e2
    linarith
  refine (len_le_sum _).trans ?_
  have c1 := comp _ _ (Real.abs_cos_le_one θ) (h.cos θ)
  have c2 := comp _ _ (Real.abs_sin_le_one θ) (h.sin θ)
  simp only [toCart, polar_to_cart, Prod.fst_sub, Prod.snd_sub]
  have e3 : (1 : ℝ) / 2 ^ 1073 = 2 * (1 / 2 ^ 1074) := by rw [pow_succ]; field_simp
  rw [e3]
  linarith

theorem polar_len (r θ : ℝ) : len (polar_to_cart r θ) = |r| := by
  unfold len polar_to_cart
  rw [← Real.sqrt_sq_eq_abs]
  congr 1
  simp only
  linear_combination r ^ 2 * Real.sin_sq_add_cos_sq θ

/-- C127: however long the run, the anchor is at the stored distance from the centre up to the rounding of one conversion: unlike the
vertices of a body (C122) it does not drift in length. -/
theorem C127_length (h : DoubleArith A) (w : Jointed) (cs : List Call) (c : Call) (k : ℕ) (j : Joint) (hk : w.joints[k]? = some j)
    (hj : j.kind = .revolute) (hi : j.i1 < w.bodies.length) :
    ∃ j', (runJ A w (cs ++ [c])).joints[k]? = some j' ∧ |len j'.pos1 - abs j.r1| ≤ 8 / 2 ^ 53 * |j.r1| + 1 / 2 ^ 1073 := by
  have key : ∃ j', (runJ A w cs).joints[k]? = some j' ∧ j'.kind = .revolute ∧ j'.i1 = j.i1 ∧ j'.r1 = j.r1 := by
    induction cs using List.reverseRecOn with
    | nil => exact ⟨j, hk, hj, rfl, rfl⟩
    | append_singleton cs c ih =>
      obtain ⟨j1, k1, k2, k3, k5⟩ := ih
      obtain ⟨j2, e, s1, s2, s3, s4, s5, -⟩ := joint_step (A := A) (runJ A w cs) c k j1 k1 k2 (by rw [k3, runJ_length]; exact hi)
      exact ⟨j2, by rw [runJ_snoc]; exact s1, s2, s3.trans k3, s5.trans k5⟩
  obtain ⟨j1, k1, k2, k3, k5⟩ := key
  obtain ⟨j2, e, s1, s2, s3, s4, s5, -, -, s8, -, -⟩ := joint_step (A := A) (runJ A w cs) c k j1 k1 k2 (by rw [k3, runJ_length]; exact hi)
  refine ⟨j2, by rw [runJ_snoc]; exact s1, ?_⟩
  rw [k5] at s8
  have he := toCart_error h j.r1 j2.rot1
  rw [← s8] at he
  have hl := polar_len j.r1 j2.rot1
  refine le_trans ?_ he
  rw [← hl, abs_le]
  constructor
  · have := len_add_le j2.pos1 (polar_to_cart j.r1 j2.rot1 - j2.pos1)
    rw [add_sub_cancel] at this
    have e : len (polar_to_cart j.r1 j2.rot1 - j2.pos1) = len (j2.pos1 - polar_to_cart j.r1 j2.rot1) := by rw [← len_neg, neg_sub]
    linarith
  · have := len_add_le (polar_to_cart j.r1 j2.rot1) (j2.pos1 - polar_to_cart j.r1 j2.rot1)
    rw [add_sub_cancel] at this
    linarith

/-- C127: where the anchor is after a run: at the place to which the stored angle of the body turns it, up to the rounding of the angles. -/
theorem C127_anchor (h : DoubleArith A) (w : Jointed) (cs : List Call) (hn : cs ≠ []) (k : ℕ) (j : Joint) (hk : w.joints[k]? = some j)
    (hj : j.kind = .revolute) (hi : j.i1 < w.bodies.length) (B : ℝ) (hB : AnglesBelow A B w cs k j.i1) :
    ∃ j', (runJ A w cs).joints[k]? = some j' ∧
      len (j'.pos1 - rot (bodyAngle (runJ A w cs) j.i1 - bodyAngle w j.i1) (polar_to_cart j.r1 j.rot1)) ≤
        (cs.length * (4 / 2 ^ 53 * B + 1 / 2 ^ 1072) + 8 / 2 ^ 53) * |j.r1| + 1 / 2 ^ 1073 := by
  obtain ⟨j', k1, -, -, -, k5, k6⟩ := C127_angle h w cs k j hk hj hi B hB
  refine ⟨j', k1, ?_⟩
  have hp : j'.pos1 = toCart A j.r1 j'.rot1 := by
    obtain ⟨cs0, c, rfl⟩ := (List.eq_nil_or_concat' cs).resolve_left hn
    have hB' : AnglesBelow A B w cs0 k j.i1 := by
      intro m hm
      have := hB m (by simp; omega)
      rwa [List.take_append_of_le_length hm] at this
    obtain ⟨j1, q1, q2, q3, q4, q5, -⟩ := C127_angle h w cs0 k j hk hj hi B hB'
    obtain ⟨j2, e, s1, s2, s3, s4, s5, -, -, s8, -, -⟩ := joint_step (A := A) (runJ A w cs0) c k j1 q1 q2 (by rw [q3, runJ_length]; exact hi)
    rw [runJ_snoc] at k1
    rw [k1] at s1
    cases s1
    rw [s8, q5]
  set D := bodyAngle (runJ A w cs) j.i1 - bodyAngle w j.i1 with hD
  rw [← polar_shift]
  have e1 := toCart_error h j.r1 j'.rot1
  rw [← hp] at e1
  have e2 : len (polar_to_cart j.r1 j'.rot1 - polar_to_cart j.r1 (j.rot1 + D)) ≤ |j'.rot1 - (j.rot1 + D)| * |j.r1| := by
    have := rot_angle_near j'.rot1 (j.rot1 + D) (polar_to_cart j.r1 0)
    rwa [← polar_shift, ← polar_shift, zero_add, zero_add, polar_len] at this
  have e3 : |j'.rot1 - (j.rot1 + D)| * |j.r1| ≤ cs.length * (4 / 2 ^ 53 * B + 1 / 2 ^ 1072) * |j.r1| := by
    refine mul_le_mul_of_nonneg_right ?_ (abs_nonneg _)
    rwa [sub_sub] at k6
  have e4 := len_add_le (j'.pos1 - polar_to_cart j.r1 j'.rot1) (polar_to_cart j.r1 j'.rot1 - polar_to_cart j.r1 (j.rot1 + D))
  rw [sub_add_sub_cancel] at e4
  linarith

/-! ## The constructor -/

theorem subV_error (h : DoubleArith A) (a b : V2) : len (subV A a b - (a - b)) ≤ 3 / 2 * (1 / 2 ^ 53 * len (a - b)) + 2 * (1 / 2 ^ 1074) := by
  refine (len_le_sum _).trans ?_
  have e1 := any_error h.nearest (a.1 - b.1)
  have e2 := any_error h.nearest (a.2 - b.2)
  have e3 := sum_le_len (a - b)
  simp only [subV, Prod.fst_sub, Prod.snd_sub] at e3 ⊢
  generalize (1 : ℝ) / 2 ^ 1074 = η at *
  have := mul_le_mul_of_nonneg_left e3 (by positivity : (0 : ℝ) ≤ 1 / 2 ^ 53)
  linarith

theorem addV_error (h : DoubleArith A) (a b : V2) : len (addV A a b - (a + b)) ≤ 3 / 2 * (1 / 2 ^ 53 * len (a + b)) + 2 * (1 / 2 ^ 1074) := by
  refine (len_le_sum _).trans ?_
  have e1 := any_error h.nearest (a.1 + b.1)
  have e2 := any_error h.nearest (a.2 + b.2)
  have e3 := sum_le_len (a + b)
  simp only [addV, Prod.fst_sub, Prod.snd_sub, Prod.fst_add, Prod.snd_add] at e3 ⊢
  generalize (1 : ℝ) / 2 ^ 1074 = η at *
  have := mul_le_mul_of_nonneg_left e3 (by positivity : (0 : ℝ) ≤ 1 / 2 ^ 53)
  linarith

/-- The stored angle is one of the angles of the vector, up to rounding. -/
theorem toPolar_angle (h : DoubleArith A) {fatan : ℝ → ℝ → ℝ} {tau : ℝ} (hp : PolarArith fatan tau) (s : V2) :
    ∃ β, polar_to_cart (len s) β = s ∧ |(toPolar A fatan tau s).2 - β| ≤ 20 / 2 ^ 53 := by
  have h0 : polar_to_cart (len s) (Complex.arg ⟨s.1, s.2⟩) = s := by
    have := C01_polar_roundtrip s false
    simp only [cart_to_polar, Bool.false_eq_true, and_false, if_false, nrm_eq_len] at this
    exact this
  have ha := hp.atan s.2 s.1
  have e5 : (1 : ℝ) / 2 ^ 51 = 4 / 2 ^ 53 := by norm_num
  have e6 : (1 : ℝ) / 2 ^ 50 = 8 / 2 ^ 53 := by norm_num
  unfold toPolar
  simp only
  split_ifs with hneg
  · refine ⟨Complex.arg ⟨s.1, s.2⟩ + 2 * Real.pi, ?_, ?_⟩
    · conv_rhs => rw [← h0]
      simp [polar_to_cart]
    · have ht := hp.tau
      have hr := any_error h.nearest (fatan s.2 s.1 + tau)
      have h1 := Complex.neg_pi_lt_arg ⟨s.1, s.2⟩
      have hpi := Real.pi_lt_d2
      have hpi0 := Real.pi_pos
      have hsmall : (1 : ℝ) / 2 ^ 51 ≤ 1 / 100 := by norm_num
      have hsmall' : (1 : ℝ) / 2 ^ 50 ≤ 1 / 100 := by norm_num
      have a1 := abs_le.mp ha
      have a2 := abs_le.mp ht
      have hx : |fatan s.2 s.1 + tau| ≤ 7 := by
        rw [abs_le]; constructor <;> linarith
      have ht0 : (1 : ℝ) / 2 ^ 1074 ≤ 1 / 2 ^ 53 := by
        apply one_div_le_one_div_of_le (by positivity)
        exact pow_le_pow_right₀ (by norm_num) (by norm_num)
      have hr' : |A.rnd (fatan s.2 s.1 + tau) - (fatan s.2 s.1 + tau)| ≤ 8 / 2 ^ 53 := by
        refine hr.trans ?_
        have := mul_le_mul_of_nonneg_left hx (by positivity : (0 : ℝ) ≤ 1 / 2 ^ 53)
        linarith
      have e : A.rnd (fatan s.2 s.1 + tau) - (Complex.arg ⟨s.1, s.2⟩ + 2 * Real.pi) =
          (A.rnd (fatan s.2 s.1 + tau) - (fatan s.2 s.1 + tau)) + (fatan s.2 s.1 - Complex.arg ⟨s.1, s.2⟩) + (tau - 2 * Real.pi) := by ring
      rw [e]
      have b1 := abs_add_le ((A.rnd (fatan s.2 s.1 + tau) - (fatan s.2 s.1 + tau)) + (fatan s.2 s.1 - Complex.arg ⟨s.1, s.2⟩)) (tau - 2 * Real.pi)
      have b2 := abs_add_le (A.rnd (fatan s.2 s.1 + tau) - (fatan s.2 s.1 + tau)) (fatan s.2 s.1 - Complex.arg ⟨s.1, s.2⟩)
      rw [e5] at ha
      rw [e6] at ht
      linarith
  · exact ⟨_, h0, by rw [e5] at ha; linarith [(by positivity : (0 : ℝ) < 1 / 2 ^ 53)]⟩

theorem made_scalar {u L S r a η : ℝ} (hu : 0 ≤ u) (hu1 : u ≤ 1 / 100) (hL : 0 ≤ L) (hS : |S - L| ≤ u * L) (hr : |r - L| ≤ 5 * u * L + 2 * η)
    (ha : a ≤ |r - S| + 20 * u * S) : a ≤ 27 * u * L + 2 * η := by
  have h1 := abs_sub_le r L S
  have h2 : |L - S| = |S - L| := abs_sub_comm _ _
  have h3 := (abs_le.mp hS).2
  have h4 : u * S ≤ u * (L + u * L) := mul_le_mul_of_nonneg_left (by linarith) hu
  have h5 : u * (u * L) ≤ 1 / 100 * (u * L) := mul_le_mul_of_nonneg_right hu1 (by positivity)
  have h6 : 0 ≤ u * L := by positivity
  linarith

/-- C127: a joint made at the point `pos`: distance and angle stored in it give the place of the point relative to the body up to 28 units
in the last place. -/
theorem C127_made (h : DoubleArith A) {fatan : ℝ → ℝ → ℝ} {tau : ℝ} (hp : PolarArith fatan tau) (bs : List Body) (i1 : ℕ) (i2 : Option ℕ)
    (pos : V2) (hpos : Rep pos.1 ∧ Rep pos.2) (hb : RepPose (bodyAt bs i1).p) :
    let j := newJoint A fatan tau bs i1 i2 pos
    let L := Spec.dist pos (bodyAt bs i1).pos
    |j.r1 - L| ≤ 5 / 2 ^ 53 * L + 2 / 2 ^ 536 ∧
    len (polar_to_cart j.r1 j.rot1 - (pos - (bodyAt bs i1).pos)) ≤ 28 / 2 ^ 53 * L + 2 / 2 ^ 536 := by
  intro j L
  set c := (bodyAt bs i1).pos with hc
  have hr1 : |j.r1 - L| ≤ 5 / 2 ^ 53 * L + 2 / 2 ^ 536 := by
    have := fnorm_error h hpos.1 hpos.2 hb.2.1 hb.2.2
    exact this
  refine ⟨hr1, ?_⟩
  set s := subV A pos c with hs
  have hsd : len (s - (pos - c)) ≤ 1 / 2 ^ 53 * L := by
    refine len_of_parts (by positivity) ?_ ?_
    · have := add_error h.nearest hpos.1 (rep_neg hb.2.1)
      rw [← sub_eq_add_neg] at this
      exact this
    · have := add_error h.nearest hpos.2 (rep_neg hb.2.2)
      rw [← sub_eq_add_neg] at this
      exact this
  have hSL : |len s - L| ≤ 1 / 2 ^ 53 * L := by
    refine le_trans ?_ hsd
    have hL : L = len (pos - c) := rfl
    rw [hL, abs_le]
    constructor
    · have := len_add_le s ((pos - c) - s)
      rw [add_sub_cancel] at this
      have e : len ((pos - c) - s) = len (s - (pos - c)) := by rw [← len_neg, neg_sub]
      linarith
    · have := len_add_le (pos - c) (s - (pos - c))
      rw [add_sub_cancel] at this
      linarith
  obtain ⟨β, hβ, hang⟩ := toPolar_angle h hp s
  have hang : |j.rot1 - β| ≤ 20 / 2 ^ 53 := hang
  have d1 : len (polar_to_cart j.r1 j.rot1 - s) ≤ |j.r1 - len s| + 20 * (1 / 2 ^ 53) * len s := by
    have e1 : polar_to_cart j.r1 j.rot1 - polar_to_cart (len s) j.rot1 = polar_to_cart (j.r1 - len s) j.rot1 := by
      unfold polar_to_cart
      ext <;> simp <;> ring
    have e2 := polar_len (j.r1 - len s) j.rot1
    rw [← e1] at e2
    have e3 := rot_angle_near j.rot1 β (polar_to_cart (len s) 0)
    rw [← polar_shift, ← polar_shift, zero_add, zero_add, polar_len, hβ, abs_of_nonneg (len_nonneg s)] at e3
    have e4 := len_add_le (polar_to_cart j.r1 j.rot1 - polar_to_cart (len s) j.rot1) (polar_to_cart (len s) j.rot1 - s)
    rw [sub_add_sub_cancel] at e4
    have e5 := mul_le_mul_of_nonneg_right hang (len_nonneg s)
    linarith
  have d2 := made_scalar (u := 1 / 2 ^ 53) (η := 1 / 2 ^ 536) (by positivity) (by norm_num) (len_nonneg (pos - c)) hSL
    (by refine hr1.trans_eq ?_; show 5 / 2 ^ 53 * len (pos - c) + _ = _; ring) d1
  have d3 := len_add_le (polar_to_cart j.r1 j.rot1 - s) (s - (pos - c))
  rw [sub_add_sub_cancel] at d3
  have hL : L = len (pos - c) := rfl
  rw [← hL] at d2
  have : (2 : ℝ) / 2 ^ 536 = 2 * (1 / 2 ^ 536) := by ring
  rw [this]
  linarith

theorem joint_scalar {u nB L r a b η t : ℝ} (hu : u = 1 / 2 ^ 53) (hn : 0 ≤ nB) (hL : 0 ≤ L) (hr0 : 0 ≤ r) (hη : 0 ≤ η) (ht : 0 ≤ t) (htη : t + η ≤ u * (1 / 2 ^ 400))
    (hr : |r - L| ≤ 5 * u * L + η) (ha : a ≤ (5 * nB * u + 8 * u) * r + t) (hb : b ≤ 28 * u * L + η) :
    a + b ≤ (6 * nB + 40) * u * (L + 1 / 2 ^ 400) := by
  have hu0 : 0 < u := by rw [hu]; positivity
  have hu1 : u ≤ 1 / 100 := by rw [hu]; norm_num
  have h1 := (abs_le.mp hr).2
  generalize (1 : ℝ) / 2 ^ 400 = ζ at *
  have hζ : 0 ≤ ζ := by
    have : 0 ≤ u * ζ := by linarith
    exact nonneg_of_mul_nonneg_right this hu0
  have h2 : r ≤ 11 / 10 * (L + ζ) := by
    have : u * L ≤ 1 / 100 * L := mul_le_mul_of_nonneg_right hu1 hL
    have : u * ζ ≤ 1 / 100 * ζ := mul_le_mul_of_nonneg_right hu1 hζ
    linarith
  have h3 : (5 * nB * u + 8 * u) * r ≤ (5 * nB * u + 8 * u) * (11 / 10 * (L + ζ)) := mul_le_mul_of_nonneg_left h2 (by positivity)
  have h4 : 0 ≤ nB * u * (L + ζ) := by positivity
  have h5 : 0 ≤ u * L := by positivity
  have h6 : 0 ≤ u * ζ := by positivity
  nlinarith

/-- C127: a joint made at the point `pos` of a body, after any number of steps with any undone attempts: its anchor relative to the body is
the original one turned with the body, up to (6 n B + 40) units in the last place. -/
theorem C127_joint (h : DoubleArith A) {fatan : ℝ → ℝ → ℝ} {tau : ℝ} (hp : PolarArith fatan tau) (w : Jointed) (k i1 : ℕ) (i2 : Option ℕ)
    (pos : V2) (hk : w.joints[k]? = some (newJoint A fatan tau w.bodies i1 i2 pos)) (hi : i1 < w.bodies.length)
    (hpos : Rep pos.1 ∧ Rep pos.2) (hb : RepPose (bodyAt w.bodies i1).p) (cs : List Call) (hn : cs ≠ []) (B : ℝ) (hB1 : 1 ≤ B)
    (hB : AnglesBelow A B w cs k i1) :
    ∃ j', (runJ A w cs).joints[k]? = some j' ∧
      len (j'.pos1 - rot (bodyAngle (runJ A w cs) i1 - bodyAngle w i1) (pos - (bodyAt w.bodies i1).pos)) ≤
        (6 * (cs.length * B) + 40) * (1 / 2 ^ 53) * (Spec.dist pos (bodyAt w.bodies i1).pos + 1 / 2 ^ 400) := by
  obtain ⟨m1, m2⟩ := C127_made h hp w.bodies i1 i2 pos hpos hb
  set j := newJoint A fatan tau w.bodies i1 i2 pos with hj
  obtain ⟨j', k1, k2⟩ := C127_anchor h w cs hn k j hk rfl hi B hB
  refine ⟨j', k1, ?_⟩
  have hi1 : j.i1 = i1 := rfl
  rw [hi1] at k2
  set D := bodyAngle (runJ A w cs) i1 - bodyAngle w i1
  set d := pos - (bodyAt w.bodies i1).pos with hd
  have t1 := len_add_le (j'.pos1 - rot D (polar_to_cart j.r1 j.rot1)) (rot D (polar_to_cart j.r1 j.rot1) - rot D d)
  rw [sub_add_sub_cancel, ← rot_map_sub, rot_len] at t1
  refine t1.trans ?_
  have hr0 : 0 ≤ j.r1 := by
    have := nearest_mono h.nearest (Real.sqrt_nonneg (A.rnd (A.rnd ((subV A pos (bodyAt w.bodies i1).pos).1 * (subV A pos (bodyAt w.bodies i1).pos).1) +
      A.rnd ((subV A pos (bodyAt w.bodies i1).pos).2 * (subV A pos (bodyAt w.bodies i1).pos).2))))
    rw [nearest_zero h.nearest] at this
    exact this
  rw [abs_of_nonneg hr0] at k2
  have hn0 : (0 : ℝ) ≤ cs.length * B := mul_nonneg (Nat.cast_nonneg _) (by linarith)
  have hpow : ∀ a b : ℕ, a ≤ b → (1 : ℝ) / 2 ^ b ≤ 1 / 2 ^ a := fun a b hab =>
    one_div_le_one_div_of_le (by positivity) (pow_le_pow_right₀ (by norm_num) hab)
  refine joint_scalar rfl hn0 (len_nonneg d) hr0 (η := 2 / 2 ^ 536) (t := 1 / 2 ^ 1073) (by positivity) (by positivity) ?_ ?_ ?_ ?_
  · have e1 : (1 : ℝ) / 2 ^ 53 * (1 / 2 ^ 400) = 1 / 2 ^ 453 := by rw [one_div_mul_one_div, ← pow_add]
    have e2 : (2 : ℝ) / 2 ^ 536 = 2 * (1 / 2 ^ 536) := by ring
    have e3 : (1 : ℝ) / 2 ^ 453 = 4 * (1 / 2 ^ 455) := by
      rw [show (455 : ℕ) = 453 + 2 from rfl, pow_add]; field_simp; norm_num
    rw [e1, e2, e3]
    have := hpow 455 536 (by norm_num)
    have := hpow 455 1073 (by norm_num)
    have : (0 : ℝ) < 1 / 2 ^ 455 := by positivity
    linarith
  · refine m1.trans_eq ?_
    unfold Spec.dist
    ring
  · refine k2.trans ?_
    refine add_le_add_left (mul_le_mul_of_nonneg_right ?_ hr0) _
    have h1 := hpow 53 1072 (by norm_num)
    have h2 : (cs.length : ℝ) * (1 / 2 ^ 1072) ≤ cs.length * (1 / 2 ^ 53 * B) := by
      refine mul_le_mul_of_nonneg_left (h1.trans ?_) (Nat.cast_nonneg _)
      exact le_mul_of_one_le_right (by positivity) hB1
    linarith
  · refine m2.trans_eq ?_
    unfold Spec.dist
    ring

/-- C127: numbers: after a million steps, with angles up to 1000 radians and an anchor within 100 of the centre, the anchor is less than
`1/10000` off. -/
theorem C127_million (h : DoubleArith A) {fatan : ℝ → ℝ → ℝ} {tau : ℝ} (hp : PolarArith fatan tau) (w : Jointed) (k i1 : ℕ) (i2 : Option ℕ)
    (pos : V2) (hk : w.joints[k]? = some (newJoint A fatan tau w.bodies i1 i2 pos)) (hi : i1 < w.bodies.length)
    (hpos : Rep pos.1 ∧ Rep pos.2) (hb : RepPose (bodyAt w.bodies i1).p) (cs : List Call) (hn : cs ≠ []) (hl : cs.length ≤ 1000000)
    (hB : AnglesBelow A 1000 w cs k i1) (hL : Spec.dist pos (bodyAt w.bodies i1).pos ≤ 99) :
    ∃ j', (runJ A w cs).joints[k]? = some j' ∧
      len (j'.pos1 - rot (bodyAngle (runJ A w cs) i1 - bodyAngle w i1) (pos - (bodyAt w.bodies i1).pos)) ≤ 1 / 10000 := by
  obtain ⟨j', h1, h2⟩ := C127_joint h hp w k i1 i2 pos hk hi hpos hb cs hn 1000 (by norm_num) hB
  refine ⟨j', h1, h2.trans ?_⟩
  have hn' : (cs.length : ℝ) ≤ 1000000 := by exact_mod_cast hl
  have hη : (1 : ℝ) / 2 ^ 400 ≤ 1 := by
    rw [div_le_one (by positivity)]; exact one_le_pow₀ (by norm_num)
  have hη0 : (0 : ℝ) ≤ 1 / 2 ^ 400 := by positivity
  have a1 : (6 * (cs.length * 1000) + 40) * (1 / 2 ^ 53 : ℝ) ≤ (6 * (1000000 * 1000) + 40) * (1 / 2 ^ 53) := by
    refine mul_le_mul_of_nonneg_right ?_ (by positivity)
    linarith
  refine (mul_le_mul a1 (by linarith : Spec.dist pos (bodyAt w.bodies i1).pos + 1 / 2 ^ 400 ≤ 100)
    (add_nonneg (len_nonneg _) hη0) (by positivity)).trans ?_
  norm_num

/-- C127: such a bound of the angles always exists. -/
theorem C127_bounded (w : Jointed) (cs : List Call) (k i : ℕ) : ∃ B, 1 ≤ B ∧ AnglesBelow A B w cs k i := by
  have key : ∀ n : ℕ, ∃ B : ℝ, 1 ≤ B ∧ ∀ m ≤ n, |bodyAngle (runJ A w (cs.take m)) i| ≤ B ∧ |anchorAngle (runJ A w (cs.take m)) k| ≤ B := by
    intro n
    induction n with
    | zero =>
      refine ⟨max 1 (max |bodyAngle (runJ A w (cs.take 0)) i| |anchorAngle (runJ A w (cs.take 0)) k|), le_max_left _ _, fun m hm => ?_⟩
      obtain rfl : m = 0 := by omega
      exact ⟨(le_max_left _ _).trans (le_max_right _ _), (le_max_right _ _).trans (le_max_right _ _)⟩
    | succ n ih =>
      obtain ⟨B, h1, h2⟩ := ih
      refine ⟨max B (max |bodyAngle (runJ A w (cs.take (n + 1))) i| |anchorAngle (runJ A w (cs.take (n + 1))) k|), h1.trans (le_max_left _ _), fun m hm => ?_⟩
      by_cases hmn : m ≤ n
      · exact ⟨(h2 m hmn).1.trans (le_max_left _ _), (h2 m hmn).2.trans (le_max_left _ _)⟩
      · obtain rfl : m = n + 1 := by omega
        exact ⟨(le_max_left _ _).trans (le_max_right _ _), (le_max_right _ _).trans (le_max_right _ _)⟩
  obtain ⟨B, h1, h2⟩ := key cs.length
  exact ⟨B, h1, h2⟩

/-! ## The second body, and the other constraints -/

/-- C127: after a step the two ends of a joint, reckoned from the two bodies, are the same point up to the rounding of a sum and a
difference. -/
theorem C127_ends (h : DoubleArith A) (w : Jointed) (c : Call) (k : ℕ) (j : Joint) (hk : w.joints[k]? = some j) (hj : j.kind = .revolute)
    (hi : j.i1 < w.bodies.length) (i2 : ℕ) (hi2 : j.i2 = some i2) :
    ∃ j', (stepJ A w c).joints[k]? = some j' ∧
      let c1 := (bodyAt (stepJ A w c).bodies j.i1).pos
      let c2 := (bodyAt (stepJ A w c).bodies i2).pos
      len (c2 + j'.pos2 - (c1 + j'.pos1)) ≤ 3 / 2 ^ 54 * (len (c1 + j'.pos1) + len (j'.pos - c2)) + 1 / 2 ^ 1072 := by
  obtain ⟨j', e, s1, -, -, -, -, -, -, -, s9, s10⟩ := joint_step (A := A) w c k j hk hj hi
  refine ⟨j', s1, ?_⟩
  intro c1 c2
  have e1 := addV_error h c1 j'.pos1
  have e2 := subV_error h j'.pos c2
  rw [← s10 i2 hi2] at e2
  rw [← s9] at e1
  have e3 := len_add_le (j'.pos2 - (j'.pos - c2)) (j'.pos - (c1 + j'.pos1))
  have e4 : j'.pos2 - (j'.pos - c2) + (j'.pos - (c1 + j'.pos1)) = c2 + j'.pos2 - (c1 + j'.pos1) := by abel
  rw [e4] at e3
  have e5 : (1 : ℝ) / 2 ^ 1072 = 4 * (1 / 2 ^ 1074) := by
    rw [show (1074 : ℕ) = 1072 + 2 from rfl, pow_add]; field_simp; norm_num
  rw [e5]
  generalize (1 : ℝ) / 2 ^ 1074 = η at *
  linarith

/-- C127: the anchor of a FixedJoint is exactly the centre of its first body, after any run. -/
theorem C127_fixed (h : DoubleArith A) (w : Jointed) (c : Call) (k : ℕ) (j : Joint) (hk : w.joints[k]? = some j) (hj : j.kind = .fixed) :
    ∃ j', (stepJ A w c).joints[k]? = some j' ∧ j'.kind = .fixed ∧ j'.i1 = j.i1 ∧ j'.i2 = j.i2 ∧ j'.pos1 = 0 ∧
      j'.pos = (bodyAt (stepJ A w c).bodies j.i1).pos := by
  obtain ⟨-, -, h3⟩ := C127_step (A := A) w c
  have h4 := congrArg (fun l => l[k]?) h3
  simp only [List.getElem?_map, hk, Option.map_some, Option.map_eq_some_iff] at h4
  obtain ⟨j', e1, e2⟩ := h4
  refine ⟨j', e1, ?_⟩
  obtain ⟨kind, i1, i2, pos, pos1, pos2, r1, rot1, rot2⟩ := j
  obtain ⟨kind', i1', i2', pos', pos1', pos2', r1', rot1', rot2'⟩ := j'
  simp only at hj
  subst hj
  have hz : ∀ v : V2, subV A v v = 0 := fun v => by simp [subV, nearest_zero h.nearest]
  cases i2 <;>
  · simp only [noRot2, jointMove, jointUpdate, Joint.mk.injEq, hz] at e2
    obtain ⟨rfl, rfl, rfl, rfl, rfl, rfl, rfl, rfl, -⟩ := e2
    exact ⟨rfl, rfl, rfl, rfl, rfl⟩

/-- Example for C127: a disc hinged at a point, with any calls: some bound of the angles holds, and with it the bound of the anchor. -/
example (fatan : ℝ → ℝ → ℝ) (tau : ℝ) (hp : PolarArith fatan tau) (cs : List Call) (hn : cs ≠ []) :
    let b := mkCircle (.three 0) 5 {}
    let w : Jointed := ⟨[b], [newJoint (doubleOf rne) fatan tau [b] 0 none (3, 4)]⟩
    ∃ B, 1 ≤ B ∧ AnglesBelow (doubleOf rne) B w cs 0 0 ∧ ∃ j', (runJ (doubleOf rne) w cs).joints[0]? = some j' ∧
      len (j'.pos1 - rot (bodyAngle (runJ (doubleOf rne) w cs) 0 - bodyAngle w 0) ((3, 4) - b.pos)) ≤
        (6 * (cs.length * B) + 40) * (1 / 2 ^ 53) * (Spec.dist (3, 4) b.pos + 1 / 2 ^ 400) := by
  intro b w
  obtain ⟨B, h1, h2⟩ := C127_bounded (A := doubleOf rne) w cs 0 0
  have r3 : Rep 3 := by simpa using rep_nat 3 (by norm_num) 0 (by norm_num)
  have r4 : Rep 4 := by simpa using rep_nat 4 (by norm_num) 0 (by norm_num)
  exact ⟨B, h1, h2, C127_joint (rounded_arith rne_nearest) hp w 0 0 none (3, 4) rfl (by simp [w]) ⟨r3, r4⟩
    ⟨rep_zero, rep_zero, rep_zero⟩ cs hn B h1 h2⟩

/-- Example: the arc tangent and `2π` rounded to nearest will do. -/
example : PolarArith (fun y x => rne (Complex.arg ⟨x, y⟩)) (rne (2 * Real.pi)) := by
  have hbound : ∀ x : ℝ, |x| ≤ 3.15 → |rne x - x| ≤ 1 / 2 ^ 51 := by
    intro x hx
    have h1 := any_error rne_nearest x
    have h2 : (1 : ℝ) / 2 ^ 1074 ≤ 1 / 2 ^ 54 := one_div_le_one_div_of_le (by positivity) (pow_le_pow_right₀ (by norm_num) (by norm_num))
    have h3 := mul_le_mul_of_nonneg_left hx (by positivity : (0 : ℝ) ≤ 1 / 2 ^ 53)
    refine h1.trans ?_
    have : (1 : ℝ) / 2 ^ 53 * 3.15 + 1 / 2 ^ 54 ≤ 1 / 2 ^ 51 := by norm_num
    linarith
  refine ⟨fun y x => hbound _ ?_, ?_⟩
  · have h1 := Complex.neg_pi_lt_arg ⟨x, y⟩
    have h2 := Complex.arg_le_pi ⟨x, y⟩
    have := Real.pi_lt_d2
    rw [abs_le]; constructor <;> linarith
  · have h1 := any_error rne_nearest (2 * Real.pi)
    have h2 : (1 : ℝ) / 2 ^ 1074 ≤ 1 / 2 ^ 54 := one_div_le_one_div_of_le (by positivity) (pow_le_pow_right₀ (by norm_num) (by norm_num))
    have hpi := Real.pi_lt_d2
    rw [abs_of_pos (a := 2 * Real.pi) (by have := Real.pi_pos; positivity)] at h1
    refine h1.trans ?_
    have h3 := mul_le_mul_of_nonneg_left (by linarith : 2 * Real.pi ≤ 6.3) (by positivity : (0 : ℝ) ≤ 1 / 2 ^ 53)
    have : (1 : ℝ) / 2 ^ 53 * 6.3 + 1 / 2 ^ 54 ≤ 1 / 2 ^ 50 := by norm_num
    linarith

end LcpPhysics
