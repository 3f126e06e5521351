import Verif.Lemmas.Frame
import Verif.Props.Lockstep

/-!
# C84: the simulation does not depend on the inertial frame
-/

noncomputable section

namespace LcpPhysics
open Spec

/-! ## Regions -/

theorem quatAct_turn (th : ℝ) (q : ℝ × ℝ × ℝ × ℝ) (v : V2) :
    quatAct (turnQuat th q) v = rot th (quatAct q v) := by
  have hc : Real.cos th = Real.cos (th / 2) ^ 2 - Real.sin (th / 2) ^ 2 := by
    have := Real.cos_two_mul (th / 2)
    have h2 := Real.sin_sq_add_cos_sq (th / 2)
    rw [mul_div_cancel₀ th two_ne_zero] at this
    rw [this]; linarith
  have hs : Real.sin th = 2 * Real.sin (th / 2) * Real.cos (th / 2) := by
    have := Real.sin_two_mul (th / 2)
    rwa [mul_div_cancel₀ th two_ne_zero] at this
  unfold quatAct turnQuat rot
  rw [hc, hs]
  ext <;> simp only <;> ring

theorem quatAct_one (v : V2) : quatAct (1, 0, 0, 0) v = v := by
  ext <;> simp [quatAct]

theorem frame_surj (F : Frame) (t : ℝ) (x : V2) : ∃ y, F.point t y = x := by
  refine ⟨rot (-F.turn) (x - F.shift - t • F.boost), ?_⟩
  unfold Frame.point
  rw [rot_add, neg_add_cancel, rot_zero]
  abel

theorem frame_dist (F : Frame) (t : ℝ) (x y : V2) : Spec.dist (F.point t x) (F.point t y) = Spec.dist x y := by
  unfold Spec.dist
  rw [point_sub, rot_len]

/-- The rotation as a linear map. -/
def rotLin (t : ℝ) : V2 →ₗ[ℝ] V2 where
  toFun := rot t
  map_add' := rot_map_add t
  map_smul' := rot_map_smul t

theorem solid_rot (t : ℝ) (vs : List V2) : solid (vs.map (rot t)) = rot t '' solid vs := by
  unfold solid
  have := (rotLin t).image_convexHull {p | p ∈ vs}
  change rot t '' _ = _ at this
  rw [this]
  congr 1
  ext x
  constructor
  · intro hx
    obtain ⟨y, hy, rfl⟩ := List.mem_map.1 hx
    exact ⟨y, hy, rfl⟩
  · rintro ⟨y, hy, rfl⟩
    exact List.mem_map.2 ⟨y, hy, rfl⟩

theorem mem_image_rot {t : ℝ} {S : Set V2} {x : V2} : rot t x ∈ rot t '' S ↔ x ∈ S := by
  constructor
  · rintro ⟨y, hy, he⟩
    rw [rot_inj] at he
    rwa [← he]
  · exact fun h => ⟨x, h, rfl⟩

/-- C84: a body seen from the frame covers the points of the body seen from the frame, and so does its broad-phase
geometry. -/
theorem C84_regions (F : Frame) (t : ℝ) (b : Body) : bodyRegion (F.body t b) = F.point t '' bodyRegion b ∧
    geomRegion (F.body t b).geom = F.point t '' geomRegion b.geom := by
  have key : ∀ (A B : Set V2), (∀ x, F.point t x ∈ A ↔ x ∈ B) → A = F.point t '' B := by
    intro A B h
    ext x
    obtain ⟨y, rfl⟩ := frame_surj F t x
    rw [h]
    constructor
    · exact fun hy => ⟨y, hy, rfl⟩
    · rintro ⟨z, hz, he⟩
      have : rot F.turn (z - y) = rot F.turn 0 := by
        rw [← point_sub F t, he, sub_self, rot_map_zero]
      rw [rot_inj, sub_eq_zero] at this
      rwa [← this]
  obtain ⟨p, v, m, I, r, mu, e, shape, ⟨kind, gp, q⟩⟩ := b
  refine ⟨key _ _ fun x => ?_, key _ _ fun x => ?_⟩
  · cases shape with
    | circle rad =>
      change Spec.dist (F.point t x) (F.point t p.xy) ≤ rad ↔ Spec.dist x p.xy ≤ rad
      rw [frame_dist]
    | hull vs =>
      change F.point t x - F.point t p.xy ∈ solid (vs.map (rot F.turn)) ↔ x - p.xy ∈ solid vs
      rw [point_sub, solid_rot, mem_image_rot]
    | rect d vs =>
      change F.point t x - F.point t p.xy ∈ solid (vs.map (rot F.turn)) ↔ x - p.xy ∈ solid vs
      rw [point_sub, solid_rot, mem_image_rot]
  · cases kind with
    | sphere rad =>
      have e1 : geomRegion { kind := .sphere rad, pos := gp, quat := q } = {x | Spec.dist x gp ≤ rad} := by
        cases q <;> rfl
      have e2 : geomRegion (F.body t ⟨p, v, m, I, r, mu, e, shape, ⟨.sphere rad, gp, q⟩⟩).geom =
          {x | Spec.dist x (F.point t gp) ≤ rad} := by
        change geomRegion { kind := .sphere rad, pos := F.point t gp, quat := F.quat q } = _
        cases F.quat q <;> rfl
      rw [e1, e2]
      change Spec.dist (F.point t x) (F.point t gp) ≤ rad ↔ _
      rw [frame_dist]
      rfl
    | box l =>
      have e1 : ∀ (g : V2) (q : Option (ℝ × ℝ × ℝ × ℝ)), geomRegion { kind := .box l, pos := g, quat := q } =
          {x | x - g ∈ quatAct (q.getD (1, 0, 0, 0)) '' boxRegion l} := by
        intro g q
        cases q with
        | none =>
          have : quatAct (1, 0, 0, 0) = id := funext quatAct_one
          simp only [Option.getD_none, this, Set.image_id]
          rfl
        | some q => rfl
      change F.point t x ∈ geomRegion { kind := .box l, pos := F.point t gp, quat := F.quat q } ↔ _
      rw [e1, e1]
      change F.point t x - F.point t gp ∈ quatAct ((F.quat q).getD (1, 0, 0, 0)) '' boxRegion l ↔
        x - gp ∈ quatAct (q.getD (1, 0, 0, 0)) '' boxRegion l
      rw [point_sub]
      have e3 : quatAct ((F.quat q).getD (1, 0, 0, 0)) '' boxRegion l =
          rot F.turn '' (quatAct (q.getD (1, 0, 0, 0)) '' boxRegion l) := by
        unfold Frame.quat
        split
        · rename_i h
          rw [h]
          have : rot 0 = id := funext rot_zero
          rw [this, Set.image_id]
        · rw [Option.getD_some, Set.image_image]
          simp only [quatAct_turn]
      rw [e3, mem_image_rot]

/-! ## The contact search -/

/-- C84: the contact search seen from the frame: same outcome (also the same errors and the same hidden state), with
normals and lever arms turned and depths unchanged, for all shapes. -/
theorem C84_contacts_seen (F : Frame) (t : ℝ) (fuel : ℕ) (nc : ℕ → List ℕ) (pairs : List Body → List (ℕ × ℕ))
    (eps : ℝ) (f : Finder) (bs : List Body) (hp : pairs (bs.map (F.body t)) = pairs bs)
    (hi : ∀ p ∈ pairs bs, p.1 < bs.length ∧ p.2 < bs.length) :
    diffCollide fuel nc pairs eps f (bs.map (F.body t)) =
      (diffCollide fuel nc pairs eps f bs).map fun r => (r.1, r.2.map F.contact) := by
  unfold diffCollide
  rw [hp, handleAll_frame F t fuel nc eps bs (pairs bs) f hi]
  cases handleAll fuel nc eps bs (pairs bs) f <;> rfl

/-! ## Translated worlds -/

/-- A body moved by `c`. -/
def shiftBody (c : V2) (b : Body) : Body :=
  { b with p := ⟨b.p.r, b.p.x + c.1, b.p.y + c.2⟩, geom := { b.geom with pos := b.geom.pos + c } }

/-- A constraint moved by `c`. -/
def shiftJoint (c : V2) (j : Joint) : Joint := { j with pos := j.pos + c }

theorem translation_point (c : V2) (t : ℝ) (x : V2) : (Frame.translation c).point t x = x + c := by
  unfold Frame.point Frame.translation
  simp [rot_zero]

theorem translation_body (c : V2) (t : ℝ) : (Frame.translation c).body t = shiftBody c := by
  funext b
  obtain ⟨p, v, m, I, r, mu, e, shape, geom⟩ := b
  unfold Frame.body shiftBody
  simp only [Frame.pose, translation_point]
  congr 1
  · simp [Frame.translation, V3.xy]
  · apply V3.ext <;> simp [Frame.vel, Frame.translation, V3.xy, rot]
  · cases shape <;> simp [Frame.shape, Frame.translation, map_rot_zero]
  · simp [Frame.quat, Frame.translation]

theorem translation_contact (c : V2) : (Frame.translation c).contact = id := by
  funext x
  simp [Frame.contact, Frame.translation, rot_zero]

theorem shiftWorld_eq {σ φ : Type} (c : V2) (w : World σ φ) :
    shiftWorld c w = { w with bodies := w.bodies.map (shiftBody c), joints := w.joints.map (shiftJoint c) } := by
  unfold shiftWorld
  rw [translation_body]
  rfl

variable {σ φ : Type} {c : V2}

theorem shiftBody_move (c : V2) (b : Body) (d : ℝ) : (shiftBody c b).move d = shiftBody c (b.move d) := by
  have := move_frame (Frame.translation c) 0 d b
  rwa [translation_body, translation_body] at this

theorem map_shift_move (c : V2) (bs : List Body) (d : ℝ) :
    ((bs.map (shiftBody c)).map fun b => b.move d) = (bs.map fun b => b.move d).map (shiftBody c) := by
  simp only [List.map_map, Function.comp_def, shiftBody_move]

theorem bodyAt_shift (c : V2) (bs : List Body) {i : ℕ} (h : i < bs.length) :
    bodyAt (bs.map (shiftBody c)) i = shiftBody c (bodyAt bs i) := by
  simp [bodyAt, List.getD_eq_getElem?_getD, h]

theorem shiftBody_pos (c : V2) (b : Body) : (shiftBody c b).pos = b.pos + c := rfl

theorem shift_update_pos (c : V2) (bs : List Body) (j : Joint) (hv : j.Valid bs.length) :
    (shiftJoint c j).update_pos (bs.map (shiftBody c)) = shiftJoint c (j.update_pos bs) := by
  obtain ⟨kind, i1, i2, pos, pos1, pos2, r1, rot1, rot2⟩ := j
  obtain ⟨h1, h2⟩ := hv
  simp only at h1 h2
  have e1 : (bodyAt (bs.map (shiftBody c)) i1).pos = (bodyAt bs i1).pos + c := by rw [bodyAt_shift c bs h1]; rfl
  have e2 : (bodyAt (bs.map (shiftBody c)) i1).p.r = (bodyAt bs i1).p.r := by rw [bodyAt_shift c bs h1]; rfl
  cases i2 with
  | none =>
    cases kind <;> simp only [Joint.update_pos, shiftJoint, e1, e2, add_sub_add_right_eq_sub] <;>
      first | rfl | (simp only [Joint.mk.injEq, true_and, and_true]; abel)
  | some k =>
    have e3 : (bodyAt (bs.map (shiftBody c)) k).pos = (bodyAt bs k).pos + c := by
      rw [bodyAt_shift c bs (h2 k rfl)]; rfl
    have e4 : ∀ x y z : V2, x + c + y - (z + c) = x + y - z := fun x y z => by abel
    cases kind <;> simp only [Joint.update_pos, shiftJoint, e1, e2, e3, e4, add_sub_add_right_eq_sub] <;>
      first | rfl | (simp only [Joint.mk.injEq, true_and, and_true]; abel)

theorem shift_move (c : V2) (bs : List Body) (j : Joint) (d : ℝ) (hv : j.Valid bs.length) :
    (shiftJoint c j).move (bs.map (shiftBody c)) d = shiftJoint c (j.move bs d) := by
  have hv1 : (bodyAt (bs.map (shiftBody c)) j.i1).v = (bodyAt bs j.i1).v := by rw [bodyAt_shift c bs hv.1]; rfl
  obtain ⟨kind, i1, i2, pos, pos1, pos2, r1, rot1, rot2⟩ := j
  simp only at hv1
  have key := fun a b => shift_update_pos c bs ⟨kind, i1, i2, pos, pos1, pos2, r1, a, b⟩ hv
  cases i2 with
  | none =>
    cases kind <;> simp only [Joint.move, shiftJoint, hv1] <;> exact key _ _
  | some k =>
    have hv2 : (bodyAt (bs.map (shiftBody c)) k).v = (bodyAt bs k).v := by rw [bodyAt_shift c bs (hv.2 k rfl)]; rfl
    cases kind <;> simp only [Joint.move, shiftJoint, hv1, hv2] <;> exact key _ _

theorem shift_drift (c : V2) (bs : List Body) (j : Joint) (d : ℝ) (hv : j.Valid bs.length) :
    (shiftJoint c j).drift (bs.map (shiftBody c)) d = shiftJoint c (j.drift bs d) := by
  obtain ⟨kind, i1, i2, pos, pos1, pos2, r1, rot1, rot2⟩ := j
  cases i2 with
  | none => cases kind <;> rfl
  | some k =>
    have hv2 : (bodyAt (bs.map (shiftBody c)) k).v = (bodyAt bs k).v := by rw [bodyAt_shift c bs (hv.2 k rfl)]; rfl
    cases kind <;> simp only [Joint.drift, shiftJoint, hv2]

theorem shift_good {w : World σ φ} (hg : w.Good) : (shiftWorld c w).Good := by
  rw [shiftWorld_eq]
  refine ⟨?_, ?_, ?_, ?_⟩
  · intro b hb
    obtain ⟨b0, hb0, rfl⟩ := List.mem_map.1 hb
    exact hg.rect b0 hb0
  · intro j hj
    obtain ⟨j0, hj0, rfl⟩ := List.mem_map.1 hj
    have := hg.valid j0 hj0
    simpa [Joint.Valid, shiftJoint] using this
  · intro j hj
    obtain ⟨j0, hj0, rfl⟩ := List.mem_map.1 hj
    simp only
    rw [shift_update_pos c w.bodies j0 (hg.valid j0 hj0), hg.fix j0 hj0]
  · intro i hi
    simp only [List.length_map] at hi
    simp only [List.getElem_map]
    exact hg.vel i hi

theorem shift_set_v (c : V2) (w : World σ φ) (e : σ) (v : Vec) :
    ({ shiftWorld c w with eng := e } : World σ φ).set_v v =
      shiftWorld c (({ w with eng := e } : World σ φ).set_v v) := by
  rw [shiftWorld_eq, shiftWorld_eq]
  simp only [World.set_v]
  congr 1
  apply List.ext_getElem
  · simp
  · intro n h1 h2
    simp [shiftBody]

theorem shift_accepted (c : V2) {w : World σ φ} (hg : w.Good) (d s : ℝ) (f : φ) (cs : List Contact) :
    (shiftWorld c w).accepted d s f cs = shiftWorld c (w.accepted d s f cs) := by
  rw [shiftWorld_eq, shiftWorld_eq]
  simp only [World.accepted, map_shift_move]
  congr 1
  rw [List.map_map (f := shiftJoint c), List.map_map (g := shiftJoint c)]
  refine List.map_congr_left fun j hj => ?_
  have hv := hg.valid j hj
  simp only [Function.comp]
  rw [shift_drift c w.bodies j s hv, shift_move c (w.bodies.map fun b => b.move d)]
  have := drift_idx j w.bodies s
  simp only [Joint.Valid, List.length_map, this.1, this.2]
  exact hv

theorem shift_moved (c : V2) {w : World σ φ} (hg : w.Good) (d : ℝ) :
    ((shiftWorld c w).moveBodies d).moveJoints d = shiftWorld c ((w.moveBodies d).moveJoints d) := by
  rw [shiftWorld_eq, shiftWorld_eq]
  simp only [World.moveBodies, World.moveJoints, map_shift_move]
  congr 1
  rw [List.map_map (f := shiftJoint c), List.map_map (g := shiftJoint c)]
  refine List.map_congr_left fun j hj => ?_
  simp only [Function.comp]
  rw [shift_move c (w.bodies.map fun b => b.move d)]
  simpa [Joint.Valid] using hg.valid j hj

/-- An engine and a contact search that do not look at absolute positions. -/
structure ShiftBlind (c : V2) (env : Env σ φ) : Prop where
  solve : ∀ w d, env.solve_dynamics (shiftWorld c w) d = env.solve_dynamics w d
  post : ∀ w, env.post_stabilization (shiftWorld c w) = env.post_stabilization w
  collide : ∀ eps f bs, env.collide eps f (bs.map (shiftBody c)) = env.collide eps f bs

theorem shift_specLoop {env : Env σ φ} (h : ShiftBlind c env) {w : World σ φ} (hg : w.Good) :
    ∀ (fuel : ℕ) (f : φ) (d q : ℝ), specLoop env (shiftWorld c w) fuel f d q =
      Outcome.map (fun r => (shiftWorld c r.1, r.2)) (specLoop env w fuel f d q)
  | 0, _, _, _ => rfl
  | fuel + 1, f, d, q => by
    unfold specLoop
    have e1 : (shiftWorld c w).bodies.map (fun b => b.move d) = (w.bodies.map fun b => b.move d).map (shiftBody c) := by
      rw [shiftWorld_eq]; exact map_shift_move c w.bodies d
    have e2 : (shiftWorld c w).eps = w.eps := rfl
    rw [e1, e2, h.collide]
    cases env.collide w.eps f (w.bodies.map fun b => b.move d) with
    | error e => rfl
    | ok r =>
      obtain ⟨g, cs⟩ := r
      simp only
      have e3 : (shiftWorld c w).accepts d cs ↔ w.accepts d cs := Iff.rfl
      by_cases ha : w.accepts d cs
      · rw [if_pos ha, if_pos (e3.2 ha), shift_accepted c hg]
        rfl
      · rw [if_neg ha, if_neg fun hh => ha (e3.1 hh)]
        exact shift_specLoop h hg fuel g (d / 2) (q + d)

theorem shift_find_contacts {env : Env σ φ} (h : ShiftBlind c env) (w : World σ φ) :
    (shiftWorld c w).find_contacts env = Outcome.map (shiftWorld c) (w.find_contacts env) := by
  rw [shiftWorld_eq]
  simp only [World.find_contacts, h.collide]
  cases env.collide w.eps w.fnd w.bodies with
  | error e => rfl
  | ok r => simp only [Outcome.map, shiftWorld_eq]

theorem shift_postStab {env : Env σ φ} (h : ShiftBlind c env) {w : World σ φ} (hg : w.Good) (d : ℝ) :
    postStab env (shiftWorld c w) d = Outcome.map (shiftWorld c) (postStab env w d) := by
  unfold postStab
  simp only
  rw [h.post]
  cases env.post_stabilization w with
  | error e => rfl
  | ok dp =>
    simp only [Run.ofExcept, Run.bind]
    have g1 : (w.set_v fun k => dp k / 2).Good := good_set_v hg _ w.eng
    have s1 : (shiftWorld c w).set_v (fun k => dp k / 2) = shiftWorld c (w.set_v fun k => dp k / 2) :=
      shift_set_v c w w.eng _
    rw [s1, shift_moved c g1]
    have s2 : (shiftWorld c (((w.set_v fun k => dp k / 2).moveBodies d).moveJoints d)).set_v (shiftWorld c w).v =
        shiftWorld c ((((w.set_v fun k => dp k / 2).moveBodies d).moveJoints d).set_v w.v) :=
      shift_set_v c (((w.set_v fun k => dp k / 2).moveBodies d).moveJoints d) w.eng w.v
    rw [s2, shift_find_contacts h]

theorem specLoop_good {env : Env σ φ} {w : World σ φ} (hg : w.Good) : ∀ (fuel : ℕ) (f : φ) (d q : ℝ) (r),
    specLoop env w fuel f d q = .done r → r.1.Good
  | 0, _, _, _, _, h => by cases h
  | fuel + 1, f, d, q, r, h => by
    unfold specLoop at h
    cases hc : env.collide w.eps f (w.bodies.map fun b => b.move d) with
    | error e => rw [hc] at h; cases h
    | ok x =>
      obtain ⟨g, cs⟩ := x
      rw [hc] at h
      simp only at h
      by_cases ha : w.accepts d cs
      · rw [if_pos ha] at h
        injection h with h
        subst h
        exact good_accepted hg _ _ _ _
      · rw [if_neg ha] at h
        exact specLoop_good hg fuel g _ _ r h

/-- One step of a translated world is the translated step, whatever the outcome. -/
theorem shift_step_dt {env : Env σ φ} (h : ShiftBlind c env) {w : World σ φ} (hg : w.Good) (fuel : ℕ) (dt : ℝ) :
    (shiftWorld c w).step_dt env fuel dt = Outcome.map (shiftWorld c) (w.step_dt env fuel dt) := by
  rw [step_dt_eq env fuel w hg, step_dt_eq env fuel _ (shift_good hg), h.solve]
  cases env.solve_dynamics w dt with
  | error e => rfl
  | ok r =>
    simp only [Run.ofExcept, Run.bind]
    have g1 : (({ w with eng := r.1 } : World σ φ).set_v r.2).Good := good_set_v hg _ _
    have e1 : (shiftWorld c w).fnd = w.fnd := rfl
    rw [shift_set_v, e1, shift_specLoop h g1]
    cases hl : specLoop env (({ w with eng := r.1 } : World σ φ).set_v r.2) fuel w.fnd dt 0 with
    | running => rfl
    | raised e => rfl
    | done x =>
      obtain ⟨u, d⟩ := x
      have g2 : u.Good := specLoop_good g1 _ _ _ _ _ hl
      simp only [Outcome.map]
      have e2 : (shiftWorld c u).post_stab = u.post_stab := rfl
      rw [e2]
      by_cases hp : u.post_stab = true
      · rw [if_pos hp, if_pos hp, shift_postStab h g2]
        cases postStab env u d with
        | running => rfl
        | raised e => rfl
        | done y => simp only [Outcome.map, shiftWorld_eq]
      · rw [if_neg hp, if_neg hp]
        simp only [Outcome.map, shiftWorld_eq]

theorem outcome_bind {α β : Type} (r : Run α) (f : α → Run β) (g : β → β) :
    Outcome.map g (r.bind f) = r.bind fun a => Outcome.map g (f a) := by
  cases r <;> rfl

theorem bind_outcome {α β : Type} (r : Run α) (f : α → Run β) (g : α → α) :
    (Outcome.map g r).bind f = r.bind fun a => f (g a) := by
  cases r <;> rfl

theorem shift_runWorld {env : Env σ φ} (h : ShiftBlind c env) (fuel : ℕ) (T : ℝ) : ∀ (n : ℕ) {w : World σ φ}, w.Good →
    runWorld env fuel T n (shiftWorld c w) = Outcome.map (shiftWorld c) (runWorld env fuel T n w) := by
  intro n
  induction n with
  | zero =>
    intro w hg
    have et : (shiftWorld c w).t = w.t := rfl
    unfold runWorld
    rw [et]
    split <;> rfl
  | succ n ih =>
    intro w hg
    have et : (shiftWorld c w).t = w.t := rfl
    have ed : (shiftWorld c w).dt = w.dt := rfl
    unfold runWorld
    rw [et]
    split
    · simp only [World.step, Bool.false_eq_true, if_false]
      rw [ed, shift_step_dt h hg]
      cases hs : w.step_dt env fuel w.dt with
      | running => rfl
      | raised e => rfl
      | done u => exact ih (step_dt_good hg hs)
    · rfl

theorem shift_fixedLoop {env : Env σ φ} (h : ShiftBlind c env) (fuel : ℕ) (T : ℝ) : ∀ (n : ℕ) {w : World σ φ}, w.Good →
    fixedLoop env fuel T n (shiftWorld c w) = Outcome.map (shiftWorld c) (fixedLoop env fuel T n w) := by
  intro n
  induction n with
  | zero =>
    intro w hg
    have et : (shiftWorld c w).t = w.t := rfl
    unfold fixedLoop
    rw [et]
    split <;> rfl
  | succ n ih =>
    intro w hg
    have et : (shiftWorld c w).t = w.t := rfl
    unfold fixedLoop
    rw [et]
    split
    · simp only
      rw [shift_step_dt h hg]
      cases hs : w.step_dt env fuel (T - w.t) with
      | running => rfl
      | raised e => rfl
      | done u => exact ih (step_dt_good hg hs)
    · rfl

theorem massLoop_shift (c : V2) (bs : List Body) (i : ℕ) (A : Mat) :
    massLoop (bs.map (shiftBody c)) i A = massLoop bs i A := by
  induction bs generalizing i A with
  | nil => rfl
  | cons b bs ih => exact ih _ _

theorem JeLoop_shift (c : V2) (js : List Joint) (i : ℕ) (A : Mat) :
    JeLoop (js.map (shiftJoint c)) i A = JeLoop js i A := by
  induction js generalizing i A with
  | nil => rfl
  | cons j js ih => exact ih _ _

theorem bodyAt_shift_consts (c : V2) (bs : List Body) (i : ℕ) :
    (bodyAt (bs.map (shiftBody c)) i).restitution = (bodyAt bs i).restitution ∧
    (bodyAt (bs.map (shiftBody c)) i).fric_coeff = (bodyAt bs i).fric_coeff := by
  unfold bodyAt
  simp only [List.getD_eq_getElem?_getD, List.getElem?_map]
  cases bs[i]? <;> exact ⟨rfl, rfl⟩

/-- The engine reads masses, velocities, constraints' lever arms and contacts, but no absolute position. -/
theorem pdipm_shiftBlind (c : V2) (fd : ℕ) (H : ForceHeap) (lcp : LcpSolver) (mi : ℕ)
    (collide : ℝ → φ → List Body → Except Err (φ × List Contact))
    (hc : ∀ eps f bs, collide eps f (bs.map (shiftBody c)) = collide eps f bs) :
    ShiftBlind c (pdipmEnv fd H lcp mi collide) := by
  have hM : ∀ w : World (Option Mat) φ, (shiftWorld c w).M = w.M := fun w => by
    rw [shiftWorld_eq]; exact massLoop_shift c _ _ _
  have hJe : ∀ w : World (Option Mat) φ, (shiftWorld c w).Je = w.Je := fun w => by
    rw [shiftWorld_eq]; exact JeLoop_shift c _ _ _
  have hlen : ∀ w : World (Option Mat) φ, (shiftWorld c w).bodies.length = w.bodies.length := fun w => by
    rw [shiftWorld_eq]; simp
  have hnum : ∀ w : World (Option Mat) φ, (shiftWorld c w).num_constraints = w.num_constraints := fun w => by
    rw [shiftWorld_eq]; unfold World.num_constraints; rw [List.map_map]; rfl
  have hst : ∀ w : World (Option Mat) φ, (shiftWorld c w).static_inverse = w.static_inverse := fun w => by
    rw [shiftWorld_eq]; unfold World.static_inverse; rw [List.all_map]; rfl
  have hre : ∀ w : World (Option Mat) φ, (shiftWorld c w).restitutions = w.restitutions := fun w => by
    rw [shiftWorld_eq]
    funext i
    unfold World.restitutions World.body
    cases w.contacts[i]? with
    | none => rfl
    | some k => simp only [(bodyAt_shift_consts c w.bodies _).1]
  have hmu : ∀ w : World (Option Mat) φ, (shiftWorld c w).mu = w.mu := fun w => by
    rw [shiftWorld_eq]
    funext i j
    unfold World.mu World.body
    split
    · cases w.contacts[i]? with
      | none => rfl
      | some k => simp only [(bodyAt_shift_consts c w.bodies _).2]
    · rfl
  have hJc : ∀ w : World (Option Mat) φ, (shiftWorld c w).Jc = w.Jc := fun w => rfl
  have hJf : ∀ w : World (Option Mat) φ, (shiftWorld c w).Jf fd = w.Jf fd := fun w => rfl
  have hE : ∀ w : World (Option Mat) φ, (shiftWorld c w).E fd = w.E fd := fun w => rfl
  have hcs : ∀ w : World (Option Mat) φ, (shiftWorld c w).contacts = w.contacts := fun w => rfl
  have hv : ∀ w : World (Option Mat) φ, (shiftWorld c w).v = w.v := fun w => rfl
  have ht : ∀ w : World (Option Mat) φ, (shiftWorld c w).t = w.t := fun w => rfl
  have he : ∀ w : World (Option Mat) φ, (shiftWorld c w).eng = w.eng := fun w => rfl
  refine ⟨fun w d => ?_, fun w => ?_, hc⟩
  · change pdipmSolve fd H lcp mi _ d = pdipmSolve fd H lcp mi w d
    unfold pdipmSolve
    simp only [hM, hJe, hlen, hnum, hst, hre, hmu, hJc, hJf, hE, hcs, hv, ht, he]
  · change pdipmPostStab lcp _ = pdipmPostStab lcp w
    unfold pdipmPostStab
    simp only [hM, hJe, hlen, hnum, hre, hJc, hcs, hv, he]

theorem diffCollide_shift (c : V2) (fuel : ℕ) (nc : ℕ → List ℕ) (pairs : List Body → List (ℕ × ℕ))
    (hp : ∀ bs, pairs (bs.map ((Frame.translation c).body 0)) = pairs bs)
    (hi : ∀ bs, ∀ p ∈ pairs bs, p.1 < bs.length ∧ p.2 < bs.length) (eps : ℝ) (f : Finder) (bs : List Body) :
    diffCollide fuel nc pairs eps f (bs.map (shiftBody c)) = diffCollide fuel nc pairs eps f bs := by
  have := C84_contacts_seen (Frame.translation c) 0 fuel nc pairs eps f bs (hp bs) (hi bs)
  rw [translation_body, translation_contact] at this
  rw [this]
  cases diffCollide fuel nc pairs eps f bs with
  | error e => rfl
  | ok r => simp [Except.map]

/-- C84: the run of a world moved by `c` is the run of the world, moved by `c`: same outcome (returned, raised or
still running), for every solver, with friction, constraints and forces, if the broad phase presents the same
pairs. -/
theorem C84_translated_run (c : ℝ × ℝ) (fd : ℕ) (H : ForceHeap) (lcp : LcpSolver) (mi gas : ℕ) (nc : ℕ → List ℕ)
    (pairs : List Body → List (ℕ × ℕ)) (hp : ∀ bs, pairs (bs.map ((Frame.translation c).body 0)) = pairs bs)
    (hi : ∀ bs, ∀ p ∈ pairs bs, p.1 < bs.length ∧ p.2 < bs.length) (w : World (Option Mat) Finder) (hg : w.Good)
    (fuel : ℕ) (T : ℝ) (n : ℕ) :
    runWorld (pdipmEnv fd H lcp mi (diffCollide gas nc pairs)) fuel T n (shiftWorld c w) =
      Outcome.map (shiftWorld c) (runWorld (pdipmEnv fd H lcp mi (diffCollide gas nc pairs)) fuel T n w) ∧
    ∀ fixed, (shiftWorld c w).step (pdipmEnv fd H lcp mi (diffCollide gas nc pairs)) fuel n fixed =
      Outcome.map (shiftWorld c) (w.step (pdipmEnv fd H lcp mi (diffCollide gas nc pairs)) fuel n fixed) := by
  have hb := pdipm_shiftBlind c fd H lcp mi (diffCollide gas nc pairs) (diffCollide_shift c gas nc pairs hp hi)
  refine ⟨shift_runWorld hb fuel T n hg, fun fixed => ?_⟩
  cases fixed with
  | true => exact shift_fixedLoop hb fuel (w.t + w.dt) n hg
  | false => exact shift_step_dt hb hg fuel w.dt

/-- C84: building the world from moved bodies and moved constraints gives the moved world. -/
theorem C84_translated_world (c : ℝ × ℝ) (fd : ℕ) (H : ForceHeap) (lcp : LcpSolver) (mi gas : ℕ) (nc : ℕ → List ℕ)
    (pairs : List Body → List (ℕ × ℕ)) (hp : ∀ bs, pairs (bs.map ((Frame.translation c).body 0)) = pairs bs)
    (hi : ∀ bs, ∀ p ∈ pairs bs, p.1 < bs.length ∧ p.2 < bs.length) (f : Finder) (bs : List Body) (js : List Joint)
    (dt eps tol : ℝ) (ps strict : Bool) :
    mkWorld (pdipmEnv fd H lcp mi (diffCollide gas nc pairs)) none f (bs.map ((Frame.translation c).body 0))
      (js.map fun j => { j with pos := j.pos + c }) dt eps tol ps strict =
    Outcome.map (shiftWorld c)
      (mkWorld (pdipmEnv fd H lcp mi (diffCollide gas nc pairs)) none f bs js dt eps tol ps strict) := by
  have hb := pdipm_shiftBlind c fd H lcp mi (diffCollide gas nc pairs) (diffCollide_shift c gas nc pairs hp hi)
  unfold mkWorld
  rw [List.length_map, translation_body]
  by_cases h0 : bs.length = 0
  · rw [if_pos h0, if_pos h0]; rfl
  · rw [if_neg h0, if_neg h0]
    have hv : (∀ j ∈ js.map (fun j : Joint => { j with pos := j.pos + c }), j.i1 < bs.length ∧ ∀ k ∈ j.i2, k < bs.length)
        ↔ ∀ j ∈ js, j.i1 < bs.length ∧ ∀ k ∈ j.i2, k < bs.length := by
      simp
    by_cases h1 : ∀ j ∈ js, j.i1 < bs.length ∧ ∀ k ∈ j.i2, k < bs.length
    · rw [if_pos h1, if_pos (hv.2 h1)]
      have e : initWorld (none : Option Mat) f (bs.map (shiftBody c)) (js.map fun j => { j with pos := j.pos + c }) dt
          eps tol ps strict = shiftWorld c (initWorld none f bs js dt eps tol ps strict) := by
        unfold initWorld
        have e1 : (bs.map (shiftBody c)).map Body.v = bs.map Body.v := by
          rw [List.map_map]; rfl
        rw [e1]
        rw [shiftWorld_eq]
        simp only [World.set_v]
        congr 1
        apply List.ext_getElem
        · simp
        · intro n h1 h2
          simp [shiftBody]
      rw [e, shift_find_contacts hb]
      cases (initWorld (none : Option Mat) f bs js dt eps tol ps strict).find_contacts
        (pdipmEnv fd H lcp mi (diffCollide gas nc pairs)) with
      | running => rfl
      | raised e => rfl
      | done u =>
        simp only [Outcome.map, Run.bind]
        cases strict with
        | false => rfl
        | true =>
          simp only [if_true]
          have e3 : (shiftWorld c u).noPen ↔ u.noPen := Iff.rfl
          by_cases hn : u.noPen
          · rw [if_pos hn, if_pos (e3.2 hn)]
          · rw [if_neg hn, if_neg fun hh => hn (e3.1 hh)]
    · rw [if_neg h1, if_neg fun hh => h1 (hv.1 hh)]
      rfl

/-- C84: in a frame that is not turned the bounding boxes overlap exactly when they did, so a broad phase that
compares bounding boxes reports the same pairs. -/
theorem C84_boxes_seen (F : Frame) (h0 : F.turn = 0) (t : ℝ) (b1 b2 : Body) :
    AabbOverlap (geomRegion (F.body t b1).geom) (geomRegion (F.body t b2).geom) ↔
      AabbOverlap (geomRegion b1.geom) (geomRegion b2.geom) := by
  have e : ∀ x, F.point t x = x + (F.shift + t • F.boost) := by
    intro x
    unfold Frame.point
    rw [h0, rot_zero, add_assoc]
  rw [(C84_regions F t b1).2, (C84_regions F t b2).2]
  unfold AabbOverlap
  simp only [Set.exists_mem_image, e, Prod.fst_add, Prod.snd_add, add_left_inj]

open Classical in
/-- The pairs whose bounding boxes overlap. -/
def boxPairs (bs : List Body) : List (ℕ × ℕ) :=
  (allPairs bs).filter fun p => AabbOverlap (geomRegion (bodyAt bs p.1).geom) (geomRegion (bodyAt bs p.2).geom)

theorem boxPairs_valid (bs : List Body) : ∀ p ∈ boxPairs bs, p.1 < bs.length ∧ p.2 < bs.length := by
  intro p hp
  have := (allPairs_mem bs p.1 p.2).1 (List.mem_of_mem_filter hp)
  omega

theorem boxPairs_seen (F : Frame) (h0 : F.turn = 0) (t : ℝ) (bs : List Body) :
    boxPairs (bs.map (F.body t)) = boxPairs bs := by
  have e : allPairs (bs.map (F.body t)) = allPairs bs := by simp [allPairs]
  unfold boxPairs
  rw [e]
  refine List.filter_congr fun p hp => ?_
  have hq := (allPairs_mem bs p.1 p.2).1 hp
  rw [bodyAt_frame F t bs (by omega), bodyAt_frame F t bs (by omega)]
  exact decide_eq_decide.2 (C84_boxes_seen F h0 t _ _)

/-- Example for `C84_contacts_seen`: all pairs, any frame; pairs of overlapping boxes, frames without turn. -/
example (F : Frame) (t : ℝ) (eps : ℝ) (f : Finder) (bs : List Body) :
    diffCollide 20 (fun _ => []) allPairs eps f (bs.map (F.body t)) =
      (diffCollide 20 (fun _ => []) allPairs eps f bs).map (fun r => (r.1, r.2.map F.contact)) ∧
    (F.turn = 0 → diffCollide 20 (fun _ => []) boxPairs eps f (bs.map (F.body t)) =
      (diffCollide 20 (fun _ => []) boxPairs eps f bs).map fun r => (r.1, r.2.map F.contact)) :=
  ⟨C84_contacts_seen F t 20 _ allPairs eps f bs (by simp [allPairs]) (fun p hp => by
      have := (allPairs_mem bs p.1 p.2).1 hp
      omega),
    fun h0 => C84_contacts_seen F t 20 _ boxPairs eps f bs (boxPairs_seen F h0 t bs) (boxPairs_valid bs)⟩

/-- Example for `C84_translated_run`: the pinned bodies, with a broad phase by bounding boxes and the exact solver. -/
example (c : ℝ × ℝ) (fnd : Finder) (fuel n : ℕ) (T : ℝ) :
    runWorld (pdipmEnv 2 noForces exactLcp 10 (diffCollide 20 (fun _ => []) boxPairs)) fuel T n
      (shiftWorld c { pinWorld with fnd := fnd }) =
    Outcome.map (shiftWorld c)
      (runWorld (pdipmEnv 2 noForces exactLcp 10 (diffCollide 20 (fun _ => []) boxPairs)) fuel T n
        { pinWorld with fnd := fnd }) :=
  (C84_translated_run c 2 noForces exactLcp 10 20 (fun _ => []) boxPairs
    (fun bs => boxPairs_seen (Frame.translation c) rfl 0 bs) boxPairs_valid
    ({ pinWorld with fnd := fnd } : World (Option Mat) Finder) ⟨pinWorld_good.rect, pinWorld_good.valid, pinWorld_good.fix, pinWorld_good.vel⟩ fuel T n).1

/-- ... and a step with a joint that is taken, wherever the bodies are. -/
example (c : ℝ × ℝ) (fnd : Finder) (w : World (Option Mat) Finder)
    (hw : w = { pinWorld with fnd := fnd }) : ∃ u,
    runWorld (pdipmEnv 2 noForces exactLcp 10 (diffCollide 5 (fun _ => []) fun _ => [])) 1 1 1
      (shiftWorld c w) = .done (shiftWorld c u) ∧ u.t = 1 := by
  have hg : w.Good := hw ▸ ⟨pinWorld_good.rect, pinWorld_good.valid, pinWorld_good.fix, pinWorld_good.vel⟩
  obtain ⟨⟨e, v'⟩, hv⟩ := C35_no_contact_succeeds 2 noForces exactLcp 10
    w 1
    (by subst hw; exact pinWorld_joints) (by subst hw; simp [pinWorld, demoBody])
    (by subst hw; exact pinWorld_independent) (by subst hw; rfl) [0, 0] (by subst hw; exact noForces_cat 0 2)
  have hs := step_first (pdipmEnv 2 noForces exactLcp 10 (diffCollide 5 (fun _ => []) fun _ => [])) 0
    w hg 1 (by subst hw; rfl) e v' hv fnd [] (by subst hw; rfl) (by simp)
  obtain ⟨u, hu, ht⟩ : ∃ u, World.step_dt (pdipmEnv 2 noForces exactLcp 10 (diffCollide 5 (fun _ => []) fun _ => []))
      1 w 1 = .done u ∧ u.t = 1 :=
    ⟨_, hs, by subst hw; simp [pinWorld]⟩
  refine ⟨u, ?_, ht⟩
  rw [(C84_translated_run c 2 noForces exactLcp 10 5 (fun _ => []) (fun _ => []) (fun _ => rfl)
    (fun bs p hp => by cases hp) _ hg 1 1 1).1]
  have hdt : w.dt = 1 := by subst hw; rfl
  unfold runWorld
  rw [if_pos (by subst hw; simp [pinWorld])]
  simp only [World.step, Bool.false_eq_true, if_false]
  rw [hdt, hu, Run.bind_done]
  unfold runWorld
  rw [if_neg (by rw [ht]; simp)]
  rfl

end LcpPhysics
