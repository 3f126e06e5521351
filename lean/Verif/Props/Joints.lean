import Verif.Props.Stepping
import Verif.Props.Geometry

/-!
# C22, C28: joints during stepping (constraints.py, world.py:83-122)
-/

noncomputable section

namespace LcpPhysics
open Spec

variable {σ φ : Type}

/-! ## C22 -/

/-- C22 (partial): after a returning step (post-stabilization off, accepted length `d = w'.t - w.t`)
every constraint record is the one obtained by moving the record from the start of the step exactly
once by `d`, except for the record `rot2` of revolute joints.  Missing: `rot2`, for which the claim
is false (`C22_rot2_not_restored`). -/
theorem C22_rollback_restores_partial (env : Env σ φ) (fuel : ℕ) (w w' : World σ φ) (dt : ℝ)
    (hg : w.Good) (hp : w.post_stab = false) (h : w.step_dt env fuel dt = .done w') :
    w'.joints.length = w.joints.length ∧
    ∀ (i : ℕ) (hi : i < w.joints.length) (hi' : i < w'.joints.length),
      { w'.joints[i] with rot2 := 0 } =
        { (w.joints[i]).move w'.bodies (w'.t - w.t) with rot2 := 0 } := by
  refine ⟨(step_dt_params hg h).2.2.2.2.2.2, ?_⟩
  intro i hi hi'
  obtain ⟨e, v, k, w1, w2, _, _, hw1, hg1, ⟨fk, f', cs, _, _, hw2⟩, _, hend⟩ := step_dt_done hg h
  rcases hend with ⟨_, rfl⟩ | ⟨hp', _⟩
  · subst hw2 hw1
    simp only [World.accepted, List.getElem_map, add_sub_cancel_left]
    change { ((w.joints[i]).drift _ _).move _ _ with rot2 := (0 : ℝ) } = _
    generalize w.joints[i] = j
    obtain ⟨kind, i1, i2, pos, pos1, pos2, r1, rot1, rot2⟩ := j
    cases kind <;> cases i2 <;> rfl
  · rw [hp] at hp'; cases hp'

/-- C22: what happens to `rot2` of a revolute joint with second body `m`: it also accumulates the
rejected attempts, whose total length is `2 (dt - d)`. -/
theorem C22_rot2_drift (env : Env σ φ) (fuel : ℕ) (w w' : World σ φ) (dt : ℝ)
    (hg : w.Good) (hp : w.post_stab = false) (h : w.step_dt env fuel dt = .done w')
    (i : ℕ) (hi : i < w.joints.length) (hi' : i < w'.joints.length) (m : ℕ)
    (hk : w.joints[i].kind = .revolute) (hm : w.joints[i].i2 = some m) :
    (w'.joints[i]).rot2 = w.joints[i].rot2 +
      (bodyAt w'.bodies m).v.r * (w'.t - w.t) +
      (bodyAt w'.bodies m).v.r * (2 * (dt - (w'.t - w.t))) := by
  have hv := (hg.valid _ (List.getElem_mem hi)).2 m hm
  obtain ⟨e, v, k, w1, w2, _, _, hw1, hg1, ⟨fk, f', cs, _, _, hw2⟩, _, hend⟩ := step_dt_done hg h
  rcases hend with ⟨_, rfl⟩ | ⟨hp', _⟩
  · have hb : (bodyAt w2.bodies m).v = (bodyAt w1.bodies m).v := by
      rw [hw2]
      simp only [World.accepted]
      rw [bodyAt_map _ _ _ (by rw [hw1]; simpa [World.set_v] using hv), move_v]
    simp only [add_sub_cancel_left, hb]
    have hj : w2.joints[i]'hi' = ((w.joints[i]).drift w1.bodies (2 * (dt - dt / 2 ^ k))).move
        w2.bodies (dt / 2 ^ k) := by
      subst hw2 hw1
      simp only [World.accepted, List.getElem_map]
      rfl
    simp only [hj]
    generalize w.joints[i] = j at hk hm
    obtain ⟨kind, i1, i2, pos, pos1, pos2, r1, rot1, rot2⟩ := j
    subst hk hm
    simp only [Joint.drift, Joint.move, Joint.update_pos, hb]
    ring
  · rw [hp] at hp'; cases hp'

/-- C22: the stale `rot2` never reaches anything else: positions and the other records computed by
`move` and `update_pos` are the same for any value of `rot2` (nor is it read by `J`, see
`C32_J_ignores_rot2`). -/
theorem C22_rot2_not_read (j : Joint) (bs : List Body) (d x : ℝ) :
    ({ j with rot2 := x }).update_pos bs = { j.update_pos bs with rot2 := x } ∧
    { ({ j with rot2 := x }).move bs d with rot2 := (0 : ℝ) } = { j.move bs d with rot2 := (0 : ℝ) } := by
  obtain ⟨kind, i1, i2, pos, pos1, pos2, r1, rot1, rot2⟩ := j
  cases kind <;> cases i2 <;> exact ⟨rfl, rfl⟩

/-! ### a concrete world for the examples: two circles joined at the midpoint; the contact finder
rejects any attempt that moves the first body beyond `1/3` -/

/-- A unit circle at height `y`. -/
def demoBody (y : ℝ) : Body :=
  { p := ⟨0, 0, y⟩, v := ⟨1, 1, 0⟩, mass := 1, ang_inertia := 1 / 2, restitution := 1,
    fric_coeff := 0, eps := 0, shape := .circle 1,
    geom := { kind := .sphere 1, pos := (0, y), quat := none } }

/-- A revolute joint at the origin with `pos1 = (0,0)`, `pos2 = (0,-4)`. -/
def demoJoint : Joint :=
  { kind := .revolute, i1 := 0, i2 := some 1, pos := 0, pos1 := 0, pos2 := (0, -4), r1 := 0,
    rot1 := 0, rot2 := 0 }

/-- Non-strict or strict world with these bodies. -/
def demoWorld (strict : Bool) : World Unit Unit :=
  { t := 0, dt := 1, eps := 0, tol := 0, post_stab := false, strict_no_pen := strict,
    bodies := [demoBody 0, demoBody 4], joints := [demoJoint],
    v := fun k => if k % 3 = 2 then 0 else 1, contacts := [], eng := (), fnd := () }

/-- A contact of depth one. -/
def demoContact : Contact :=
  { normal := (0, 1), p1 := (0, 1), p2 := (0, -1), pen := 1, i1 := 0, i2 := 1 }

open Classical in
/-- Engine: keep velocities.  Finder: a deep contact iff the first body is beyond `1/3`. -/
def demoEnv : Env Unit Unit :=
  { solve_dynamics := fun w _ => .ok ((), w.v)
    post_stabilization := fun _ => .ok fun _ => 0
    collide := fun _ _ bs => .ok ((), if 1 / 3 < (bodyAt bs 0).p.x then [demoContact] else []) }

theorem demoWorld_good (s : Bool) : (demoWorld s).Good := by
  refine ⟨?_, ?_, ?_, ?_⟩
  · intro b hb
    simp only [demoWorld, List.mem_cons, List.not_mem_nil, or_false] at hb
    rcases hb with rfl | rfl <;> trivial
  · intro j hj
    simp only [demoWorld, List.mem_cons, List.not_mem_nil, or_false] at hj
    subst hj
    exact ⟨by simp [demoWorld, demoJoint], by simp [demoWorld, demoJoint]⟩
  · intro j hj
    simp only [demoWorld, List.mem_cons, List.not_mem_nil, or_false] at hj
    subst hj
    simp only [Joint.update_pos, demoJoint, demoWorld, bodyAt, polar_to_cart, Body.pos, V3.xy,
      demoBody, List.getD_cons_zero, List.getD_cons_succ]
    simp
  · intro i hi
    simp only [demoWorld, List.length_cons, List.length_nil] at hi
    have : i = 0 ∨ i = 1 := by omega
    rcases this with rfl | rfl <;> simp [demoWorld, demoBody, slice3]

open Classical in
theorem demo_collide (d : ℝ) (w : World Unit Unit) (hb : (bodyAt w.bodies 0).p.x = 0)
    (hv : (bodyAt w.bodies 0).v.x = 1) (hl : 0 < w.bodies.length) (e : ℝ) (f : Unit) :
    demoEnv.collide e f (w.bodies.map fun b => b.move d) =
      .ok ((), if 1 / 3 < d then [demoContact] else []) := by
  simp only [demoEnv]
  rw [bodyAt_map _ _ _ hl, move_p]
  simp [hb, hv]

theorem demo_step (s : Bool) (fuel : ℕ) : ∃ w', (demoWorld s).step_dt demoEnv (fuel + 3) 1 = .done w' ∧
    w'.t = 1 / 4 := by
  rw [step_dt_eq _ _ _ (demoWorld_good s)]
  have hsd : demoEnv.solve_dynamics (demoWorld s) 1 = .ok ((), (demoWorld s).v) := rfl
  rw [hsd]
  simp only [Run.ofExcept, Run.bind_done]
  generalize hw : (({ demoWorld s with eng := () } : World Unit Unit).set_v (demoWorld s).v) = w
  have h1 : (bodyAt w.bodies 0).p.x = 0 := by rw [← hw]; rfl
  have h2 : (bodyAt w.bodies 0).v.x = 1 := by
    rw [← hw]; simp [demoWorld, World.set_v, bodyAt, slice3]
  have h3 : 0 < w.bodies.length := by rw [← hw]; simp [demoWorld, World.set_v]
  have h4 : w.dt = 1 := by rw [← hw]; rfl
  have h5 : w.tol = 0 := by rw [← hw]; rfl
  have h6 : w.post_stab = false := by rw [← hw]; rfl
  have h7 : w.t = 0 := by rw [← hw]; rfl
  have rej : ∀ d : ℝ, 1 / 3 < d → ¬ w.accepts d (if 1 / 3 < d then [demoContact] else []) := by
    intro d hd
    rw [if_pos hd]
    unfold World.accepts
    rw [h4, h5]
    rintro (h | ⟨_, h⟩)
    · have := h demoContact (by simp)
      simp [demoContact] at this
      linarith
    · linarith
  have acc : w.accepts (1 / 2 / 2) (if (1 : ℝ) / 3 < 1 / 2 / 2 then [demoContact] else []) := by
    rw [if_neg (by norm_num)]
    left; simp
  unfold specLoop
  rw [demo_collide 1 w h1 h2 h3]
  simp only
  rw [if_neg (rej 1 (by norm_num))]
  unfold specLoop
  rw [demo_collide (1 / 2) w h1 h2 h3]
  simp only
  rw [if_neg (rej (1 / 2) (by norm_num))]
  unfold specLoop
  rw [demo_collide (1 / 2 / 2) w h1 h2 h3]
  simp only
  rw [if_pos acc]
  simp only [Run.bind_done]
  rw [if_neg (by rw [World.accepted, h6]; simp)]
  refine ⟨_, rfl, ?_⟩
  simp only [World.accepted, h7]
  norm_num

/-- Non-vacuity of C20, C21, C23, C25, C26, C31: a good world (strict or not) whose step returns
after two rejected attempts. -/
example (s : Bool) : (demoWorld s).Good ∧ ∃ w', (demoWorld s).step_dt demoEnv 3 1 = .done w' ∧
    w'.t = 1 / 4 := ⟨demoWorld_good s, demo_step s 0⟩

/-- C22, negation: in the demo world (one joint, angular velocity one, `rot2 = 0`) the step is
accepted with `d = 1/4`, but `rot2` becomes `7/4` instead of `1/4`. -/
theorem C22_rot2_not_restored : ∃ (env : Env Unit Unit) (w w' : World Unit Unit) (dt : ℝ) (fuel : ℕ)
    (hi : 0 < w.joints.length) (hi' : 0 < w'.joints.length),
    w.Good ∧ w.post_stab = false ∧ w.step_dt env fuel dt = .done w' ∧
    (w'.joints[0]).rot2 ≠ ((w.joints[0]).move w'.bodies (w'.t - w.t)).rot2 := by
  obtain ⟨w', h, ht⟩ := demo_step false 0
  have hg := demoWorld_good false
  have hi : 0 < (demoWorld false).joints.length := by simp [demoWorld]
  have hi' : 0 < w'.joints.length := by rw [(step_dt_params hg h).2.2.2.2.2.2]; exact hi
  refine ⟨demoEnv, demoWorld false, w', 1, 3, hi, hi', hg, rfl, h, ?_⟩
  have hr := C22_rot2_drift demoEnv 3 (demoWorld false) w' 1 hg rfl h 0 hi hi' 1 rfl rfl
  have hv : (bodyAt w'.bodies 1).v.r = 1 := by
    obtain ⟨e, v, k, hs, hv, _, hb⟩ := C31_post_stab_keeps_velocity demoEnv 3 (demoWorld false) w' 1 hg h
    have hl : 1 < w'.bodies.length := by
      rw [(step_dt_params hg h).2.2.2.2.2.1]; simp [demoWorld]
    have h1 : bodyAt w'.bodies 1 = w'.bodies[1] := by
      simp [bodyAt, List.getD_eq_getElem?_getD, hl]
    have h2 : v = (demoWorld false).v := (Prod.mk.inj (Except.ok.inj hs)).2.symm
    rw [h1, hb 1 hl, h2]
    simp [slice3, demoWorld]
  have hmove : (((demoWorld false).joints[0]).move w'.bodies (w'.t - (demoWorld false).t)).rot2 =
      0 + (bodyAt w'.bodies 1).v.r * (w'.t - (demoWorld false).t) := rfl
  rw [hr, hmove, hv, ht]
  simp only [demoWorld, demoJoint, List.getElem_cons_zero]
  norm_num

/-- C26, non-vacuity of the non-terminating branch: if the finder always reports a deep contact, the
strict world steps forever. -/
theorem C26_strict_can_diverge : ∃ (env : Env Unit Unit) (w : World Unit Unit), w.Good ∧
    w.strict_no_pen = true ∧ ∀ fuel, w.step_dt env fuel 1 = .running := by
  refine ⟨{ demoEnv with collide := fun _ _ _ => .ok ((), [demoContact]) }, demoWorld true,
    demoWorld_good true, rfl, ?_⟩
  refine (C26_strict_terminates_iff _ (demoWorld true) 1 (demoWorld_good true) rfl rfl
    (fun _ => [demoContact]) () (demoWorld true).v (fun _ _ => ⟨(), rfl⟩) rfl).2.2 ?_
  intro k h
  have := h demoContact (by simp)
  simp [demoContact, demoWorld] at this
  linarith

/-- C20, the role of `post_stab = false`: with post-stabilization a strict step can return with a
contact deeper than `tol` (post-stabilization moves the bodies after the acceptance test). -/
theorem C20_post_stab_can_penetrate : ∃ (env : Env Unit Unit) (w w' : World Unit Unit), w.Good ∧
    w.strict_no_pen = true ∧ w.post_stab = true ∧ w.step_dt env 1 1 = .done w' ∧
    ∃ c ∈ w'.contacts, w.tol < c.pen := by
  classical
  let env : Env Unit Unit :=
    { demoEnv with
      solve_dynamics := fun _ _ => .ok ((), fun _ => 0)
      post_stabilization := fun _ => .ok fun _ => 2 }
  let w : World Unit Unit := { demoWorld true with post_stab := true }
  have hg : w.Good := good_congr (demoWorld_good true) rfl rfl rfl
  have h0 : ∀ (u : World Unit Unit), u.bodies = w.bodies → ∀ v : Vec, ∀ k,
      (bodyAt (u.set_v v).bodies k).p = (bodyAt w.bodies k).p := by
    intro u hu v k
    rw [← hu]
    by_cases hk : k < u.bodies.length <;>
      simp [bodyAt, List.getD_eq_getElem?_getD, World.set_v, hk]
  refine ⟨env, w, ?_⟩
  have hl : w.step_dt env 1 1 = (postStab env ((({ w with eng := () } : World Unit Unit).set_v
      (fun _ => 0)).accepted 1 0 () []) 1).bind fun w => .done { w with t := w.t + 1 } := by
    rw [step_dt_eq _ _ _ hg]
    change Run.bind (specLoop env (({ w with eng := () } : World Unit Unit).set_v (fun _ => 0))
      1 () 1 0) _ = _
    unfold specLoop
    have hc : env.collide (({ w with eng := () } : World Unit Unit).set_v (fun _ => 0)).eps ()
        ((({ w with eng := () } : World Unit Unit).set_v (fun _ => 0)).bodies.map fun b => b.move 1)
        = .ok ((), []) := by
      change Except.ok ((), if _ then _ else _) = _
      rw [if_neg]
      rw [bodyAt_map _ _ _ (by simp [w, World.set_v, demoWorld]), move_p]
      simp [w, World.set_v, demoWorld, bodyAt, slice3, demoBody]
    rw [hc]
    simp only
    have hacc : (({ w with eng := () } : World Unit Unit).set_v (fun _ => 0)).accepts 1 [] :=
      Or.inl (fun c hc => by simp at hc)
    rw [if_pos hacc, Run.bind_done]
    rfl
  rw [hl]
  obtain ⟨u, hu⟩ : ∃ u, u = (((((({ w with eng := () } : World Unit Unit).set_v
      (fun _ => 0)).accepted 1 0 () []).set_v fun _ => 2 / 2).moveBodies 1).moveJoints 1).set_v
      (fun _ => 0) := ⟨_, rfl⟩
  have hcol : env.collide u.eps u.fnd u.bodies = .ok ((), [demoContact]) := by
    change Except.ok ((), if (1 : ℝ) / 3 < (bodyAt u.bodies 0).p.x then _ else _) = _
    rw [if_pos]
    simp [hu, w, World.set_v, demoWorld, bodyAt, slice3, demoBody, World.accepted,
        World.moveBodies, World.moveJoints, move_p]
    norm_num
  have hps : postStab env ((({ w with eng := () } : World Unit Unit).set_v
      (fun _ => 0)).accepted 1 0 () []) 1 = .done { u with contacts := [demoContact], fnd := () } := by
    change Run.bind (Run.done _) _ = _
    rw [Run.bind_done]
    change World.find_contacts env _ = _
    refine Eq.trans (congrArg (World.find_contacts env) hu.symm) ?_
    unfold World.find_contacts
    rw [hcol]
  rw [hps, Run.bind_done]
  refine ⟨_, hg, rfl, rfl, rfl, demoContact, by simp, ?_⟩
  simp [w, demoWorld, demoContact]

/-! ## C28: anchors -/

theorem move_anchor (j : Joint) (bs : List Body) (d : ℝ) (hk : j.kind = .revolute ∨ j.kind = .total)
    (hi : j.i1 < bs.length) :
    (j.move (bs.map fun b => b.move d) d).rot1 -
      (bodyAt (bs.map fun b => b.move d) j.i1).p.r = j.rot1 - (bodyAt bs j.i1).p.r := by
  have h1 := bodyAt_map bs (fun b => b.move d) j.i1 hi
  obtain ⟨kind, i1, i2, pos, pos1, pos2, r1, rot1, rot2⟩ := j
  simp only at hk h1
  rcases hk with rfl | rfl <;>
  · simp only [Joint.move, Joint.update_pos, h1, move_p, move_v]
    simp
    ring

theorem move_static_fields (j : Joint) (bs : List Body) (d : ℝ) :
    (j.move bs d).kind = j.kind ∧ (j.move bs d).i1 = j.i1 ∧ (j.move bs d).i2 = j.i2 ∧
      (j.move bs d).r1 = j.r1 := by
  obtain ⟨kind, i1, i2, pos, pos1, pos2, r1, rot1, rot2⟩ := j
  cases kind <;> exact ⟨rfl, rfl, rfl, rfl⟩

theorem drift_static_fields (j : Joint) (bs : List Body) (s : ℝ) :
    (j.drift bs s).kind = j.kind ∧ (j.drift bs s).i1 = j.i1 ∧ (j.drift bs s).i2 = j.i2 ∧
      (j.drift bs s).r1 = j.r1 ∧ (j.drift bs s).rot1 = j.rot1 := by
  obtain ⟨kind, i1, i2, pos, pos1, pos2, r1, rot1, rot2⟩ := j
  cases kind <;> cases i2 <;> exact ⟨rfl, rfl, rfl, rfl, rfl⟩

theorem bodyAt_set_v_p (w : World σ φ) (v : Vec) (k : ℕ) :
    (bodyAt (w.set_v v).bodies k).p = (bodyAt w.bodies k).p := by
  by_cases hk : k < w.bodies.length <;>
    simp [bodyAt, List.getD_eq_getElem?_getD, World.set_v, hk]

/-- Relation between a constraint at two times that steps preserve. -/
structure SameAnchor (bs bs' : List Body) (j j' : Joint) : Prop where
  kind : j'.kind = j.kind
  i1 : j'.i1 = j.i1
  i2 : j'.i2 = j.i2
  r1 : j'.r1 = j.r1
  rot : j.kind = .revolute ∨ j.kind = .total →
    j'.rot1 - (bodyAt bs' j.i1).p.r = j.rot1 - (bodyAt bs j.i1).p.r

theorem SameAnchor.trans {a b c : List Body} {j j' j'' : Joint} (h : SameAnchor a b j j')
    (h' : SameAnchor b c j' j'') : SameAnchor a c j j'' :=
  ⟨h'.kind.trans h.kind, h'.i1.trans h.i1, h'.i2.trans h.i2, h'.r1.trans h.r1, fun hk => by
    have := h'.rot (by rw [h.kind]; exact hk)
    rw [h.i1] at this
    rw [this, h.rot hk]⟩

theorem sameAnchor_move (bs : List Body) (j : Joint) (d : ℝ) (hi : j.i1 < bs.length) :
    SameAnchor bs (bs.map fun b => b.move d) j (j.move (bs.map fun b => b.move d) d) := by
  obtain ⟨h1, h2, h3, h4⟩ := move_static_fields j (bs.map fun b => b.move d) d
  exact ⟨h1, h2, h3, h4, fun hk => move_anchor j bs d hk hi⟩

theorem step_sameAnchor {env : Env σ φ} {fuel : ℕ} {w w' : World σ φ} {dt : ℝ} (hg : w.Good)
    (h : w.step_dt env fuel dt = .done w') (i : ℕ) (hi : i < w.joints.length)
    (hi' : i < w'.joints.length) :
    SameAnchor w.bodies w'.bodies w.joints[i] w'.joints[i] := by
  obtain ⟨e, v, k, w1, w2, _, _, hw1, hg1, ⟨fk, f', cs, _, _, hw2⟩, _, hend⟩ := step_dt_done hg h
  have hval := hg.valid _ (List.getElem_mem hi)
  have hlen : w1.bodies.length = w.bodies.length := by rw [hw1]; exact set_v_length _ _
  have e1 : ∀ j, SameAnchor w.bodies w1.bodies j (j.drift w1.bodies (2 * (dt - dt / 2 ^ k))) := by
    intro j
    obtain ⟨a1, a2, a3, a4, a5⟩ := drift_static_fields j w1.bodies (2 * (dt - dt / 2 ^ k))
    refine ⟨a1, a2, a3, a4, fun _ => ?_⟩
    rw [a5, hw1]
    exact congrArg (fun p : V3 => j.rot1 - p.r) (bodyAt_set_v_p _ v j.i1)
  have hj2 : i < w2.joints.length := by subst hw2 hw1; simpa [World.accepted, World.set_v] using hi
  have e2 : SameAnchor w.bodies w2.bodies w.joints[i] (w2.joints[i]'hj2) := by
    refine (e1 _).trans (c := w2.bodies) ?_
    have hj : w2.joints[i]'hj2 = ((w.joints[i]).drift w1.bodies (2 * (dt - dt / 2 ^ k))).move
        (w1.bodies.map fun b => b.move (dt / 2 ^ k)) (dt / 2 ^ k) := by
      subst hw2 hw1
      simp only [World.accepted, List.getElem_map]
      rfl
    have hb : w2.bodies = w1.bodies.map fun b => b.move (dt / 2 ^ k) := by rw [hw2]; rfl
    rw [hj, hb]
    apply sameAnchor_move
    rw [(drift_idx _ _ _).1, hlen]
    exact hval.1
  rcases hend with ⟨_, rfl⟩ | ⟨_, dp, f2, cs2, _, w3, hw3, _, rfl⟩
  · exact e2
  · refine e2.trans ?_
    generalize hu : (w2.set_v fun k => dp k / 2) = u at hw3
    have hbu : ∀ m, (bodyAt u.bodies m).p = (bodyAt w2.bodies m).p := by
      intro m; rw [← hu]; exact bodyAt_set_v_p _ _ m
    have hju : u.joints = w2.joints := by rw [← hu]; rfl
    have hlu : u.bodies.length = w.bodies.length := by
      rw [← hu, set_v_length, hw2]
      simp [World.accepted, hlen]
    have e3 : SameAnchor w2.bodies u.bodies w2.joints[i] w2.joints[i] :=
      ⟨rfl, rfl, rfl, rfl, fun _ => by rw [hbu]⟩
    refine e3.trans ?_
    have e4 := sameAnchor_move u.bodies w2.joints[i] (dt / 2 ^ k) (by
      rw [e2.i1, hlu]; exact hval.1)
    refine e4.trans ?_
    have hb3 : ∀ m, (bodyAt w3.bodies m).p =
        (bodyAt (u.bodies.map fun b => b.move (dt / 2 ^ k)) m).p := by
      intro m; rw [hw3]; exact bodyAt_set_v_p _ _ m
    have hj3 : ∀ (hi3 : i < w3.joints.length), w3.joints[i] = (w2.joints[i]).move
        (u.bodies.map fun b => b.move (dt / 2 ^ k)) (dt / 2 ^ k) := by
      intro hi3
      subst hw3
      simp only [World.set_v, World.moveJoints, World.moveBodies, List.getElem_map, hju]
    simp only [hj3 hi']
    exact ⟨rfl, rfl, rfl, rfl, fun _ => by rw [hb3]⟩

theorem reaches_sameAnchor {env : Env σ φ} {w w' : World σ φ} (hg : w.Good) (h : Reaches env w w')
    (i : ℕ) (hi : i < w.joints.length) :
    ∃ hi' : i < w'.joints.length, SameAnchor w.bodies w'.bodies w.joints[i] w'.joints[i] := by
  induction h with
  | refl => exact ⟨hi, rfl, rfl, rfl, rfl, fun _ => rfl⟩
  | tail hr hs ih =>
    obtain ⟨fuel, dt, hst⟩ := hs
    obtain ⟨h1, h2⟩ := ih
    have hgb := C30_good_invariant env w _ hg hr
    have hl := (step_dt_params hgb hst).2.2.2.2.2.2
    exact ⟨by rw [hl]; exact h1, h2.trans (step_sameAnchor hgb hst i h1 (by rw [hl]; exact h1))⟩

theorem polar_shift (r a d : ℝ) : polar_to_cart r (a + d) = rot d (polar_to_cart r a) := by
  simp only [polar_to_cart, rot]
  refine Prod.ext ?_ ?_
  · simp [Real.cos_add]; ring
  · simp [Real.sin_add]; ring

/-- C28: after any sequence of returning steps (any lengths, engines, finders, rejections,
post-stabilization) the anchor of a revolute joint is attached rigidly to its first body: its offset
is the original offset rotated by the change of that body's angle, its distance to the body's centre
is unchanged, and the recorded position and second offset are consistent with the bodies. -/
theorem C28_anchor_rigid (env : Env σ φ) (w w' : World σ φ) (hg : w.Good) (h : Reaches env w w')
    (i : ℕ) (hi : i < w.joints.length) (hk : w.joints[i].kind = .revolute) :
    ∃ hi' : i < w'.joints.length,
      let j := w.joints[i]
      let j' := w'.joints[i]
      let b := bodyAt w.bodies j.i1
      let b' := bodyAt w'.bodies j.i1
      j'.pos - b'.pos = rot (b'.p.r - b.p.r) (j.pos - b.pos) ∧
      Spec.dist j'.pos b'.pos = Spec.dist j.pos b.pos ∧
      j'.pos1 = j'.pos - b'.pos ∧
      ∀ m ∈ j.i2, j'.pos2 = j'.pos - (bodyAt w'.bodies m).pos := by
  obtain ⟨hi', hsa⟩ := reaches_sameAnchor hg h i hi
  refine ⟨hi', ?_⟩
  have hg' := C30_good_invariant env w w' hg h
  have f := hg.fix _ (List.getElem_mem hi)
  have f' := hg'.fix _ (List.getElem_mem hi')
  have key : ∀ (j : Joint) (bs : List Body), j.kind = .revolute → j.update_pos bs = j →
      j.pos1 = polar_to_cart j.r1 j.rot1 ∧ j.pos = (bodyAt bs j.i1).pos + j.pos1 ∧
      ∀ m ∈ j.i2, j.pos2 = j.pos - (bodyAt bs m).pos := by
    intro j bs hk hf
    obtain ⟨kind, i1, i2, pos, pos1, pos2, r1, rot1, rot2⟩ := j
    simp only at hk
    subst hk
    simp only [Joint.update_pos, Joint.mk.injEq, true_and, and_true] at hf
    obtain ⟨h1, h2, h3⟩ := hf
    refine ⟨h2.symm, ?_, ?_⟩
    · simp only; rw [← h1, h2]
    · intro m hm
      simp only [Option.mem_def] at hm
      subst hm
      simp only at h3 ⊢
      rw [← h3, ← h1]
  obtain ⟨a1, a2, _⟩ := key _ _ hk f
  obtain ⟨b1, b2, b3⟩ := key _ _ (by rw [hsa.kind]; exact hk) f'
  rw [hsa.i1] at b2
  have e1 : (w.joints[i]).pos - (bodyAt w.bodies (w.joints[i]).i1).pos = (w.joints[i]).pos1 := by
    rw [a2]; abel
  have e2 : (w'.joints[i]).pos - (bodyAt w'.bodies (w.joints[i]).i1).pos = (w'.joints[i]).pos1 := by
    rw [b2]; abel
  have hrot := hsa.rot (Or.inl hk)
  have e3 : (w'.joints[i]).pos1 = rot ((bodyAt w'.bodies (w.joints[i]).i1).p.r -
      (bodyAt w.bodies (w.joints[i]).i1).p.r) (w.joints[i]).pos1 := by
    rw [b1, a1, hsa.r1, ← polar_shift]
    congr 1; linarith
  simp only
  refine ⟨?_, ?_, e2.symm, ?_⟩
  · rw [e1, e2, e3]
  · have hd : ∀ p q : V2, Spec.dist p q = len (p - q) := fun p q => rfl
    rw [hd, hd, e1, e2, e3]
    exact rot_len _ _
  · intro m hm
    exact b3 m (by rw [hsa.i2]; exact hm)

/-- C28: freshly constructed constraints have up-to-date positions, so constructed worlds satisfy the
hypothesis `Good` of the theorems above (`C30_mkWorld_good`). -/
theorem C28_constructors_fix (bs : List Body) (i1 : ℕ) (i2 : Option ℕ) (k : ℕ) (pos : V2) :
    (mkJoint bs i1 i2 pos).update_pos bs = mkJoint bs i1 i2 pos ∧
    (mkFixedJoint bs i1 k).update_pos bs = mkFixedJoint bs i1 k ∧
    (∀ kd, kd = .yc ∨ kd = .xc ∨ kd = .rotc → (mkAxis kd bs i1).update_pos bs = mkAxis kd bs i1) ∧
    (mkTotal bs i1).update_pos bs = mkTotal bs i1 := by
  have rt : ∀ v : V2, polar_to_cart (cart_to_polar v).1 (cart_to_polar v).2 = v := by
    intro v; exact C01_polar_roundtrip v true
  refine ⟨?_, ?_, ?_, ?_⟩
  · cases i2 <;> simp [mkJoint, Joint.update_pos, rt]
  · simp [mkFixedJoint, Joint.update_pos]
  · rintro kd (rfl | rfl | rfl) <;> rfl
  · simp [mkTotal, Joint.update_pos, rt]

/-- Non-vacuity of C28: the demo world has a revolute joint and a reachable successor. -/
example : (demoWorld false).Good ∧ ∃ w', Reaches demoEnv (demoWorld false) w' ∧ w'.t = 1 / 4 ∧
    ∃ h : 0 < (demoWorld false).joints.length, (demoWorld false).joints[0].kind = .revolute := by
  obtain ⟨w', h, ht⟩ := demo_step false 0
  exact ⟨demoWorld_good _, w', Relation.ReflTransGen.single ⟨3, 1, h⟩, ht, by simp [demoWorld], rfl⟩

/-- Non-vacuity of C24 and C25: the hypotheses hold in the demo world. -/
example : (demoWorld false).step demoEnv 4 8 true ≠ .running ∧
    runWorld demoEnv 4 1 8 (demoWorld false) ≠ .running :=
  ⟨C24_fixed_step_terminates demoEnv 4 8 le_rfl le_rfl _ (demoWorld_good _) rfl (by simp [demoWorld]),
   C25_run_world_terminates demoEnv 4 le_rfl 1 8 _ (demoWorld_good _) rfl (by simp [demoWorld])
    (by simp [demoWorld])⟩

/-- Non-vacuity of the construction theorem of C20: a strict world with a deep initial contact. -/
example : mkWorld { demoEnv with collide := fun _ _ _ => .ok ((), [demoContact]) } () ()
    [demoBody 0, demoBody 4] [demoJoint] 1 0 0 false true = .raised .assertion := by
  refine (C20_construction_raises_iff _ () () _ _ 1 0 0 false true (by simp) ?_ () [demoContact]
    (fun _ _ _ => rfl)).2 ⟨rfl, demoContact, by simp, by simp [demoContact]⟩
  intro j hj
  simp only [List.mem_cons, List.not_mem_nil, or_false] at hj
  subst hj
  simp [demoJoint]

end LcpPhysics
