import Verif.Spec.Chain
import Verif.Props.Inference
import Verif.Props.Islands
import Verif.Props.Spin
import Mathlib.Analysis.Calculus.Deriv.Basic

/-!
# C95: the mass-inference experiment — the simulation before the projectile hits the chain
-/

noncomputable section

namespace LcpPhysics
open Spec Inference

/-! ## One step of a contact-free world with stabilisation -/

theorem slice3_twist (v : Vec) (i : ℕ) : slice3 v i = twist v i := by
  simp [slice3, twist, mul_comm]

section
variable {σ φ : Type}

/-- The world after the stabilisation move of a step, before the last contact search. -/
def World.stabbed (w : World σ φ) (v dp : Vec) (dt : ℝ) : World σ φ :=
  (((w.set_v fun k => dp k / 2).moveBodies dt).moveJoints dt).set_v v

theorem postStab_eq (env : Env σ φ) (w : World σ φ) (dt : ℝ) (dp : Vec) (f2 : φ) (cs2 : List Contact)
    (h : env.post_stabilization w = .ok dp)
    (hc : env.collide w.eps w.fnd (w.stabbed w.v dp dt).bodies = .ok (f2, cs2)) :
    postStab env w dt = .done { w.stabbed w.v dp dt with contacts := cs2, fnd := f2 } := by
  unfold postStab
  rw [h]
  simp only [Run.ofExcept, Run.bind_done]
  unfold World.find_contacts
  have : env.collide (w.stabbed w.v dp dt).eps (w.stabbed w.v dp dt).fnd (w.stabbed w.v dp dt).bodies = .ok (f2, cs2) := hc
  unfold World.stabbed at this ⊢
  rw [this]

theorem step_second (env : Env σ φ) (fuel : ℕ) (w : World σ φ) (hg : w.Good) (dt : ℝ) (hp : w.post_stab = true) (e : σ)
    (v : Vec) (hs : env.solve_dynamics w dt = .ok (e, v)) (f' : φ) (hcol : env.collide w.eps w.fnd
      ((({ w with eng := e } : World σ φ).set_v v).bodies.map fun b => b.move dt) = .ok (f', [])) (dp : Vec)
    (hdp : env.post_stabilization ((({ w with eng := e } : World σ φ).set_v v).accepted dt 0 f' []) = .ok dp) (f2 : φ)
    (cs2 : List Contact)
    (hcol2 : env.collide w.eps f' (((({ w with eng := e } : World σ φ).set_v v).accepted dt 0 f' []).stabbed v dp dt).bodies =
      .ok (f2, cs2)) :
    w.step_dt env (fuel + 1) dt = .done
      { ((({ w with eng := e } : World σ φ).set_v v).accepted dt 0 f' []).stabbed v dp dt with
        contacts := cs2, fnd := f2, t := w.t + dt } := by
  rw [step_dt_eq env (fuel + 1) w hg dt, hs]
  have hl : specLoop env (({ w with eng := e } : World σ φ).set_v v) (fuel + 1) w.fnd dt 0 =
      .done ((({ w with eng := e } : World σ φ).set_v v).accepted dt 0 f' [], dt) := by
    unfold specLoop
    have : (({ w with eng := e } : World σ φ).set_v v).eps = w.eps := rfl
    rw [this, hcol]
    simp only
    exact if_pos (Or.inl (by simp))
  show Run.bind (Run.done (e, v)) _ = _
  simp only [Run.bind]
  rw [hl]
  have hps : ((({ w with eng := e } : World σ φ).set_v v).accepted dt 0 f' []).post_stab = true := hp
  simp only [hps, if_true]
  rw [postStab_eq env _ dt dp f2 cs2 hdp hcol2]
  rfl

theorem step_second_fields (env : Env σ φ) (fuel : ℕ) (w : World σ φ) (hg : w.Good) (dt : ℝ) (hp : w.post_stab = true) (e : σ)
    (v : Vec) (hs : env.solve_dynamics w dt = .ok (e, v)) (f' : φ) (hcol : env.collide w.eps w.fnd
      ((({ w with eng := e } : World σ φ).set_v v).bodies.map fun b => b.move dt) = .ok (f', [])) (w2 : World σ φ)
    (hw2 : w2 = (({ w with eng := e } : World σ φ).set_v v).accepted dt 0 f' []) (dp : Vec)
    (hdp : env.post_stabilization w2 = .ok dp) (f2 : φ) (cs2 : List Contact)
    (hcol2 : env.collide w.eps f' (w2.stabbed v dp dt).bodies = .ok (f2, cs2)) :
    ∃ w', w.step_dt env (fuel + 1) dt = .done w' ∧ w'.bodies = (w2.stabbed v dp dt).bodies ∧
      w'.joints = (w2.stabbed v dp dt).joints ∧ w'.v = v ∧ w'.contacts = cs2 ∧ w'.t = w.t + dt ∧ w'.dt = w.dt ∧
      w'.eps = w.eps ∧ w'.tol = w.tol ∧ w'.post_stab = w.post_stab := by
  subst hw2
  refine ⟨_, step_second env fuel w hg dt hp e v hs f' hcol dp hdp f2 cs2 hcol2, ?_, ?_, ?_, ?_, ?_, ?_, ?_, ?_, ?_⟩
  · rfl
  · rfl
  · rfl
  · rfl
  · rfl
  all_goals simp only [World.stabbed, World.accepted, World.set_v, World.moveBodies, World.moveJoints]

theorem set_v_at (w : World σ φ) (v : Vec) (i : ℕ) (hi : i < w.bodies.length) :
    bodyAt (w.set_v v).bodies i = { bodyAt w.bodies i with v := twist v i } := by
  rw [← slice3_twist]
  simp [bodyAt, World.set_v, List.getD_eq_getElem?_getD, hi]

theorem stabbed_at (w : World σ φ) (v dp : Vec) (dt : ℝ) (i : ℕ) (hi : i < w.bodies.length) :
    bodyAt (w.stabbed v dp dt).bodies i =
      { ({ bodyAt w.bodies i with v := twist (fun k => dp k / 2) i } : Body).move dt with v := twist v i } := by
  have hl : i < (((w.set_v fun k => dp k / 2).moveBodies dt).moveJoints dt).bodies.length := by
    simpa [World.moveJoints, World.moveBodies, World.set_v] using hi
  have e : bodyAt (((w.set_v fun k => dp k / 2).moveBodies dt).moveJoints dt).bodies i =
      ({ bodyAt w.bodies i with v := twist (fun k => dp k / 2) i } : Body).move dt := by
    show bodyAt ((w.set_v fun k => dp k / 2).bodies.map fun b => b.move dt) i = _
    rw [bodyAt_map _ _ _ (by simpa [World.set_v] using hi), set_v_at _ _ _ hi]
  unfold World.stabbed
  rw [set_v_at _ _ _ hl, e]

theorem accepted_at (w : World σ φ) (d s : ℝ) (f : φ) (cs : List Contact) (i : ℕ) (hi : i < w.bodies.length) :
    bodyAt (w.accepted d s f cs).bodies i = (bodyAt w.bodies i).move d := bodyAt_map _ _ _ hi

theorem move_rest (j : Joint) (bs bs' : List Body) (d : ℝ) (hk : j.kind = .revolute) (hf : j.update_pos bs = j)
    (h1 : (bodyAt bs' j.i1).p = (bodyAt bs j.i1).p) (h2 : ∀ k ∈ j.i2, (bodyAt bs' k).p = (bodyAt bs k).p)
    (v1 : (bodyAt bs' j.i1).v.r = 0) (v2 : ∀ k ∈ j.i2, (bodyAt bs' k).v.r = 0) : j.move bs' d = j := by
  have e : j.move bs' d = j.update_pos bs' := by
    obtain ⟨kind, i1, i2, pos, pos1, pos2, r1, rot1, rot2⟩ := j
    simp only at hk
    subst hk
    simp only at v1 v2
    cases i2 with
    | none => simp [Joint.move, v1]
    | some k =>
      have := v2 k rfl
      simp [Joint.move, v1, this]
  rw [e, update_pos_congr j bs bs' h1 h2, hf]

end

/-! ## The law of motion of the hanging chain -/

/-- The world before the impact: the chain hangs at rest, the projectile is at `x` with speed `s`. -/
structure Hang (n : ℕ) (mass x s : ℝ) (w : World (Option Mat) Finder) : Prop where
  inv : EngineInv w
  hanging : Hanging n mass x w.bodies
  joints : w.joints = chainJoints n (chainList n mass)
  links : ∀ i < n, twist w.v i = 0
  ball : twist w.v n = ⟨0, s, 0⟩
  contacts : w.contacts = []
  pars : w.dt = 1 / 30 ∧ w.eps = 1 / 10 ∧ w.tol = 1 / 1000000 ∧ w.post_stab = true

theorem hanging_length {n : ℕ} {mass x : ℝ} {bs : List Body} (h : Hanging n mass x bs) : bs.length = n + 1 := by
  rw [h.posed.1, chain_length]

theorem hanging_pos {n : ℕ} {mass x : ℝ} {bs : List Body} (h : Hanging n mass x bs) (hm : 0 < mass) (hn : 1 ≤ n) (i : ℕ)
    (hi : i < bs.length) : 0 < (bodyAt bs i).mass ∧ 0 < (bodyAt bs i).ang_inertia := by
  have hl := hanging_length h
  have hr : ∀ (b : Body) ops, (b.run ops).mass = b.mass ∧ (b.run ops).ang_inertia = b.ang_inertia := by
    intro b ops
    induction ops generalizing b with
    | nil => exact ⟨rfl, rfl⟩
    | cons o ops ih =>
      have := ih (b.op o)
      change (Body.run (b.op o) ops).mass = _ ∧ (Body.run (b.op o) ops).ang_inertia = _
      rw [this.1, this.2]
      have hc : ∀ q, (b.set_p q).mass = b.mass ∧ (b.set_p q).ang_inertia = b.ang_inertia := by
        intro q
        unfold Body.set_p
        cases b.shape <;> exact ⟨rfl, rfl⟩
      cases o <;> first | exact ⟨rfl, rfl⟩ | exact hc _
  have hn' : (0 : ℝ) < n := by exact_mod_cast hn
  by_cases hin : i = n
  · subst hin
    obtain ⟨ops, ho⟩ := hanging_ball h
    rw [ho, (hr _ _).1, (hr _ _).2]
    exact ⟨by norm_num [chainBall, mkCircle], by norm_num [chainBall, mkCircle, circleInertia]⟩
  · obtain ⟨ops, ho⟩ := hanging_link h i (by omega)
    rw [ho, (hr _ _).1, (hr _ _).2]
    have : 0 < mass / n := by positivity
    refine ⟨this, ?_⟩
    show 0 < rectInertia (20, 60) (mass / n)
    unfold rectInertia
    positivity

theorem hanging_ball_mass {n : ℕ} {mass x : ℝ} {bs : List Body} (h : Hanging n mass x bs) : (bodyAt bs n).mass = 1 := by
  obtain ⟨ops, ho⟩ := hanging_ball h
  rw [ho]
  have hr : ∀ (b : Body) ops, (b.run ops).mass = b.mass := by
    intro b ops
    induction ops generalizing b with
    | nil => rfl
    | cons o ops ih =>
      change (Body.run (b.op o) ops).mass = _
      rw [ih]
      have hc : ∀ q, (b.set_p q).mass = b.mass := by
        intro q
        unfold Body.set_p
        cases b.shape <;> rfl
      cases o <;> first | rfl | exact hc _
  rw [hr]
  rfl

/-- Joint velocities of the chain at rest have no vertical part: the links' vertical velocities vanish one after the
other. -/
theorem chain_vertical {n : ℕ} {mass : ℝ} {v : Vec} (h : ∀ r ∈ jointVels (chainJoints n (chainList n mass)) v, r = 0) :
    ∀ i < n, (twist v i).y = 0 := by
  intro i
  induction i with
  | zero =>
    intro hi
    obtain ⟨h1, h2, h3, h4⟩ := chain_joint_zero n mass hi
    have hj : ∀ r ∈ jointVel (chainJoint (chainList n mass) 0) v, r = 0 := fun r hr =>
      h r (List.mem_flatMap.2 ⟨_, List.mem_map.2 ⟨0, List.mem_range.2 hi, rfl⟩, hr⟩)
    unfold jointVel at hj
    simp only [h1, h2, h3, h4] at hj
    have := hj _ (List.mem_cons_of_mem _ (List.mem_cons_self ..))
    simpa [pointVel] using this
  | succ i ih =>
    intro hi
    have ih := ih (by omega)
    obtain ⟨h1, h2, h3, h4, h5⟩ := chain_joint_succ n mass i hi
    have hj : ∀ r ∈ jointVel (chainJoint (chainList n mass) (i + 1)) v, r = 0 := fun r hr =>
      h r (List.mem_flatMap.2 ⟨_, List.mem_map.2 ⟨i + 1, List.mem_range.2 hi, rfl⟩, hr⟩)
    unfold jointVel at hj
    simp only [h1, h2, h3, h4, h5] at hj
    have := hj _ (List.mem_cons_of_mem _ (List.mem_cons_self ..))
    simp [pointVel, ih] at this
    exact this

theorem chain_joint_bodies {n : ℕ} {mass : ℝ} {j : Joint} (h : j ∈ chainJoints n (chainList n mass)) :
    j.kind = .revolute ∧ j.i1 < n ∧ ∀ k ∈ j.i2, k < n ∧ j.i1 ≠ k := by
  obtain ⟨i, hi, rfl⟩ := chain_joint_mem h
  obtain ⟨h1, h2, h3⟩ := chain_joint_ok n mass i hi
  refine ⟨h2, by omega, fun k hk => ?_⟩
  have := h3 k hk
  omega

theorem chain_joints_cut {n : ℕ} {mass : ℝ} (v : Vec) :
    jointVels (chainJoints n (chainList n mass)) (onlyOn (· < n) v) = jointVels (chainJoints n (chainList n mass)) v := by
  unfold jointVels
  refine List.flatMap_congr fun j hj => ?_
  obtain ⟨h1, h2, h3⟩ := chain_joint_bodies hj
  refine jointVel_cut ?_ v ?_
  · simp [holds, h2]
  · intro k hk
    exact ⟨fun _ => Or.inl (h3 k hk).1, fun _ => Or.inl h2⟩

/-- C95: the only motion of the hanging chain under gravity is rest; the projectile gets its impulse. -/
theorem hang_motion {n : ℕ} {mass x s : ℝ} {w : World (Option Mat) Finder} (h : Hang n mass x s w) (hm : 0 < mass) (hn : 1 ≤ n)
    {f : ℕ → V3} (hf : ∀ i < n, (f i).r = 0 ∧ (f i).x = 0) {v' l : Vec}
    (hl : ContactLaw w.bodies w.joints [] f w.v v' l 0 0 0 0) :
    (∀ i < n, twist v' i = 0) ∧ (f n = ⟨0, (f n).x, 0⟩ → twist v' n = ⟨0, s + (f n).x, 0⟩) := by
  have hlen := hanging_length h.hanging
  constructor
  · have hj := hl.joints
    rw [h.joints] at hj
    have hy := chain_vertical hj
    have hd := hl.dynamics (onlyOn (· < n) v')
    rw [jointPower_zero _ _ _ (by rw [h.joints, chain_joints_cut]; exact hj)] at hd
    have e1 : momentumPower w.bodies (onlyOn (· < n) v') w.v = 0 := by
      unfold momentumPower
      refine Finset.sum_eq_zero fun i _ => ?_
      rw [twist_onlyOn]
      split_ifs with hi
      · rw [h.links i hi]; simp
      · simp
    have e2 : forcePower w.bodies.length f (onlyOn (· < n) v') = 0 := by
      unfold forcePower
      refine Finset.sum_eq_zero fun i _ => ?_
      rw [twist_onlyOn]
      split_ifs with hi
      · rw [hy i hi, (hf i hi).1, (hf i hi).2]; simp
      · simp
    have e3 : momentumPower w.bodies (onlyOn (· < n) v') v' =
        momentumPower w.bodies (onlyOn (· < n) v') (onlyOn (· < n) v') := by
      unfold momentumPower
      refine Finset.sum_congr rfl fun i _ => ?_
      rw [twist_onlyOn]
      split_ifs with hi
      · rfl
      · simp
    rw [e1, e2, e3] at hd
    have hz := momentumPower_pos_imp_zero w.bodies (fun i hi => hanging_pos h.hanging hm hn i hi) (onlyOn (· < n) v')
      (by rw [hd]; simp [contactPower])
    intro i hi
    have : twist (onlyOn (· < n) v') i = 0 := by
      apply V3.ext
      · exact hz _ (by omega)
      · exact hz _ (by omega)
      · exact hz _ (by omega)
    rw [twist_onlyOn, if_pos hi] at this
    exact this
  · intro hfn
    obtain ⟨hp1, hp2⟩ := hanging_pos h.hanging hm hn n (by omega)
    obtain ⟨k1, k2, k3⟩ := C78_isolated_body w.bodies w.joints [] f w.v v' l 0 0 0 0 hl n (by omega)
      (by
        intro j hj
        rw [h.joints] at hj
        obtain ⟨-, h2, h3⟩ := chain_joint_bodies hj
        refine ⟨by omega, fun hk => ?_⟩
        have := (h3 n hk).1
        omega) (by simp) hp1 hp2
    have hb := h.ball
    have b1 : w.v (3 * n) = 0 := congrArg V3.r hb
    have b2 : w.v (3 * n + 1) = s := congrArg V3.x hb
    have b3 : w.v (3 * n + 2) = 0 := congrArg V3.y hb
    have f1 : (f n).r = 0 := congrArg V3.r hfn
    have f3 : (f n).y = 0 := congrArg V3.y hfn
    rw [hanging_ball_mass h.hanging] at k2 k3
    apply V3.ext
    · show v' (3 * n) = 0
      rw [k1, b1, f1]; simp
    · show v' (3 * n + 1) = s + (f n).x
      rw [k2, b2]; simp
    · show v' (3 * n + 2) = 0
      rw [k3, b3, f3]; simp

theorem hanging_moved {n : ℕ} {mass x : ℝ} {bs bs' : List Body} (h : Hanging n mass x bs) (hp : Posed bs bs') (d : ℝ)
    (hl : ∀ i < n, (bodyAt bs' i).p = (bodyAt bs i).p) (hb : (bodyAt bs' n).p = (bodyAt bs n).p + ⟨0, d, 0⟩) :
    Hanging n mass (x + d) bs' := by
  refine ⟨h.posed.trans hp, fun i hi => by rw [hl i hi, h.link i hi], ?_⟩
  rw [hb, h.ball]
  apply V3.ext <;> simp

theorem chain_joints_congr {n : ℕ} {mass : ℝ} {u v : Vec} (h : ∀ i < n, twist u i = twist v i) :
    jointVels (chainJoints n (chainList n mass)) u = jointVels (chainJoints n (chainList n mass)) v := by
  unfold jointVels
  refine List.flatMap_congr fun j hj => ?_
  obtain ⟨-, h2, h3⟩ := chain_joint_bodies hj
  exact jointVel_congr (h _ h2) fun k hk => h k (h3 k hk).1

/-- Nothing is corrected by the stabilisation of a chain at rest. -/
theorem hang_stab {n : ℕ} {mass x s : ℝ} {w : World (Option Mat) Finder} (h : Hang n mass x s w) (hm : 0 < mass) (hn : 1 ≤ n)
    (lcp : LcpSolver) : ∃ dp, pdipmPostStab lcp w = .ok dp ∧ ∀ i ≤ n, twist dp i = 0 := by
  have hlen := hanging_length h.hanging
  have hpos : ∀ b ∈ w.bodies, 0 < b.mass ∧ 0 < b.ang_inertia := by
    intro b hb
    obtain ⟨i, hi, rfl⟩ := List.getElem_of_mem hb
    have e : w.bodies[i] = bodyAt w.bodies i := by simp [bodyAt, List.getD_eq_getElem?_getD, hi]
    rw [e]
    exact hanging_pos h.hanging hm hn i hi
  obtain ⟨inv, hi⟩ := system_invertible w h.inv.joints hpos
    (C71_tree_independent w h.inv.joints (by rw [h.joints]; exact chain_tree_joints n mass))
  have hok : ∃ dp, pdipmPostStab lcp w = .ok dp := by
    unfold pdipmPostStab
    simp only
    rw [if_pos h.contacts, hi]
    cases w.eng <;> exact ⟨_, rfl⟩
  obtain ⟨dp, hdp⟩ := hok
  refine ⟨dp, hdp, ?_⟩
  have hex : pdipmPostStab exactLcp w = .ok dp := by
    rw [← hdp]
    unfold pdipmPostStab
    simp only
    rw [if_pos h.contacts, if_pos h.contacts]
  obtain ⟨l, pn, hlaw⟩ := C62_post_stab_law exactLcp w dp h.inv.joints h.inv.contacts h.inv.cache.ok exactLcp_exact hex
  have hj : ∀ r ∈ jointVels w.joints dp, r = 0 := by
    have e : jointVels w.joints dp = jointVels w.joints (dp + w.v) := by
      rw [h.joints]
      refine chain_joints_congr fun i hi => ?_
      have := h.links i hi
      have b1 : w.v (3 * i) = 0 := congrArg V3.r this
      have b2 : w.v (3 * i + 1) = 0 := congrArg V3.x this
      have b3 : w.v (3 * i + 2) = 0 := congrArg V3.y this
      simp [twist, b1, b2, b3]
    rw [e]
    exact hlaw.joints
  have hd := hlaw.dynamics dp
  rw [jointPower_zero _ _ _ hj, h.contacts] at hd
  have hz := momentumPower_pos_imp_zero w.bodies (fun i hi => hanging_pos h.hanging hm hn i hi) dp
    (by rw [hd]; simp [contactPower])
  intro i hi
  apply V3.ext
  · exact hz _ (by omega)
  · exact hz _ (by omega)
  · exact hz _ (by omega)

/-- What the impulse adds to the projectile's speed in a step that starts at time `t`. -/
def kick (t : ℝ) : ℝ := if t < 1 / 10 then 50 else 0

theorem chain_impulse (n : ℕ) (mass t : ℝ) (i : ℕ) (hi : i ≤ n) :
    impulse ((List.range (n + 1)).map (chainForce n mass t)) (1 / 30) i = (1 / 30 : ℝ) • chainForce n mass t i := by
  unfold impulse
  congr 1
  have : i < n + 1 := by omega
  simp [List.getD_eq_getElem?_getD, this]

theorem chain_kick (n : ℕ) (mass t : ℝ) : (1 / 30 : ℝ) • chainForce n mass t n = ⟨0, kick t, 0⟩ := by
  unfold chainForce kick hor_impulse
  rw [if_pos rfl]
  have : (0.1 : ℝ) = 1 / 10 := by norm_num
  rw [this]
  by_cases ht : t < 1 / 10
  · rw [if_pos ht, if_pos ht]
    apply V3.ext <;> norm_num [RIGHT]
  · rw [if_neg ht, if_neg ht]
    apply V3.ext <;> simp [ZEROS]

/-- After the first move of a step. -/
theorem hang_first {n : ℕ} {mass x s s' d : ℝ} {w : World (Option Mat) Finder} (h : Hang n mass x s w) {e : Option Mat} {v : Vec}
    (hs : ∀ w2, SameStatics w w2 → w2.eng = e → CacheInv w2) (vl : ∀ i < n, twist v i = 0) (vb : twist v n = ⟨0, s', 0⟩) (f' : Finder) :
    Hang n mass (x + d * s') s' ((({ w with eng := e } : World (Option Mat) Finder).set_v v).accepted d 0 f' []) := by
  have hlen := hanging_length h.hanging
  have hl1 : (({ w with eng := e } : World (Option Mat) Finder).set_v v).bodies.length = n + 1 := by
    rw [set_v_length]; exact hlen
  have b1 : ∀ i ≤ n, bodyAt (({ w with eng := e } : World (Option Mat) Finder).set_v v).bodies i =
      { bodyAt w.bodies i with v := twist v i } := fun i hi =>
    set_v_at ({ w with eng := e } : World (Option Mat) Finder) v i (by show i < w.bodies.length; omega)
  have hg1 : (({ w with eng := e } : World (Option Mat) Finder).set_v v).Good := good_set_v h.inv.good v e
  have po1 : Posed w.bodies (({ w with eng := e } : World (Option Mat) Finder).set_v v).bodies :=
    posed_set_v ({ w with eng := e } : World (Option Mat) Finder) v
  have st1 : SameStatics w (({ w with eng := e } : World (Option Mat) Finder).set_v v) := sameStatics_set_v w v e
  have jt1 : (({ w with eng := e } : World (Option Mat) Finder).set_v v).joints = w.joints := rfl
  have vv1 : (({ w with eng := e } : World (Option Mat) Finder).set_v v).v = v := rfl
  have en1 : (({ w with eng := e } : World (Option Mat) Finder).set_v v).eng = e := rfl
  have pa1 : (({ w with eng := e } : World (Option Mat) Finder).set_v v).dt = 1 / 30 ∧
      (({ w with eng := e } : World (Option Mat) Finder).set_v v).eps = 1 / 10 ∧
      (({ w with eng := e } : World (Option Mat) Finder).set_v v).tol = 1 / 1000000 ∧
      (({ w with eng := e } : World (Option Mat) Finder).set_v v).post_stab = true := h.pars
  generalize ({ w with eng := e } : World (Option Mat) Finder).set_v v = w1 at *
  have mv1 : Hanging n mass (x + d * s') (w1.bodies.map fun b => b.move d) := by
    refine hanging_moved h.hanging (po1.trans (posed_move _ _)) _ ?_ ?_
    · intro i hi
      rw [bodyAt_map _ _ _ (by omega), b1 i (by omega), move_p]
      show (bodyAt w.bodies i).p + d • twist v i = _
      rw [vl i hi]
      apply V3.ext <;> simp
    · rw [bodyAt_map _ _ _ (by omega), b1 n le_rfl, move_p]
      show (bodyAt w.bodies n).p + d • twist v n = _
      rw [vb]
      congr 1
      apply V3.ext <;> simp
  have p2 : ∀ i < n, (bodyAt (w1.bodies.map fun b => b.move d) i).p = (bodyAt w.bodies i).p := by
    intro i hi
    rw [mv1.link i hi, h.hanging.link i hi]
  have vz : ∀ i < n, (bodyAt (w1.bodies.map fun b => b.move d) i).v.r = 0 := by
    intro i hi
    rw [bodyAt_map _ _ _ (by omega), move_v, b1 i (by omega)]
    show (twist v i).r = 0
    rw [vl i hi]; rfl
  have st2 : SameStatics w (w1.accepted d 0 f' []) := st1.trans (sameStatics_accepted w1 _ _ _ _)
  refine ⟨⟨good_accepted hg1 _ _ _ _, jointsOk_congr st2 h.inv.joints, ?_, hs _ st2 en1⟩, mv1, ?_, ?_, ?_, rfl, pa1⟩
  · intro c hc
    cases hc
  · show (w1.joints.map fun j => (j.drift w1.bodies 0).move (w1.bodies.map fun b => b.move d) d) = _
    rw [jt1, ← h.joints]
    refine (List.map_congr_left fun j hj => ?_).trans (List.map_id _)
    have hj' := hj
    rw [h.joints] at hj'
    obtain ⟨k1, k2, k3⟩ := chain_joint_bodies hj'
    rw [drift_zero]
    exact move_rest j w.bodies _ _ k1 (h.inv.good.fix j hj) (p2 _ k2) (fun k hk => p2 k (k3 k hk).1) (vz _ k2)
      fun k hk => vz k (k3 k hk).1
  · show ∀ i < n, twist w1.v i = 0
    rw [vv1]; exact vl
  · show twist w1.v n = _
    rw [vv1]; exact vb

/-- After the stabilisation move of a step: nothing has changed. -/
theorem hang_second {n : ℕ} {mass x s : ℝ} {w : World (Option Mat) Finder} (h : Hang n mass x s w) {v dp : Vec}
    (hd : ∀ i ≤ n, twist dp i = 0) (dt : ℝ) :
    Hanging n mass x (w.stabbed v dp dt).bodies ∧ (w.stabbed v dp dt).joints = w.joints := by
  have hlen := hanging_length h.hanging
  have dz : ∀ i ≤ n, twist (fun k => dp k / 2) i = 0 := by
    intro i hi
    have := hd i hi
    have c1 : dp (3 * i) = 0 := congrArg V3.r this
    have c2 : dp (3 * i + 1) = 0 := congrArg V3.x this
    have c3 : dp (3 * i + 2) = 0 := congrArg V3.y this
    apply V3.ext <;> simp [twist, c1, c2, c3]
  have p3 : ∀ i ≤ n, (bodyAt (w.stabbed v dp dt).bodies i).p = (bodyAt w.bodies i).p := by
    intro i hi
    rw [stabbed_at _ _ _ _ _ (by omega)]
    show (Body.move _ _).p = _
    rw [move_p]
    show (bodyAt w.bodies i).p + dt • twist (fun k => dp k / 2) i = _
    rw [dz i hi]
    apply V3.ext <;> simp
  constructor
  · have := hanging_moved h.hanging (((posed_set_v w fun k => dp k / 2).trans (posed_move _ dt)).trans
      (posed_set_v (((w.set_v fun k => dp k / 2).moveBodies dt).moveJoints dt) v)) 0
      (fun i hi => p3 i (by omega)) (by
        refine (p3 n le_rfl).trans ?_
        apply V3.ext <;> simp)
    rwa [add_zero] at this
  · show (w.joints.map fun j => j.move ((w.set_v fun k => dp k / 2).bodies.map fun b => b.move dt) dt) = _
    refine (List.map_congr_left fun j hj => ?_).trans (List.map_id _)
    have hj' := hj
    rw [h.joints] at hj'
    obtain ⟨k1, k2, k3⟩ := chain_joint_bodies hj'
    have bz : ∀ i < n, bodyAt ((w.set_v fun k => dp k / 2).bodies.map fun b => b.move dt) i =
        ({ bodyAt w.bodies i with v := twist (fun k => dp k / 2) i } : Body).move dt := by
      intro i hi
      rw [bodyAt_map _ _ _ (by rw [set_v_length]; omega), set_v_at _ _ _ (by omega)]
    have vz : ∀ i < n, (bodyAt ((w.set_v fun k => dp k / 2).bodies.map fun b => b.move dt) i).v.r = 0 := by
      intro i hi
      rw [bz i hi, move_v]
      show (twist (fun k => dp k / 2) i).r = 0
      rw [dz i (by omega)]; rfl
    have pz : ∀ i < n, (bodyAt ((w.set_v fun k => dp k / 2).bodies.map fun b => b.move dt) i).p = (bodyAt w.bodies i).p := by
      intro i hi
      rw [bz i hi, move_p]
      show (bodyAt w.bodies i).p + dt • twist (fun k => dp k / 2) i = _
      rw [dz i (by omega)]
      apply V3.ext <;> simp
    exact move_rest j w.bodies _ _ k1 (h.inv.good.fix j hj) (pz _ k2) (fun k hk => pz k (k3 k hk).1) (vz _ k2)
      fun k hk => vz k (k3 k hk).1

/-- C95: one step before the impact. -/
theorem hang_step {n : ℕ} {mass x s : ℝ} {w : World (Option Mat) Finder} (h : Hang n mass x s w) (hm : 0 < mass) (hn : 1 ≤ n)
    (lcp : LcpSolver) (mi cfuel : ℕ) (hcf : 66 ≤ cfuel) (pairs : List Body → List (ℕ × ℕ))
    (hp : ∀ bs, ∀ p ∈ pairs bs, p.1 < bs.length ∧ p.2 < bs.length ∧ p.1 ≠ p.2)
    (hx : x + 1 / 30 * (s + kick w.t) < 269.8) (fuel : ℕ) :
    ∃ w', w.step_dt (chainEnv n mass lcp mi (rejectNan (diffCollide cfuel (chainNc n) pairs))) (fuel + 1) (1 / 30) = .done w' ∧
      Hang n mass (x + 1 / 30 * (s + kick w.t)) (s + kick w.t) w' ∧ w'.t = w.t + 1 / 30 := by
  have hlen := hanging_length h.hanging
  have hpos : ∀ b ∈ w.bodies, 0 < b.mass ∧ 0 < b.ang_inertia := by
    intro b hb
    obtain ⟨i, hi, rfl⟩ := List.getElem_of_mem hb
    have e : w.bodies[i] = bodyAt w.bodies i := by simp [bodyAt, List.getD_eq_getElem?_getD, hi]
    rw [e]
    exact hanging_pos h.hanging hm hn i hi
  have hind := C71_tree_independent w h.inv.joints (by rw [h.joints]; exact chain_tree_joints n mass)
  have hfc : forceCat (chainForces n mass) w.t w.bodies.length = .ok ((List.range (n + 1)).map (chainForce n mass w.t)) := by
    rw [hlen]; exact chain_forceCat n hn mass w.t
  obtain ⟨⟨e, v⟩, hsol⟩ := C35_no_contact_succeeds 2 (chainForces n mass) lcp mi w (1 / 30) h.inv.joints hpos hind h.contacts _ hfc
  obtain ⟨fl, l, hfl, hlaw⟩ := C35_no_contact_solution 2 (chainForces n mass) lcp mi w (1 / 30) e v h.inv.joints h.contacts
    h.inv.cache.ok hsol
  rw [hfc] at hfl
  injection hfl with hfl
  subst hfl
  obtain ⟨vl, vb⟩ := hang_motion h hm hn (fun i hi => by
    rw [chain_impulse n mass w.t i (by omega)]
    unfold chainForce
    rw [if_neg (by omega)]
    split_ifs <;> constructor <;> simp) hlaw
  rw [chain_impulse n mass w.t n le_rfl, chain_kick] at vb
  have vb : twist v n = ⟨0, s + kick w.t, 0⟩ := vb rfl
  have h2 := fun f' => hang_first h (d := 1 / 30) (e := e)
    (fun w2 st he => solve_cacheInv st h.inv.cache (by rw [he]; exact hsol)) vl vb f'
  have mv1 : Hanging n mass (x + 1 / 30 * (s + kick w.t))
      ((({ w with eng := e } : World (Option Mat) Finder).set_v v).bodies.map fun b => b.move (1 / 30)) := (h2 w.fnd).hanging
  obtain ⟨f', hcol⟩ := chain_search mv1 hx cfuel hcf pairs hp w.fnd
  have h2 := h2 f'
  have hstep := step_second_fields (chainEnv n mass lcp mi (rejectNan (diffCollide cfuel (chainNc n) pairs))) fuel w
    h.inv.good (1 / 30) h.pars.2.2.2 e v hsol f' (by rw [h.pars.2.1]; exact hcol) _ rfl
  generalize (({ w with eng := e } : World (Option Mat) Finder).set_v v).accepted (1 / 30) 0 f' [] = w2 at h2 hstep
  obtain ⟨dp, hdp, dz⟩ := hang_stab h2 hm hn lcp
  obtain ⟨mv3, j3⟩ := hang_second h2 (v := v) dz (1 / 30)
  obtain ⟨f2, hcol2⟩ := chain_search mv3 hx cfuel hcf pairs hp f'
  obtain ⟨w', k1, k2, k3, k4, k5, k6, k7, k8, k9, k10⟩ := hstep dp hdp f2 [] (by rw [h.pars.2.1]; exact hcol2)
  refine ⟨w', k1, ?_, k6⟩
  exact ⟨step_inv (C12_finder_ok cfuel (chainNc n) pairs hp) h.inv k1, by rw [k2]; exact mv3, by rw [k3, j3]; exact h2.joints,
    by rw [k4]; exact vl, by rw [k4]; exact vb, k5, by rw [k7, k8, k9, k10]; exact h.pars⟩

/-! ## The run -/

/-- The projectile's speed after `k` steps, as long as it has hit nothing. -/
def ballSpeed (k : ℕ) : ℝ := 50 * (min k 3 : ℕ)

theorem ball_next (k : ℕ) : ballSpeed k + kick (k / 30) = ballSpeed (k + 1) ∧
    ballAt k + 1 / 30 * ballSpeed (k + 1) = ballAt (k + 1) := by
  unfold ballSpeed kick
  match k with
  | 0 => norm_num [ballAt]
  | 1 => norm_num [ballAt]
  | 2 => norm_num [ballAt]
  | k + 3 =>
    have h : ¬ (((k + 3 : ℕ) : ℝ) / 30 < 1 / 10) := by
      push_cast
      have : (0 : ℝ) ≤ k := Nat.cast_nonneg k
      intro hh
      linarith
    rw [if_neg h]
    have m1 : min (k + 3) 3 = 3 := by omega
    have m2 : min (k + 3 + 1) 3 = 3 := by omega
    rw [m1, m2]
    refine ⟨by norm_num, ?_⟩
    show 45 + 5 * ((k + 1 + 2 : ℕ) : ℝ) + _ = 45 + 5 * ((k + 2 + 2 : ℕ) : ℝ)
    push_cast
    ring

theorem ballAt_small (k : ℕ) (hk : k ≤ 44) : ballAt k < 269.8 := by
  match k with
  | 0 => norm_num [ballAt]
  | 1 => norm_num [ballAt]
  | k + 2 =>
    have : ((k + 2 : ℕ) : ℝ) ≤ 44 := by exact_mod_cast hk
    show 45 + 5 * ((k + 2 : ℕ) : ℝ) < _
    norm_num at this ⊢
    linarith

theorem hang_row {n : ℕ} {mass x s : ℝ} {w : World (Option Mat) Finder} (h : Hang n mass x s w) :
    poseRow w = (List.range n).flatMap (fun i : ℕ => ([0, 300, 50 + 50 * (i : ℝ)] : List ℝ)) ++ [0, x, 50 + 50 * ((n - 1 : ℕ) : ℝ)] := by
  have hl := hanging_length h.hanging
  have e : w.bodies = (List.range n).map (bodyAt w.bodies) ++ [bodyAt w.bodies n] := by
    apply List.ext_getElem
    · simp [hl]
    · intro i h1 h2
      rw [List.getElem_append]
      have hb : w.bodies[i] = bodyAt w.bodies i := by simp [bodyAt, List.getD_eq_getElem?_getD, h1]
      rw [hb]
      split_ifs with h3
      · simp
      · have : i = n := by simp at h3; omega
        subst this
        simp
  unfold poseRow
  rw [e, List.flatMap_append, List.flatMap_map]
  congr 1
  · refine List.flatMap_congr fun i hi => ?_
    rw [h.hanging.link i (List.mem_range.1 hi)]
  · simp [h.hanging.ball]

/-- C95: `make_world` returns, with the chain hanging at rest and no contacts. -/
theorem hang_made (n : ℕ) (hn : 1 ≤ n) (mass : ℝ) (lcp : LcpSolver) (mi cfuel : ℕ) (hcf : 66 ≤ cfuel)
    (pairs : List Body → List (ℕ × ℕ)) (hp : ∀ bs, ∀ p ∈ pairs bs, p.1 < bs.length ∧ p.2 < bs.length ∧ p.1 ≠ p.2)
    (fnd : Finder) :
    ∃ w, make_world lcp mi (rejectNan (diffCollide cfuel (chainNc n) pairs)) fnd n mass = .done w ∧
      Hang n mass (ballAt 0) (ballSpeed 0) w ∧ w.t = 0 := by
  set bs := chainList n mass with hbs
  have hlen : bs.length = n + 1 := chain_length n mass
  obtain ⟨f', hcol⟩ := chain_search (hanging_start n mass) (by norm_num) cfuel hcf pairs hp fnd
  have hvel : (initWorld (none : Option Mat) fnd bs (chainJoints n bs) (1 / 30) (1 / 10) (1 / 1000000) true true).bodies = bs := by
    apply List.ext_getElem
    · simp [initWorld, World.set_v]
    · intro i h1 h2
      simp only [initWorld, World.set_v, List.getElem_map, List.getElem_zipIdx]
      rw [Nat.zero_add, cat3_slice _ i (by simpa using h2), List.getElem_map]
  have hmk : make_world lcp mi (rejectNan (diffCollide cfuel (chainNc n) pairs)) fnd n mass = .done
      { initWorld (none : Option Mat) fnd bs (chainJoints n bs) (1 / 30) (1 / 10) (1 / 1000000) true true with
        contacts := [], fnd := f' } := by
    unfold make_world
    rw [chain_bodies n hn mass]
    simp only
    unfold mkWorld
    rw [if_neg (by rw [← hbs]; omega), if_pos (by
      intro j hj
      obtain ⟨-, h2, h3⟩ := chain_joint_bodies hj
      rw [← hbs, hlen]
      exact ⟨by omega, fun k hk => by have := (h3 k hk).1; omega⟩)]
    unfold World.find_contacts
    have : (chainEnv n mass lcp mi (rejectNan (diffCollide cfuel (chainNc n) pairs))).collide
        (initWorld (none : Option Mat) fnd bs (chainJoints n bs) (1 / 30) (1 / 10) (1 / 1000000) true true).eps
        (initWorld (none : Option Mat) fnd bs (chainJoints n bs) (1 / 30) (1 / 10) (1 / 1000000) true true).fnd
        (initWorld (none : Option Mat) fnd bs (chainJoints n bs) (1 / 30) (1 / 10) (1 / 1000000) true true).bodies
        = .ok (f', []) := by
      rw [hvel]; exact hcol
    rw [this]
    simp only [Run.bind, if_true]
    rw [if_pos]
    intro c hc
    cases hc
  refine ⟨_, hmk, ⟨⟨?_, ?_, ?_, ?_⟩, ?_, rfl, ?_, ?_, rfl, rfl, rfl, rfl, rfl⟩, rfl⟩
  · have hmk' := hmk
    unfold make_world at hmk'
    rw [chain_bodies n hn mass] at hmk'
    refine C30_mkWorld_good _ _ _ _ _ _ _ _ _ _ _ ?_ ?_ hmk'
    · intro b hb
      rcases List.mem_append.1 hb with hb | hb
      · obtain ⟨i, -, rfl⟩ := List.mem_map.1 hb
        exact mkRect_rectForm (link_ok n mass i)
      · rw [List.mem_singleton.1 hb]
        exact trivial
    · intro j hj
      obtain ⟨i, -, rfl⟩ := chain_joint_mem hj
      exact chain_joint_fix _ _
  · intro j hj
    obtain ⟨-, h2, h3⟩ := chain_joint_bodies hj
    have hl : (initWorld (none : Option Mat) fnd bs (chainJoints n bs) (1 / 30) (1 / 10) (1 / 1000000) true true).bodies.length = n + 1 := by
      rw [hvel]; exact hlen
    show j.i1 < (initWorld (none : Option Mat) fnd bs (chainJoints n bs) (1 / 30) (1 / 10) (1 / 1000000) true true).bodies.length ∧
      ∀ k ∈ j.i2, k < (initWorld (none : Option Mat) fnd bs (chainJoints n bs) (1 / 30) (1 / 10) (1 / 1000000) true true).bodies.length ∧ j.i1 ≠ k
    rw [hl]
    exact ⟨by omega, fun k hk => ⟨by have := (h3 k hk).1; omega, (h3 k hk).2⟩⟩
  · intro c hc
    cases hc
  · intro inv hi
    cases hi
  · show Hanging n mass 50 (initWorld (none : Option Mat) fnd bs (chainJoints n bs) (1 / 30) (1 / 10) (1 / 1000000) true true).bodies
    rw [hvel]
    exact hanging_start n mass
  · intro i hi
    show twist (cat3 (bs.map Body.v)) i = 0
    rw [← slice3_twist, cat3_slice _ i (by simp; omega), List.getElem_map]
    have : bs[i] = bodyAt bs i := by simp [bodyAt, List.getD_eq_getElem?_getD, show i < bs.length by omega]
    rw [this, hbs, chain_link n mass i hi]
    rfl
  · show twist (cat3 (bs.map Body.v)) n = _
    rw [← slice3_twist, cat3_slice _ n (by simp; omega), List.getElem_map]
    have : bs[n] = bodyAt bs n := by simp [bodyAt, List.getD_eq_getElem?_getD, show n < bs.length by omega]
    rw [this, hbs, chain_ball]
    apply V3.ext <;> simp [chainBall, mkCircle, ballSpeed, Arg.toV3]

/-! ## The theorems -/

theorem loss_self (ps : List (List ℝ)) : chainLoss ps ps = .done 0 := by
  have h : ∀ xs : List ℝ, (List.zipWith (fun a b => (a - b) ^ 2) xs xs).sum = 0 := by
    intro xs
    induction xs with
    | nil => rfl
    | cons a xs ih =>
      rw [List.zipWith_cons_cons, List.sum_cons, ih]
      ring
  unfold chainLoss mse
  simp only [List.take_length]
  rw [if_pos trivial, h, zero_div]

/-- C95, the loss: lists of any lengths are compared as far as both go; it never raises, and is the mean of the squared differences
of the common part. -/
theorem C95_loss (ps qs : List (List ℝ)) : chainLoss ps qs =
    .done ((∑ k ∈ Finset.range (min ps.flatten.length qs.flatten.length), (ps.flatten.getD k 0 - qs.flatten.getD k 0) ^ 2) /
      (min ps.flatten.length qs.flatten.length : ℕ)) := by
  have h : ∀ xs ys : List ℝ, (List.zipWith (fun a b => (a - b) ^ 2) (xs.take ys.length) (ys.take (xs.take ys.length).length)).sum =
      ∑ k ∈ Finset.range (min xs.length ys.length), (xs.getD k 0 - ys.getD k 0) ^ 2 := by
    intro xs
    induction xs with
    | nil => intro ys; simp
    | cons a xs ih =>
      intro ys
      rcases ys with - | ⟨b, ys⟩
      · simp
      · rw [show min (a :: xs).length (b :: ys).length = min xs.length ys.length + 1 by simp, Finset.sum_range_succ', add_comm]
        have := ih ys
        simp only [List.length_cons, List.take_succ_cons, List.zipWith_cons_cons, List.sum_cons, this, List.getD_cons_succ,
          List.getD_cons_zero]
  unfold chainLoss mse
  simp only
  rw [if_pos (by simp), h]
  congr 2
  simp [min_comm]

/-- Example for `C95_loss`: a run of one row against one of two. -/
example : chainLoss [[1, 2]] [[0, 0], [7, 7]] = .done (5 / 2) := by
  rw [C95_loss]
  norm_num [Finset.sum_range_succ]

section
variable (n : ℕ) (hn : 1 ≤ n) (cfuel : ℕ) (hcf : 66 ≤ cfuel) (pairs : List Body → List (ℕ × ℕ))
  (hp : ∀ bs, ∀ p ∈ pairs bs, p.1 < bs.length ∧ p.2 < bs.length ∧ p.1 ≠ p.2)
include hn hcf hp

theorem hang_next (mass : ℝ) (hm : 0 < mass) (lcp : LcpSolver) (mi fuel : ℕ) (hf : 1 ≤ fuel) (k : ℕ) (hk : k < 44)
    (w : World (Option Mat) Finder) (h : Hang n mass (ballAt k) (ballSpeed k) w) (ht : w.t = k / 30) :
    ∃ w', w.step (chainEnv n mass lcp mi (rejectNan (diffCollide cfuel (chainNc n) pairs))) fuel 0 false = .done w' ∧
      Hang n mass (ballAt (k + 1)) (ballSpeed (k + 1)) w' ∧ w'.t = ((k + 1 : ℕ) : ℝ) / 30 := by
  obtain ⟨fuel, rfl⟩ : ∃ g, fuel = g + 1 := ⟨fuel - 1, by omega⟩
  obtain ⟨b1, b2⟩ := ball_next k
  obtain ⟨w', h1, h2, h3⟩ := hang_step h hm hn lcp mi cfuel hcf pairs hp
    (by rw [ht, b1, b2]; exact ballAt_small _ (by omega)) fuel
  rw [ht, b1, b2] at h2
  refine ⟨w', ?_, h2, ?_⟩
  · unfold World.step
    rw [if_neg (by simp), h.pars.1]
    exact h1
  · rw [h3, ht]; push_cast; ring

/-- C95: until the projectile reaches the chain, 44 steps, the simulation of any chain of positive mass returns at every
step; the links hang at rest where they were put, and the projectile flies. -/
theorem C95_before_impact (mass : ℝ) (hm : 0 < mass) (lcp : LcpSolver) (mi fuel : ℕ) (hf : 1 ≤ fuel) (fnd : Finder) (k : ℕ)
    (hk : k ≤ 44) :
    ∃ w0 w, make_world lcp mi (rejectNan (diffCollide cfuel (chainNc n) pairs)) fnd n mass = .done w0 ∧
      afterSteps (chainEnv n mass lcp mi (rejectNan (diffCollide cfuel (chainNc n) pairs))) fuel k w0 = .done w ∧
      poseRow w = chainRow n k ∧ (∀ i < n, twist w.v i = 0) ∧ w.contacts = [] ∧ w.t = k / 30 := by
  obtain ⟨w0, h1, h2, h3⟩ := hang_made n hn mass lcp mi cfuel hcf pairs hp fnd
  have key : ∀ k j : ℕ, j + k ≤ 44 → ∀ w, Hang n mass (ballAt j) (ballSpeed j) w → w.t = (j : ℝ) / 30 →
      ∃ w', afterSteps (chainEnv n mass lcp mi (rejectNan (diffCollide cfuel (chainNc n) pairs))) fuel k w = .done w' ∧
        Hang n mass (ballAt (j + k)) (ballSpeed (j + k)) w' ∧ w'.t = ((j + k : ℕ) : ℝ) / 30 := by
    intro k
    induction k with
    | zero => intro j _ w h ht; exact ⟨w, rfl, h, ht⟩
    | succ k ih =>
      intro j hj w h ht
      obtain ⟨w1, k1, k2, k3⟩ := hang_next n hn cfuel hcf pairs hp mass hm lcp mi fuel hf j (by omega) w h ht
      obtain ⟨w2, l1, l2, l3⟩ := ih (j + 1) (by omega) w1 k2 k3
      refine ⟨w2, ?_, ?_, ?_⟩
      · unfold afterSteps
        rw [k1]
        exact l1
      · rwa [show j + (k + 1) = j + 1 + k by omega]
      · rwa [show j + (k + 1) = j + 1 + k by omega]
  obtain ⟨w, l1, l2, l3⟩ := key k 0 (by omega) w0 h2 (by rw [h3]; simp)
  rw [zero_add] at l2 l3
  exact ⟨w0, w, h1, l1, hang_row l2, l2.links, l2.contacts, l3⟩

/-- C95: what `positions_run_world` records when it is stopped before the impact. -/
theorem C95_positions (mass : ℝ) (hm : 0 < mass) (lcp : LcpSolver) (mi fuel : ℕ) (hf : 1 ≤ fuel) (fnd : Finder)
    (run_time : ℝ) (K : ℕ) (hK : K ≤ 44) (h1 : (K : ℝ) - 1 < 30 * run_time) (h2 : 30 * run_time ≤ K) (N : ℕ) (hN : K ≤ N) :
    ∃ w0, make_world lcp mi (rejectNan (diffCollide cfuel (chainNc n) pairs)) fnd n mass = .done w0 ∧
      positions_run_world (chainEnv n mass lcp mi (rejectNan (diffCollide cfuel (chainNc n) pairs))) fuel run_time N w0 =
        .done ((List.range (K + 1)).map (chainRow n)) := by
  obtain ⟨w0, m1, m2, m3⟩ := hang_made n hn mass lcp mi cfuel hcf pairs hp fnd
  refine ⟨w0, m1, ?_⟩
  have key : ∀ d N k : ℕ, k + d = K → d ≤ N → ∀ w, Hang n mass (ballAt k) (ballSpeed k) w → w.t = (k : ℝ) / 30 →
      positionsLoop (chainEnv n mass lcp mi (rejectNan (diffCollide cfuel (chainNc n) pairs))) fuel run_time N w =
        .done ((List.range d).map fun j => chainRow n (k + 1 + j)) := by
    intro d
    induction d with
    | zero =>
      intro N k hk _ w h ht
      unfold positionsLoop
      rw [if_neg]
      · rfl
      · rw [ht]
        rw [← hk] at h2
        push_cast at h2
        intro hh
        linarith
    | succ d ih =>
      intro N k hk hdN w h ht
      obtain ⟨N, rfl⟩ : ∃ M, N = M + 1 := ⟨N - 1, by omega⟩
      obtain ⟨w1, k1, k2, k3⟩ := hang_next n hn cfuel hcf pairs hp mass hm lcp mi fuel hf k (by omega) w h ht
      have := ih N (k + 1) (by omega) (by omega) w1 k2 k3
      unfold positionsLoop
      rw [if_pos]
      · simp only [k1, Run.bind, this]
        rw [List.range_succ_eq_map, List.map_cons, List.map_map, hang_row k2]
        congr 2
        refine List.map_congr_left fun j _ => ?_
        simp only [Function.comp]
        congr 1
        omega
      · rw [ht]
        rw [← hk] at h1
        push_cast at h1
        have : (0 : ℝ) ≤ d := Nat.cast_nonneg d
        linarith
  have := key K N 0 (by omega) hN w0 m2 (by rw [m3]; simp)
  unfold positions_run_world
  rw [this]
  simp only [Run.bind]
  rw [hang_row m2, List.range_succ_eq_map, List.map_cons, List.map_map]
  congr 2
  refine List.map_congr_left fun j _ => ?_
  simp only [Function.comp]
  congr 1
  omega

/-- C95: so a simulation stopped before the impact says nothing about the mass: whatever the two masses, solvers and random
choices, the recorded positions agree and the loss is zero. -/
theorem C95_mass_invisible (m1 m2 : ℝ) (h1 : 0 < m1) (h2 : 0 < m2) (lcp1 lcp2 : LcpSolver) (mi1 mi2 fuel1 fuel2 : ℕ) (hf1 : 1 ≤ fuel1)
    (hf2 : 1 ≤ fuel2) (fnd1 fnd2 : Finder) (run_time : ℝ) (ht0 : 0 ≤ run_time) (ht : run_time ≤ 44 / 30) (N : ℕ) (hN : 44 ≤ N) :
    ∃ w1 w2 ps, make_world lcp1 mi1 (rejectNan (diffCollide cfuel (chainNc n) pairs)) fnd1 n m1 = .done w1 ∧
      make_world lcp2 mi2 (rejectNan (diffCollide cfuel (chainNc n) pairs)) fnd2 n m2 = .done w2 ∧
      positions_run_world (chainEnv n m1 lcp1 mi1 (rejectNan (diffCollide cfuel (chainNc n) pairs))) fuel1 run_time N w1 = .done ps ∧
      positions_run_world (chainEnv n m2 lcp2 mi2 (rejectNan (diffCollide cfuel (chainNc n) pairs))) fuel2 run_time N w2 = .done ps ∧
      chainLoss ps ps = .done 0 := by
  have hK : ⌈30 * run_time⌉₊ ≤ 44 := by
    apply Nat.ceil_le.2
    push_cast
    linarith
  have e1 : (⌈30 * run_time⌉₊ : ℝ) - 1 < 30 * run_time := by
    have := Nat.ceil_lt_add_one (show 0 ≤ 30 * run_time by positivity)
    linarith
  have e2 := Nat.le_ceil (30 * run_time)
  obtain ⟨w1, a1, b1⟩ := C95_positions n hn cfuel hcf pairs hp m1 h1 lcp1 mi1 fuel1 hf1 fnd1 run_time _ hK e1 e2 N (by omega)
  obtain ⟨w2, a2, b2⟩ := C95_positions n hn cfuel hcf pairs hp m2 h2 lcp2 mi2 fuel2 hf2 fnd2 run_time _ hK e1 e2 N (by omega)
  exact ⟨w1, w2, _, a1, a2, b1, b2, loss_self _⟩

/-- C95: and the gradient of the loss with respect to the mass is zero, at every mass and against any ground truth: the
inference cannot move. -/
theorem C95_no_gradient (lcp : LcpSolver) (mi fuel : ℕ) (hf : 1 ≤ fuel) (fnd : Finder) (run_time : ℝ) (ht0 : 0 ≤ run_time)
    (ht : run_time ≤ 44 / 30) (N : ℕ) (hN : 44 ≤ N) (truth : List (List ℝ)) (L : ℝ → ℝ)
    (hL : ∀ m > 0, ∀ w ps, make_world lcp mi (rejectNan (diffCollide cfuel (chainNc n) pairs)) fnd n m = .done w →
      positions_run_world (chainEnv n m lcp mi (rejectNan (diffCollide cfuel (chainNc n) pairs))) fuel run_time N w = .done ps →
      chainLoss ps truth = .done (L m)) (m : ℝ) (hm : 0 < m) : HasDerivAt L 0 m := by
  have hc : ∀ m' > 0, L m' = L m := by
    intro m' hm'
    obtain ⟨w1, w2, ps, a1, a2, b1, b2, -⟩ := C95_mass_invisible n hn cfuel hcf pairs hp m' m hm' hm lcp lcp mi mi fuel fuel hf hf
      fnd fnd run_time ht0 ht N hN
    have := (hL m' hm' w1 ps a1 b1).symm.trans (hL m hm w2 ps a2 b2)
    injection this
  refine (hasDerivAt_const m (L m)).congr_of_eventuallyEq ?_
  filter_upwards [lt_mem_nhds hm] with m' hm'
  exact hc m' hm'

end

/-! ## Examples -/

theorem allPairs_ok : ∀ bs, ∀ p ∈ allPairs bs, p.1 < bs.length ∧ p.2 < bs.length ∧ p.1 ≠ p.2 := by
  intro bs p h
  have := (allPairs_mem bs p.1 p.2).1 h
  exact ⟨by omega, this.2, by omega⟩

/-- The experiment: ten links, mass 7, broad phase reporting all pairs; after 44 steps the projectile is at 265. -/
example (f : Finder) : ∃ w0 w, make_world exactLcp 10 (rejectNan (diffCollide 66 (chainNc 10) allPairs)) f 10 7 = .done w0 ∧
    afterSteps (chainEnv 10 7 exactLcp 10 (rejectNan (diffCollide 66 (chainNc 10) allPairs))) 100 44 w0 = .done w ∧
    poseRow w = chainRow 10 44 ∧ w.contacts = [] := by
  obtain ⟨w0, w, h1, h2, h3, -, h4, -⟩ := C95_before_impact 10 (by norm_num) 66 le_rfl allPairs allPairs_ok 7 (by norm_num) exactLcp 10 100
    (by norm_num) f 44 le_rfl
  exact ⟨w0, w, h1, h2, h3, h4⟩

example : ballAt 44 = 265 := by norm_num [ballAt]

/-- One second of the experiment with true mass 7 and guess 1. -/
example (f g : Finder) : ∃ w1 w2 ps, make_world exactLcp 10 (rejectNan (diffCollide 66 (chainNc 10) allPairs)) f 10 7 = .done w1 ∧
    make_world exactLcp 10 (rejectNan (diffCollide 66 (chainNc 10) allPairs)) g 10 1 = .done w2 ∧
    positions_run_world (chainEnv 10 7 exactLcp 10 (rejectNan (diffCollide 66 (chainNc 10) allPairs))) 100 1 44 w1 = .done ps ∧
    positions_run_world (chainEnv 10 1 exactLcp 10 (rejectNan (diffCollide 66 (chainNc 10) allPairs))) 100 1 44 w2 = .done ps ∧
    chainLoss ps ps = .done 0 :=
  C95_mass_invisible 10 (by norm_num) 66 le_rfl allPairs allPairs_ok 7 1 (by norm_num) (by norm_num) exactLcp exactLcp 10 10 100 100
    (by norm_num) (by norm_num) f g 1 (by norm_num) (by norm_num) 44 le_rfl

/-- The loss against a ground truth obtained after the impact, say, has gradient zero at mass 1. -/
example (f : Finder) (truth : List (List ℝ)) : ∃ L : ℝ → ℝ,
    (∀ m > 0, ∃ w ps, make_world exactLcp 10 (rejectNan (diffCollide 66 (chainNc 10) allPairs)) f 10 m = .done w ∧
      positions_run_world (chainEnv 10 m exactLcp 10 (rejectNan (diffCollide 66 (chainNc 10) allPairs))) 100 1 44 w = .done ps ∧
      chainLoss ps truth = .done (L m)) ∧ HasDerivAt L 0 1 := by
  have hpos := fun (m : ℝ) (hm : 0 < m) => C95_positions 10 (by norm_num) 66 le_rfl allPairs allPairs_ok m hm exactLcp 10 100
    (by norm_num) f 1 30 (by norm_num) (by norm_num) (by norm_num) 44 (by norm_num)
  obtain ⟨l, hl⟩ : ∃ l, chainLoss ((List.range 31).map (chainRow 10)) truth = .done l := ⟨_, C95_loss _ _⟩
  refine ⟨fun _ => l, fun m hm => ?_, ?_⟩
  · obtain ⟨w, h1, h2⟩ := hpos m hm
    exact ⟨w, _, h1, h2, hl⟩
  · refine C95_no_gradient 10 (by norm_num) 66 le_rfl allPairs allPairs_ok exactLcp 10 100 (by norm_num) f 1 (by norm_num)
      (by norm_num) 44 le_rfl truth _ ?_ 1 one_pos
    intro m hm w ps h1 h2
    obtain ⟨w', h3, h4⟩ := hpos m hm
    rw [h1] at h3
    injection h3 with h3
    subst h3
    rw [h2] at h4
    injection h4 with h4
    rw [h4]
    exact hl

end LcpPhysics
