import Verif.Props.Lockstep
import Verif.Spec.Isolated

/-! # C96: conservation laws along whole runs of an isolated scene -/

noncomputable section

namespace LcpPhysics
open Spec
variable {φ : Type}

theorem sum_map_bodyAt {β : Type} [AddCommMonoid β] (bs : List Body) (g : Body → β) :
    (bs.map g).sum = ∑ i ∈ Finset.range bs.length, g (bodyAt bs i) := by
  induction bs using List.reverseRecOn with
  | nil => simp
  | append_singleton bs b ih =>
    rw [List.map_append, List.sum_append, ih, List.length_append, List.length_singleton, Finset.sum_range_succ]
    congr 1
    · refine Finset.sum_congr rfl fun i hi => ?_
      have hi := Finset.mem_range.1 hi
      congr 1
      simp [bodyAt, List.getD_eq_getElem?_getD, List.getElem?_append_left hi]
    · simp [bodyAt, List.getD_eq_getElem?_getD]

theorem good_bodyAt_v {σ : Type} {w : World σ φ} (hg : w.Good) (i : ℕ) (hi : i < w.bodies.length) :
    (bodyAt w.bodies i).v = slice3 w.v i := by
  rw [← hg.vel i hi]
  simp [bodyAt, List.getD_eq_getElem?_getD, hi]

theorem totalMomentum_eq {σ : Type} {w : World σ φ} (hg : w.Good) :
    totalMomentum w.bodies = linearMomentum w.bodies w.v := by
  unfold totalMomentum linearMomentum
  rw [sum_map_bodyAt]
  ext
  · rw [Prod.fst_sum]
    refine Finset.sum_congr rfl fun i hi => ?_
    rw [good_bodyAt_v hg i (Finset.mem_range.1 hi)]
    simp [slice3, V3.xy, mul_comm]
  · rw [Prod.snd_sum]
    refine Finset.sum_congr rfl fun i hi => ?_
    rw [good_bodyAt_v hg i (Finset.mem_range.1 hi)]
    simp [slice3, V3.xy, mul_comm]

theorem totalAngular_eq {σ : Type} {w : World σ φ} (hg : w.Good) :
    totalAngular w.bodies = angularMomentum w.bodies w.v := by
  unfold totalAngular angularMomentum
  rw [sum_map_bodyAt]
  refine Finset.sum_congr rfl fun i hi => ?_
  rw [good_bodyAt_v hg i (Finset.mem_range.1 hi)]
  simp [slice3, V3.xy, Spec.det, mul_comm i 3]

theorem totalKinetic_eq {σ : Type} {w : World σ φ} (hg : w.Good) :
    totalKinetic w.bodies = kineticEnergy w.bodies w.v := by
  unfold totalKinetic kineticEnergy
  rw [sum_map_bodyAt]
  refine Finset.sum_congr rfl fun i hi => ?_
  rw [good_bodyAt_v hg i (Finset.mem_range.1 hi)]
  simp [slice3, mul_comm i 3]

theorem sameStatics_mass {σ : Type} {w w' : World σ φ} (hs : SameStatics w w') (i : ℕ) :
    (bodyAt w'.bodies i).mass = (bodyAt w.bodies i).mass := congrArg (·.1) (sameStatics_bodyAt hs i)

theorem sameStatics_inertia {σ : Type} {w w' : World σ φ} (hs : SameStatics w w') (i : ℕ) :
    (bodyAt w'.bodies i).ang_inertia = (bodyAt w.bodies i).ang_inertia :=
  congrArg (·.2.1) (sameStatics_bodyAt hs i)

theorem sameStatics_restitution {σ : Type} {w w' : World σ φ} (hs : SameStatics w w') (i : ℕ) :
    (bodyAt w'.bodies i).restitution = (bodyAt w.bodies i).restitution :=
  congrArg (·.2.2.1) (sameStatics_bodyAt hs i)

theorem sameStatics_fric {σ : Type} {w w' : World σ φ} (hs : SameStatics w w') (i : ℕ) :
    (bodyAt w'.bodies i).fric_coeff = (bodyAt w.bodies i).fric_coeff :=
  congrArg (·.2.2.2) (sameStatics_bodyAt hs i)

/-- Totals only see masses and inertias. -/
theorem linearMomentum_statics {σ : Type} {w w' : World σ φ} (hs : SameStatics w w') (v : Vec) :
    linearMomentum w'.bodies v = linearMomentum w.bodies v := by
  unfold linearMomentum
  rw [sameStatics_length hs]
  simp only [sameStatics_mass hs]

theorem kineticEnergy_statics {σ : Type} {w w' : World σ φ} (hs : SameStatics w w') (v : Vec) :
    kineticEnergy w'.bodies v = kineticEnergy w.bodies v := by
  unfold kineticEnergy
  rw [sameStatics_length hs]
  simp only [sameStatics_mass hs, sameStatics_inertia hs]

theorem internal_statics {σ : Type} {w w' : World σ φ} (hs : SameStatics w w') (h : Internal w.joints) :
    Internal w'.joints := by
  intro j hj
  have : j.wiring ∈ w.joints.map Joint.wiring := hs.2 ▸ List.mem_map.2 ⟨j, hj, rfl⟩
  obtain ⟨j0, h0, he⟩ := List.mem_map.1 this
  have := h j0 h0
  simp only [Joint.wiring, Prod.mk.injEq] at he
  rw [← he.1, ← he.2.2]
  exact this

/-- The displacement of post-stabilization carries no momentum. -/
theorem poststab_momentum (bs : List Body) (js : List Joint) (cs : List Contact) (v dp l : Vec) (pn : ℕ → ℝ)
    (h : PostStabLaw bs js cs v dp l pn) (hint : Internal js) : linearMomentum bs dp = 0 := by
  have key : ∀ t : V2, t.1 * (linearMomentum bs dp).1 + t.2 * (linearMomentum bs dp).2 = 0 := by
    intro t
    have hd := h.dynamics (rigidField bs 0 t)
    rw [momentumPower_rigid, jointPower_zero js l _
      (jointVels_rigid bs 0 t js hint (fun h => absurd rfl h))] at hd
    have hcp : contactPower cs pn (fun _ => 0) (rigidField bs 0 t) = 0 := by
      unfold contactPower
      refine Finset.sum_eq_zero fun i _ => ?_
      cases cs[i]? with
      | none => rfl
      | some c =>
        simp only [normalVel, slipVel, contactVel_rigid, Spec.inner]
        ring
    rw [hcp] at hd
    linarith
  ext
  · simpa using key (1, 0)
  · simpa using key (0, 1)

/-- Where a step puts the bodies: along the new velocity, plus the post-stabilization displacement,
which is zero when the option is off and carries no momentum when it is on. -/
theorem step_motion {H : ForceHeap} {lcp : LcpSolver} {mi : ℕ}
    {collide : ℝ → φ → List Body → Except Err (φ × List Contact)} (hfind : FinderOk collide)
    (hx : Exact lcp) {w w' : World (Option Mat) φ} {fuel : ℕ} {dt : ℝ} (hw : EngineInv w)
    (h : w.step_dt (pdipmEnv 2 H lcp mi collide) fuel dt = .done w') :
    ∃ (d : ℝ) (dp : Vec), w'.t = w.t + d ∧ (w.post_stab = false → dp = fun _ => 0) ∧
      (Internal w.joints → linearMomentum w.bodies dp = 0) ∧
      ∀ i < w.bodies.length, (bodyAt w'.bodies i).p =
        (bodyAt w.bodies i).p + d • slice3 w'.v i + d • slice3 (fun n => dp n / 2) i := by
  obtain ⟨e, v, k, w1, w2, hsol, _, hw1, hg1, ⟨fk, f', cs, hcs, _, hw2⟩, _, hend⟩ :=
    step_dt_done hw.good h
  refine ⟨dt / 2 ^ k, ?_⟩
  rcases hend with ⟨_, rfl⟩ | ⟨hps, dp, f2, cs2, hdp, w3, hw3, hcs2, rfl⟩
  · refine ⟨fun _ => 0, ?_, fun _ => rfl, fun _ => by simp [linearMomentum], ?_⟩
    · subst hw2 hw1
      simp only [World.accepted]
    · intro i hi
      subst hw2 hw1
      simp only [World.accepted]
      rw [bodyAt_map _ _ _ (by rw [set_v_length]; exact hi), move_p]
      have : bodyAt (({ w with eng := e } : World (Option Mat) φ).set_v v).bodies i =
          { bodyAt w.bodies i with v := slice3 v i } := by
        simp [bodyAt, List.getD_eq_getElem?_getD, World.set_v, hi]
      rw [this]
      ext <;> simp [slice3, World.set_v]
  · have hs2 : SameStatics w w2 := by
      rw [hw2, hw1]
      exact (sameStatics_set_v w v e).trans (sameStatics_accepted _ _ _ _ _)
    have hj2 : JointsOk w2 := jointsOk_congr hs2 hw.joints
    have hc2 : ContactsOk w2 := by
      intro c hc
      subst hw2
      exact hfind _ _ _ _ _ hcs c hc
    have he2 : w2.eng = e := by rw [hw2, hw1]; rfl
    have hcache2 : CacheInv w2 := by
      apply solve_cacheInv hs2 hw.cache
      rw [he2]; exact hsol
    obtain ⟨l2, pn2, hlaw2⟩ := C62_post_stab_law lcp w2 dp hj2 hc2 hcache2.ok hx hdp
    refine ⟨dp, ?_, ?_, ?_, ?_⟩
    · subst hw3 hw2 hw1
      rfl
    · intro hf
      exfalso
      rw [hf] at hps
      cases hps
    · intro hint
      rw [← linearMomentum_statics hs2]
      exact poststab_momentum _ _ _ _ _ _ _ hlaw2 (internal_statics hs2 hint)
    · intro i hi
      subst hw3 hw2 hw1
      have hi1 : i < (({ w with eng := e } : World (Option Mat) φ).set_v v).bodies.length := by
        rw [set_v_length]; exact hi
      simp [World.set_v, World.moveJoints, World.moveBodies, World.accepted, bodyAt,
        List.getD_eq_getElem?_getD, hi, move_p]

/-- The forces on the bodies add up to nothing at any time (for instance: there are none, or they come
in opposite pairs). -/
def NoNetForce (H : ForceHeap) (n : ℕ) : Prop :=
  ∀ t fl, forceCat H t n = .ok fl →
    (∑ i ∈ Finset.range n, (fl.getD i 0).x = 0) ∧ ∑ i ∈ Finset.range n, (fl.getD i 0).y = 0

/-- No force or torque acts on any body at any time. -/
def NoForce (H : ForceHeap) (n : ℕ) : Prop :=
  ∀ t fl, forceCat H t n = .ok fl → ∀ i < n, fl.getD i 0 = 0

theorem momentum_step {H : ForceHeap} {lcp : LcpSolver} {mi : ℕ}
    {collide : ℝ → φ → List Body → Except Err (φ × List Contact)}
    (hx : Exact lcp) {w w' : World (Option Mat) φ} {fuel : ℕ} {dt : ℝ} (hw : EngineInv w)
    (hint : Internal w.joints) (hF : NoNetForce H w.bodies.length)
    (h : w.step_dt (pdipmEnv 2 H lcp mi collide) fuel dt = .done w') :
    totalMomentum w'.bodies = totalMomentum w.bodies := by
  obtain ⟨fl, l, pn, a, b, g, hfl, law⟩ := step_law hx hw h
  have hm := C40_linear_momentum _ _ _ _ _ _ _ _ _ _ _ law hint
  obtain ⟨h1, h2⟩ := hF _ _ hfl
  rw [totalMomentum_eq hw.good, totalMomentum_eq (step_dt_good hw.good h),
    linearMomentum_statics (step_dt_statics hw.good h), hm]
  have e1 : ∑ i ∈ Finset.range w.bodies.length, (impulse fl dt i).x = 0 := by
    have : ∀ i, (impulse fl dt i).x = dt * (fl.getD i 0).x := fun i => by simp [impulse]
    simp only [this]
    rw [← Finset.mul_sum, h1, mul_zero]
  have e2 : ∑ i ∈ Finset.range w.bodies.length, (impulse fl dt i).y = 0 := by
    have : ∀ i, (impulse fl dt i).y = dt * (fl.getD i 0).y := fun i => by simp [impulse]
    simp only [this]
    rw [← Finset.mul_sum, h2, mul_zero]
  rw [e1, e2]
  ext <;> simp

/-- C96: in a scene without constraints to the world and with forces that add up to nothing, total
linear momentum is the same at every moment of every run: whatever the contacts, friction,
restitution, joints between bodies, step sizes, and with post-stabilization on or off. -/
theorem C96_momentum (H : ForceHeap) (lcp : LcpSolver) (mi : ℕ)
    (collide : ℝ → φ → List Body → Except Err (φ × List Contact)) (hfind : FinderOk collide)
    (hx : Exact lcp) (w0 w : World (Option Mat) φ) (h0 : EngineInv w0) (hint : Internal w0.joints)
    (hF : NoNetForce H w0.bodies.length) (h : Reaches (pdipmEnv 2 H lcp mi collide) w0 w) :
    totalMomentum w.bodies = totalMomentum w0.bodies := by
  induction h with
  | refl => rfl
  | tail hr hstep ih =>
    have hw := C29_engine_invariant H lcp mi collide hfind _ _ h0 hr
    have hs := (reaches_statics h0.good hr).2
    obtain ⟨fuel, dt, hst⟩ := hstep
    rw [momentum_step hx hw (internal_statics hs hint) (by rw [sameStatics_length hs]; exact hF) hst, ih]

/-- C96: the centre of mass of such a scene moves uniformly: by the elapsed simulated time times the
initial momentum, post-stabilization included. -/
theorem C96_centre_of_mass (H : ForceHeap) (lcp : LcpSolver) (mi : ℕ)
    (collide : ℝ → φ → List Body → Except Err (φ × List Contact)) (hfind : FinderOk collide)
    (hx : Exact lcp) (w0 w : World (Option Mat) φ) (h0 : EngineInv w0) (hint : Internal w0.joints)
    (hF : NoNetForce H w0.bodies.length) (h : Reaches (pdipmEnv 2 H lcp mi collide) w0 w) :
    totalMass w.bodies = totalMass w0.bodies ∧
    massMoment w.bodies = massMoment w0.bodies + (w.t - w0.t) • totalMomentum w0.bodies := by
  constructor
  · have hs := (reaches_statics h0.good h).2
    unfold totalMass
    rw [sum_map_bodyAt, sum_map_bodyAt, sameStatics_length hs]
    exact Finset.sum_congr rfl fun i _ => sameStatics_mass hs i
  induction h with
  | refl => simp
  | @tail w w' hr hstep ih =>
    have hw := C29_engine_invariant H lcp mi collide hfind _ _ h0 hr
    have hs := (reaches_statics h0.good hr).2
    have hm := C96_momentum H lcp mi collide hfind hx w0 w h0 hint hF hr
    obtain ⟨fuel, dt, hst⟩ := hstep
    have hm' := momentum_step hx hw (internal_statics hs hint) (by rw [sameStatics_length hs]; exact hF) hst
    have hst' := step_dt_statics hw.good hst
    obtain ⟨d, dp, ht, -, hdp, hpos⟩ := step_motion hfind hx hw hst
    have hdp := hdp (internal_statics hs hint)
    rw [totalMomentum_eq (step_dt_good hw.good hst), linearMomentum_statics hst', hm] at hm'
    rw [ht, ← hm', show w.t + d - w0.t = (w.t - w0.t) + d by ring, add_smul, ← add_assoc]
    rw [hm', ← ih]
    rw [← hm']
    unfold massMoment
    rw [sum_map_bodyAt, sum_map_bodyAt, sameStatics_length hst']
    have d1 := congrArg Prod.fst hdp
    have d2 := congrArg Prod.snd hdp
    simp only [linearMomentum, Prod.fst_zero, Prod.snd_zero] at d1 d2
    unfold linearMomentum
    ext
    · rw [Prod.fst_add, Prod.fst_sum, Prod.fst_sum, Prod.smul_fst, smul_eq_mul, Finset.mul_sum,
        ← Finset.sum_add_distrib, ← add_zero (Finset.sum _ _), ← mul_zero (-(d / 2)), ← d1, Finset.mul_sum,
        ← Finset.sum_add_distrib]
      refine Finset.sum_congr rfl fun i hi => ?_
      have := congrArg V3.x (hpos i (Finset.mem_range.1 hi))
      simp only [V3.add_x, V3.smul_x, slice3] at this
      simp only [Prod.smul_fst, smul_eq_mul, Body.pos, V3.xy, sameStatics_mass hst']
      rw [this, mul_comm i 3]
      ring
    · rw [Prod.snd_add, Prod.snd_sum, Prod.snd_sum, Prod.smul_snd, smul_eq_mul, Finset.mul_sum,
        ← Finset.sum_add_distrib, ← add_zero (Finset.sum _ _), ← mul_zero (-(d / 2)), ← d2, Finset.mul_sum,
        ← Finset.sum_add_distrib]
      refine Finset.sum_congr rfl fun i hi => ?_
      have := congrArg V3.y (hpos i (Finset.mem_range.1 hi))
      simp only [V3.add_y, V3.smul_y, slice3] at this
      simp only [Prod.smul_snd, smul_eq_mul, Body.pos, V3.xy, sameStatics_mass hst']
      rw [this, mul_comm i 3]
      ring

/-- C96: a scene whose total momentum is zero never shifts its centre of mass. -/
theorem C96_centre_fixed (H : ForceHeap) (lcp : LcpSolver) (mi : ℕ)
    (collide : ℝ → φ → List Body → Except Err (φ × List Contact)) (hfind : FinderOk collide)
    (hx : Exact lcp) (w0 w : World (Option Mat) φ) (h0 : EngineInv w0) (hint : Internal w0.joints)
    (hF : NoNetForce H w0.bodies.length) (hP : totalMomentum w0.bodies = 0)
    (h : Reaches (pdipmEnv 2 H lcp mi collide) w0 w) : massMoment w.bodies = massMoment w0.bodies := by
  rw [(C96_centre_of_mass H lcp mi collide hfind hx w0 w h0 hint hF h).2, hP, smul_zero, add_zero]

/-- The offsets of every contact name one point of the world. -/
def ContactsMeet (bs : List Body) (cs : List Contact) : Prop :=
  ∀ c ∈ cs, (bodyAt bs c.i1).pos + c.p1 = (bodyAt bs c.i2).pos + c.p2

theorem impulse_zero {H : ForceHeap} {n : ℕ} (hF : NoForce H n) {t : ℝ} {fl : List V3}
    (hfl : forceCat H t n = .ok fl) (dt : ℝ) : impulse fl dt = fun _ => 0 := by
  funext i
  unfold impulse
  by_cases hi : i < n
  · rw [hF t fl hfl i hi]
    apply V3.ext <;> simp
  · have : fl.length ≤ i := by
      rw [(forceCat_length hfl).1]
      omega
    apply V3.ext <;> simp [List.getD_eq_getElem?_getD, this]

/-- C96: free bodies without forces keep their total angular momentum (spin plus orbital) along every
run without post-stabilization, whatever the collisions, friction and restitution, provided the
contact search reports each contact as one point of the world. -/
theorem C96_angular_momentum (H : ForceHeap) (lcp : LcpSolver) (mi : ℕ)
    (collide : ℝ → φ → List Body → Except Err (φ × List Contact)) (hfind : FinderOk collide)
    (hmeet : ∀ eps f bs f' cs, collide eps f bs = .ok (f', cs) → ContactsMeet bs cs)
    (hx : Exact lcp) (w0 w : World (Option Mat) φ) (h0 : EngineInv w0) (hj : w0.joints = [])
    (hc0 : ContactsMeet w0.bodies w0.contacts) (hps : w0.post_stab = false)
    (hF : NoForce H w0.bodies.length) (h : Reaches (pdipmEnv 2 H lcp mi collide) w0 w) :
    totalAngular w.bodies = totalAngular w0.bodies := by
  suffices h : totalAngular w.bodies = totalAngular w0.bodies ∧ ContactsMeet w.bodies w.contacts ∧
      w.post_stab = false from h.1
  induction h with
  | refl => exact ⟨rfl, hc0, hps⟩
  | @tail w w' hr hstep ih =>
    obtain ⟨ih, hc, hp⟩ := ih
    have hw := C29_engine_invariant H lcp mi collide hfind _ _ h0 hr
    have hs := (reaches_statics h0.good hr).2
    obtain ⟨fuel, dt, hst⟩ := hstep
    have hst' := step_dt_statics hw.good hst
    refine ⟨?_, ?_, by rw [(step_dt_params hw.good hst).2.2.2.1, hp]⟩
    swap
    · obtain ⟨f, f', hcol⟩ := step_contacts hw.good hst
      exact hmeet _ _ _ _ _ hcol
    have hjw : w.joints = [] := by
      have := hs.2
      rw [hj] at this
      simpa using this
    obtain ⟨fl, l, pn, a, b, g, hfl, law⟩ := step_law hx hw hst
    rw [impulse_zero (by rw [sameStatics_length hs]; exact hF) hfl] at law
    have hcons := C41_angular_momentum_conserved _ _ _ _ _ _ _ _ _ _ law (by rw [hjw]; intro j hj; cases hj)
      (by rw [hjw]; intro j hj; cases hj)
      (fun i hi => .inl (by unfold contactGap; rw [hc _ (List.getElem_mem hi), sub_self]))
    rw [← ih, totalAngular_eq hw.good, ← hcons, totalAngular_eq (step_dt_good hw.good hst)]
    obtain ⟨d, dp, -, hdp, -, hpos⟩ := step_motion hfind hx hw hst
    unfold angularMomentum
    rw [sameStatics_length hst']
    refine Finset.sum_congr rfl fun i hi => ?_
    have e := hpos i (Finset.mem_range.1 hi)
    rw [hdp hp] at e
    have e1 := congrArg V3.x e
    have e2 := congrArg V3.y e
    simp only [V3.add_x, V3.smul_x, V3.add_y, V3.smul_y, slice3, zero_div, mul_zero, add_zero] at e1 e2
    simp only [Body.pos, V3.xy, sameStatics_mass hst', sameStatics_inertia hst']
    rw [e1, e2, mul_comm i 3]
    ring

/-- C96: without forces, and with restitution zero, kinetic energy never increases along a run:
whatever the contacts, non-negative friction and constraints (also to the world), with
post-stabilization on or off. -/
theorem C96_energy_inelastic (H : ForceHeap) (lcp : LcpSolver) (mi : ℕ)
    (collide : ℝ → φ → List Body → Except Err (φ × List Contact)) (hfind : FinderOk collide)
    (hx : Exact lcp) (w0 w : World (Option Mat) φ) (h0 : EngineInv w0)
    (hb : ∀ b ∈ w0.bodies, 0 ≤ b.mass ∧ 0 ≤ b.ang_inertia ∧ 0 ≤ b.fric_coeff ∧ b.restitution = 0)
    (hF : NoForce H w0.bodies.length) (h : Reaches (pdipmEnv 2 H lcp mi collide) w0 w) :
    totalKinetic w.bodies ≤ totalKinetic w0.bodies := by
  induction h with
  | refl => exact le_refl _
  | @tail w w' hr hstep ih =>
    have hw := C29_engine_invariant H lcp mi collide hfind _ _ h0 hr
    have hs := (reaches_statics h0.good hr).2
    obtain ⟨fuel, dt, hst⟩ := hstep
    have hst' := step_dt_statics hw.good hst
    obtain ⟨fl, l, pn, a, b, g, hfl, law⟩ := step_law hx hw hst
    rw [impulse_zero (by rw [sameStatics_length hs]; exact hF) hfl] at law
    have hbw : ∀ i < w.bodies.length, 0 ≤ (bodyAt w.bodies i).mass ∧ 0 ≤ (bodyAt w.bodies i).ang_inertia ∧
        0 ≤ (bodyAt w.bodies i).fric_coeff ∧ (bodyAt w.bodies i).restitution = 0 := by
      intro i hi
      rw [sameStatics_mass hs, sameStatics_inertia hs, sameStatics_fric hs, sameStatics_restitution hs]
      exact hb _ (bodyAt_mem' (by rw [← sameStatics_length hs]; exact hi))
    have hle := C42_inelastic_energy_decreases _ _ _ _ _ _ _ _ _ _
      (fun i hi => ⟨(hbw i hi).1, (hbw i hi).2.1⟩)
      (fun c hc => by
        obtain ⟨q1, q2, -⟩ := hw.contacts c hc
        have := (hbw _ q1).2.2.1; have := (hbw _ q2).2.2.1
        unfold meanFriction; positivity)
      (fun c hc => by
        obtain ⟨q1, q2, -⟩ := hw.contacts c hc
        unfold meanRestitution; rw [(hbw _ q1).2.2.2, (hbw _ q2).2.2.2]; norm_num) law
    refine le_trans ?_ ih
    rw [totalKinetic_eq hw.good, totalKinetic_eq (step_dt_good hw.good hst), kineticEnergy_statics hst']
    exact hle

/-- C96: without forces and friction, free bodies of one common restitution `e` in `[0, 1]` never gain
kinetic energy along a run, and keep it exactly when `e = 1`. -/
theorem C96_energy_frictionless (H : ForceHeap) (lcp : LcpSolver) (mi : ℕ)
    (collide : ℝ → φ → List Body → Except Err (φ × List Contact)) (hfind : FinderOk collide)
    (hx : Exact lcp) (w0 w : World (Option Mat) φ) (h0 : EngineInv w0) (hj : w0.joints = []) (e : ℝ)
    (he : 0 ≤ e ∧ e ≤ 1)
    (hb : ∀ b ∈ w0.bodies, 0 ≤ b.mass ∧ 0 ≤ b.ang_inertia ∧ b.fric_coeff = 0 ∧ b.restitution = e)
    (hF : NoForce H w0.bodies.length) (h : Reaches (pdipmEnv 2 H lcp mi collide) w0 w) :
    totalKinetic w.bodies ≤ totalKinetic w0.bodies ∧
      (e = 1 → totalKinetic w.bodies = totalKinetic w0.bodies) := by
  induction h with
  | refl => exact ⟨le_refl _, fun _ => rfl⟩
  | @tail w w' hr hstep ih =>
    have hw := C29_engine_invariant H lcp mi collide hfind _ _ h0 hr
    have hs := (reaches_statics h0.good hr).2
    obtain ⟨fuel, dt, hst⟩ := hstep
    have hst' := step_dt_statics hw.good hst
    obtain ⟨fl, l, pn, a, b, g, hfl, law⟩ := step_law hx hw hst
    rw [impulse_zero (by rw [sameStatics_length hs]; exact hF) hfl] at law
    have hbw : ∀ i < w.bodies.length, 0 ≤ (bodyAt w.bodies i).mass ∧ 0 ≤ (bodyAt w.bodies i).ang_inertia ∧
        (bodyAt w.bodies i).fric_coeff = 0 ∧ (bodyAt w.bodies i).restitution = e := by
      intro i hi
      rw [sameStatics_mass hs, sameStatics_inertia hs, sameStatics_fric hs, sameStatics_restitution hs]
      exact hb _ (bodyAt_mem' (by rw [← sameStatics_length hs]; exact hi))
    have hjw : w.joints = [] := by
      have := hs.2
      rw [hj] at this
      simpa using this
    have hmu : ∀ c ∈ w.contacts, meanFriction w.bodies c = 0 := fun c hc => by
        obtain ⟨q1, q2, -⟩ := hw.contacts c hc
        unfold meanFriction; rw [(hbw _ q1).2.2.1, (hbw _ q2).2.2.1]; norm_num
    have hre : ∀ c ∈ w.contacts, meanRestitution w.bodies c = e := fun c hc => by
        obtain ⟨q1, q2, -⟩ := hw.contacts c hc
        unfold meanRestitution; rw [(hbw _ q1).2.2.2, (hbw _ q2).2.2.2]; ring
    have hjv : ∀ x ∈ jointVels w.joints w.v, x = 0 := by rw [hjw]; intro x hx; cases hx
    have hle := C42_frictionless_energy_le _ _ _ _ _ _ _ _ _ _ e (by linarith) he.2
      (fun i hi => ⟨(hbw i hi).1, (hbw i hi).2.1⟩) hmu hre hjv law
    have heq := C42_frictionless_energy _ _ _ _ _ _ _ _ _ _ e hmu hre hjv law
    have k := totalKinetic_eq hw.good
    have k' : totalKinetic w'.bodies = kineticEnergy w.bodies w'.v := by
      rw [totalKinetic_eq (step_dt_good hw.good hst), kineticEnergy_statics hst']
    refine ⟨by linarith [ih.1], fun h1 => ?_⟩
    have := ih.2 h1
    rw [h1] at heq
    linarith

/-- C96: the library's own contact search reports each contact as one point of the world. -/
theorem C96_search_meets (fuel : ℕ) (nc : ℕ → List ℕ) (pairs : List Body → List (ℕ × ℕ)) (eps : ℝ) (f f' : Finder)
    (bs : List Body) (cs : List Contact) (h : rejectNan (diffCollide fuel nc pairs) eps f bs = .ok (f', cs)) :
    ContactsMeet bs cs := by
  unfold rejectNan at h
  cases hd : diffCollide fuel nc pairs eps f bs with
  | error e => rw [hd] at h; cases h
  | ok r =>
    rw [hd] at h
    simp only at h
    split_ifs at h
    injection h with h
    subst h
    exact fun c hc => (C12_contacts_wellformed fuel nc pairs eps f f' bs cs hd c hc).2.2.2.2.1

/-- A returning simulation loop is a run in the sense of `Reaches`. -/
theorem runWorld_reaches {σ : Type} {env : Env σ φ} {fuel : ℕ} {T : ℝ} :
    ∀ {n : ℕ} {w u : World σ φ}, runWorld env fuel T n w = .done u → Reaches env w u
  | n, w, u, h => by
    unfold runWorld at h
    split_ifs at h with ht
    · cases n with
      | zero => cases h
      | succ n =>
        simp only [World.step, Bool.false_eq_true, if_false] at h
        cases hs : w.step_dt env fuel w.dt with
        | running => rw [hs] at h; cases h
        | raised e => rw [hs] at h; cases h
        | done w1 =>
          rw [hs, Run.bind_done] at h
          exact Relation.ReflTransGen.head ⟨fuel, w.dt, hs⟩ (runWorld_reaches h)
    · injection h with h
      subst h
      exact .refl

/-! ## Instances -/

theorem noForces_noForce (n : ℕ) : NoForce noForces n := by
  intro t fl h i hi
  rw [noForces_cat] at h
  injection h with h
  subst h
  simp [List.getD_eq_getElem?_getD, hi]

theorem noForces_noNet (n : ℕ) : NoNetForce noForces n := by
  intro t fl h
  constructor <;>
  · refine Finset.sum_eq_zero fun i hi => ?_
    rw [noForces_noForce n t fl h i (Finset.mem_range.1 hi)]
    rfl

/-- One circle runs into another one: after the run the momentum is still `(1, 0)`, the angular momentum
`0`, the mass moment has moved by `(1, 0)`, and no energy has been gained; the run returns. -/
example (fnd : Finder) (mi cfuel : ℕ) : ∃ u,
    Reaches (pdipmEnv 2 noForces exactLcp mi (rejectNan (diffCollide cfuel (fun _ => []) (bouncePairs false))))
      (bounceWorld 1 false fnd) u ∧ 1 ≤ u.t ∧ totalMomentum u.bodies = (1, 0) ∧ totalAngular u.bodies = 0 ∧
    massMoment u.bodies = (u.t, 0) ∧ totalKinetic u.bodies ≤ 1 / 2 := by
  obtain ⟨u, hu⟩ := bounce_runs 1 one_pos false fnd mi cfuel
  have hr := runWorld_reaches hu
  have hinv := bounceWorld_inv 1 false fnd
  have hb := bounceWorld_bodies 1 one_pos false fnd
  have hfind := C12_finder_ok cfuel (fun _ => []) (bouncePairs false) (bouncePairs_valid false)
  have hint : Internal (bounceWorld 1 false fnd).joints := by intro j hj; cases hj
  have h1 := C96_momentum noForces exactLcp mi _ hfind exactLcp_exact _ _ hinv hint (noForces_noNet _) hr
  have h2 := C96_centre_of_mass noForces exactLcp mi _ hfind exactLcp_exact _ _ hinv hint (noForces_noNet _) hr
  have h3 := C96_angular_momentum noForces exactLcp mi _ hfind
    (fun eps f bs f' cs h => C96_search_meets cfuel _ _ eps f f' bs cs h) exactLcp_exact _ _ hinv rfl
    (by
      intro c hc
      simp [bounceWorld] at hc
      subst hc
      ext <;> simp [bounceWorld, spinContact, bodyAt, scaleMass, unitCircle, Body.pos, V3.xy]) rfl
    (noForces_noForce _) hr
  have h4 := C96_energy_inelastic noForces exactLcp mi _ hfind exactLcp_exact _ _ hinv
    (fun b hbm => ⟨(hb b hbm).1.1.le, (hb b hbm).1.2.le, (hb b hbm).2.1.ge, (hb b hbm).2.2.1⟩)
    (noForces_noForce _) hr
  refine ⟨u, hr, (runWorld_done _ _ _ hinv.good one_pos hu).1, ?_, ?_, ?_, ?_⟩
  · rw [h1]; ext <;> simp [totalMomentum, bounceWorld, scaleMass, unitCircle, V3.xy]
  · rw [h3]; simp [totalAngular, bounceWorld, scaleMass, unitCircle, Spec.det, Body.pos, V3.xy]
  · rw [h2.2]; ext <;> simp [massMoment, totalMomentum, bounceWorld, scaleMass, unitCircle, Body.pos, V3.xy]
  · refine h4.trans (le_of_eq ?_)
    simp [totalKinetic, bounceWorld, scaleMass, unitCircle]

/-- The two pinned circles with post-stabilization on: along every run the momentum stays `(2, 0)`. -/
example (w : World (Option Mat) Unit)
    (h : Reaches (pdipmEnv 2 noForces exactLcp 10 fun _ _ _ => .ok ((), [])) { pinWorld with post_stab := true } w) :
    totalMomentum w.bodies = (2, 0) ∧ massMoment w.bodies = (2 * w.t, 4) := by
  have hinv : EngineInv { pinWorld with post_stab := true } :=
    ⟨⟨pinWorld_good.rect, pinWorld_good.valid, pinWorld_good.fix, pinWorld_good.vel⟩, pinWorld_joints,
      (by intro c hc; cases hc), by intro inv hi; cases hi⟩
  have hint : Internal ({ pinWorld with post_stab := true } : World (Option Mat) Unit).joints := by
    intro j hj
    have : j = demoJoint := by simpa [pinWorld] using hj
    subst this
    simp [demoJoint]
  have h1 := C96_momentum noForces exactLcp 10 _ noFinder_ok exactLcp_exact _ _ hinv hint (noForces_noNet _) h
  have h2 := (C96_centre_of_mass noForces exactLcp 10 _ noFinder_ok exactLcp_exact _ _ hinv hint (noForces_noNet _) h).2
  refine ⟨?_, ?_⟩
  · rw [h1]; ext <;> simp [totalMomentum, pinWorld, demoBody, V3.xy]; norm_num
  · rw [h2]; ext <;> simp [totalMomentum, massMoment, pinWorld, demoBody, V3.xy, Body.pos]; ring

/-- The spinning circles of `Props/Spin.lean`, perfectly elastic: energy is kept exactly. -/
example (w : World (Option Mat) Unit)
    (h : Reaches (pdipmEnv 2 noForces exactLcp 10 spinFinder) spinWorld w) :
    totalKinetic w.bodies = totalKinetic spinWorld.bodies ∧ massMoment w.bodies = massMoment spinWorld.bodies := by
  refine ⟨(C96_energy_frictionless noForces exactLcp 10 _ spinFinder_ok exactLcp_exact _ _ spinWorld_inv rfl 1
    (by norm_num) ?_ (noForces_noForce _) h).2 rfl,
    C96_centre_fixed noForces exactLcp 10 _ spinFinder_ok exactLcp_exact _ _ spinWorld_inv
      (by intro j hj; cases hj) (noForces_noNet _) ?_ h⟩
  · intro b hb
    simp [spinWorld] at hb
    rcases hb with rfl | rfl <;> simp [unitCircle]
  · ext <;> simp [totalMomentum, spinWorld, unitCircle, V3.xy]

end LcpPhysics
