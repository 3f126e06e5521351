import Verif.Props.FreeFlight
import Verif.Props.Joints

/-!
# Worked instances of the engine theorems (C29, C32-C43, C62)

Concrete worlds that satisfy the hypotheses of the engine theorems, with the conclusions evaluated.
-/

noncomputable section

namespace LcpPhysics
open Spec

/-! ## Worked instances -/

/-- Unit circle of unit mass and inertia at `(x, 0)`, restitution `e`, friction `mu`. -/
def unitCircle (x e mu : ℝ) : Body :=
  { p := ⟨0, x, 0⟩, v := 0, mass := 1, ang_inertia := 1, restitution := e, fric_coeff := mu, eps := 0,
    shape := .circle 1, geom := { kind := .sphere 1, pos := (x, 0), quat := none } }

/-- Contact of two such circles at `x = -1` and `x = 1`. -/
def headOn : Contact :=
  { normal := (-1, 0), p1 := (1, 0), p2 := (-1, 0), pen := 0, i1 := 0, i2 := 1 }

/-- Velocities: first circle right with speed `a`, second with speed `b`. -/
def headOnVel (a b : ℝ) : Vec := fun k => if k = 1 then a else if k = 4 then b else 0

/-- The contact law has solutions: an elastic head-on collision exchanges velocities. -/
theorem headOn_law : ContactLaw [unitCircle (-1) 1 0, unitCircle 1 1 0] [] [headOn] (fun _ => 0)
    (headOnVel 1 (-1)) (headOnVel (-1) 1) (fun _ => 0) (fun _ => 2) (fun _ => 0) (fun _ => 0)
    (fun _ => 0) := by
  refine ⟨?_, ?_, ?_, ?_, ?_, ?_⟩
  · intro u
    simp [momentumPower, forcePower, jointPower, jointVels, contactPower, Finset.sum_range_succ,
      bodyAt, unitCircle, headOnVel, headOn, twist, normalVel, slipVel, contactVel, pointVel, inner]
    ring
  · simp [jointVels]
  · intro i _; norm_num
  all_goals
    intro i hi
    have : i = 0 := by simpa using hi
    subst this
    simp [headOn, unitCircle, headOnVel, meanRestitution, meanFriction, bodyAt, normalVel, slipVel,
      contactVel, pointVel, twist, inner, tangent]

example : kineticEnergy [unitCircle (-1) 1 0, unitCircle 1 1 0] (headOnVel (-1) 1) ≤
    kineticEnergy [unitCircle (-1) 1 0, unitCircle 1 1 0] (headOnVel 1 (-1)) :=
  C42_frictionless_energy_le _ _ _ _ _ _ _ _ _ _ 1 (by norm_num) le_rfl
    (by intro i hi; have : i = 0 ∨ i = 1 := by (simp at hi; omega)
        rcases this with rfl | rfl <;> simp [bodyAt, unitCircle])
    (by simp [meanFriction, bodyAt, headOn, unitCircle])
    (by simp [meanRestitution, bodyAt, headOn, unitCircle])
    (by simp [jointVels]) headOn_law

example : linearMomentum [unitCircle (-1) 1 0, unitCircle 1 1 0] (headOnVel (-1) 1) =
    linearMomentum [unitCircle (-1) 1 0, unitCircle 1 1 0] (headOnVel 1 (-1)) + (0, 0) := by
  have := C40_linear_momentum _ _ _ _ _ _ _ _ _ _ _ headOn_law (by intro j hj; cases hj)
  simpa using this

example : angularMomentum [unitCircle (-1) 1 0, unitCircle 1 1 0] (headOnVel (-1) 1) =
    angularMomentum [unitCircle (-1) 1 0, unitCircle 1 1 0] (headOnVel 1 (-1)) :=
  C41_angular_momentum_conserved _ _ _ _ _ _ _ _ _ _ headOn_law (by intro j hj; cases hj)
    (by intro j hj; cases hj)
    (by
      intro i hi
      have : i = 0 := by simpa using hi
      subst this
      left
      simp [contactGap, bodyAt, unitCircle, headOn, Body.pos, V3.xy])

/-- A sliding contact, friction `1` and no restitution: the circles touch along `x` and slide along
`y`; friction slows the sliding and spins both. -/
theorem sliding_law : ContactLaw [unitCircle (-1) 0 1, unitCircle 1 0 1] [] [headOn] (fun _ => 0)
    (fun k => if k = 1 then 1 else if k = 4 then -1 else if k = 2 then 12 else if k = 5 then -12 else 0)
    (fun k => if k = 1 then 0 else if k = 4 then 0 else if k = 2 then 11 else if k = 5 then -11 else
      if k = 0 then -1 else if k = 3 then -1 else 0) (fun _ => 0) (fun _ => 1)
    (fun _ => 0) (fun _ => 1) (fun _ => 20) := by
  refine ⟨?_, ?_, ?_, ?_, ?_, ?_⟩
  · intro u
    simp [momentumPower, forcePower, jointPower, jointVels, contactPower, Finset.sum_range_succ,
      bodyAt, unitCircle, headOn, twist, normalVel, slipVel, contactVel, pointVel, inner, tangent]
    ring
  · simp [jointVels]
  · intro i _; norm_num
  all_goals
    intro i hi
    have : i = 0 := by simpa using hi
    subst this
    simp [headOn, unitCircle, meanRestitution, meanFriction, bodyAt, normalVel, slipVel,
      contactVel, pointVel, twist, inner, tangent]
  all_goals norm_num

example : (0 : ℝ) - 1 = -(meanFriction [unitCircle (-1) 0 1, unitCircle 1 0 1] headOn * 1) :=
  (C39_coulomb _ _ _ _ _ _ _ _ _ _ _ sliding_law 0 (by simp)).2.1 (by
    simp [headOn, slipVel, contactVel, pointVel, twist, inner, tangent]; norm_num)


/-! ## An exact solver, and an end-to-end collision -/

open Classical in
/-- The exact solver: returns a solution when there is one. -/
def exactLcp : LcpSolver := fun _ nz neq nineq Q p G h A b F =>
  if hx : ∃ x s z y, IsMlcp nz neq nineq Q p G h A b F x s z y then .ok (Classical.choose hx)
  else .error (.raised "no solution")

theorem exactLcp_exact : Exact exactLcp := by
  intro mi nz neq nineq Q p G h A b F x hx
  unfold exactLcp at hx
  split at hx
  · rename_i hex
    injection hx with hx
    rw [← hx]
    exact Classical.choose_spec hex
  · cases hx

theorem exactLcp_total {nz neq nineq : ℕ} {Q : Mat} {p : Vec} {G : Mat} {h : Vec} {A : Mat} {b : Vec}
    {F : Mat} {x s z y : Vec} (mi : ℕ) (hx : IsMlcp nz neq nineq Q p G h A b F x s z y) :
    ∃ x', exactLcp mi nz neq nineq Q p G h A b F = .ok x' := by
  unfold exactLcp
  rw [dif_pos ⟨x, s, z, y, hx⟩]
  exact ⟨_, rfl⟩

/-- No force objects at all. -/
def noForces : ForceHeap := { obj := fun _ => .gravity 0 none, attached := fun _ => [] }

theorem noForces_cat (t : ℝ) (n : ℕ) : forceCat noForces t n = .ok (List.replicate n 0) := by
  induction n with
  | zero => rfl
  | succ n ih =>
    have h : noForces.apply_forces n t = some 0 := by simp [ForceHeap.apply_forces, noForces]
    simp [forceCat, ih, h, List.replicate_succ']

/-- Two elastic unit circles about to collide. -/
def headOnWorld : World (Option Mat) Unit :=
  { t := 0, dt := 1, eps := 0, tol := 0, post_stab := false, strict_no_pen := false,
    bodies := [unitCircle (-1) 1 0, unitCircle 1 1 0], joints := [], v := headOnVel 1 (-1),
    contacts := [headOn], eng := none, fnd := () }

theorem headOnWorld_contacts : ContactsOk headOnWorld := by
  intro c hc
  have : c = headOn := by simpa [headOnWorld] using hc
  subst this
  simp [headOn, headOnWorld]

theorem headOnWorld_joints : JointsOk headOnWorld := by intro j hj; cases hj

/-- The engine with an exact solver turns the head-on elastic collision around: it does not raise,
and the new velocities are exactly the exchanged ones. -/
theorem headOn_engine (dt : ℝ) : ∃ e v', pdipmSolve 2 noForces exactLcp 10 headOnWorld dt = .ok (e, v') ∧
    ∀ k < 6, v' k = headOnVel (-1) 1 k := by
  have hJ : headOnWorld.Jf 2 = .ok (JfLoop headOnWorld.contacts 0 fun _ _ => 0) := by
    simp [World.Jf]
  have hf : forceCat noForces 0 2 = .ok [0, 0] := noForces_cat 0 2
  have hl : ContactLaw headOnWorld.bodies headOnWorld.joints headOnWorld.contacts
      (impulse [0, 0] dt) headOnWorld.v (headOnVel (-1) 1) (fun _ => 0) (fun _ => 2) (fun _ => 0)
      (fun _ => 0) (fun _ => 0) := by
    have := headOn_law
    refine ⟨?_, this.joints, this.nonneg, this.restitution, this.slip, this.cone⟩
    intro u
    have h := this.dynamics u
    simp only [forcePower, headOnWorld, impulse] at h ⊢
    simpa [Finset.sum_range_succ] using h
  have hrun : ∃ e v', pdipmSolve 2 noForces exactLcp 10 headOnWorld dt = .ok (e, v') := by
    obtain ⟨s, hs⟩ := C34_lcp_complete headOnWorld headOnWorld_joints headOnWorld_contacts _ hJ
      (impulse [0, 0] dt) (fun k => dt * cat3 [0, 0] k) (fun i hi => impulse_entries [0, 0] dt i hi)
      (fun k => if k < 3 * headOnWorld.bodies.length then
          mv headOnWorld.M (3 * headOnWorld.bodies.length) headOnWorld.v k + dt * cat3 [0, 0] k else 0)
      (fun k hk => if_pos hk) _ _ _ _ _ _ hl
    obtain ⟨x', hx'⟩ := exactLcp_total 10 hs
    refine ⟨none, fun k => -x' k, ?_⟩
    unfold pdipmSolve
    simp only
    have : forceCat noForces headOnWorld.t headOnWorld.bodies.length = .ok [0, 0] := hf
    rw [this]
    simp only
    rw [if_neg (by simp [headOnWorld]), hJ]
    simp only
    rw [hx']
    rfl
  obtain ⟨e, v', hv⟩ := hrun
  refine ⟨e, v', hv, ?_⟩
  obtain ⟨fl, l, pn, a, b, g, hfl, hlaw⟩ := C38_engine_contact_law noForces exactLcp 10 headOnWorld dt e v'
    headOnWorld_joints headOnWorld_contacts (by intro inv hi; cases hi) exactLcp_exact hv
  have hfl' : fl = [0, 0] := by
    have h2 : forceCat noForces headOnWorld.t headOnWorld.bodies.length = .ok [0, 0] := hf
    rw [h2] at hfl
    injection hfl with hfl
    exact hfl.symm
  subst hfl'
  exact C43_frictionless_unique _ _ _ _ _ _ _ _ _ _ _ _ _ _ _ _ _
    (by intro i hi; have : i = 0 ∨ i = 1 := by (simp [headOnWorld] at hi; omega)
        rcases this with rfl | rfl <;> simp [bodyAt, unitCircle, headOnWorld])
    (by simp [meanFriction, bodyAt, headOn, unitCircle, headOnWorld]) hlaw hl

/-! ## A constrained world: a circle on a vertical rail -/

/-- One circle, moving, held by an X constraint; no contacts. -/
def railWorld : World (Option Mat) Unit :=
  { t := 0, dt := 1, eps := 0, tol := 0, post_stab := false, strict_no_pen := false,
    bodies := [{ unitCircle 0 0 0 with v := ⟨1, 2, 3⟩ }], joints := [mkAxis .xc [unitCircle 0 0 0] 0],
    v := fun k => k + 1, contacts := [], eng := none, fnd := () }

theorem railWorld_inv : EngineInv railWorld := by
  refine ⟨⟨?_, ?_, ?_, ?_⟩, ?_, ?_, ?_⟩
  · intro b hb
    have : b = { unitCircle 0 0 0 with v := ⟨1, 2, 3⟩ } := by simpa [railWorld] using hb
    subst this
    simp [Body.RectForm, unitCircle]
  · intro j hj
    have : j = mkAxis .xc [unitCircle 0 0 0] 0 := by simpa [railWorld] using hj
    subst this
    simp [Joint.Valid, mkAxis, railWorld]
  · intro j hj
    have : j = mkAxis .xc [unitCircle 0 0 0] 0 := by simpa [railWorld] using hj
    subst this
    simp [mkAxis, railWorld, Joint.update_pos, bodyAt, unitCircle, Body.pos, V3.xy]
  · intro i hi
    have : i = 0 := by simpa [railWorld] using hi
    subst this
    simp [railWorld, slice3]
    norm_num
  · intro j hj
    have : j = mkAxis .xc [unitCircle 0 0 0] 0 := by simpa [railWorld] using hj
    subst this
    simp [mkAxis, railWorld]
  · intro c hc; cases hc
  · intro inv hi; cases hi

theorem railWorld_independent : Independent railWorld := by
  intro l hl r hr
  have hr0 : r = 0 := by simpa [railWorld, World.num_constraints, mkAxis, JKind.num_constraints] using hr
  subst hr0
  have := hl fun _ => 1
  simpa [jointPower, jointVels, railWorld, mkAxis, jointVel, twist] using this

/-- The hypotheses of C35 hold for it, so the engine succeeds. -/
example : ∃ r, pdipmSolve 2 noForces exactLcp 10 railWorld 1 = .ok r :=
  C35_no_contact_succeeds 2 noForces exactLcp 10 railWorld 1 railWorld_inv.joints
    (by simp [railWorld, unitCircle]) railWorld_independent rfl [0] (noForces_cat 0 1)

/-- A finder without contacts satisfies `FinderOk`. -/
theorem noFinder_ok : FinderOk (φ := Unit) fun _ _ _ => .ok ((), []) := by
  intro eps f bs f' cs h c hc
  injection h with h
  injection h with h1 h2
  rw [← h2] at hc
  cases hc

/-- C29 on a real run: a step happens, the time advances, and the body's `x` is unchanged. -/
example : ∃ w, StepsTo (pdipmEnv 2 noForces exactLcp 10 fun _ _ _ => .ok ((), [])) railWorld w ∧
    w.t = 1 ∧ (bodyAt w.bodies 0).p.x = 0 := by
  obtain ⟨⟨e, v'⟩, hv⟩ := C35_no_contact_succeeds 2 noForces exactLcp 10 railWorld 1
    railWorld_inv.joints (by simp [railWorld, unitCircle]) railWorld_independent rfl [0]
    (noForces_cat 0 1)
  obtain ⟨f', hf'⟩ := step_no_contacts (pdipmEnv 2 noForces exactLcp 10 fun _ _ _ => .ok ((), [])) 0
    railWorld railWorld_inv.good 1 rfl (fun _ _ _ => ⟨(), rfl⟩) e v' hv
  refine ⟨_, ⟨1, 1, hf'⟩, by simp [railWorld], ?_⟩
  have := (C29_static_constraints_hold noForces exactLcp 10 _ noFinder_ok exactLcp_exact railWorld _
    railWorld_inv (Relation.ReflTransGen.single ⟨1, 1, hf'⟩) (mkAxis .xc [unitCircle 0 0 0] 0)
    (by simp [railWorld])).1 rfl
  rw [show (0 : ℕ) = (mkAxis .xc [unitCircle 0 0 0] 0).i1 from rfl, this]
  simp [railWorld, bodyAt, mkAxis, unitCircle]

/-- C37 on the same run: the rail is static, so the step fills the cache. -/
example : ∃ inv v', pdipmSolve 2 noForces exactLcp 10 railWorld 1 = .ok (some inv, v') := by
  obtain ⟨inv, hi⟩ := system_invertible railWorld railWorld_inv.joints
    (by simp [railWorld, unitCircle]) railWorld_independent
  have hf : forceCat noForces railWorld.t railWorld.bodies.length = .ok [0] := noForces_cat 0 1
  have hst : railWorld.static_inverse = true := by
    simp [World.static_inverse, railWorld, mkAxis, JKind.static]
  unfold pdipmSolve
  simp only [hf, hi, hst]
  exact ⟨_, _, rfl⟩

/-- C62 is not vacuous: post-stabilization of the rail world cancels the `x` velocity. -/
example : ∃ dp, pdipmPostStab exactLcp railWorld = .ok dp ∧ dp 1 = -2 := by
  obtain ⟨inv, hi⟩ := system_invertible railWorld railWorld_inv.joints
    (by simp [railWorld, unitCircle]) railWorld_independent
  have h : ∃ dp, pdipmPostStab exactLcp railWorld = .ok dp := by
    unfold pdipmPostStab
    simp only [hi]
    exact ⟨_, rfl⟩
  obtain ⟨dp, hdp⟩ := h
  refine ⟨dp, hdp, ?_⟩
  obtain ⟨l, pn, hl⟩ := C62_post_stab_law exactLcp railWorld dp railWorld_inv.joints
    railWorld_inv.contacts railWorld_inv.cache.ok exactLcp_exact hdp
  have := hl.joints
  simp [jointVels, railWorld, mkAxis, jointVel, twist] at this
  linarith

/-! ## Assembly (C07, C32, C33) -/

/-- The mass matrix of the head-on world is positive on the velocities. -/
example : 0 < ∑ k ∈ Finset.range (3 * headOnWorld.bodies.length),
    headOnWorld.v k * mv headOnWorld.M (3 * headOnWorld.bodies.length) headOnWorld.v k :=
  C07_mass_matrix_posdef headOnWorld (by simp [headOnWorld, unitCircle]) _
    ⟨1, by simp [headOnWorld], by simp [headOnWorld, headOnVel]⟩

/-- C33: the contact row of `Jc` gives the approach speed `-2` of the circles. -/
example : mv headOnWorld.Jc (3 * headOnWorld.bodies.length) headOnWorld.v 0 = -2 := by
  rw [C33_normal_jacobian headOnWorld headOnWorld_contacts _ 0 (by simp [headOnWorld])]
  simp [headOnWorld, headOn, headOnVel, normalVel, contactVel, pointVel, twist, inner]
  norm_num

/-- C33: friction rows, for circles that slide along `y`. -/
example : ∃ Jf, headOnWorld.Jf 2 = .ok Jf ∧
    mv Jf (3 * headOnWorld.bodies.length) (fun k => if k = 2 then 5 else 0) 0 =
      slipVel headOn (fun k => if k = 2 then 5 else 0) ∧ slipVel headOn (fun k => if k = 2 then 5 else 0) = 5 := by
  have hJ : headOnWorld.Jf 2 = .ok (JfLoop headOnWorld.contacts 0 fun _ _ => 0) := by
    simp [World.Jf]
  refine ⟨_, hJ, ?_, ?_⟩
  · exact (C33_friction_jacobian headOnWorld headOnWorld_contacts _ hJ _ 0 (by simp [headOnWorld])).1
  · simp [headOn, slipVel, contactVel, pointVel, twist, inner, tangent]

/-- C33: three friction directions do not fit. -/
example : ∃ e, headOnWorld.Jf 3 = .error e :=
  C33_fric_dirs_not_two headOnWorld 3 (by norm_num) (by simp [headOnWorld])

example : inner (tangent (3 / 5, 4 / 5)) (3 / 5, 4 / 5) = 0 :=
  (C33_tangent_orthonormal (3 / 5, 4 / 5) (by norm_num [inner])).1

/-- C32: the rail's row of `Je` reads the `x` velocity, which is not in the kernel. -/
example : (List.range railWorld.num_constraints).map
      (mv railWorld.Je (3 * railWorld.bodies.length) railWorld.v) = [2] ∧
    ¬ ∀ r < railWorld.num_constraints, mv railWorld.Je (3 * railWorld.bodies.length) railWorld.v r = 0 := by
  have h : jointVels railWorld.joints railWorld.v = [2] := by
    simp [jointVels, railWorld, mkAxis, jointVel, twist]
    norm_num
  refine ⟨(C32_equality_jacobian railWorld railWorld_inv.joints _).trans h, ?_⟩
  rw [C32_kernel railWorld railWorld_inv.joints]
  intro h0
  have := h0 (mkAxis .xc [unitCircle 0 0 0] 0) (by simp [railWorld]) 2
    (by simp [railWorld, mkAxis, jointVel, twist]; norm_num)
  norm_num at this

/-! ## Engine (C34-C38) -/

/-- C34: the LCP built for the head-on collision has a solution, and any solution obeys the contact
law: both directions of the equivalence are used. -/
example : ∃ v' l pn a b g, ContactLaw headOnWorld.bodies headOnWorld.joints headOnWorld.contacts
    (fun _ => 0) headOnWorld.v v' l pn a b g ∧ v' 1 = -1 := by
  have hJ : headOnWorld.Jf 2 = .ok (JfLoop headOnWorld.contacts 0 fun _ _ => 0) := by
    simp [World.Jf]
  obtain ⟨s, hs⟩ := C34_lcp_complete headOnWorld headOnWorld_joints headOnWorld_contacts _ hJ (fun _ => 0)
    (fun _ => 0) (fun i hi => ⟨rfl, rfl, rfl⟩) _ (fun k _ => rfl) _ _ _ _ _ _ headOn_law
  have h := C34_lcp_sound headOnWorld headOnWorld_joints headOnWorld_contacts _ hJ (fun _ => 0)
    (fun _ => 0) (fun i hi => ⟨rfl, rfl, rfl⟩) _ (fun k _ => rfl) _ s _ _ hs
  exact ⟨_, _, _, _, _, _, h, by simp [headOnVel]⟩

/-- C35: the answer for the rail obeys the law of the joint alone, and it is the only velocity that
does: `(1, 0, 3)`. -/
example : ∃ e v', pdipmSolve 2 noForces exactLcp 10 railWorld 1 = .ok (e, v') ∧ v' 0 = 1 ∧ v' 1 = 0 ∧ v' 2 = 3 := by
  obtain ⟨⟨e, v'⟩, hv⟩ := C35_no_contact_succeeds 2 noForces exactLcp 10 railWorld 1
    railWorld_inv.joints (by simp [railWorld, unitCircle]) railWorld_independent rfl [0]
    (noForces_cat 0 1)
  have hu := C35_no_contact_unique 2 noForces exactLcp 10 railWorld 1 e v' railWorld_inv.joints rfl
    railWorld_inv.cache.ok hv [0] (noForces_cat 0 1)
    (fun k => if k = 0 then 1 else if k = 2 then 3 else 0) (fun _ => -2) (by
      refine ⟨?_, ?_, ?_, ?_, ?_, ?_⟩
      · intro u
        simp [momentumPower, forcePower, jointPower, jointVels, contactPower, railWorld, bodyAt, unitCircle,
          impulse, mkAxis, jointVel, twist]
        ring
      · simp [jointVels, railWorld, mkAxis, jointVel, twist]
      · intro i hi; simp at hi
      all_goals
        intro i hi
        simp at hi)
  have hl : 3 * railWorld.bodies.length = 3 := by simp [railWorld]
  rw [hl] at hu
  exact ⟨e, v', hv, by rw [← hu 0 (by norm_num)]; simp, by rw [← hu 1 (by norm_num)]; simp,
    by rw [← hu 2 (by norm_num)]; simp⟩

/-- One circle of mass two under gravity ten, moving. -/
def fallWorld : World (Option Mat) Unit :=
  { t := 0, dt := 1, eps := 0, tol := 0, post_stab := false, strict_no_pen := false,
    bodies := [{ unitCircle 0 0 0 with v := ⟨1, 2, 3⟩, mass := 2 }], joints := [],
    v := fun k => k + 1, contacts := [], eng := none, fnd := () }

/-- Gravity ten attached to body 0, of mass two. -/
def fallForces : ForceHeap :=
  { obj := fun _ => .gravity 10 (some ⟨0, 0, 20⟩), attached := fun i => if i = 0 then [0] else [] }

theorem fallForces_cat (t : ℝ) : forceCat fallForces t 1 = .ok [⟨0, 0, 20⟩] := by
  have h : fallForces.apply_forces 0 t = some ⟨0, 0, 20⟩ := by
    simp [ForceHeap.apply_forces, fallForces, sumForces, Force.force]
    apply V3.ext <;> simp
  simp [forceCat, h]

theorem fallWorld_good : fallWorld.Good := by
  refine ⟨?_, ?_, ?_, ?_⟩
  · intro b hb
    have : b = { unitCircle 0 0 0 with v := ⟨1, 2, 3⟩, mass := 2 } := by simpa [fallWorld] using hb
    subst this
    simp [Body.RectForm, unitCircle]
  · intro j hj; cases hj
  · intro j hj; cases hj
  · intro i hi
    have : i = 0 := by simpa [fallWorld] using hi
    subst this
    simp [fallWorld, slice3]
    norm_num

/-- C36: one step of length one adds `10` to the `y` velocity. -/
example : ∃ e v', pdipmSolve 2 fallForces exactLcp 10 fallWorld 1 = .ok (e, v') ∧ v' 2 = 13 := by
  obtain ⟨e, v', h, hv⟩ := C36_free_flight 2 fallForces exactLcp 10 fallWorld 1 rfl rfl
    (by intro inv hi; cases hi) (by simp [fallWorld, unitCircle]) [⟨0, 0, 20⟩] (fallForces_cat 0)
  refine ⟨e, v', h, ?_⟩
  have := (hv 0 (by simp [fallWorld]) (by simp)).2.2
  simp [fallWorld] at this
  rw [this]
  norm_num

/-- C36, many steps: after three steps of length one the body has fallen by `3 * 3 + 10 * 6`. -/
example : ∃ w', iterSteps (pdipmEnv 2 fallForces exactLcp 10 fun _ _ _ => .ok ((), [])) 1 1 3 fallWorld = .done w' ∧
    w'.t = 3 ∧ (bodyAt w'.bodies 0).p.y = 69 := by
  obtain ⟨w', h, ht, -, hp⟩ := C36_free_flight_n 2 fallForces exactLcp 10 0 (fun _ _ _ => .ok ((), []))
    (fun _ _ _ => ⟨(), rfl⟩) 1 [⟨0, 0, 20⟩] 3 fallWorld fallWorld_good (by intro inv hi; cases hi) rfl rfl rfl
    (by simp [fallWorld, unitCircle]) (fun t => fallForces_cat t)
  refine ⟨w', h, by rw [ht]; simp [fallWorld], ?_⟩
  rw [(hp 0 (by simp [fallWorld])).1]
  simp [fallWorld, bodyAt, unitCircle]
  norm_num

/-- C38 on the head-on collision: the circles separate, at the speed they approached with. -/
example : 0 ≤ normalVel headOn (headOnVel (-1) 1) ∧ normalVel headOn (headOnVel (-1) 1) = 2 := by
  have h1 := C38_no_approach _ _ _ _ _ _ _ _ _ _ _ headOn_law 0 (by simp)
    (by simp [meanRestitution, bodyAt, headOn, unitCircle])
    (by simp [headOn, headOnVel, normalVel, contactVel, pointVel, twist, inner])
  have h2 := (C38_restitution _ _ _ _ _ _ _ _ _ _ _ headOn_law 0 (by simp)).2.2 (by norm_num)
  refine ⟨h1, ?_⟩
  simp [meanRestitution, bodyAt, headOn, unitCircle, headOnVel, normalVel, contactVel, pointVel, twist, inner] at h2 ⊢
  linarith

/-! ## Energy (C41, C42) -/

/-- C42: the sliding collision loses energy. -/
example : kineticEnergy [unitCircle (-1) 0 1, unitCircle 1 0 1]
      (fun k => if k = 1 then 0 else if k = 4 then 0 else if k = 2 then 11 else if k = 5 then -11 else
        if k = 0 then -1 else if k = 3 then -1 else 0) ≤
    kineticEnergy [unitCircle (-1) 0 1, unitCircle 1 0 1]
      (fun k => if k = 1 then 1 else if k = 4 then -1 else if k = 2 then 12 else if k = 5 then -12 else 0) :=
  C42_inelastic_energy_decreases _ _ _ _ _ _ _ _ _ _
    (by intro i hi; have : i = 0 ∨ i = 1 := by (simp at hi; omega)
        rcases this with rfl | rfl <;> simp [bodyAt, unitCircle])
    (by simp [meanFriction, bodyAt, headOn, unitCircle])
    (by simp [meanRestitution, bodyAt, headOn, unitCircle]) sliding_law

/-- C42: the energy balance of the sliding collision, evaluated: `122 - 145 = -3 - 20`. -/
example : kineticEnergy [unitCircle (-1) 0 1, unitCircle 1 0 1]
      (fun k => if k = 1 then 0 else if k = 4 then 0 else if k = 2 then 11 else if k = 5 then -11 else
        if k = 0 then -1 else if k = 3 then -1 else 0) -
    kineticEnergy [unitCircle (-1) 0 1, unitCircle 1 0 1]
      (fun k => if k = 1 then 1 else if k = 4 then -1 else if k = 2 then 12 else if k = 5 then -12 else 0) = -23 := by
  rw [C42_energy_balance _ _ _ _ _ _ _ _ _ _ _ sliding_law]
  simp [forcePower, kineticEnergy, Finset.sum_range_succ, bodyAt, unitCircle, headOn, meanRestitution, meanFriction]
  norm_num

/-- C41: the balance of angular momentum holds for the sliding collision (no gap, no torque). -/
example : angularMomentum [unitCircle (-1) 0 1, unitCircle 1 0 1]
      (fun k => if k = 1 then 0 else if k = 4 then 0 else if k = 2 then 11 else if k = 5 then -11 else
        if k = 0 then -1 else if k = 3 then -1 else 0) =
    angularMomentum [unitCircle (-1) 0 1, unitCircle 1 0 1]
      (fun k => if k = 1 then 1 else if k = 4 then -1 else if k = 2 then 12 else if k = 5 then -12 else 0) := by
  rw [C41_angular_momentum_balance _ _ _ _ _ _ _ _ _ _ _ sliding_law (by intro j hj; cases hj)
    (by intro j hj; cases hj)]
  simp [Finset.sum_range_succ, contactGap, bodyAt, unitCircle, headOn, Body.pos, V3.xy]

/-! ## Cache and post-stabilization (C29, C37, C62) -/

/-- C37 and C29: the world after a step of the rail world has a cache, and the cache is right. -/
example : ∃ w, StepsTo (pdipmEnv 2 noForces exactLcp 10 fun _ _ _ => .ok ((), [])) railWorld w ∧
    CacheInv w ∧ EngineInv w ∧ w.eng ≠ none := by
  obtain ⟨inv, hi⟩ := system_invertible railWorld railWorld_inv.joints
    (by simp [railWorld, unitCircle]) railWorld_independent
  have hf : forceCat noForces railWorld.t railWorld.bodies.length = .ok [0] := noForces_cat 0 1
  have hst : railWorld.static_inverse = true := by
    simp [World.static_inverse, railWorld, mkAxis, JKind.static]
  have hv : ∃ v', pdipmSolve 2 noForces exactLcp 10 railWorld 1 = .ok (some inv, v') := by
    unfold pdipmSolve
    simp only [hf, hi, hst]
    exact ⟨_, rfl⟩
  obtain ⟨v', hv⟩ := hv
  obtain ⟨f', hf'⟩ := step_no_contacts (pdipmEnv 2 noForces exactLcp 10 fun _ _ _ => .ok ((), [])) 0
    railWorld railWorld_inv.good 1 rfl (fun _ _ _ => ⟨(), rfl⟩) _ v' hv
  have hr : Reaches (pdipmEnv 2 noForces exactLcp 10 fun _ _ _ => .ok ((), [])) railWorld _ :=
    Relation.ReflTransGen.single ⟨1, 1, hf'⟩
  exact ⟨_, ⟨1, 1, hf'⟩,
    C37_cache_never_stale 2 noForces exactLcp 10 _ railWorld _ railWorld_inv.good rfl hr,
    C29_engine_invariant noForces exactLcp 10 _ noFinder_ok railWorld _ railWorld_inv hr,
    by simp [World.accepted, World.set_v]⟩

/-- The two joined circles of `Props/Joints.lean`, with the engine of the library. -/
def pinWorld : World (Option Mat) Unit :=
  { t := 0, dt := 1, eps := 0, tol := 0, post_stab := false, strict_no_pen := false,
    bodies := [demoBody 0, demoBody 4], joints := [demoJoint],
    v := fun k => if k % 3 = 2 then 0 else 1, contacts := [], eng := none, fnd := () }

theorem pinWorld_good : pinWorld.Good :=
  ⟨(demoWorld_good false).rect, (demoWorld_good false).valid, (demoWorld_good false).fix,
    (demoWorld_good false).vel⟩

theorem pinWorld_joints : JointsOk pinWorld := by
  intro j hj
  have : j = demoJoint := by simpa [pinWorld] using hj
  subst this
  simp [demoJoint, pinWorld]

theorem pinWorld_independent : Independent pinWorld := by
  intro l hl r hr
  have hr2 : r = 0 ∨ r = 1 := by
    have : r < 2 := by simpa [pinWorld, World.num_constraints, demoJoint, JKind.num_constraints] using hr
    omega
  have h1 := hl fun k => if k = 1 then 1 else 0
  have h2 := hl fun k => if k = 2 then 1 else 0
  simp [jointPower, jointVels, pinWorld, demoJoint, jointVel, twist, Finset.sum_range_succ, pointVel] at h1 h2
  rcases hr2 with rfl | rfl
  · exact h1
  · exact h2

/-- C37: a world with a revolute joint takes a step and does not cache. -/
example : ∃ w : World (Option Mat) Unit, (∃ j ∈ pinWorld.joints, j.kind = .revolute ∨ j.kind = .fixed) ∧
    StepsTo (pdipmEnv 2 noForces exactLcp 10 fun _ _ _ => .ok ((), [])) pinWorld w ∧ w.eng = none := by
  obtain ⟨⟨e, v'⟩, hv⟩ := C35_no_contact_succeeds 2 noForces exactLcp 10 pinWorld 1 pinWorld_joints
    (by simp [pinWorld, demoBody]) pinWorld_independent rfl [0, 0] (noForces_cat 0 2)
  obtain ⟨f', hf'⟩ := step_no_contacts (pdipmEnv 2 noForces exactLcp 10 fun _ _ _ => .ok ((), [])) 0
    pinWorld pinWorld_good 1 rfl (fun _ _ _ => ⟨(), rfl⟩) _ v' hv
  have hns : ∃ j ∈ pinWorld.joints, j.kind = .revolute ∨ j.kind = .fixed :=
    ⟨demoJoint, by simp [pinWorld], Or.inl rfl⟩
  exact ⟨_, hns, ⟨1, 1, hf'⟩, C37_nonstatic_never_caches 2 noForces exactLcp 10 _ pinWorld _ pinWorld_good rfl hns
    (Relation.ReflTransGen.single ⟨1, 1, hf'⟩)⟩

/-- C62: the correction found for the rail world is the smallest one that stops the `x` motion: any
other correction with `d 1 = -2` has at least its mass norm. -/
example (d : Vec) (hd : d 1 = -2) : ∃ dp, pdipmPostStab exactLcp railWorld = .ok dp ∧
    momentumPower railWorld.bodies dp dp ≤ momentumPower railWorld.bodies d d := by
  obtain ⟨inv, hi⟩ := system_invertible railWorld railWorld_inv.joints
    (by simp [railWorld, unitCircle]) railWorld_independent
  have h : ∃ dp, pdipmPostStab exactLcp railWorld = .ok dp := by
    unfold pdipmPostStab
    simp only [hi]
    exact ⟨_, rfl⟩
  obtain ⟨dp, hdp⟩ := h
  refine ⟨dp, hdp, ?_⟩
  obtain ⟨l, pn, hl⟩ := C62_post_stab_law exactLcp railWorld dp railWorld_inv.joints
    railWorld_inv.contacts railWorld_inv.cache.ok exactLcp_exact hdp
  have hm := C62_post_stab_minimal _ _ _ _ _ _ _ hl d
    (by simp [jointVels, railWorld, mkAxis, jointVel, twist, hd]; norm_num) (by intro i hi; simp [railWorld] at hi)
  have h0 : 0 ≤ momentumPower railWorld.bodies (d - dp) (d - dp) := by
    simp [momentumPower, railWorld, bodyAt, unitCircle]
    nlinarith [sq_nonneg (d 0 - dp 0), sq_nonneg (d 1 - dp 1), sq_nonneg (d 2 - dp 2)]
  linarith

end LcpPhysics
