import Verif.Props.LibraryRun
import Verif.Props.EngineExamples
import Verif.Lemmas.LuExists

/-! # Worked instances of C70-C73 -/

noncomputable section

namespace LcpPhysics
open Spec

/-! ## Chains and rails -/

/-- A joint of a kind between two bodies (or a body and the world); positions play no role here. -/
def plainJoint (k : JKind) (i1 : ℕ) (i2 : Option ℕ) : Joint :=
  { kind := k, i1 := i1, i2 := i2, pos := 0, pos1 := 0, pos2 := 0, r1 := 0, rot1 := 0, rot2 := 0 }

/-- A pendulum of three links hung from the world, its last link also welded to a fourth
body. -/
theorem chain_tree : JointTree [plainJoint .revolute 0 none, plainJoint .revolute 1 (some 0),
    plainJoint .revolute 2 (some 1), plainJoint .fixed 2 (some 3)] := by
  intro k hk
  have : k = 0 ∨ k = 1 ∨ k = 2 ∨ k = 3 := by simp at hk; omega
  rcases this with rfl | rfl | rfl | rfl
  · exact ⟨0, Or.inl rfl, by simp [held]⟩
  · refine ⟨1, Or.inl rfl, ?_⟩
    intro c hc k' hk'
    have : k' = 0 := by omega
    subst this
    simp [held, plainJoint] at hc
    rcases hc with rfl | rfl <;> simp [touched, plainJoint, coords]
  · refine ⟨2, Or.inl rfl, ?_⟩
    intro c hc k' hk'
    have : k' = 0 ∨ k' = 1 := by omega
    simp [held, plainJoint] at hc
    rcases this with rfl | rfl <;> rcases hc with rfl | rfl <;> simp [touched, plainJoint, coords]
  · refine ⟨3, Or.inr rfl, ?_⟩
    intro c hc k' hk'
    have : k' = 0 ∨ k' = 1 ∨ k' = 2 := by omega
    simp [held, plainJoint, coords] at hc
    rcases this with rfl | rfl | rfl <;> rcases hc with rfl | rfl | rfl <;> simp [touched, plainJoint, coords]

/-- A joint pinned twice to the world is redundant, not a tree. -/
example : ¬ JointTree [plainJoint .revolute 0 none, plainJoint .revolute 0 none] := by
  intro h
  obtain ⟨m, hm, hf⟩ := h 1 (by simp)
  have : m = 0 := by
    rcases hm with hm | hm
    · simpa [plainJoint] using hm
    · simp [plainJoint] at hm
  subst this
  exact hf 1 (by simp [held, plainJoint]) 0 (by simp) (by simp [touched, plainJoint, coords])

/-- C71: the rows of the constraint matrix of the chain are independent wherever the four bodies are. -/
example (w : World (Option Mat) Unit) (hb : w.bodies.length = 4)
    (hj : w.joints = [plainJoint .revolute 0 none, plainJoint .revolute 1 (some 0), plainJoint .revolute 2 (some 1),
      plainJoint .fixed 2 (some 3)]) : Independent w := by
  refine C71_tree_independent w ?_ (by rw [hj]; exact chain_tree)
  intro j hm
  rw [hj] at hm
  simp only [List.mem_cons, List.not_mem_nil, or_false] at hm
  rcases hm with rfl | rfl | rfl | rfl <;> simp [plainJoint, hb]

/-! ## Two beads on a rail -/

/-- The circles of `hangWorld` on a horizontal rail, touching. -/
def beadWorld (e : ℝ) (fnd : Finder) : World (Option Mat) Finder :=
  { hangWorld e fnd with
    strict_no_pen := false, joints := [mkAxis .yc (hangBodies e) 0, mkAxis .yc (hangBodies e) 1] }

theorem bead_tree (e : ℝ) (fnd : Finder) : JointTree (beadWorld e fnd).joints := by
  intro k hk
  have : k = 0 ∨ k = 1 := by simp [beadWorld] at hk; omega
  rcases this with rfl | rfl
  · exact ⟨0, Or.inl rfl, by simp⟩
  · refine ⟨1, Or.inl rfl, ?_⟩
    intro c hc k' hk'
    have : k' = 0 := by omega
    subst this
    simp [held, touched, beadWorld, mkAxis] at hc ⊢
    omega

theorem bead_regular (e : ℝ) (fnd : Finder) : Regular (beadWorld e fnd) := by
  have hs := hang_scene 0 0 e fnd
  have hl : (beadWorld e fnd).bodies.length = 2 := rfl
  have hjm : ∀ j ∈ (beadWorld e fnd).joints, ∃ i < 2, j = mkAxis .yc (hangBodies e) i := by
    intro j hj
    simp only [beadWorld, List.mem_cons, List.not_mem_nil, or_false] at hj
    rcases hj with rfl | rfl
    · exact ⟨0, by norm_num, rfl⟩
    · exact ⟨1, by norm_num, rfl⟩
  refine ⟨⟨⟨hs.good.rect, ?_, ?_, hs.good.vel⟩, ?_, hs.contactsOk allPairs_broad, ?_⟩, bead_tree e fnd, ?_, ?_⟩
  · intro j hj
    obtain ⟨i, hi, rfl⟩ := hjm j hj
    rw [hl]; simp [Joint.Valid, mkAxis, hi]
  · intro j hj
    obtain ⟨i, hi, rfl⟩ := hjm j hj
    simp [mkAxis, Joint.update_pos, beadWorld, hangWorld]
  · intro j hj
    obtain ⟨i, hi, rfl⟩ := hjm j hj
    rw [hl]; simp [mkAxis, hi]
  · intro inv hi; cases hi
  · intro b hb
    simp [beadWorld, hangWorld, hangBodies] at hb
    rcases hb with rfl | rfl <;> simp [mkCircle, circleInertia]
  · intro b hb
    simp [beadWorld, hangWorld, hangBodies] at hb
    rcases hb with rfl | rfl <;> simp [mkCircle]

theorem bead_forces (e : ℝ) (fnd : Finder) :
    ∀ t, ∃ fl, forceCat hangForces t (beadWorld e fnd).bodies.length = .ok fl := fun t => ⟨_, hang_forces t⟩

theorem bead_answer (e : ℝ) (fnd : Finder) (dt : ℝ) :
    ∃ eng v, pdipmSolve 2 hangForces (libraryLcp someBtrifact (1 / 10 ^ 12) 3) 10 (beadWorld e fnd) dt = .ok (eng, v) := by
  have h := bead_regular e fnd
  obtain ⟨r, hr⟩ := C71_frictionless_returns someBtrifact someBtrifact_ok (1 / 10 ^ 12) 3 hangForces 10 (by norm_num)
    (beadWorld e fnd) dt h.inv.joints h.pos (C71_tree_independent _ h.inv.joints h.tree) (regular_smooth h) _
    (hang_forces 0)
  exact ⟨r.1, r.2, hr⟩

/-- C70: the library's solver answers for the pressed beads, and its answer obeys the contact law up to the
solver's own residual. -/
example (e : ℝ) (fnd : Finder) : ∃ v, ∃ ε ≥ 0, ∃ fl l pn a b g, ApproxLaw ε (beadWorld e fnd).bodies
    (beadWorld e fnd).joints (beadWorld e fnd).contacts (impulse fl 1) (beadWorld e fnd).v v l pn a b g := by
  have h := bead_regular e fnd
  obtain ⟨eng, v, hv⟩ := bead_answer e fnd 1
  obtain ⟨h0, fl, l, pn, a, b, g, -, hlaw⟩ := C70_engine_law _ _ _ _ _ _ _ _ _ h.inv.joints h.inv.contacts
    h.inv.cache.ok hv
  exact ⟨v, _, h0, fl, l, pn, a, b, g, hlaw⟩

/-- C70: an approximate solution that is not exact: a head-on collision solved with all numbers off by `1/10`. -/
theorem headOn_approx : ApproxLaw (3 / 10) [unitCircle (-1) 1 0, unitCircle 1 1 0] [] [headOn] (fun _ => 0)
    (headOnVel 1 (-1)) (headOnVel (-11 / 10) 1) (fun _ => 0) (fun _ => 2) (fun _ => 0) (fun _ => 0)
    (fun _ => 0) := by
  refine ⟨?_, ?_, ?_, ?_, ?_, ?_⟩
  · intro u
    simp [momentumPower, forcePower, jointPower, jointVels, contactPower, Finset.sum_range_succ,
      bodyAt, unitCircle, headOnVel, headOn, twist, normalVel, slipVel, contactVel, pointVel, inner]
    have := abs_nonneg (u 0)
    have := abs_nonneg (u 2)
    have := abs_nonneg (u 3)
    have := abs_nonneg (u 4)
    have := abs_nonneg (u 5)
    have := neg_abs_le (u 1)
    have := le_abs_self (u 1)
    rw [abs_le]
    constructor <;> linarith
  · simp [jointVels]
  · intro i _; norm_num
  · intro i hi
    have : i = 0 := by simpa using hi
    subst this
    refine ⟨1 / 10, by norm_num, ?_, by norm_num⟩
    simp [headOn, unitCircle, headOnVel, meanRestitution, bodyAt, normalVel, contactVel, pointVel, twist, inner]
    norm_num
  · intro i hi
    have : i = 0 := by simpa using hi
    subst this
    constructor <;> refine ⟨0, le_rfl, ?_, by norm_num⟩ <;>
    · simp [headOn, headOnVel, slipVel, contactVel, pointVel, twist, inner, tangent]
      norm_num
  · intro i hi
    have : i = 0 := by simpa using hi
    subst this
    refine ⟨0, le_rfl, ?_, by norm_num⟩
    simp [headOn, unitCircle, meanFriction, bodyAt]
    norm_num

example : ¬ ContactLaw [unitCircle (-1) 1 0, unitCircle 1 1 0] [] [headOn] (fun _ => 0)
    (headOnVel 1 (-1)) (headOnVel (-11 / 10) 1) (fun _ => 0) (fun _ => 2) (fun _ => 0) (fun _ => 0)
    (fun _ => 0) := by
  rw [← C70_zero_iff]
  intro h
  have := h.dynamics (fun k => if k = 1 then 1 else 0)
  simp [momentumPower, forcePower, jointPower, jointVels, contactPower, Finset.sum_range_succ,
      bodyAt, unitCircle, headOnVel, headOn, twist, normalVel, slipVel, contactVel, pointVel, inner] at this
  norm_num at this

/-- C72 for it: the momentum is off by at most `6/10` (it is off by `1/10`). -/
example : |(linearMomentum [unitCircle (-1) 1 0, unitCircle 1 1 0] (headOnVel (-11 / 10) 1)).1 -
    (linearMomentum [unitCircle (-1) 1 0, unitCircle 1 1 0] (headOnVel 1 (-1))).1| ≤ 6 / 10 := by
  have := (C72_linear_momentum _ _ _ _ _ _ _ _ _ _ _ _ headOn_approx (by intro j hj; cases hj)).1
  simp at this ⊢
  linarith

example : normalVel headOn (headOnVel (-11 / 10) 1) ≥ 2 - 3 / 10 := by
  have := (C72_contact_bounds _ _ _ _ _ _ _ _ _ _ _ _ headOn_approx 0 (by simp)).1
  simp [headOn, unitCircle, headOnVel, meanRestitution, bodyAt, normalVel, contactVel, pointVel, twist, inner] at this ⊢
  linarith

/-- C72: the approximate velocity is near the exact one in the mass norm. -/
example : momentumPower [unitCircle (-1) 1 0, unitCircle 1 1 0] (headOnVel (-11 / 10) 1 - headOnVel (-1) 1)
    (headOnVel (-11 / 10) 1 - headOnVel (-1) 1) ≤ 11 / 10 := by
  refine (C72_near_exact (3 / 10) (by norm_num) _ _ _ _ _ _ _ _ _ _ _ _ _ _ _ _ _
    (by simp [meanFriction, bodyAt, headOn, unitCircle]) headOn_law headOn_approx).trans ?_
  simp [Finset.sum_range_succ, jointVels, headOnVel, headOn, slipVel, contactVel, pointVel, twist, inner, tangent]
  norm_num [abs_of_neg, abs_of_pos]

/-- C72: the energy of inelastic beads solved by the library grows at most by its residual times a bound on the
velocities and impulses. -/
example (fnd : Finder) : ∃ v, ∃ ε ≥ 0, ∃ B ≥ 0, pdipmSolve 2 noForces (libraryLcp someBtrifact (1 / 10 ^ 12) 3) 10
      (beadWorld 0 fnd) 1 = .ok ((beadWorld 0 fnd).eng, v) ∧
    kineticEnergy (beadWorld 0 fnd).bodies v ≤ kineticEnergy (beadWorld 0 fnd).bodies (beadWorld 0 fnd).v + ε * B := by
  have h := bead_regular 0 fnd
  obtain ⟨r, hr⟩ := C71_frictionless_returns someBtrifact someBtrifact_ok (1 / 10 ^ 12) 3 noForces 10 (by norm_num)
    (beadWorld 0 fnd) 1 h.inv.joints h.pos (C71_tree_independent _ h.inv.joints h.tree) (regular_smooth h) _
    (noForces_cat 0 2)
  obtain ⟨eng, v⟩ := r
  have heng : eng = (beadWorld 0 fnd).eng := by
    have hf : forceCat noForces (beadWorld 0 fnd).t (beadWorld 0 fnd).bodies.length = .ok [0, 0] := noForces_cat 0 2
    have hJ : (beadWorld 0 fnd).Jf 2 = .ok (JfLoop (beadWorld 0 fnd).contacts 0 fun _ _ => 0) := by simp [World.Jf]
    unfold pdipmSolve at hr
    simp only at hr
    rw [hf] at hr
    simp only at hr
    rw [if_neg (by simp [beadWorld, hangWorld]), hJ] at hr
    simp only at hr
    split at hr
    · cases hr
    · injection hr with hr
      exact (congrArg Prod.fst hr).symm
  subst heng
  obtain ⟨h0, fl, l, pn, a, b, g, hfl, hlaw⟩ := C70_engine_law _ _ _ _ _ _ _ _ _ h.inv.joints h.inv.contacts
    h.inv.cache.ok hr
  have hfl' : fl = [0, 0] := by
    have h2 : forceCat noForces (beadWorld 0 fnd).t (beadWorld 0 fnd).bodies.length = .ok [0, 0] := noForces_cat 0 2
    rw [h2] at hfl
    injection hfl with hfl
    exact hfl.symm
  subst hfl'
  have hz : impulse [0, 0] 1 = fun _ => 0 := by
    funext i
    rcases i with _ | _ | i <;> simp [impulse] <;> apply V3.ext <;> simp
  rw [hz] at hlaw
  have hb : ∀ i < (beadWorld 0 fnd).bodies.length, 0 < (bodyAt (beadWorld 0 fnd).bodies i).mass ∧
      0 < (bodyAt (beadWorld 0 fnd).bodies i).ang_inertia := fun i hi => h.pos _ (bodyAt_mem hi)
  refine ⟨v, _, h0, _, ?_, hr, C72_inelastic_energy _ _ _ _ _ _ _ _ _ _ _
    (fun i hi => ⟨(hb i hi).1.le, (hb i hi).2.le⟩) (fun c hc => (regular_smooth h c hc).ge) ?_ hlaw⟩
  · refine add_nonneg (add_nonneg (Finset.sum_nonneg fun _ _ => abs_nonneg _)
      (Finset.sum_nonneg fun _ _ => abs_nonneg _)) (Finset.sum_nonneg fun i hi => ?_)
    obtain ⟨n1, n2, n3, n4⟩ := hlaw.nonneg i (Finset.mem_range.1 hi)
    linarith
  · intro c hc
    have : c = hangContact := by simpa [beadWorld, hangWorld] using hc
    subst this
    simp [meanRestitution, bodyAt, hangContact, beadWorld, hangWorld, hangBodies, mkCircle]

/-- C70, C71 for post-stabilization of the beads. -/
example (e : ℝ) (fnd : Finder) : ∃ dp, ∃ ε ≥ 0, ∃ l pn,
    pdipmPostStab (libraryLcp someBtrifact (1 / 10 ^ 12) 3) (beadWorld e fnd) = .ok dp ∧
    ApproxPostStab ε (beadWorld e fnd).bodies (beadWorld e fnd).joints (beadWorld e fnd).contacts (beadWorld e fnd).v
      dp l pn := by
  have h := bead_regular e fnd
  obtain ⟨dp, hdp⟩ := C71_post_stab_returns someBtrifact someBtrifact_ok (1 / 10 ^ 12) 3 (beadWorld e fnd) h.inv.joints
    h.pos (C71_tree_independent _ h.inv.joints h.tree)
  obtain ⟨h0, l, pn, hl⟩ := C70_post_stab_law _ _ _ _ _ h.inv.joints h.inv.contacts h.inv.cache.ok hdp
  exact ⟨dp, _, h0, l, pn, hdp, hl⟩

/-- C71: ten seconds of the beads, without contact search. -/
example (e : ℝ) (fnd : Finder) : ∃ w', runWorld (pdipmEnv 2 hangForces (libraryLcp someBtrifact (1 / 10 ^ 12) 3) 10
    fun _ f _ => .ok (f, [])) 4 10 80 (beadWorld e fnd) = .done w' ∧ 10 ≤ w'.t ∧ w'.t < 11 := by
  obtain ⟨w', h1, h2, h3, -⟩ := C71_run_returns (eps := 1 / 10 ^ 12) (lim := 3) someBtrifact_ok
    (mi := 10) (by norm_num) (collide := fun _ f _ => .ok (f, [])) (by
      intro eps f bs f' cs h c hc
      injection h with h
      injection h with h1 h2
      rw [← h2] at hc
      cases hc) (beadWorld e fnd) (bead_regular e fnd) (fun f _ _ => ⟨_, rfl⟩) (bead_forces e fnd) rfl
    (by simp [beadWorld, hangWorld]) 10 (by simp [beadWorld, hangWorld]) 80
    (by simp [beadWorld, hangWorld]; norm_num) 4 le_rfl
  refine ⟨w', h1, h2, ?_⟩
  simp [beadWorld, hangWorld] at h3
  linarith

/-- C71: the same with the library's contact search. -/
example (e : ℝ) (fnd : Finder) :
    (∃ w', runWorld (pdipmEnv 2 hangForces (libraryLcp someBtrifact (1 / 10 ^ 12) 3) 10
      (rejectNan (diffCollide 10 (fun _ => []) allPairs))) 4 10 80 (beadWorld e fnd) = .done w' ∧ 10 ≤ w'.t) ∨
    ∃ bs i j, Posed (beadWorld e fnd).bodies bs ∧ i < bs.length ∧ j < bs.length ∧ i ≠ j ∧
      (bodyAt bs i).pos = (bodyAt bs j).pos := by
  rcases C71_circle_run_returns someBtrifact someBtrifact_ok (1 / 10 ^ 12) 3 10 (by norm_num) hangForces 10 (fun _ => [])
    allPairs allPairs_broad (beadWorld e fnd) (bead_regular e fnd)
    (fun b hb => (hang_circles e b hb).circle) (bead_forces e fnd) rfl (by simp [beadWorld, hangWorld]) 10
    (by simp [beadWorld, hangWorld]) 80 (by simp [beadWorld, hangWorld]; norm_num) 4 le_rfl with
    ⟨w', h1, h2, -⟩ | ⟨bs, i, j, h1, h2, h3, h4, -, h5, -⟩
  · exact Or.inl ⟨w', h1, h2⟩
  · exact Or.inr ⟨bs, i, j, h1, h2, h3, h4, h5⟩

/-- C71: the world in which exact solvers hang, with a tolerance of `1/20`: a strict step of the library's
engine returns. -/
example (e : ℝ) (fnd : Finder) : ∃ n w', ({ hangWorld e fnd with tol := 1 / 20 } : World (Option Mat) Finder).step_dt
    (pdipmEnv 2 hangForces (libraryLcp someBtrifact (1 / 10 ^ 12) 3) 10 (diffCollide 10 (fun _ => []) allPairs)) n 1 =
      .done w' ∧ NoOverlap (fun _ => []) (1 / 20) w'.bodies := by
  have hs := hang_scene 10 0 e fnd
  have hr := (bead_regular e fnd)
  have hsc : CircleScene 10 (fun _ => []) allPairs ({ hangWorld e fnd with tol := 1 / 20 } : World (Option Mat) Finder) := by
    refine ⟨⟨hs.good.rect, hs.good.valid, hs.good.fix, hs.good.vel⟩, hs.joints, ?_, rfl, rfl, hs.eps, ?_, hs.bodies, ?_,
      hs.contacts, ?_⟩
    · intro inv hi; cases hi
    · simp [hangWorld]; norm_num
    · intro i hi j hj _
      have hrad : ∀ k < 2, (bodyAt (hangBodies e) k).rad = 1 := by
        intro k hk
        have : k = 0 ∨ k = 1 := by omega
        rcases this with rfl | rfl <;> rfl
      change 1 / 20 < (bodyAt (hangBodies e) i).rad + (bodyAt (hangBodies e) j).rad
      rw [hrad i hi, hrad j hj]; norm_num
    · intro c hc
      have : c = hangContact := by simpa [hangWorld] using hc
      subst this
      simp [hangContact]
  obtain ⟨n, w', h1, -, h3⟩ := C71_circle_step_returns someBtrifact someBtrifact_ok (1 / 10 ^ 12) 3 10 (by norm_num)
    hangForces 10 (fun _ => []) (by simp) allPairs allPairs_broad _ hsc (by intro k hk; simp [hangWorld] at hk) hr.pos hr.smooth
    _ (hang_forces 0) 1 zero_le_one (by
      intro c hc
      have : c = hangContact := by simpa [hangWorld] using hc
      subst this
      simp [hangContact])
  refine ⟨n, w', h1, ?_⟩
  have : w'.tol = 1 / 20 := (step_dt_params hsc.good h1).2.2.1
  rw [this] at h3
  exact h3

/-- C72: one step of the beads moves them off their rail by at most the residual of the solve. -/
example (e : ℝ) (fnd : Finder) : ∃ w', ∃ ε ≥ 0,
    PreciseStep someBtrifact (1 / 10 ^ 12) 3 hangForces 10 (fun _ f _ => .ok (f, [])) ε (beadWorld e fnd) w' ∧
    w'.t = 1 ∧ |(bodyAt w'.bodies 1).p.y| ≤ ε := by
  obtain ⟨eng, v, hv⟩ := bead_answer e fnd 1
  have h := bead_regular e fnd
  have hfind : FinderOk (φ := Finder) fun _ f _ => .ok (f, []) := by
    intro eps f bs f' cs h c hc
    injection h with h
    injection h with h1 h2
    rw [← h2] at hc
    cases hc
  obtain ⟨f', hf'⟩ := step_no_contacts (pdipmEnv 2 hangForces (libraryLcp someBtrifact (1 / 10 ^ 12) 3) 10
    fun _ f _ => .ok (f, [])) 0 (beadWorld e fnd) h.inv.good 1 rfl (fun _ f _ => ⟨f, rfl⟩) eng v hv
  have h0 := (C70_engine_law _ _ _ _ _ _ _ _ _ h.inv.joints h.inv.contacts h.inv.cache.ok hv).1
  have hp : PreciseStep someBtrifact (1 / 10 ^ 12) 3 hangForces 10 (fun _ f _ => .ok (f, []))
      (engineResid someBtrifact (1 / 10 ^ 12) 3 hangForces 10 (beadWorld e fnd) 1) (beadWorld e fnd) _ :=
    ⟨1, 1, zero_le_one, rfl, le_rfl, hf'⟩
  refine ⟨_, _, h0, hp, by simp [beadWorld, hangWorld], ?_⟩
  have := (C72_constraint_drift _ _ _ _ _ _ hfind _ _ _ h.inv (Relation.ReflTransGen.single hp)
    (mkAxis .yc (hangBodies e) 1) (by simp [beadWorld])).2.1 (Or.inl rfl)
  have hy : (bodyAt (beadWorld e fnd).bodies (mkAxis .yc (hangBodies e) 1).i1).p.y = 0 := by
    simp [bodyAt, beadWorld, hangWorld, hangBodies, mkAxis, mkCircle, Arg.toV3]
  rw [hy] at this
  simpa [beadWorld, hangWorld, mkAxis] using this

/-! ## C73 -/

/-- A search that raises: the step raises the same error. -/
example (e : ℝ) (fnd : Finder) : ∃ er, (beadWorld e fnd).step_dt (pdipmEnv 2 hangForces
    (libraryLcp someBtrifact (1 / 10 ^ 12) 3) 10 fun _ _ _ => .error .assertion) 5 1 = .raised er ∧ er = .assertion := by
  obtain ⟨eng, v, hv⟩ := bead_answer e fnd 1
  have h := bead_regular e fnd
  have hr : ∃ er, (beadWorld e fnd).step_dt (pdipmEnv 2 hangForces
    (libraryLcp someBtrifact (1 / 10 ^ 12) 3) 10 fun _ _ _ => .error .assertion) 5 1 = .raised er := by
    rw [step_dt_eq _ _ _ h.inv.good]
    have hv' : (pdipmEnv 2 hangForces (libraryLcp someBtrifact (1 / 10 ^ 12) 3) 10
      fun _ _ _ => .error .assertion).solve_dynamics (beadWorld e fnd) 1 = .ok (eng, v) := hv
    rw [hv']
    exact ⟨_, rfl⟩
  obtain ⟨er, her⟩ := hr
  refine ⟨er, her, ?_⟩
  rcases C73_step_raises_from _ 5 _ 1 er h.inv.good her with h1 | ⟨f', bs, -, h1⟩ | ⟨h1, -⟩
  · have h1 : pdipmSolve 2 hangForces (libraryLcp someBtrifact (1 / 10 ^ 12) 3) 10 (beadWorld e fnd) 1 = .error er := h1
    rw [hv] at h1; cases h1
  · have h1 : Except.error Err.assertion = .error er := h1
    injection h1 with h1
    exact h1.symm
  · cases h1

end LcpPhysics
