import Verif.Props.DemoScenes
import Verif.Props.Quiet
import Verif.Props.Isolated

/-! # C115: the demo scenes start; what is held stays and what is left alone coasts -/

noncomputable section

namespace LcpPhysics
open Spec Demos
variable {φ : Type}

/-- C115: every scene of the demos and of their tests starts, whatever pairs of distinct bodies the broad phase presents and
whatever the random choices of the contact search are: every body is where it was put, nothing touches, the forces can be
evaluated at all times and the first velocities can be computed, with any LCP solver. -/
theorem C115_demos_start (d : Demo) (hd : d ∈ shippedScenes) (lcp : LcpSolver) (mi cfuel : ℕ) (hcf : 66 ≤ cfuel)
    (pairs : List Body → List (ℕ × ℕ)) (hp : ∀ bs, ∀ p ∈ pairs bs, p.1 < bs.length ∧ p.2 < bs.length ∧ p.1 ≠ p.2)
    (fnd : Finder) :
    ∃ w, d.start lcp mi (rejectNan (diffCollide cfuel d.nc pairs)) fnd = .done w ∧ w.contacts = [] ∧ w.t = 0 ∧
      w.bodies.length = d.items.length ∧ (∀ k < d.items.length, (bodyAt w.bodies k).p = startPose (d.items.getD k clock)) ∧
      (∀ t, ∃ fl, forceCat d.forces t w.bodies.length = .ok fl) ∧
      ∀ dt, ∃ r, pdipmSolve 2 d.forces lcp mi w dt = .ok r := by
  obtain ⟨hwm, hfo⟩ := shipped_made d hd
  obtain ⟨w, bs, h1, -, -, -, h2, h3, -, h4, h5, h6, h7, h8⟩ := C115_starts d hwm lcp mi cfuel hcf pairs hp fnd
  refine ⟨w, h1, h2, h3, h7, h8, hfo _, fun dt => ?_⟩
  obtain ⟨fl, hfl⟩ := hfo w.bodies.length w.t
  exact C35_no_contact_succeeds 2 d.forces lcp mi w dt h4.joints h6 (C71_tree_independent w h4.joints h5) h2 fl hfl

/-- What `start` returns. -/
theorem start_starts (d : Demo) (h : WellMade d) (lcp : LcpSolver) (mi cfuel : ℕ) (hcf : 66 ≤ cfuel)
    (pairs : List Body → List (ℕ × ℕ)) (hp : ∀ bs, ∀ p ∈ pairs bs, p.1 < bs.length ∧ p.2 < bs.length ∧ p.1 ≠ p.2)
    (fnd : Finder) (w : World (Option Mat) Finder)
    (hw : d.start lcp mi (rejectNan (diffCollide cfuel d.nc pairs)) fnd = .done w) :
    (∃ bs, buildAll d.items = .ok bs ∧ w.bodies = bs ∧ w.joints = d.joints bs) ∧ w.contacts = [] ∧ w.t = 0 ∧ EngineInv w ∧
      (∀ b ∈ w.bodies, 0 < b.mass ∧ 0 < b.ang_inertia) ∧ w.bodies.length = d.items.length ∧
      (∀ k < d.items.length, (bodyAt w.bodies k).p = startPose (d.items.getD k clock)) ∧ w.dt = 1 / 30 := by
  obtain ⟨w', bs, h1, a1, a2, a3, h2, h3, hdt, h4, h5, h6, h7, h8⟩ := C115_starts d h lcp mi cfuel hcf pairs hp fnd
  rw [h1] at hw
  injection hw with hw
  subst hw
  refine ⟨⟨bs, a1, a2, a3⟩, h2, h3, h4, h6, h7, h8, hdt⟩

/-- C115: in a run of such a scene with an exact solver, a body held by a `TotalConstraint` keeps for ever the pose it was created
with, whatever hits it. -/
theorem C115_held (d : Demo) (h : WellMade d) (lcp : LcpSolver) (hx : Exact lcp) (mi cfuel : ℕ) (hcf : 66 ≤ cfuel)
    (pairs : List Body → List (ℕ × ℕ)) (hp : ∀ bs, ∀ p ∈ pairs bs, p.1 < bs.length ∧ p.2 < bs.length ∧ p.1 ≠ p.2)
    (fnd : Finder) (w0 w : World (Option Mat) Finder) (k : ℕ) (hk : k < d.items.length) (hj : ∀ bs, mkTotal bs k ∈ d.joints bs)
    (hw0 : d.start lcp mi (rejectNan (diffCollide cfuel d.nc pairs)) fnd = .done w0)
    (hr : Reaches (pdipmEnv 2 d.forces lcp mi (rejectNan (diffCollide cfuel d.nc pairs))) w0 w) :
    (bodyAt w.bodies k).p = startPose (d.items.getD k clock) := by
  obtain ⟨⟨bs, -, a2, a3⟩, -, -, h4, -, -, h8, -⟩ := start_starts d h lcp mi cfuel hcf pairs hp fnd w0 hw0
  rw [← h8 k hk]
  exact (C29_static_constraints_hold d.forces lcp mi _ (C12_finder_ok cfuel d.nc pairs hp) hx w0 w h4 hr (mkTotal bs k)
    (by rw [a3]; exact hj bs)).2.2.2 rfl

/-- C115: the slope of `slide_demo` and of `fixed_joint_demo` never moves. -/
theorem C115_slopes (lcp : LcpSolver) (hx : Exact lcp) (mi cfuel : ℕ) (hcf : 66 ≤ cfuel)
    (pairs : List Body → List (ℕ × ℕ)) (hp : ∀ bs, ∀ p ∈ pairs bs, p.1 < bs.length ∧ p.2 < bs.length ∧ p.1 ≠ p.2)
    (fnd : Finder) (w0 w : World (Option Mat) Finder) :
    (slide_demo.start lcp mi (rejectNan (diffCollide cfuel slide_demo.nc pairs)) fnd = .done w0 →
      Reaches (pdipmEnv 2 slide_demo.forces lcp mi (rejectNan (diffCollide cfuel slide_demo.nc pairs))) w0 w →
      (bodyAt w.bodies 0).p = ⟨Real.pi / 32, 500, 300⟩) ∧
    (fixed_joint_demo.start lcp mi (rejectNan (diffCollide cfuel fixed_joint_demo.nc pairs)) fnd = .done w0 →
      Reaches (pdipmEnv 2 fixed_joint_demo.forces lcp mi (rejectNan (diffCollide cfuel fixed_joint_demo.nc pairs))) w0 w →
      (bodyAt w.bodies 2).p = ⟨Real.pi / 32, 500, 500⟩) ∧
    (testSlide.start lcp mi (rejectNan (diffCollide cfuel testSlide.nc pairs)) fnd = .done w0 →
      Reaches (pdipmEnv 2 testSlide.forces lcp mi (rejectNan (diffCollide cfuel testSlide.nc pairs))) w0 w →
      (bodyAt w.bodies 0).p = ⟨Real.pi / 32, 500, 300⟩) := by
  refine ⟨fun h1 h2 => ?_, fun h1 h2 => ?_, fun h1 h2 => ?_⟩
  · exact C115_held slide_demo slide_made lcp hx mi cfuel hcf pairs hp fnd w0 w 0 (by simp [slide_demo]) (by simp [slide_demo]) h1 h2
  · exact C115_held fixed_joint_demo fixed_made lcp hx mi cfuel hcf pairs hp fnd w0 w 2 (by simp [fixed_joint_demo])
      (by simp [fixed_joint_demo]) h1 h2
  · have := C115_held testSlide testSlide_made lcp hx mi cfuel hcf pairs hp fnd w0 w 0 (by simp [testSlide])
      (by simp [testSlide]) h1 h2
    rw [this]
    apply V3.ext <;> simp [testSlide, startPose, Arg.toV3]

/-! ## Bodies left alone -/

theorem watched_run (i : ℕ) {σ : Type} (env : Env σ φ) (fuel : ℕ) (T : ℝ) : ∀ (n : ℕ) (w w' : World σ φ),
    runWorld (watchedEnv i env) fuel T n w = .done w' → runWorld env fuel T n w = .done w'
  | 0, w, w', h => by
    unfold runWorld at h ⊢
    split_ifs at h ⊢ with ht
    exact h
  | n + 1, w, w', h => by
    unfold runWorld at h ⊢
    split_ifs at h ⊢ with ht
    · simp only [World.step, Bool.false_eq_true, if_false] at h ⊢
      rw [Run.bind_eq_done] at h ⊢
      obtain ⟨u, h1, h2⟩ := h
      exact ⟨u, C115_watched_step i env fuel w u _ h1, watched_run i env fuel T n u w' h2⟩
    · exact h

theorem start_watched (d : Demo) (i : ℕ) (lcp : LcpSolver) (mi : ℕ)
    (collide : ℝ → φ → List Body → Except Err (φ × List Contact)) (fnd : φ) (w0 : World (Option Mat) φ)
    (h1 : d.start lcp mi (watched i collide) fnd = .done w0) : d.start lcp mi collide fnd = .done w0 := by
  unfold Demo.start at h1 ⊢
  cases hb : buildAll d.items with
  | error e => rw [hb] at h1; cases h1
  | ok bs =>
    rw [hb] at h1
    simp only at h1 ⊢
    unfold mkWorld at h1 ⊢
    split_ifs at h1 ⊢
    all_goals
      rw [Run.bind_eq_done] at h1 ⊢
      obtain ⟨u, h4, h5⟩ := h1
      exact ⟨u, (watched_find (i := i) (env := pdipmEnv 2 d.forces lcp mi collide) h4).1, h5⟩

theorem play_watched (d : Demo) (i : ℕ) (lcp : LcpSolver) (mi fuel n : ℕ)
    (collide : ℝ → φ → List Body → Except Err (φ × List Contact)) (fnd : φ) (w : World (Option Mat) φ)
    (h : d.play lcp mi fuel n (watched i collide) fnd = .done w) :
    ∃ w0, d.start lcp mi collide fnd = .done w0 ∧
      runWorld (watchedEnv i (pdipmEnv 2 d.forces lcp mi collide)) fuel d.run_time n w0 = .done w ∧
      d.play lcp mi fuel n collide fnd = .done w := by
  unfold Demo.play at h ⊢
  rw [Run.bind_eq_done] at h
  obtain ⟨w0, h1, h2⟩ := h
  have h3 := start_watched d i lcp mi collide fnd w0 h1
  refine ⟨w0, h3, h2, ?_⟩
  rw [h3]
  exact watched_run i _ _ _ _ _ _ h2

/-- C115: in a run of `run_world` with an exact solver, a body that has no forces and no joints and that nothing touches has, at the
end, turned and moved by its first velocity times the time shown by the world, which lies in `[run_time, run_time + 1/30)`. -/
theorem C115_left_alone (d : Demo) (h : WellMade d) (lcp : LcpSolver) (hx : Exact lcp) (mi fuel n cfuel : ℕ) (hcf : 66 ≤ cfuel)
    (pairs : List Body → List (ℕ × ℕ)) (hp : ∀ bs, ∀ p ∈ pairs bs, p.1 < bs.length ∧ p.2 < bs.length ∧ p.1 ≠ p.2)
    (fnd : Finder) (w : World (Option Mat) Finder) (k : ℕ) (hk : k < d.items.length)
    (hj : ∀ bs, ∀ j ∈ d.joints bs, j.i1 ≠ k ∧ k ∉ j.i2) (hf : d.forces.attached k = []) (ht : 0 < d.run_time)
    (hw : d.play lcp mi fuel n (watched k (rejectNan (diffCollide cfuel d.nc pairs))) fnd = .done w) (b : Body)
    (hb : (d.items.getD k clock).build = .ok b) :
    d.play lcp mi fuel n (rejectNan (diffCollide cfuel d.nc pairs)) fnd = .done w ∧ (bodyAt w.bodies k).v = b.v ∧
      (bodyAt w.bodies k).p = b.p + w.t • b.v ∧ d.run_time ≤ w.t ∧ w.t < d.run_time + 1 / 30 := by
  obtain ⟨w0, h1, h2, h3⟩ := play_watched d k lcp mi fuel n _ fnd w hw
  obtain ⟨⟨bs, a1, a2, a3⟩, c1, c2, c3, c4, c5, -, c6⟩ := start_starts d h lcp mi cfuel hcf pairs hp fnd w0 h1
  have hb0 : bodyAt w0.bodies k = b := by
    obtain ⟨bs', e1, -, e3⟩ := built_all d.items h.fine
    rw [a1] at e1
    injection e1 with e1
    subst e1
    have := e3 k hk
    rw [hb] at this
    injection this with this
    rw [a2, this]
  have hmem : bodyAt w0.bodies k ∈ w0.bodies := bodyAt_mem (by omega)
  obtain ⟨r1, -⟩ := C115_run d.forces lcp hx mi _ (C12_finder_ok cfuel d.nc pairs hp) w0 w c3 k (by omega)
    (by rw [a3]; exact hj bs) (by rw [c1]; intro c hc; cases hc) (c4 _ hmem).1 (c4 _ hmem).2 hf (runWorld_reaches h2)
  obtain ⟨r2, r3⟩ := r1
  rw [hb0] at r2 r3
  rw [c2, sub_zero] at r3
  obtain ⟨t1, t2⟩ := C25_run_world_final_time _ fuel n d.run_time w0 w c3.good (by rw [c6]; norm_num) (by rw [c2]; exact ht) h2
  rw [c6] at t2
  exact ⟨h3, r2, r3, t1, t2⟩

/-- C115: the clock of a demo that nothing touches shows the time, and stays where it is. -/
theorem C115_clocks (lcp : LcpSolver) (hx : Exact lcp) (mi fuel n cfuel : ℕ) (hcf : 66 ≤ cfuel)
    (pairs : List Body → List (ℕ × ℕ)) (hp : ∀ bs, ∀ p ∈ pairs bs, p.1 < bs.length ∧ p.2 < bs.length ∧ p.1 ≠ p.2)
    (fnd : Finder) (w : World (Option Mat) Finder) (d : Demo) (k : ℕ)
    (hd : (d, k) ∈ [(debug_demo, 9), (chain_demo, 11), (fric_demo, 4), (testFric, 4)])
    (hw : d.play lcp mi fuel n (watched k (rejectNan (diffCollide cfuel d.nc pairs))) fnd = .done w) :
    d.play lcp mi fuel n (rejectNan (diffCollide cfuel d.nc pairs)) fnd = .done w ∧
      (bodyAt w.bodies k).p = ⟨w.t, 975, 575⟩ ∧ d.run_time ≤ w.t ∧ w.t < d.run_time + 1 / 30 := by
  have key : WellMade d → k < d.items.length → (∀ bs, ∀ j ∈ d.joints bs, j.i1 ≠ k ∧ k ∉ j.i2) → d.forces.attached k = [] →
      0 < d.run_time → d.items.getD k clock = clock →
      d.play lcp mi fuel n (rejectNan (diffCollide cfuel d.nc pairs)) fnd = .done w ∧
      (bodyAt w.bodies k).p = ⟨w.t, 975, 575⟩ ∧ d.run_time ≤ w.t ∧ w.t < d.run_time + 1 / 30 := by
    intro k1 k2 k3 k4 k5 k6
    obtain ⟨r1, -, r3, r4⟩ := C115_left_alone d k1 lcp hx mi fuel n cfuel hcf pairs hp fnd w k k2 k3 k4 k5 hw _
      (by rw [k6]; rfl)
    refine ⟨r1, ?_, r4⟩
    rw [r3]
    apply V3.ext <;> simp [mkCircle, Arg.toV3]
  simp only [List.mem_cons, Prod.mk.injEq, List.not_mem_nil, or_false] at hd
  rcases hd with ⟨rfl, rfl⟩ | ⟨rfl, rfl⟩ | ⟨rfl, rfl⟩ | ⟨rfl, rfl⟩
  · refine key debug_made (by simp [debug_demo, debugBalls]) ?_ ?_ (by norm_num [debug_demo]) rfl
    · intro bs j hj
      simp only [debug_demo, debugJoints, List.mem_cons, List.not_mem_nil, or_false] at hj
      rcases hj with rfl | rfl <;> simp [mkJoint, mkTotal]
    · simp [debug_demo, withForces, ForceHeap.add_force]
  · refine key chain_made (by simp [chain_demo, chainLinks]) ?_ ?_ (by norm_num [chain_demo]) rfl
    · intro bs j hj
      obtain ⟨h1, h2, -⟩ := chain_joints bs 10 le_rfl j hj
      exact ⟨by omega, fun h3 => by have := (h2 11 h3).1; omega⟩
    · simp [chain_demo, withForces, ForceHeap.add_force, List.range_succ]
  · refine key fric_made (by simp [fric_demo, fricItems]) ?_ ?_ (by norm_num [fric_demo]) rfl
    · intro bs j hj
      simp only [fric_demo, fricJoints, List.mem_cons, List.not_mem_nil, or_false] at hj
      rcases hj with rfl | rfl | rfl | rfl <;> simp [mkAxis]
    · simp [fric_demo, withForces, ForceHeap.add_force]
  · refine key testFric_made (by simp [testFric, fricItems]) ?_ ?_ (by norm_num [testFric]) rfl
    · intro bs j hj
      simp only [testFric, fricJoints, List.mem_cons, List.not_mem_nil, or_false] at hj
      rcases hj with rfl | rfl | rfl | rfl <;> simp [mkAxis]
    · simp [testFric, withForces, ForceHeap.add_force]

/-- C115: a body excluded from contact with all others is never touched, so every run is such a run. -/
theorem C115_excluded (cfuel : ℕ) (nc : ℕ → List ℕ) (pairs : List Body → List (ℕ × ℕ)) (i : ℕ) (bs : List Body)
    (hp : ∀ p ∈ pairs bs, p.1 < bs.length ∧ p.2 < bs.length ∧ p.1 ≠ p.2)
    (hi : ∀ j, j ≠ i → j < bs.length → i ∈ nc j ∧ j ∈ nc i) (eps : ℝ) (f : Finder) :
    watched i (rejectNan (diffCollide cfuel nc pairs)) eps f bs = rejectNan (diffCollide cfuel nc pairs) eps f bs := by
  unfold watched
  cases hr : rejectNan (diffCollide cfuel nc pairs) eps f bs with
  | error e => rfl
  | ok r =>
    simp only
    rw [if_pos]
    intro c hc
    obtain ⟨f', cs⟩ := r
    unfold rejectNan at hr
    cases hd : diffCollide cfuel nc pairs eps f bs with
    | error e => rw [hd] at hr; cases hr
    | ok q =>
      rw [hd] at hr
      simp only at hr
      split_ifs at hr
      injection hr with hr
      subst hr
      obtain ⟨hpm, hx, -⟩ := C12_contacts_wellformed cfuel nc pairs eps f f' bs cs hd c hc
      obtain ⟨l1, l2, hne⟩ := hp _ hpm
      constructor
      · rintro rfl
        exact hx (hi _ (Ne.symm hne) l2).1
      · rintro rfl
        exact hx (hi _ hne l1).2

end LcpPhysics
