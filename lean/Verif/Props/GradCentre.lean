import Verif.Props.GradDemo

/-!
# C117: what the push determines whatever happens when the balls meet
-/

noncomputable section

namespace LcpPhysics
open Spec Demos GradDemo

/-! ## Two engines that differ in the forces only -/

section
variable {σ φ : Type}

theorem specLoop_swap {env env' : Env σ φ} (w : World σ φ)
    (hc : ∀ f bs, bs.length = w.bodies.length → env'.collide w.eps f bs = env.collide w.eps f bs) : ∀ (n : ℕ) (f : φ) (d s : ℝ),
    specLoop env' w n f d s = specLoop env w n f d s
  | 0, _, _, _ => rfl
  | n + 1, f, d, s => by
    unfold specLoop
    rw [hc _ _ (by simp)]
    cases env.collide w.eps f (w.bodies.map fun b => b.move d) with
    | error e => rfl
    | ok r =>
      obtain ⟨f', cs⟩ := r
      simp only
      rw [specLoop_swap w hc n]

theorem step_swap {env env' : Env σ φ} (w : World σ φ) (hg : w.Good)
    (hc : ∀ f bs, bs.length = w.bodies.length → env'.collide w.eps f bs = env.collide w.eps f bs) (hp : w.post_stab = false)
    (fuel : ℕ) (dt : ℝ) (hs : env'.solve_dynamics w dt = env.solve_dynamics w dt) :
    w.step_dt env' fuel dt = w.step_dt env fuel dt := by
  rw [step_dt_eq env' fuel w hg dt, step_dt_eq env fuel w hg dt, hs]
  cases hr : env.solve_dynamics w dt with
  | error e => rfl
  | ok r =>
    simp only [Run.ofExcept, Run.bind_done]
    rw [specLoop_swap (env := env) (env' := env') (({ w with eng := r.1 } : World σ φ).set_v r.2) (fun f bs hbs => hc f bs (by rw [hbs, set_v_length]))]
    cases hl : specLoop env (({ w with eng := r.1 } : World σ φ).set_v r.2) fuel w.fnd dt 0 with
    | running => rfl
    | raised e => rfl
    | done q =>
      have : q.1.post_stab = false := by
        obtain ⟨q', -, -, ⟨fk, f', cs, -, -, hq⟩, -⟩ := specLoop_done (w' := q.1) (d' := q.2) hl
        rw [hq]; exact hp
      simp only [Run.bind_done, this, Bool.false_eq_true, if_false]

/-- The run is the same in two environments that agree on all worlds the run can meet. -/
theorem run_swap {env env' : Env σ φ} (N : ℕ) (eps t0 : ℝ)
    (hc : ∀ f bs, bs.length = N → env'.collide eps f bs = env.collide eps f bs)
    (hs : ∀ w : World σ φ, w.bodies.length = N → t0 ≤ w.t → ∀ dt, env'.solve_dynamics w dt = env.solve_dynamics w dt)
    (fuel : ℕ) (T : ℝ) : ∀ (n : ℕ) (w : World σ φ), w.Good → w.bodies.length = N → w.eps = eps → w.post_stab = false → 0 ≤ w.dt →
      t0 ≤ w.t → runWorld env' fuel T n w = runWorld env fuel T n w
  | 0, w, _, _, _, _, _, _ => rfl
  | n + 1, w, hg, hN, he, hp, hdt, ht => by
    unfold runWorld
    split_ifs with hT
    · simp only [World.step, Bool.false_eq_true, if_false]
      have e := step_swap (env := env) (env' := env') w hg (fun f bs hbs => by rw [he]; exact hc f bs (by rw [hbs, hN])) hp fuel w.dt
        (hs w hN ht w.dt)
      rw [e]
      cases hr : w.step_dt env fuel w.dt with
      | running => rfl
      | raised e => rfl
      | done w' =>
        simp only [Run.bind_done]
        have hpar := step_dt_params hg hr
        have htime : w.t ≤ w'.t := by
          obtain ⟨e, v, k, w1, w2, -, -, -, -, -, -, hend⟩ := step_dt_done hg hr
          have : 0 ≤ w.dt / 2 ^ k := by positivity
          rcases hend with ⟨-, rfl⟩ | ⟨-, dp, f2, cs2, -, w3, -, -, rfl⟩ <;> exact le_add_of_nonneg_right this
        exact run_swap N eps t0 hc hs fuel T n w' (step_dt_good hg hr) (by rw [hpar.2.2.2.2.2.1, hN]) (by rw [hpar.2.1, he])
          (by rw [hpar.2.2.2.1, hp]) (by rw [hpar.1]; exact hdt) (ht.trans htime)
    · rfl

end

theorem solve_swap {φ : Type} {H H' : ForceHeap} {w : World (Option Mat) φ} (h : forceCat H' w.t w.bodies.length = forceCat H w.t w.bodies.length)
    (lcp : LcpSolver) (mi : ℕ) (dt : ℝ) : pdipmSolve 2 H' lcp mi w dt = pdipmSolve 2 H lcp mi w dt := by
  unfold pdipmSolve
  simp only [h]

/-! ## The scene -/

/-- C117: the target stays where it is, whatever the force and whatever the balls do: no contact with it is ever made. -/
theorem C117_target (F : V3) (lcp : LcpSolver) (hx : Exact lcp) (mi fuel n cfuel : ℕ) (hcf : 66 ≤ cfuel)
    (pairs : List Body → List (ℕ × ℕ)) (hp : ∀ bs, ∀ p ∈ pairs bs, p.1 < bs.length ∧ p.2 < bs.length ∧ p.1 ≠ p.2)
    (fnd : Finder) (w : World (Option Mat) Finder)
    (hw : (scene F).play lcp mi fuel n (rejectNan (diffCollide cfuel (scene F).nc pairs)) fnd = .done w) :
    (bodyAt w.bodies 0).p = ⟨0, 500, 300⟩ := by
  unfold Demo.play at hw
  rw [Run.bind_eq_done] at hw
  obtain ⟨w0, h1, h2⟩ := hw
  obtain ⟨⟨bs, a1, a2, a3⟩, c1, c2, c3, c4, c5, c6, c7⟩ := start_starts (scene F) (scene_made F) lcp mi cfuel hcf pairs hp fnd w0 h1
  have c5' : w0.bodies.length = 3 := c5
  have hpar : w0.eps = 1 / 10 ∧ w0.post_stab = false := by
    have hm := h1
    unfold Demo.start at hm
    rw [a1] at hm
    obtain ⟨-, -, -, -, q1, q2, q3, -⟩ := mkWorld_done (C12_finder_ok cfuel (scene F).nc pairs hp)
      (by rw [← a2]; exact c3.good.rect) (by simp [scene]) (by simp [scene]) hm
    exact ⟨q1, q3⟩
  have h3 : runWorld (watchedEnv 0 (pdipmEnv 2 (scene F).forces lcp mi (rejectNan (diffCollide cfuel (scene F).nc pairs)))) fuel
      (scene F).run_time n w0 = .done w := by
    rw [← h2]
    refine run_swap (env := pdipmEnv 2 (scene F).forces lcp mi (rejectNan (diffCollide cfuel (scene F).nc pairs)))
      (env' := watchedEnv 0 (pdipmEnv 2 (scene F).forces lcp mi (rejectNan (diffCollide cfuel (scene F).nc pairs))))
      3 (1 / 10) 0 ?_ (fun _ _ _ _ => rfl) fuel _ n w0 c3.good c5' hpar.1 hpar.2 (by rw [c7]; norm_num) c2.ge
    intro f bs hb
    refine C115_excluded cfuel (scene F).nc pairs 0 bs (hp bs) ?_ (1 / 10) f
    intro j hj hj'
    rw [hb] at hj'
    interval_cases j
    · exact absurd rfl hj
    · simp [scene, addNoContact]
    · simp [scene, addNoContact]
  have hm : bodyAt w0.bodies 0 ∈ w0.bodies := bodyAt_mem (by omega)
  obtain ⟨⟨r2, r3⟩, -⟩ := C115_run (scene F).forces lcp hx mi _ (C12_finder_ok cfuel (scene F).nc pairs hp) w0 w c3 0 (by omega)
    (by rw [a3]; simp [scene]) (by rw [c1]; intro c hc; cases hc) (c4 _ hm).1 (c4 _ hm).2
    (by simp [scene, withForces, ForceHeap.add_force]) (runWorld_reaches h3)
  have hb : bodyAt w0.bodies 0 = sceneBody 0 := by
    obtain ⟨bs', e1, -, e3⟩ := built_all (scene F).items (scene_made F).fine
    rw [a1] at e1
    injection e1 with e1
    subst e1
    have := e3 0 (by simp [scene])
    rw [scene_build F 0 (by simp [scene])] at this
    injection this with this
    rw [a2, this]
  rw [r3, hb]
  apply V3.ext <;> simp [sceneBody, mkCircle, Arg.toV3]

/-- After the push no force acts. -/
theorem scene_late (F : V3) (t : ℝ) (ht : 1 / 10 ≤ t) : forceCat noForces t 3 = forceCat (scene F).forces t 3 := by
  rw [noForces_cat]
  have h : learned_force F t = ZEROS := by
    unfold learned_force
    rw [if_neg (by norm_num; linarith)]
  have h100 : (100 : ℝ) • ZEROS = 0 := by apply V3.ext <;> simp [ZEROS]
  have h0 : (0 : V3) + 0 = 0 := by apply V3.ext <;> simp
  simp [forceCat, ForceHeap.apply_forces, scene, withForces, ForceHeap.add_force, Force.set_body, sumForces, Force.force, h, h100, h0]

/-- The pushed ball stays clear of the other while it is pushed. -/
def ClearStart (F : V3) : Prop := ∀ n ≤ 3, 60.1 < len (pushedPos F n - (400, 250))

/-- C117: whatever happens when the balls meet (impact, friction, shortened steps), the push alone decides where the centre of the
two balls is. -/
theorem C117_centre (F : V3) (hF : ClearStart F) (lcp : LcpSolver) (hx : Exact lcp) (mi fuel n cfuel : ℕ) (hcf : 66 ≤ cfuel)
    (pairs : List Body → List (ℕ × ℕ)) (hp : ∀ bs, ∀ p ∈ pairs bs, p.1 < bs.length ∧ p.2 < bs.length ∧ p.1 ≠ p.2)
    (fnd : Finder) (w : World (Option Mat) Finder)
    (hw : (scene F).play lcp mi (fuel + 1) (n + 3) (rejectNan (diffCollide cfuel (scene F).nc pairs)) fnd = .done w) :
    (bodyAt w.bodies 1).pos + (bodyAt w.bodies 2).pos = (650, 460) + (10 * w.t - 1 / 3) • (F.x, F.y) ∧ 7 ≤ w.t ∧
      w.t < 7 + 1 / 30 := by
  obtain ⟨w3, p1, ⟨_, _, _, _, _, p2⟩, p3, p4, p5, p6⟩ := scene_flight F 3 (by norm_num) hF lcp mi fuel cfuel hcf pairs hp fnd
  have htarget := C117_target F lcp hx mi _ _ cfuel hcf pairs hp fnd w hw
  rw [p1 n] at hw
  have hlen := p2.count
  have hlen : w3.bodies.length = 3 := hlen
  have htime := C25_run_world_final_time _ _ _ _ _ _ p2.inv.good (by rw [p2.pars.1]; norm_num)
    (by rw [p3]; norm_num [scene]) hw
  rw [p2.pars.1] at htime
  have hT : (scene F).run_time = 7 := rfl
  rw [hT] at htime
  refine ⟨?_, htime⟩
  have hrun : runWorld (pdipmEnv 2 noForces lcp mi (rejectNan (diffCollide cfuel (scene F).nc pairs))) (fuel + 1)
      (scene F).run_time n w3 = .done w := by
    rw [← hw]
    refine run_swap (env := pdipmEnv 2 (scene F).forces lcp mi (rejectNan (diffCollide cfuel (scene F).nc pairs)))
      (env' := pdipmEnv 2 noForces lcp mi (rejectNan (diffCollide cfuel (scene F).nc pairs))) 3 (1 / 10) (1 / 10)
      (fun _ _ _ => rfl) ?_ _ _ n w3 p2.inv.good hlen p2.pars.2.1 p2.pars.2.2.2 (by rw [p2.pars.1]; norm_num)
      (by rw [p3]; norm_num)
    intro u hu ht dt
    exact solve_swap (by rw [hu]; exact scene_late F u.t ht) lcp mi dt
  have hreach := runWorld_reaches hrun
  obtain ⟨-, hc⟩ := C96_centre_of_mass noForces lcp mi _ (C12_finder_ok cfuel (scene F).nc pairs hp) hx w3 w p2.inv
    (by rw [p2.joints]; intro j hj; cases hj) (by
      intro t fl hfl
      rw [noForces_cat] at hfl
      injection hfl with hfl
      subst hfl
      constructor <;> refine Finset.sum_eq_zero fun i hi => ?_ <;>
        simp [List.getD_eq_getElem?_getD, Finset.mem_range.1 hi]) hreach
  have hst := (reaches_statics p2.inv.good hreach).2
  have hlw : w.bodies.length = 3 := by rw [sameStatics_length hst, hlen]
  have hm : ∀ k < 3, (bodyAt w.bodies k).mass = 1 := by
    intro k hk
    rw [sameStatics_mass hst]
    exact (p4 k hk).1
  unfold massMoment totalMomentum at hc
  rw [sum_map_bodyAt, sum_map_bodyAt, sum_map_bodyAt, hlw, hlen] at hc
  simp only [Finset.sum_range_succ, Finset.sum_range_zero, zero_add] at hc
  rw [hm 0 (by norm_num), hm 1 (by norm_num), hm 2 (by norm_num), (p4 0 (by norm_num)).1, (p4 1 (by norm_num)).1,
    (p4 2 (by norm_num)).1, (p4 0 (by norm_num)).2.1, (p4 1 (by norm_num)).2.1, (p4 2 (by norm_num)).2.1,
    (p4 0 (by norm_num)).2.2, (p4 1 (by norm_num)).2.2, (p4 2 (by norm_num)).2.2, p3] at hc
  have h0 : (bodyAt w.bodies 0).pos = (500, 300) := by
    unfold Body.pos
    rw [htarget]; rfl
  rw [h0] at hc
  have c1 := congrArg Prod.fst hc
  have c2 := congrArg Prod.snd hc
  norm_num [scenePos, sceneVel, pushedPos, pushed] at c1 c2
  ext
  · simp
    linarith
  · simp
    linarith

end LcpPhysics
