import Verif.Props.Joints

/-!
# C23-C25: steps and runs raise only what the engine or the contact finder raise

Combined with the termination theorems: if those parts do not raise, a non-strict step, a fixed step
and a whole run return a world.
-/

noncomputable section

namespace LcpPhysics
open Spec

variable {σ φ : Type}

/-- The engine and the contact finder never raise. -/
structure NeverRaises (env : Env σ φ) : Prop where
  solve : ∀ w dt, ∃ r, env.solve_dynamics w dt = .ok r
  stab : ∀ w, ∃ dp, env.post_stabilization w = .ok dp
  collide : ∀ eps f bs, ∃ r, env.collide eps f bs = .ok r

theorem find_contacts_raised {env : Env σ φ} (hn : NeverRaises env) (w : World σ φ) (e : Err) :
    w.find_contacts env ≠ .raised e := by
  obtain ⟨r, hr⟩ := hn.collide w.eps w.fnd w.bodies
  unfold World.find_contacts
  rw [hr]
  simp

theorem stepLoop_raised {env : Env σ φ} (hn : NeverRaises env) (sp : Vec) (sr : List (ℝ × ℝ)) (e : Err) :
    ∀ (fuel : ℕ) (w : World σ φ) (d : ℝ), stepLoop env sp sr fuel w d ≠ .raised e
  | 0, _, _ => by simp [stepLoop]
  | fuel + 1, w, d => by
    unfold stepLoop
    cases hf : ((w.moveBodies d).moveJoints d).find_contacts env with
    | running => simp [Run.bind]
    | raised e' => exact absurd hf (find_contacts_raised hn _ _)
    | done w1 =>
      rw [Run.bind_done]
      simp only
      split_ifs
      · simp
      · simp
      · exact stepLoop_raised hn sp sr e fuel _ _

theorem step_dt_raised {env : Env σ φ} (hn : NeverRaises env) (fuel : ℕ) (w : World σ φ) (dt : ℝ) (e : Err) :
    w.step_dt env fuel dt ≠ .raised e := by
  obtain ⟨r, hr⟩ := hn.solve w dt
  unfold World.step_dt
  simp only [hr, Run.ofExcept, Run.bind_done]
  cases hl : stepLoop env (cat3 (w.bodies.map Body.p)) (w.joints.map fun j => (j.rot1, j.rot2)) fuel
      (({ w with eng := r.1 } : World σ φ).set_v r.2) dt with
  | running => simp [Run.bind]
  | raised e' => exact absurd hl (stepLoop_raised hn _ _ _ _ _ _)
  | done q =>
    rw [Run.bind_done]
    split_ifs with hp
    · obtain ⟨dp, hdp⟩ := hn.stab q.1
      unfold postStab
      simp only [hdp, Run.ofExcept, Run.bind_done]
      generalize hu : (World.set_v _ _ : World σ φ) = u
      cases hf : u.find_contacts env with
      | running => simp [Run.bind]
      | raised e' => exact absurd hf (find_contacts_raised hn _ _)
      | done w2 => simp [Run.bind]
    · simp [Run.bind]

/-- C23: a non-strict step of at most the world's step length returns within four attempts, provided the
engine and the contact finder do not raise. -/
theorem C23_nonstrict_returns (env : Env σ φ) (hn : NeverRaises env) (fuel : ℕ) (hf : 4 ≤ fuel)
    (w : World σ φ) (dt : ℝ) (hg : w.Good) (hs : w.strict_no_pen = false) (hdt : 0 < w.dt) (hle : dt ≤ w.dt) :
    ∃ w', w.step_dt env fuel dt = .done w' := by
  cases h : w.step_dt env fuel dt with
  | done w' => exact ⟨w', rfl⟩
  | running => exact absurd h (C23_nonstrict_terminates env fuel hf w dt hg hs hdt hle)
  | raised e => exact absurd h (step_dt_raised hn _ _ _ _)

theorem fixedLoop_raised {env : Env σ φ} (hn : NeverRaises env) (fuel : ℕ) (T : ℝ) (e : Err) :
    ∀ (sub : ℕ) (w : World σ φ), fixedLoop env fuel T sub w ≠ .raised e
  | 0, w => by unfold fixedLoop; split_ifs <;> simp
  | sub + 1, w => by
    unfold fixedLoop
    split_ifs
    · simp only
      cases h : w.step_dt env fuel (T - w.t) with
      | done w' => rw [Run.bind_done]; exact fixedLoop_raised hn fuel T e sub w'
      | running => simp [Run.bind]
      | raised e' => exact absurd h (step_dt_raised hn _ _ _ _)
    · simp

/-- C24: a non-strict fixed step returns, after exactly `dt` of simulated time. -/
theorem C24_fixed_step_returns (env : Env σ φ) (hn : NeverRaises env) (fuel sub : ℕ) (hf : 4 ≤ fuel)
    (hsub : 8 ≤ sub) (w : World σ φ) (hg : w.Good) (hs : w.strict_no_pen = false) (hdt : 0 < w.dt) :
    ∃ w', w.step env fuel sub true = .done w' ∧ w'.t = w.t + w.dt := by
  cases h : w.step env fuel sub true with
  | done w' => exact ⟨w', rfl, C24_fixed_step_exact_time env fuel sub w w' hg hdt.le h⟩
  | running => exact absurd h (C24_fixed_step_terminates env fuel sub hf hsub w hg hs hdt)
  | raised e =>
    unfold World.step at h
    rw [if_pos rfl] at h
    exact absurd h (fixedLoop_raised hn _ _ _ _ _)

theorem runWorld_raised {env : Env σ φ} (hn : NeverRaises env) (fuel : ℕ) (T : ℝ) (e : Err) :
    ∀ (n : ℕ) (w : World σ φ), runWorld env fuel T n w ≠ .raised e
  | 0, w => by unfold runWorld; split_ifs <;> simp
  | n + 1, w => by
    unfold runWorld
    split_ifs
    · simp only
      cases h : w.step env fuel 0 false with
      | done w' => rw [Run.bind_done]; exact runWorld_raised hn fuel T e n w'
      | running => simp [Run.bind]
      | raised e' =>
        unfold World.step at h
        rw [if_neg (by simp)] at h
        exact absurd h (step_dt_raised hn _ _ _ _)
    · simp

/-- C25: a non-strict run returns after at most `8 T / dt` steps, at a time in `[T, T + dt)`. -/
theorem C25_run_world_returns (env : Env σ φ) (hn : NeverRaises env) (fuel : ℕ) (hf : 4 ≤ fuel) (T : ℝ) (n : ℕ)
    (w : World σ φ) (hg : w.Good) (hs : w.strict_no_pen = false) (hdt : 0 < w.dt) (hstart : w.t < T)
    (hn8 : 8 * (T - w.t) / w.dt ≤ n) :
    ∃ w', runWorld env fuel T n w = .done w' ∧ T ≤ w'.t ∧ w'.t < T + w.dt := by
  cases h : runWorld env fuel T n w with
  | done w' => exact ⟨w', rfl, C25_run_world_final_time env fuel n T w w' hg hdt hstart h⟩
  | running => exact absurd h (C25_run_world_terminates env fuel hf T n w hg hs hdt hn8)
  | raised e => exact absurd h (runWorld_raised hn _ _ _ _ _)

theorem demoEnv_never_raises : NeverRaises demoEnv :=
  ⟨fun _ _ => ⟨_, rfl⟩, fun _ => ⟨_, rfl⟩, fun _ _ _ => ⟨_, rfl⟩⟩

/-- C23, C24, C25 on the demo world of `Props/Joints.lean`: the run to time three really happens. -/
example : (∃ w', (demoWorld false).step_dt demoEnv 4 1 = .done w') ∧
    (∃ w', (demoWorld false).step demoEnv 4 8 true = .done w' ∧ w'.t = 0 + 1) ∧
    ∃ w', runWorld demoEnv 4 3 24 (demoWorld false) = .done w' ∧ 3 ≤ w'.t ∧ w'.t < 3 + 1 :=
  ⟨C23_nonstrict_returns demoEnv demoEnv_never_raises 4 le_rfl _ 1 (demoWorld_good _) rfl (by simp [demoWorld])
      (by simp [demoWorld]),
    C24_fixed_step_returns demoEnv demoEnv_never_raises 4 8 le_rfl le_rfl _ (demoWorld_good _) rfl
      (by simp [demoWorld]),
    C25_run_world_returns demoEnv demoEnv_never_raises 4 le_rfl 3 24 _ (demoWorld_good _) rfl
      (by simp [demoWorld]) (by simp [demoWorld]) (by simp [demoWorld]; norm_num)⟩

end LcpPhysics
