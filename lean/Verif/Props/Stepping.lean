import Verif.Lemmas.World
import Verif.Spec.Run
import Mathlib.Tactic.FieldSimp
import Mathlib.Tactic.IntervalCases

/-!
# C20-C26, C30, C31: the time stepping loop (world.py:72-142)

All theorems hold for every engine and every contact finder (`env`).  `World.Good` is the invariant
of worlds between steps (rectangles have symmetric vertices, constraint indices are valid,
constraints' cached positions are up to date, body velocities are slices of `World.v`); it is
established by `mkWorld` and preserved by every step (`good_mkWorld`, `C30_good_invariant`).
-/

noncomputable section

namespace LcpPhysics
open Spec

variable {σ φ : Type}

/-! ## C30: slicing -/

/-- C30: `set_v` gives body `i` exactly the components `3i, 3i+1, 3i+2`, and changes nothing else of
the bodies. -/
theorem C30_set_v_slices (w : World σ φ) (v : Vec) :
    (w.set_v v).v = v ∧ (w.set_v v).bodies.length = w.bodies.length ∧
    ∀ (i : ℕ) (h : i < w.bodies.length) (h' : i < (w.set_v v).bodies.length),
      (w.set_v v).bodies[i] = { w.bodies[i] with v := ⟨v (3 * i), v (3 * i + 1), v (3 * i + 2)⟩ } := by
  refine ⟨rfl, set_v_length w v, ?_⟩
  intro i h h'
  rw [set_v_getElem]
  simp only [slice3, mul_comm i 3]

/-- C30: slicing a concatenation gives the pieces back. -/
theorem C30_slice_cat (l : List V3) (i : ℕ) (h : i < l.length) :
    cat3 l (3 * i) = l[i].r ∧ cat3 l (3 * i + 1) = l[i].x ∧ cat3 l (3 * i + 2) = l[i].y := by
  have := cat3_slice l i h
  rw [← this]
  simp [slice3, mul_comm i 3]

/-- C30: setting the poses to the concatenation of the current poses changes no pose. -/
theorem C30_set_p_cat (w : World σ φ) :
    (w.set_p (cat3 (w.bodies.map Body.p))).bodies.map Body.p = w.bodies.map Body.p := by
  rw [set_p_bodies w w.bodies id (by simp), List.map_map]
  apply map_congr_mem
  intro b _
  exact set_p_p _ _

/-- C30: bodies do not share components: writing component `k` changes only body `k / 3`. -/
theorem C30_set_v_disjoint (w : World σ φ) (v v' : Vec) (k : ℕ) (hk : ∀ n, n ≠ k → v' n = v n)
    (i : ℕ) (hi : i ≠ k / 3) (h : i < (w.set_v v).bodies.length)
    (h' : i < (w.set_v v').bodies.length) :
    (w.set_v v').bodies[i] = (w.set_v v).bodies[i] := by
  rw [set_v_getElem, set_v_getElem]
  have : slice3 v' i = slice3 v i := by
    unfold slice3
    rw [hk _ (by omega), hk _ (by omega), hk _ (by omega)]
  rw [this]

/-- Worlds built from constructed bodies and constraints are good. -/
theorem C30_mkWorld_good (env : Env σ φ) (eng : σ) (fnd : φ) (bodies : List Body)
    (joints : List Joint) (dt eps tol : ℝ) (ps strict : Bool) (w : World σ φ)
    (hb : ∀ b ∈ bodies, b.RectForm) (hj : ∀ j ∈ joints, j.update_pos bodies = j)
    (h : mkWorld env eng fnd bodies joints dt eps tol ps strict = .done w) : w.Good := by
  unfold mkWorld at h
  by_cases h0 : bodies.length = 0
  · rw [if_pos h0] at h; cases h
  rw [if_neg h0] at h
  by_cases h1 : ∀ j ∈ joints, j.i1 < bodies.length ∧ ∀ k ∈ j.i2, k < bodies.length
  swap
  · rw [if_neg h1] at h; cases h
  rw [if_pos h1] at h
  have hg1 : World.Good (σ := σ) (φ := φ) ⟨0, dt, eps, tol, ps, strict, bodies, joints,
      cat3 (bodies.map Body.v), [], eng, fnd⟩ := ⟨hb, h1, hj, by
    intro i hi
    change _ = slice3 (cat3 (bodies.map Body.v)) i
    rw [cat3_slice _ _ (by simpa using hi), List.getElem_map]⟩
  have hg0 : (initWorld eng fnd bodies joints dt eps tol ps strict).Good :=
    good_congr (good_set_v hg1 (cat3 (bodies.map Body.v)) eng) rfl rfl rfl
  rw [Run.bind_eq_done] at h
  obtain ⟨w1, h3, h4⟩ := h
  have hw : w1 = w := by
    split_ifs at h4 with h5 h6
    · exact Run.done.inj h4
    · exact Run.done.inj h4
  subst hw
  unfold World.find_contacts at h3
  split at h3
  · cases h3
  · rw [← Run.done.inj h3]
    exact good_congr hg0 rfl rfl rfl

/-- C30: in every reachable world the velocity vector is the concatenation of the bodies'
velocities. -/
theorem C30_good_invariant (env : Env σ φ) (w w' : World σ φ) (hg : w.Good)
    (h : Reaches env w w') : w'.Good := by
  induction h with
  | refl => exact hg
  | tail _ hstep ih =>
    obtain ⟨fuel, dt, hs⟩ := hstep
    exact step_dt_good ih hs

theorem C30_velocity_is_concatenation (env : Env σ φ) (w w' : World σ φ) (hg : w.Good)
    (h : Reaches env w w') (i : ℕ) (hi : i < w'.bodies.length) :
    (w'.bodies[i]).v = ⟨w'.v (3 * i), w'.v (3 * i + 1), w'.v (3 * i + 2)⟩ := by
  rw [(C30_good_invariant env w w' hg h).vel i hi]
  simp [slice3, mul_comm i 3]

/-! ## C20: acceptance -/

/-- C20, strict mode without post-stabilization: whenever a step returns, the recorded contacts are
those the finder reports for the final bodies, and none is deeper than `tol`. -/
theorem C20_strict_step_no_penetration (env : Env σ φ) (fuel : ℕ) (w w' : World σ φ) (dt : ℝ)
    (hg : w.Good) (hs : w.strict_no_pen = true) (hp : w.post_stab = false)
    (h : w.step_dt env fuel dt = .done w') :
    (∃ f, env.collide w.eps f w'.bodies = .ok (w'.fnd, w'.contacts)) ∧
    ∀ c ∈ w'.contacts, c.pen ≤ w.tol := by
  obtain ⟨e, v, k, w1, w2, _, _, hw1, hg1, ⟨fk, f', cs, hc, ha, hw2⟩, _, hend⟩ := step_dt_done hg h
  rcases hend with ⟨_, rfl⟩ | ⟨hp', _⟩
  · subst hw2 hw1
    refine ⟨⟨fk, hc⟩, ?_⟩
    rcases ha with ha | ⟨ha, _⟩
    · exact ha
    · exact absurd (ha.symm.trans hs) (by simp)
  · rw [hp] at hp'; cases hp'

/-- C20, non-strict mode: a step returns with a contact deeper than `tol` only if the accepted step
length is below a quarter of the world's `dt`. -/
theorem C20_nonstrict_penetration_only_if_tiny (env : Env σ φ) (fuel : ℕ) (w w' : World σ φ) (dt : ℝ)
    (hg : w.Good) (hp : w.post_stab = false) (h : w.step_dt env fuel dt = .done w')
    (hpen : ∃ c ∈ w'.contacts, w.tol < c.pen) :
    w.strict_no_pen = false ∧ w'.t - w.t < w.dt / 4 := by
  obtain ⟨e, v, k, w1, w2, _, _, hw1, hg1, ⟨fk, f', cs, hc, ha, hw2⟩, _, hend⟩ := step_dt_done hg h
  rcases hend with ⟨_, rfl⟩ | ⟨hp', _⟩
  · subst hw2 hw1
    rcases ha with ha | ⟨ha1, ha2⟩
    · obtain ⟨c, hc, hlt⟩ := hpen
      exact absurd (ha c hc) (not_le.2 hlt)
    · refine ⟨ha1, ?_⟩
      have : dt / 2 ^ k < w.dt / 4 := ha2
      simpa using this
  · rw [hp] at hp'; cases hp'

/-- C20: in every state reachable in strict mode without post-stabilization no recorded contact is
deeper than `tol`. -/
theorem C20_strict_reachable (env : Env σ φ) (w w' : World σ φ) (hg : w.Good)
    (hs : w.strict_no_pen = true) (hp : w.post_stab = false)
    (h0 : ∀ c ∈ w.contacts, c.pen ≤ w.tol) (h : Reaches env w w') :
    ∀ c ∈ w'.contacts, c.pen ≤ w.tol := by
  have key : (w'.strict_no_pen = true ∧ w'.post_stab = false ∧ w'.tol = w.tol) ∧
      ∀ c ∈ w'.contacts, c.pen ≤ w.tol := by
    induction h with
    | refl => exact ⟨⟨hs, hp, rfl⟩, h0⟩
    | @tail a b hr hstep ih =>
      obtain ⟨⟨i1, i2, i3⟩, _⟩ := ih
      obtain ⟨fuel, dt, hst⟩ := hstep
      have hga := C30_good_invariant env w a hg hr
      have hpar := step_dt_params hga hst
      refine ⟨⟨hpar.2.2.2.2.1.trans i1, hpar.2.2.2.1.trans i2, hpar.2.2.1.trans i3⟩, ?_⟩
      rw [← i3]
      exact (C20_strict_step_no_penetration env fuel a b dt hga i1 i2 hst).2
  exact key.2

/-- C20: constructing a world (valid indices, at least one body, finder not raising) raises exactly
when it is strict and some initial contact is deeper than `tol`. -/
theorem C20_construction_raises_iff (env : Env σ φ) (eng : σ) (fnd : φ) (bodies : List Body)
    (joints : List Joint) (dt eps tol : ℝ) (ps strict : Bool)
    (hne : bodies.length ≠ 0)
    (hidx : ∀ j ∈ joints, j.i1 < bodies.length ∧ ∀ k ∈ j.i2, k < bodies.length)
    (f' : φ) (cs : List Contact)
    (hc : ∀ bs : List Body, bs.length = bodies.length →
      (∀ i (h : i < bs.length) (h' : i < bodies.length), bs[i] = bodies[i]) →
      env.collide eps fnd bs = .ok (f', cs)) :
    mkWorld env eng fnd bodies joints dt eps tol ps strict = .raised .assertion ↔
      strict = true ∧ ∃ c ∈ cs, tol < c.pen := by
  unfold mkWorld
  rw [if_neg hne, if_pos hidx]
  have hcol := hc (initWorld eng fnd bodies joints dt eps tol ps strict).bodies
    (set_v_length _ _) (by
      intro i h h'
      have e1 := set_v_getElem (⟨0, dt, eps, tol, ps, strict, bodies, joints, fun _ => 0, [], eng,
        fnd⟩ : World σ φ) (cat3 (bodies.map Body.v)) i h
      refine Eq.trans e1 ?_
      have : slice3 (cat3 (bodies.map Body.v)) i = bodies[i].v := by
        rw [cat3_slice _ _ (by simpa using h'), List.getElem_map]
      simp only [this])
  have hfc : World.find_contacts env (initWorld eng fnd bodies joints dt eps tol ps strict) = .done
      { initWorld eng fnd bodies joints dt eps tol ps strict with contacts := cs, fnd := f' } := by
    unfold World.find_contacts
    have : env.collide (initWorld eng fnd bodies joints dt eps tol ps strict).eps
      (initWorld eng fnd bodies joints dt eps tol ps strict).fnd
      (initWorld eng fnd bodies joints dt eps tol ps strict).bodies = .ok (f', cs) := hcol
    rw [this]
  rw [hfc, Run.bind_done]
  · constructor
    · intro h
      split_ifs at h with h1 h2
      exact ⟨h1, by
        have : ¬ ∀ c ∈ cs, c.pen ≤ tol := h2
        push Not at this; exact this⟩
    · rintro ⟨h1, c, hc1, hc2⟩
      rw [if_pos h1, if_neg]
      intro h; exact absurd (h c hc1) (not_le.2 hc2)

/-! ## C21: time and poses -/

/-- C21: when a step returns (post-stabilization off) there is `k < fuel` (the number of rejected
attempts) such that time advanced by `dt/2^k`, the velocities are those the engine returned, every
body is exactly the start body with the new velocity moved once by `dt/2^k` (pose, vertices and
geometry), and no trace of the rejected attempts remains. -/
theorem C21_step_exact (env : Env σ φ) (fuel : ℕ) (w w' : World σ φ) (dt : ℝ)
    (hg : w.Good) (hp : w.post_stab = false) (h : w.step_dt env fuel dt = .done w') :
    ∃ (e : σ) (v : Vec) (k : ℕ), env.solve_dynamics w dt = .ok (e, v) ∧ k < fuel ∧
      w'.t = w.t + dt / 2 ^ k ∧ w'.v = v ∧ w'.eng = e ∧
      w'.bodies.length = w.bodies.length ∧
      ∀ (i : ℕ) (hi : i < w.bodies.length) (hi' : i < w'.bodies.length),
        w'.bodies[i] = ({ w.bodies[i] with v := slice3 v i } : Body).move (dt / 2 ^ k) ∧
        (w'.bodies[i]).p = w.bodies[i].p + (dt / 2 ^ k) • slice3 v i ∧
        (w'.bodies[i]).v = slice3 v i := by
  obtain ⟨e, v, k, w1, w2, hs, hk, hw1, hg1, ⟨fk, f', cs, hc, ha, hw2⟩, _, hend⟩ := step_dt_done hg h
  rcases hend with ⟨_, rfl⟩ | ⟨hp', _⟩
  · subst hw2 hw1
    refine ⟨e, v, k, hs, hk, rfl, rfl, rfl, ?_, ?_⟩
    · simp [World.accepted, World.set_v]
    · intro i hi hi'
      simp only [World.accepted, List.getElem_map]
      rw [set_v_getElem]
      refine ⟨rfl, ?_, ?_⟩
      · rw [move_p]
      · rw [move_v]
  · rw [hp] at hp'; cases hp'

/-- C21: the attempts before the accepted one were the lengths `dt, dt/2, ..., dt/2^(k-1)`, each
tried from the start poses, each rejected. -/
theorem C21_rejected_attempts (env : Env σ φ) (fuel : ℕ) (w w' : World σ φ) (dt : ℝ)
    (hg : w.Good) (hp : w.post_stab = false) (h : w.step_dt env fuel dt = .done w') :
    ∃ (k : ℕ) (moved : ℝ → List Body), w'.t = w.t + dt / 2 ^ k ∧ w'.bodies = moved (dt / 2 ^ k) ∧
      (∀ d, (moved d).length = w.bodies.length ∧
        ∀ i (hi : i < w.bodies.length) (hi' : i < (moved d).length),
          ((moved d)[i]).p = w.bodies[i].p + d • slice3 w'.v i) ∧
      ∀ j < k, ∃ f f' cs, env.collide w.eps f (moved (dt / 2 ^ j)) = .ok (f', cs) ∧
        (∃ c ∈ cs, w.tol < c.pen) ∧ (w.strict_no_pen = false → w.dt / 4 ≤ dt / 2 ^ j) := by
  obtain ⟨e, v, k, w1, w2, hs, hk, hw1, hg1, ⟨fk, f', cs, hc, ha, hw2⟩, hrej, hend⟩ :=
    step_dt_done hg h
  rcases hend with ⟨_, rfl⟩ | ⟨hp', _⟩
  · refine ⟨k, fun d => w1.bodies.map fun b => b.move d, rfl, ?_, ?_, ?_⟩
    · rw [hw2]; rfl
    · intro d
      subst hw2 hw1
      refine ⟨by simp [World.set_v], ?_⟩
      intro i hi hi'
      simp only [List.getElem_map]
      rw [set_v_getElem, move_p]
      rfl
    · intro j hj
      obtain ⟨f, f2, cs2, h1, h2⟩ := hrej j hj
      refine ⟨f, f2, cs2, h1, ?_, ?_⟩
      · unfold World.accepts at h2
        push Not at h2
        obtain ⟨c, hc1, hc2⟩ := h2.1
        refine ⟨c, hc1, ?_⟩
        rw [hw1] at hc2; exact hc2
      · intro hs'
        unfold World.accepts at h2
        push Not at h2
        have := h2.2 (by rw [hw1]; exact hs')
        rw [hw1] at this; exact this
  · rw [hp] at hp'; cases hp'

/-! ## C31: post-stabilization keeps velocities -/

/-- C31: with post-stabilization a returning step ends with exactly the velocities the engine
computed before stabilization, in `World.v` and in every body; and time advances by `dt/2^k`. -/
theorem C31_post_stab_keeps_velocity (env : Env σ φ) (fuel : ℕ) (w w' : World σ φ) (dt : ℝ)
    (hg : w.Good) (h : w.step_dt env fuel dt = .done w') :
    ∃ (e : σ) (v : Vec) (k : ℕ), env.solve_dynamics w dt = .ok (e, v) ∧ w'.v = v ∧
      w'.t = w.t + dt / 2 ^ k ∧
      ∀ (i : ℕ) (hi' : i < w'.bodies.length), (w'.bodies[i]).v = slice3 v i := by
  obtain ⟨e, v, k, w1, w2, hs, hk, hw1, hg1, ⟨fk, f', cs, hc, ha, hw2⟩, _, hend⟩ := step_dt_done hg h
  have hg' := step_dt_good hg h
  refine ⟨e, v, k, hs, ?_⟩
  have hv : w'.v = v := by
    rcases hend with ⟨_, rfl⟩ | ⟨_, dp, f2, cs2, _, w3, hw3, _, rfl⟩
    · subst hw2 hw1; rfl
    · subst hw3; rfl
  refine ⟨hv, ?_, ?_⟩
  · rcases hend with ⟨_, rfl⟩ | ⟨_, dp, f2, cs2, _, w3, hw3, _, rfl⟩ <;> rfl
  · intro i hi'; rw [hg'.vel i hi', hv]

/-- C31: with post-stabilization the pose of each body is corrected by exactly half the displacement
returned by the engine times the accepted step: `p' = p + d v + d dp/2`. -/
theorem C31_post_stab_pose (env : Env σ φ) (fuel : ℕ) (w w' : World σ φ) (dt : ℝ)
    (hg : w.Good) (hp : w.post_stab = true) (h : w.step_dt env fuel dt = .done w') :
    ∃ (v dp : Vec) (k : ℕ) (w2 : World σ φ), env.post_stabilization w2 = .ok dp ∧ w2.v = v ∧
      w'.v = v ∧
      ∀ (i : ℕ) (hi : i < w.bodies.length) (hi' : i < w'.bodies.length),
        (w'.bodies[i]).p = w.bodies[i].p + (dt / 2 ^ k) • slice3 v i
          + (dt / 2 ^ k) • slice3 (fun n => dp n / 2) i := by
  obtain ⟨e, v, k, w1, w2, hs, hk, hw1, hg1, ⟨fk, f', cs, hc, ha, hw2⟩, _, hend⟩ := step_dt_done hg h
  rcases hend with ⟨hp', _⟩ | ⟨_, dp, f2, cs2, hdp, w3, hw3, _, rfl⟩
  · rw [hp] at hp'; cases hp'
  · refine ⟨v, dp, k, w2, hdp, by rw [hw2, hw1]; rfl, by rw [hw3]; rfl, ?_⟩
    intro i hi hi'
    subst hw3 hw2 hw1
    simp only [World.set_v, World.moveJoints, World.moveBodies, World.accepted, List.getElem_map,
      List.getElem_zipIdx, zero_add, move_p]

/-! ## C23: termination in non-strict mode -/

theorem specLoop_terminates (env : Env σ φ) (w : World σ φ) (hs : w.strict_no_pen = false) :
    ∀ (n : ℕ) (f : φ) (d s : ℝ), d < w.dt / 4 * 2 ^ n → specLoop env w (n + 1) f d s ≠ .running := by
  intro n
  induction n with
  | zero =>
    intro f d s hd
    unfold specLoop
    split
    · simp
    · rw [if_pos]
      · simp
      · exact Or.inr ⟨hs, by simpa using hd⟩
  | succ n ih =>
    intro f d s hd
    unfold specLoop
    split
    · simp
    · split_ifs
      · simp
      · apply ih
        rw [pow_succ] at hd; linarith

theorem specLoop_mono (env : Env σ φ) (w : World σ φ) :
    ∀ (n m : ℕ) (f : φ) (d s : ℝ), n ≤ m → specLoop env w n f d s ≠ .running →
      specLoop env w m f d s = specLoop env w n f d s := by
  intro n
  induction n with
  | zero => intro m f d s _ h; exact absurd rfl h
  | succ n ih =>
    intro m f d s hm h
    obtain ⟨m, rfl⟩ : ∃ m', m = m' + 1 := ⟨m - 1, by omega⟩
    unfold specLoop at h ⊢
    cases hc : env.collide w.eps f (w.bodies.map fun b => b.move d) with
    | error e => rfl
    | ok r =>
      obtain ⟨f', cs⟩ := r
      rw [hc] at h
      simp only at h ⊢
      split_ifs at h ⊢ with ha
      · rfl
      · exact ih m f' (d / 2) (s + d) (by omega) h

/-- More fuel does not change the outcome of a step that does not run out of it. -/
theorem C23_fuel_irrelevant (env : Env σ φ) (n m : ℕ) (w : World σ φ) (dt : ℝ) (hg : w.Good)
    (hnm : n ≤ m) (h : w.step_dt env n dt ≠ .running) :
    w.step_dt env m dt = w.step_dt env n dt := by
  rw [step_dt_eq env n w hg, step_dt_eq env m w hg] at *
  cases hs : env.solve_dynamics w dt with
  | error e => rfl
  | ok r =>
    rw [hs] at h
    simp only [Run.ofExcept, Run.bind_done] at h ⊢
    rw [specLoop_mono env _ n m _ _ _ hnm]
    intro h'
    rw [h'] at h
    exact h rfl

/-- C23: in non-strict mode a step of length at most the world's `dt > 0` makes at most four
attempts: with four units of fuel it never runs out. -/
theorem C23_nonstrict_terminates (env : Env σ φ) (fuel : ℕ) (hf : 4 ≤ fuel) (w : World σ φ) (dt : ℝ)
    (hg : w.Good) (hs : w.strict_no_pen = false) (hdt : 0 < w.dt) (hle : dt ≤ w.dt) :
    w.step_dt env fuel dt ≠ .running := by
  rw [step_dt_eq env fuel w hg]
  intro h
  rw [Run.bind_eq_running] at h
  rcases h with h | ⟨r, hr, h⟩
  · exact Run.ofExcept_ne_running h
  · rw [Run.bind_eq_running] at h
    rcases h with h | ⟨r', hr', h⟩
    · have h4 := specLoop_terminates env (({ w with eng := r.1 } : World σ φ).set_v r.2) hs 3 w.fnd dt 0
        (by change dt < w.dt / 4 * 2 ^ 3; linarith)
      rw [← specLoop_mono env _ 4 fuel _ _ _ hf h4] at h4
      exact h4 h
    · rw [Run.bind_eq_running] at h
      rcases h with h | ⟨w4, hw4, h⟩
      · split_ifs at h with h5
        unfold postStab at h
        rw [Run.bind_eq_running] at h
        rcases h with h | ⟨dp, hdp, h⟩
        · exact Run.ofExcept_ne_running h
        · unfold World.find_contacts at h
          dsimp only at h
          split at h <;> cases h
      · cases h

/-- C23: the accepted length in non-strict mode is at least `min(requested, dt/8)`, and at most the
requested one. -/
theorem C23_nonstrict_progress (env : Env σ φ) (fuel : ℕ) (w w' : World σ φ) (dt : ℝ)
    (hg : w.Good) (hs : w.strict_no_pen = false) (hpos : 0 < dt)
    (h : w.step_dt env fuel dt = .done w') :
    min dt (w.dt / 8) ≤ w'.t - w.t ∧ w'.t - w.t ≤ dt := by
  obtain ⟨e, v, k, w1, w2, _, _, hw1, hg1, ⟨fk, f', cs, hc, ha, hw2⟩, hrej, hend⟩ := step_dt_done hg h
  have ht : w'.t - w.t = dt / 2 ^ k := by
    rcases hend with ⟨_, rfl⟩ | ⟨_, dp, f2, cs2, _, w3, hw3, _, rfl⟩ <;> simp
  rw [ht]
  constructor
  · cases k with
    | zero => simp
    | succ k =>
      obtain ⟨f, f2, cs2, h1, h2⟩ := hrej k (by omega)
      unfold World.accepts at h2
      push Not at h2
      have h3 : w.dt / 4 ≤ dt / 2 ^ k := by
        have := h2.2 (by rw [hw1]; exact hs)
        rw [hw1] at this; exact this
      apply min_le_of_right_le
      rw [pow_succ, ← div_div]; linarith
  · exact div_le_self hpos.le (one_le_pow₀ (by norm_num))

/-- C25 (first part): with positive `dt` a returning step strictly increases time, by at most `dt`. -/
theorem C25_time_increases (env : Env σ φ) (fuel : ℕ) (w w' : World σ φ) (dt : ℝ)
    (hg : w.Good) (hpos : 0 < dt) (h : w.step_dt env fuel dt = .done w') :
    w.t < w'.t ∧ w'.t ≤ w.t + dt := by
  obtain ⟨e, v, k, _, _, ht, _⟩ := C31_post_stab_keeps_velocity env fuel w w' dt hg h
  have : 0 < dt / 2 ^ k := by positivity
  have : dt / 2 ^ k ≤ dt := div_le_self hpos.le (one_le_pow₀ (by norm_num))
  constructor <;> linarith

/-! ## C24: fixed steps -/

theorem fixedLoop_done {env : Env σ φ} {fuel : ℕ} {end_t : ℝ} :
    ∀ (sub : ℕ) (w w' : World σ φ), w.Good → w.t ≤ end_t →
      fixedLoop env fuel end_t sub w = .done w' → w'.t = end_t ∧ w'.Good := by
  intro sub
  induction sub with
  | zero =>
    intro w w' hg hle h
    unfold fixedLoop at h
    split_ifs at h with h1
    have := Run.done.inj h
    subst this
    exact ⟨le_antisymm hle (not_lt.1 h1), hg⟩
  | succ n ih =>
    intro w w' hg hle h
    unfold fixedLoop at h
    split_ifs at h with h1
    · simp only [Run.bind_eq_done] at h
      obtain ⟨w1, h2, h3⟩ := h
      have := C25_time_increases env fuel w w1 _ hg (by linarith) h2
      exact ih w1 w' (step_dt_good hg h2) (by linarith) h3
    · have := Run.done.inj h
      subst this
      exact ⟨le_antisymm hle (not_lt.1 h1), hg⟩

/-- C24: `step(fixed_dt=True)` lands exactly on `t + dt` whenever it returns (strict or not). -/
theorem C24_fixed_step_exact_time (env : Env σ φ) (fuel sub : ℕ) (w w' : World σ φ) (hg : w.Good)
    (hdt : 0 ≤ w.dt) (h : w.step env fuel sub true = .done w') : w'.t = w.t + w.dt := by
  unfold World.step at h
  rw [if_pos rfl] at h
  exact (fixedLoop_done sub w w' hg (by linarith) h).1

theorem fixedLoop_terminates (env : Env σ φ) (fuel : ℕ) (hf : 4 ≤ fuel) (end_t D : ℝ) (hD : 0 < D) :
    ∀ (sub : ℕ) (w : World σ φ), w.Good → w.strict_no_pen = false → w.dt = D → w.t + D ≥ end_t →
      end_t - w.t ≤ D / 8 * sub → fixedLoop env fuel end_t sub w ≠ .running := by
  intro sub
  induction sub with
  | zero =>
    intro w hg hs hd hle hrem
    unfold fixedLoop
    rw [if_neg (by simp at hrem; linarith)]; simp
  | succ n ih =>
    intro w hg hs hd hle hrem
    unfold fixedLoop
    split_ifs with h1
    · intro h
      simp only [Run.bind_eq_running] at h
      rcases h with h | ⟨w1, h2, h3⟩
      · exact C23_nonstrict_terminates env fuel hf w _ hg hs (hd ▸ hD) (by linarith) h
      · have hprog := C23_nonstrict_progress env fuel w w1 _ hg hs (by linarith) h2
        have hpar := step_dt_params hg h2
        refine ih w1 (step_dt_good hg h2) (hpar.2.2.2.2.1.trans hs) (hpar.1.trans hd) ?_ ?_ h3
        · have := C25_time_increases env fuel w w1 _ hg (by linarith) h2
          linarith
        · rw [hd] at hprog
          have hn : (0 : ℝ) ≤ D / 8 * n := by positivity
          push_cast at hrem
          rcases min_le_iff.1 hprog.1 with h4 | h4
          · linarith
          · linarith
    · simp

/-- C24: in non-strict mode with `dt > 0`, `step(fixed_dt=True)` never runs forever: eight sub-steps
of at most four attempts each always suffice. -/
theorem C24_fixed_step_terminates (env : Env σ φ) (fuel sub : ℕ) (hf : 4 ≤ fuel) (hsub : 8 ≤ sub)
    (w : World σ φ) (hg : w.Good) (hs : w.strict_no_pen = false) (hdt : 0 < w.dt) :
    w.step env fuel sub true ≠ .running := by
  unfold World.step
  rw [if_pos rfl]
  apply fixedLoop_terminates env fuel hf _ w.dt hdt sub w hg hs rfl (by linarith)
  have : (8 : ℝ) ≤ sub := by exact_mod_cast hsub
  have : w.dt / 8 * 8 ≤ w.dt / 8 * sub := by
    apply mul_le_mul_of_nonneg_left this; positivity
  linarith

/-! ## C25: run_world -/

theorem runWorld_done {env : Env σ φ} {fuel : ℕ} {T : ℝ} :
    ∀ (n : ℕ) (w w' : World σ φ), w.Good → 0 < w.dt → runWorld env fuel T n w = .done w' →
      T ≤ w'.t ∧ (w.t < T → w'.t < T + w.dt) ∧ (T ≤ w.t → w' = w) := by
  intro n
  induction n with
  | zero =>
    intro w w' hg hd h
    unfold runWorld at h
    split_ifs at h with h1
    have := Run.done.inj h
    subst this
    exact ⟨not_lt.1 h1, fun h' => absurd h' h1, fun _ => rfl⟩
  | succ n ih =>
    intro w w' hg hd h
    unfold runWorld at h
    split_ifs at h with h1
    · simp only [Run.bind_eq_done] at h
      obtain ⟨w1, h2, h3⟩ := h
      simp only [World.step, Bool.false_eq_true, ↓reduceIte] at h2
      have hinc := C25_time_increases env fuel w w1 _ hg hd h2
      have hpar := step_dt_params hg h2
      obtain ⟨a, b, c⟩ := ih w1 w' (step_dt_good hg h2) (by rw [hpar.1]; exact hd) h3
      refine ⟨a, ?_, fun h' => absurd h1 (not_lt.2 h')⟩
      intro _
      by_cases h4 : w1.t < T
      · rw [← hpar.1]; exact b h4
      · rw [c (not_lt.1 h4)]; linarith
    · have := Run.done.inj h
      subst this
      exact ⟨not_lt.1 h1, fun h' => absurd h' h1, fun _ => rfl⟩

/-- C25: when `run_world` returns, the final time is in `[run_time, run_time + dt)`. -/
theorem C25_run_world_final_time (env : Env σ φ) (fuel n : ℕ) (T : ℝ) (w w' : World σ φ)
    (hg : w.Good) (hdt : 0 < w.dt) (hstart : w.t < T) (h : runWorld env fuel T n w = .done w') :
    T ≤ w'.t ∧ w'.t < T + w.dt := by
  obtain ⟨a, b, _⟩ := runWorld_done n w w' hg hdt h
  exact ⟨a, b hstart⟩

/-- C25: in non-strict mode `run_world` never runs forever: `8 (run_time - t) / dt` steps suffice. -/
theorem C25_run_world_terminates (env : Env σ φ) (fuel : ℕ) (hf : 4 ≤ fuel) (T : ℝ) (n : ℕ)
    (w : World σ φ) (hg : w.Good) (hs : w.strict_no_pen = false) (hdt : 0 < w.dt)
    (hn : 8 * (T - w.t) / w.dt ≤ n) : runWorld env fuel T n w ≠ .running := by
  induction n generalizing w with
  | zero =>
    unfold runWorld
    rw [if_neg]
    · simp
    · rw [div_le_iff₀ hdt] at hn; simp at hn; linarith
  | succ n ih =>
    unfold runWorld
    split_ifs with h1
    · intro h
      simp only [Run.bind_eq_running] at h
      rcases h with h | ⟨w1, h2, h3⟩
      · simp only [World.step, Bool.false_eq_true, ↓reduceIte] at h
        exact C23_nonstrict_terminates env fuel hf w _ hg hs hdt le_rfl h
      · simp only [World.step, Bool.false_eq_true, ↓reduceIte] at h2
        have hprog := (C23_nonstrict_progress env fuel w w1 _ hg hs hdt h2).1
        have hpar := step_dt_params hg h2
        refine ih w1 (step_dt_good hg h2) (hpar.2.2.2.2.1.trans hs) (by rw [hpar.1]; exact hdt) ?_ h3
        rw [hpar.1, div_le_iff₀ hdt]
        rw [div_le_iff₀ hdt] at hn
        rw [min_eq_right (by linarith)] at hprog
        push_cast at hn
        nlinarith
    · simp

/-! ## C26: strict termination -/

theorem specLoop_free (env : Env σ φ) (W : World σ φ) (F : List Body → List Contact)
    (hF : ∀ f d, ∃ f', env.collide W.eps f (W.bodies.map fun b => b.move d) =
      .ok (f', F (W.bodies.map fun b => b.move d))) (hs : W.strict_no_pen = true)
    (dt : ℝ) (free : ℕ → Prop)
    (hfr : ∀ k, free k ↔ ∀ c ∈ F (W.bodies.map fun b => b.move (dt / 2 ^ k)), c.pen ≤ W.tol) :
    ∀ (n k : ℕ) (f : φ) (s : ℝ),
      (∀ w' d, specLoop env W n f (dt / 2 ^ k) s = .done (w', d) →
        ∃ k', k ≤ k' ∧ free k' ∧ (∀ j, k ≤ j → j < k' → ¬ free j) ∧ d = dt / 2 ^ k')
      ∧ (∀ j, k ≤ j → j < k + n → free j →
        ∃ w' d, specLoop env W n f (dt / 2 ^ k) s = .done (w', d))
      ∧ ((∀ j, ¬ free j) → specLoop env W n f (dt / 2 ^ k) s = .running) := by
  have hacc : ∀ d cs, W.accepts d cs ↔ ∀ c ∈ cs, c.pen ≤ W.tol := by
    intro d cs
    unfold World.accepts
    constructor
    · rintro (h | ⟨h, _⟩)
      · exact h
      · exact absurd (h.symm.trans hs) (by simp)
    · intro h; exact Or.inl h
  intro n
  induction n with
  | zero =>
    intro k f s
    refine ⟨?_, ?_, ?_⟩
    · intro w' d h; simp [specLoop] at h
    · intro j h1 h2; omega
    · intro _; rfl
  | succ n ih =>
    intro k f s
    obtain ⟨f', hf'⟩ := hF f (dt / 2 ^ k)
    have hhalf : dt / 2 ^ k / 2 = dt / 2 ^ (k + 1) := by rw [pow_succ, div_div]
    by_cases hfree : free k
    · have : specLoop env W (n + 1) f (dt / 2 ^ k) s =
          .done (W.accepted (dt / 2 ^ k) s f' (F (W.bodies.map fun b => b.move (dt / 2 ^ k))),
            dt / 2 ^ k) := by
        unfold specLoop
        simp only [hf']
        rw [if_pos ((hacc _ _).2 ((hfr k).1 hfree))]
      rw [this]
      refine ⟨?_, ?_, ?_⟩
      · intro w' d h
        have := Run.done.inj h
        exact ⟨k, le_rfl, hfree, fun j h1 h2 => by omega, (congrArg Prod.snd this).symm⟩
      · intro j h1 h2 _
        exact ⟨_, _, rfl⟩
      · intro hn; exact absurd hfree (hn k)
    · have : specLoop env W (n + 1) f (dt / 2 ^ k) s =
          specLoop env W n f' (dt / 2 ^ (k + 1)) (s + dt / 2 ^ k) := by
        conv_lhs => unfold specLoop
        simp only [hf', hhalf]
        rw [if_neg (fun h' => hfree ((hfr k).2 ((hacc _ _).1 h')))]
      rw [this]
      obtain ⟨i1, i2, i3⟩ := ih (k + 1) f' (s + dt / 2 ^ k)
      refine ⟨?_, ?_, i3⟩
      · intro w' d h
        obtain ⟨k', h1, h2, h3, h4⟩ := i1 w' d h
        refine ⟨k', by omega, h2, ?_, h4⟩
        intro j hj1 hj2
        rcases Nat.eq_or_lt_of_le hj1 with rfl | hlt
        · exact hfree
        · exact h3 j hlt hj2
      · intro j h1 h2 h3
        have hj : j ≠ k := by rintro rfl; exact hfree h3
        exact i2 j (by omega) (by omega) h3

/-- C26: let `v` be the velocities computed by the engine, and suppose the contacts found after moving the
bodies with them depend only on the bodies (`F`).  In strict mode (no
post-stabilization) the step returns for some number of attempts iff some `dt/2^k` is free of
contacts deeper than `tol`; it then stops at the least such `k`. -/
theorem C26_strict_terminates_iff (env : Env σ φ) (w : World σ φ) (dt : ℝ) (hg : w.Good)
    (hs : w.strict_no_pen = true) (hp : w.post_stab = false)
    (F : List Body → List Contact)
    (e : σ) (v : Vec)
    (hF : ∀ f d, ∃ f', env.collide w.eps f ((({ w with eng := e } : World σ φ).set_v v).bodies.map
      fun b => b.move d) = .ok (f', F ((({ w with eng := e } : World σ φ).set_v v).bodies.map fun b => b.move d)))
    (hsolve : env.solve_dynamics w dt = .ok (e, v)) :
    let free := fun k : ℕ => ∀ c ∈ F ((({ w with eng := e } : World σ φ).set_v v).bodies.map
      fun b => b.move (dt / 2 ^ k)), c.pen ≤ w.tol
    ((∃ fuel w', w.step_dt env fuel dt = .done w') ↔ ∃ k, free k) ∧
    (∀ fuel w', w.step_dt env fuel dt = .done w' →
      ∃ k, free k ∧ (∀ j < k, ¬ free j) ∧ w'.t = w.t + dt / 2 ^ k) ∧
    ((∀ k, ¬ free k) → ∀ fuel, w.step_dt env fuel dt = .running) := by
  intro free
  have hstep : ∀ fuel, w.step_dt env fuel dt =
      (specLoop env (({ w with eng := e } : World σ φ).set_v v) fuel w.fnd dt 0).bind fun r =>
          (if r.1.post_stab then postStab env r.1 r.2 else .done r.1).bind fun w =>
            .done { w with t := w.t + r.2 } := by
    intro fuel
    rw [step_dt_eq env fuel w hg, hsolve]; rfl
  have hps : ∀ fuel w' d, specLoop env (({ w with eng := e } : World σ φ).set_v v) fuel w.fnd dt 0
      = .done (w', d) → w'.post_stab = false ∧ w'.t = w.t := by
    intro fuel w' d h
    obtain ⟨k, _, _, ⟨_, _, _, _, _, h3⟩, _⟩ := specLoop_done h
    rw [h3]; exact ⟨hp, rfl⟩
  have l0 := fun n => specLoop_free env (({ w with eng := e } : World σ φ).set_v v) F hF hs dt free
    (fun k => Iff.rfl) n 0 w.fnd 0
  simp only [pow_zero, div_one] at l0
  refine ⟨⟨?_, ?_⟩, ?_, ?_⟩
  · rintro ⟨fuel, w', h⟩
    rw [hstep, Run.bind_eq_done] at h
    obtain ⟨⟨w2, d⟩, h1, _⟩ := h
    obtain ⟨k', _, hk', _⟩ := (l0 fuel).1 w2 d h1
    exact ⟨k', hk'⟩
  · rintro ⟨k, hk⟩
    obtain ⟨w2, d, h1⟩ := (l0 (k + 1)).2.1 k (by omega) (by omega) hk
    refine ⟨k + 1, { w2 with t := w2.t + d }, ?_⟩
    rw [hstep, h1]
    simp only [Run.bind_done]
    rw [if_neg (by rw [(hps _ _ _ h1).1]; simp), Run.bind_done]
  · intro fuel w' h
    rw [hstep, Run.bind_eq_done] at h
    obtain ⟨⟨w2, d⟩, h1, h2⟩ := h
    obtain ⟨k', _, hk', hlt, hd⟩ := (l0 fuel).1 w2 d h1
    refine ⟨k', hk', fun j hj => hlt j (by omega) hj, ?_⟩
    simp only [(hps _ _ _ h1).1, Bool.false_eq_true, ↓reduceIte, Run.bind_done] at h2
    have := Run.done.inj h2
    rw [← this]
    simp only [(hps _ _ _ h1).2, hd]
  · intro hn fuel
    rw [hstep, (l0 fuel).2.2 hn]
    rfl

end LcpPhysics
