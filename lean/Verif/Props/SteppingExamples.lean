import Verif.Props.Totality

/-!
# Worked instances of the stepping theorems (C20-C31)

The theorems of `Props/Stepping.lean` and `Props/Joints.lean` applied to concrete worlds: the two
joined circles of `Props/Joints.lean`, whose finder rejects attempts that go beyond `1/3`, so that a
step of length one is accepted at the third attempt with length `1/4`.
-/

noncomputable section

namespace LcpPhysics
open Spec

/-- C30 (`set_v`): writing a concatenated velocity and reading the second body's slice. -/
example : (((demoWorld false).set_v fun k => k).bodies[1]'(by simp [World.set_v, demoWorld])).v = ⟨3, 4, 5⟩ := by
  have h := (C30_set_v_slices (demoWorld false) fun k => k).2.2 1 (by simp [demoWorld])
    (by simp [World.set_v, demoWorld])
  rw [h]
  simp

/-- C30 (`set_v` of disjoint slices): changing entry 4 leaves the first body alone. -/
example : ((demoWorld false).set_v fun k => if k = 4 then 9 else k).bodies[0]'(by simp [World.set_v, demoWorld]) =
    ((demoWorld false).set_v fun k => k).bodies[0]'(by simp [World.set_v, demoWorld]) :=
  C30_set_v_disjoint _ (fun k => k) (fun k => if k = 4 then 9 else k) 4 (fun n hn => if_neg hn) 0 (by norm_num)
    _ _

/-- C30: concatenation and slices. -/
example : cat3 [⟨1, 2, 3⟩, ⟨4, 5, 6⟩] 4 = 5 := (C30_slice_cat [⟨1, 2, 3⟩, ⟨4, 5, 6⟩] 1 (by simp)).2.1

/-- C30: a world built by the constructor from the demo bodies and joint is well formed. -/
example : ∃ w, mkWorld demoEnv () () [demoBody 0, demoBody 4] [demoJoint] 1 0 0 false true = .done w ∧ w.Good := by
  have hj : ∀ j ∈ [demoJoint], j.update_pos [demoBody 0, demoBody 4] = j := (demoWorld_good true).fix
  have h : ∃ w, mkWorld demoEnv () () [demoBody 0, demoBody 4] [demoJoint] 1 0 0 false true = .done w := by
    unfold mkWorld
    rw [if_neg (by simp), if_pos (by simp [demoJoint])]
    have hc : (initWorld () () [demoBody 0, demoBody 4] [demoJoint] 1 0 0 false true).find_contacts demoEnv =
        .done { initWorld () () [demoBody 0, demoBody 4] [demoJoint] 1 0 0 false true with
          contacts := [], fnd := () } := by
      simp only [World.find_contacts, demoEnv]
      rw [if_neg]
      simp [initWorld, World.set_v, bodyAt, demoBody]
    rw [hc, Run.bind_done, if_pos rfl, if_pos (by simp [World.noPen])]
    exact ⟨_, rfl⟩
  obtain ⟨w, hw⟩ := h
  exact ⟨w, hw, C30_mkWorld_good demoEnv () () _ _ 1 0 0 false true w
    (fun b hb => (demoWorld_good true).rect b hb) hj hw⟩

/-- C30 (invariant): the world reached by the demo step is well formed and its bodies carry the slices
of the world velocity. -/
example : ∃ w', Reaches demoEnv (demoWorld true) w' ∧ w'.t = 1 / 4 ∧ w'.Good ∧
    ∀ (i : ℕ) (hi : i < w'.bodies.length), (w'.bodies[i]).v = ⟨w'.v (3 * i), w'.v (3 * i + 1), w'.v (3 * i + 2)⟩ := by
  obtain ⟨w', h, ht⟩ := demo_step true 0
  have hr : Reaches demoEnv (demoWorld true) w' := Relation.ReflTransGen.single ⟨3, 1, h⟩
  exact ⟨w', hr, ht, C30_good_invariant _ _ _ (demoWorld_good _) hr,
    C30_velocity_is_concatenation _ _ _ (demoWorld_good _) hr⟩

/-- C20: the strict demo step ends with the contacts the finder reports for the new bodies, none deep. -/
example : ∃ w', (demoWorld true).step_dt demoEnv 3 1 = .done w' ∧
    (∃ f, demoEnv.collide 0 f w'.bodies = .ok (w'.fnd, w'.contacts)) ∧ ∀ c ∈ w'.contacts, c.pen ≤ 0 := by
  obtain ⟨w', h, -⟩ := demo_step true 0
  exact ⟨w', h, C20_strict_step_no_penetration demoEnv 3 _ w' 1 (demoWorld_good _) rfl rfl h⟩

/-- C20 (runs): the same along a run. -/
example : ∃ w', Reaches demoEnv (demoWorld true) w' ∧ w'.t = 1 / 4 ∧ ∀ c ∈ w'.contacts, c.pen ≤ 0 := by
  obtain ⟨w', h, ht⟩ := demo_step true 0
  have hr : Reaches demoEnv (demoWorld true) w' := Relation.ReflTransGen.single ⟨3, 1, h⟩
  exact ⟨w', hr, ht, C20_strict_reachable demoEnv _ w' (demoWorld_good _) rfl rfl (by simp [demoWorld]) hr⟩

/-- A finder that always reports a contact of depth one. -/
def deepEnv : Env Unit Unit := { demoEnv with collide := fun _ _ _ => .ok ((), [demoContact]) }

theorem deep_step : ∃ w', (demoWorld false).step_dt deepEnv 4 1 = .done w' ∧ w'.contacts = [demoContact] := by
  rw [step_dt_eq _ _ _ (demoWorld_good false)]
  have hsd : deepEnv.solve_dynamics (demoWorld false) 1 = .ok ((), (demoWorld false).v) := rfl
  rw [hsd]
  simp only [Run.ofExcept, Run.bind_done]
  generalize hw : (({ demoWorld false with eng := () } : World Unit Unit).set_v (demoWorld false).v) = w
  have h4 : w.dt = 1 := by rw [← hw]; rfl
  have h5 : w.tol = 0 := by rw [← hw]; rfl
  have h6 : w.post_stab = false := by rw [← hw]; rfl
  have h7 : w.strict_no_pen = false := by rw [← hw]; rfl
  have hcol : ∀ (e : ℝ) (f : Unit) (bs : List Body), deepEnv.collide e f bs = .ok ((), [demoContact]) :=
    fun _ _ _ => rfl
  have rej : ∀ d : ℝ, 1 / 4 ≤ d → ¬ w.accepts d [demoContact] := by
    intro d hd
    unfold World.accepts
    rw [h4, h5]
    rintro (h | ⟨_, h⟩)
    · have := h demoContact (by simp)
      simp [demoContact] at this
      linarith
    · linarith
  have acc : w.accepts (1 / 2 / 2 / 2) [demoContact] := by
    right
    rw [h4, h7]
    exact ⟨rfl, by norm_num⟩
  unfold specLoop
  simp only [hcol]
  rw [if_neg (rej 1 (by norm_num))]
  unfold specLoop
  simp only [hcol]
  rw [if_neg (rej (1 / 2) (by norm_num))]
  unfold specLoop
  simp only [hcol]
  rw [if_neg (rej (1 / 2 / 2) (by norm_num))]
  unfold specLoop
  simp only [hcol]
  rw [if_pos acc]
  simp only [Run.bind_done]
  rw [if_neg (by rw [World.accepted, h6]; simp)]
  exact ⟨_, rfl, rfl⟩

/-- C23 and C20: with a finder that always reports a deep contact the non-strict demo step still
returns, after halving to `1/8`, below a quarter of the world's step, with the penetration. -/
example : ∃ w', (demoWorld false).step_dt deepEnv 4 1 = .done w' ∧ (∃ c ∈ w'.contacts, 0 < c.pen) ∧
    w'.t - 0 < 1 / 4 ∧ 1 / 8 ≤ w'.t - 0 := by
  have hg := demoWorld_good false
  obtain ⟨w', h, hc⟩ := deep_step
  have hpen : ∃ c ∈ w'.contacts, (demoWorld false).tol < c.pen := by
    rw [hc]; exact ⟨demoContact, by simp, by simp [demoContact, demoWorld]⟩
  refine ⟨w', h, hpen, ?_, ?_⟩
  · have := (C20_nonstrict_penetration_only_if_tiny deepEnv 4 _ w' 1 hg rfl h hpen).2
    simpa [demoWorld] using this
  · have := (C23_nonstrict_progress deepEnv 4 _ w' 1 hg rfl one_pos h).1
    have h8 : min (1 : ℝ) ((demoWorld false).dt / 8) = 1 / 8 := by simp [demoWorld]; norm_num
    rw [h8] at this
    simpa [demoWorld] using this

/-- C21: the accepted step is `1/4`, and the first body has moved by a quarter of its velocity. -/
example : ∃ w', (demoWorld false).step_dt demoEnv 3 1 = .done w' ∧ w'.t = 1 / 4 ∧
    ∃ h : 0 < w'.bodies.length, (w'.bodies[0]).p = ⟨1 / 4, 1 / 4, 0⟩ := by
  obtain ⟨w', h, ht⟩ := demo_step false 0
  obtain ⟨e, v, k, hs, -, htk, -, -, hl, hb⟩ := C21_step_exact demoEnv 3 _ w' 1 (demoWorld_good _) rfl h
  have hv : v = (demoWorld false).v := (Prod.mk.inj (Except.ok.inj hs)).2.symm
  have hk : (1 : ℝ) / 2 ^ k = 1 / 4 := by
    have : w'.t = 0 + 1 / 2 ^ k := htk
    rw [ht] at this; linarith
  have hl' : 0 < w'.bodies.length := by rw [hl]; simp [demoWorld]
  refine ⟨w', h, ht, hl', ?_⟩
  rw [(hb 0 (by simp [demoWorld]) hl').2.1, hk, hv]
  apply V3.ext <;> simp [demoWorld, demoBody, slice3]

/-- C21 (rejected attempts): the demo step has `k = 2`, so two attempts were rejected. -/
example : ∃ w' k, (demoWorld false).step_dt demoEnv 3 1 = .done w' ∧ w'.t = 0 + 1 / 2 ^ k ∧ k = 2 := by
  obtain ⟨w', h, ht⟩ := demo_step false 0
  obtain ⟨k, moved, htk, -⟩ := C21_rejected_attempts demoEnv 3 _ w' 1 (demoWorld_good _) rfl h
  have htk : w'.t = 0 + 1 / 2 ^ k := htk
  refine ⟨w', k, h, htk, ?_⟩
  rw [ht] at htk
  have h4 : (2 : ℝ) ^ k = 2 ^ 2 := by
    have h0 : (2 : ℝ) ^ k ≠ 0 := by positivity
    field_simp at htk
    linarith
  exact Nat.pow_right_injective le_rfl (by exact_mod_cast h4)

/-- C25: time goes forward by at most the requested step. -/
example : ∃ w', (demoWorld false).step_dt demoEnv 3 1 = .done w' ∧ 0 < w'.t ∧ w'.t ≤ 0 + 1 := by
  obtain ⟨w', h, -⟩ := demo_step false 0
  exact ⟨w', h, C25_time_increases demoEnv 3 _ w' 1 (demoWorld_good _) one_pos h⟩

/-- C23: more fuel does not change the demo step. -/
example : (demoWorld true).step_dt demoEnv 50 1 = (demoWorld true).step_dt demoEnv 3 1 := by
  obtain ⟨w', h, -⟩ := demo_step true 0
  exact C23_fuel_irrelevant demoEnv 3 50 _ 1 (demoWorld_good _) (by norm_num) (by rw [h]; simp)

/-- C26: the strict demo step returns, at the first `k` for which the attempt is free. -/
example : ∃ fuel w', (demoWorld true).step_dt demoEnv fuel 1 = .done w' ∧ ∃ k : ℕ, w'.t = 0 + 1 / 2 ^ k := by
  classical
  have hC := C26_strict_terminates_iff demoEnv (demoWorld true) 1 (demoWorld_good true) rfl rfl
    (fun bs => if 1 / 3 < (bodyAt bs 0).p.x then [demoContact] else []) () (demoWorld true).v
    (fun _ _ => ⟨(), rfl⟩) rfl
  obtain ⟨fuel, w', h⟩ := hC.1.2 ⟨2, by
    intro c hc
    rw [bodyAt_map _ _ _ (by simp [World.set_v, demoWorld]), move_p] at hc
    rw [if_neg (by simp [World.set_v, demoWorld, bodyAt, demoBody, slice3]; norm_num)] at hc
    cases hc⟩
  obtain ⟨k, -, -, hk⟩ := hC.2.1 fuel w' h
  exact ⟨fuel, w', h, k, hk⟩

/-- The demo world with post-stabilization, non-strict. -/
def stabWorld : World Unit Unit := { demoWorld false with post_stab := true }

theorem stabWorld_good : stabWorld.Good := good_congr (demoWorld_good false) rfl rfl rfl

/-- C31: with post-stabilization the step returns, keeps the solved velocity (here: the old one) and
moves by the solved velocity plus half the correction (here: zero). -/
example : ∃ w', stabWorld.step_dt demoEnv 4 1 = .done w' ∧ w'.v = stabWorld.v ∧
    ∃ (v dp : Vec) (k : ℕ), ∀ (i : ℕ) (hi : i < stabWorld.bodies.length) (hi' : i < w'.bodies.length),
        (w'.bodies[i]).p = stabWorld.bodies[i].p + ((1 : ℝ) / 2 ^ k) • slice3 v i
          + ((1 : ℝ) / 2 ^ k) • slice3 (fun n => dp n / 2) i := by
  obtain ⟨w', h⟩ := C23_nonstrict_returns demoEnv demoEnv_never_raises 4 le_rfl stabWorld 1 stabWorld_good rfl
    (by simp [stabWorld, demoWorld]) (by simp [stabWorld, demoWorld])
  obtain ⟨e, v, k, hs, hv, -, -⟩ := C31_post_stab_keeps_velocity demoEnv 4 _ w' 1 stabWorld_good h
  obtain ⟨v1, dp, k1, w2, -, -, -, hp⟩ := C31_post_stab_pose demoEnv 4 _ w' 1 stabWorld_good rfl h
  have : v = stabWorld.v := (Prod.mk.inj (Except.ok.inj hs)).2.symm
  exact ⟨w', h, by rw [hv, this], v1, dp, k1, hp⟩

/-- C22: after the two rejected attempts the joint is the old joint moved by the accepted `1/4`, up to
`rot2`, which has drifted to `7/4`. -/
example : ∃ w', (demoWorld false).step_dt demoEnv 3 1 = .done w' ∧ w'.t = 1 / 4 ∧
    ∃ hi : 0 < w'.joints.length, { w'.joints[0] with rot2 := 0 } =
      { demoJoint.move w'.bodies (w'.t - 0) with rot2 := 0 } := by
  obtain ⟨w', h, ht⟩ := demo_step false 0
  obtain ⟨hl, hj⟩ := C22_rollback_restores_partial demoEnv 3 _ w' 1 (demoWorld_good _) rfl h
  have hi : 0 < w'.joints.length := by rw [hl]; simp [demoWorld]
  exact ⟨w', h, ht, hi, hj 0 (by simp [demoWorld]) hi⟩

/-- C28: the anchor of the demo joint keeps its distance from the first body. -/
example : ∃ w', Reaches demoEnv (demoWorld false) w' ∧ w'.t = 1 / 4 ∧ ∃ hi : 0 < w'.joints.length,
    Spec.dist (w'.joints[0]).pos (bodyAt w'.bodies 0).pos = Spec.dist demoJoint.pos (demoBody 0).pos := by
  obtain ⟨w', h, ht⟩ := demo_step false 0
  have hr : Reaches demoEnv (demoWorld false) w' := Relation.ReflTransGen.single ⟨3, 1, h⟩
  obtain ⟨hi', -, hd, -⟩ := C28_anchor_rigid demoEnv _ w' (demoWorld_good _) hr 0 (by simp [demoWorld]) rfl
  exact ⟨w', hr, ht, hi', hd⟩

end LcpPhysics
