import Verif.Props.Quiet
import Verif.Props.InferenceRun

/-!
# Worlds in which nothing touches, with the stabilisation

The runs of Props/Quiet.lean for worlds that stabilise after every step (world.py:107-120, engines.py:80-116).
-/

noncomputable section

namespace LcpPhysics
open Spec

/-- What holds of a world in which nothing touches, at every step with stabilisation. -/
structure QuietStab (N : ℕ) (w : World (Option Mat) Finder) : Prop where
  inv : EngineInv w
  count : w.bodies.length = N
  tree : JointTree w.joints
  clear : w.contacts = []
  heavy : ∀ i < N, 0 < (bodyAt w.bodies i).mass ∧ 0 < (bodyAt w.bodies i).ang_inertia
  post : w.post_stab = true

theorem heavy_mem {bs : List Body} {N : ℕ} (hl : bs.length = N)
    (h : ∀ i < N, 0 < (bodyAt bs i).mass ∧ 0 < (bodyAt bs i).ang_inertia) : ∀ b ∈ bs, 0 < b.mass ∧ 0 < b.ang_inertia := by
  intro b hb
  obtain ⟨q, hq, rfl⟩ := List.getElem_of_mem hb
  have := h q (by rw [← hl]; exact hq)
  rwa [show bodyAt bs q = bs[q] by simp [bodyAt, List.getD_eq_getElem?_getD, hq]] at this

theorem quietStab_step {N : ℕ} {H : ForceHeap} (hH : ∀ t, ∃ fl, forceCat H t N = .ok fl) {lcp : LcpSolver} {mi : ℕ}
    {collide : ℝ → Finder → List Body → Except Err (Finder × List Contact)} (hf : FinderOk collide)
    (hsil : ∀ eps f (bs : List Body), bs.length = N → collide eps f bs = .ok (f, []))
    {w : World (Option Mat) Finder} (h : QuietStab N w) (dt : ℝ) :
    ∃ w', w.step_dt (pdipmEnv 2 H lcp mi collide) 1 dt = .done w' ∧ QuietStab N w' ∧ w'.t = w.t + dt := by
  obtain ⟨fl, hfl⟩ := hH w.t
  have hsolid := heavy_mem h.count h.heavy
  obtain ⟨⟨e, v⟩, hr⟩ := C35_no_contact_succeeds 2 H lcp mi w dt h.inv.joints hsolid
    (C71_tree_independent w h.inv.joints h.tree) h.clear fl (by rw [h.count]; exact hfl)
  set w2 := (({ w with eng := e } : World (Option Mat) Finder).set_v v).accepted dt 0 w.fnd [] with hw2
  have hs2 : SameStatics w w2 := by
    rw [hw2]
    exact (sameStatics_set_v w v e).trans (sameStatics_accepted _ _ _ _ _)
  have hj2 : JointsOk w2 := jointsOk_congr hs2 h.inv.joints
  have hlen2 : w2.bodies.length = N := by
    rw [← h.count, hw2]; simp [World.accepted, World.set_v]
  have hheavy2 : ∀ i < N, 0 < (bodyAt w2.bodies i).mass ∧ 0 < (bodyAt w2.bodies i).ang_inertia := by
    intro i hi
    have hi' : i < w.bodies.length := by rw [h.count]; exact hi
    have hb2 : bodyAt w2.bodies i = ({ bodyAt w.bodies i with v := twist v i } : Body).move dt := by
      rw [hw2, accepted_at _ _ _ _ _ _ (by rw [set_v_length]; exact hi'),
        set_v_at ({ w with eng := e } : World (Option Mat) Finder) v i hi']
    rw [hb2]
    have := move_consts ({ bodyAt w.bodies i with v := twist v i } : Body) dt
    simp only [Body.consts, Prod.mk.injEq] at this
    rw [this.1, this.2.1]
    exact h.heavy i hi
  obtain ⟨inv, hinv⟩ := system_invertible w2 hj2 (heavy_mem hlen2 hheavy2)
    (C71_tree_independent w2 hj2 (jointTree_wiring hs2.2 h.tree))
  obtain ⟨dp, hdp⟩ : ∃ dp, pdipmPostStab lcp w2 = .ok dp := by
    unfold pdipmPostStab
    simp only
    rw [if_pos (show w2.contacts = [] from rfl), hinv]
    cases w2.eng with
    | some i => exact ⟨_, rfl⟩
    | none => exact ⟨_, rfl⟩
  obtain ⟨w', k1, k2, k3, k4, k5, k6, k7, k8, k9, k10⟩ := step_second_fields (pdipmEnv 2 H lcp mi collide) 0 w h.inv.good dt h.post
    e v hr w.fnd (hsil _ _ _ (by rw [List.length_map, set_v_length]; exact h.count)) w2 hw2 dp hdp w.fnd []
    (hsil _ _ _ (by rw [← hlen2]; simp [World.stabbed, World.moveJoints, World.moveBodies, World.set_v]))
  have hst := step_dt_statics h.inv.good k1
  have hpar := step_dt_params h.inv.good k1
  have hcon := fun i hi => posed_consts (posed_step h.inv.good k1) (i := i) hi
  exact ⟨w', k1, ⟨step_inv hf h.inv k1, by rw [hpar.2.2.2.2.2.1]; exact h.count, jointTree_wiring hst.2 h.tree, k5, fun i hi => by
    rw [(hcon i (by rw [h.count]; exact hi)).1, (hcon i (by rw [h.count]; exact hi)).2]; exact h.heavy i hi,
    by rw [k10]; exact h.post⟩, k6⟩

/-- The library's world. -/
theorem quietStab_initial {H : ForceHeap} {lcp : LcpSolver} {mi : ℕ}
    {collide : ℝ → Finder → List Body → Except Err (Finder × List Contact)} (hf : FinderOk collide) (fnd : Finder)
    (bodies : List Body) (hne : bodies ≠ []) (hb : ∀ b ∈ bodies, b.RectForm)
    (hsil : ∀ eps f (bs : List Body), bs.length = bodies.length → collide eps f bs = .ok (f, []))
    (hm : ∀ i < bodies.length, 0 < (bodyAt bodies i).mass ∧ 0 < (bodyAt bodies i).ang_inertia)
    (joints : List Joint) (hfix : ∀ j ∈ joints, j.update_pos bodies = j) (htwo : ∀ j ∈ joints, ∀ k ∈ j.i2, j.i1 ≠ k)
    (hin : ∀ j ∈ joints, j.i1 < bodies.length ∧ ∀ k ∈ j.i2, k < bodies.length)
    (htree : JointTree joints) (dt eps tol : ℝ) (strict : Bool) :
    ∃ w, mkWorld (pdipmEnv 2 H lcp mi collide) none fnd bodies joints dt eps tol true strict = .done w ∧
      QuietStab bodies.length w ∧ w.bodies = bodies ∧ w.joints = joints ∧ w.v = cat3 (bodies.map Body.v) ∧ w.t = 0 := by
  have hbod : (initWorld (none : Option Mat) fnd bodies joints dt eps tol true strict).bodies = bodies := by
    apply List.ext_getElem
    · simp [initWorld, World.set_v]
    · intro i h1 h2
      simp only [initWorld, World.set_v, List.getElem_map, List.getElem_zipIdx]
      rw [Nat.zero_add, cat3_slice _ i (by simpa using h2), List.getElem_map]
  have hmk : mkWorld (pdipmEnv 2 H lcp mi collide) none fnd bodies joints dt eps tol true strict =
      .done { initWorld (none : Option Mat) fnd bodies joints dt eps tol true strict with contacts := [], fnd := fnd } := by
    unfold mkWorld
    rw [if_neg (by simpa using hne), if_pos (by
      intro j hj
      simpa using hin j hj)]
    unfold World.find_contacts
    have : (pdipmEnv 2 H lcp mi collide).collide
        (initWorld (none : Option Mat) fnd bodies joints dt eps tol true strict).eps
        (initWorld (none : Option Mat) fnd bodies joints dt eps tol true strict).fnd
        (initWorld (none : Option Mat) fnd bodies joints dt eps tol true strict).bodies = .ok (fnd, []) := by
      rw [hbod]; exact hsil _ _ _ rfl
    rw [this]
    simp only [Run.bind]
    cases strict
    · rfl
    · simp only [if_true]
      rw [if_pos]
      intro c hc
      simp at hc
  obtain ⟨m1, m2, m3, m4, -, -, m7, -⟩ := mkWorld_done hf hb hfix htwo hmk
  exact ⟨_, hmk, ⟨m1, by rw [m2], by rw [m3]; exact htree, rfl, by rw [m2]; exact hm, m7⟩, m2, m3, m4, rfl⟩

/-- The run exists, for as long as one likes, in steps of full length. -/
theorem quietStab_runs {H : ForceHeap} {lcp : LcpSolver} {mi : ℕ}
    {collide : ℝ → Finder → List Body → Except Err (Finder × List Contact)} (hf : FinderOk collide) (fnd : Finder)
    (bodies : List Body) (hH : ∀ t, ∃ fl, forceCat H t bodies.length = .ok fl) (hne : bodies ≠ [])
    (hb : ∀ b ∈ bodies, b.RectForm)
    (hsil : ∀ eps f (bs : List Body), bs.length = bodies.length → collide eps f bs = .ok (f, []))
    (hm : ∀ i < bodies.length, 0 < (bodyAt bodies i).mass ∧ 0 < (bodyAt bodies i).ang_inertia)
    (joints : List Joint) (hfix : ∀ j ∈ joints, j.update_pos bodies = j) (htwo : ∀ j ∈ joints, ∀ k ∈ j.i2, j.i1 ≠ k)
    (hin : ∀ j ∈ joints, j.i1 < bodies.length ∧ ∀ k ∈ j.i2, k < bodies.length)
    (htree : JointTree joints) (dt eps tol : ℝ) (strict : Bool) :
    ∃ ws : ℕ → World (Option Mat) Finder,
      mkWorld (pdipmEnv 2 H lcp mi collide) none fnd bodies joints dt eps tol true strict = .done (ws 0) ∧
      (ws 0).bodies = bodies ∧ (ws 0).joints = joints ∧ (ws 0).v = cat3 (bodies.map Body.v) ∧ (ws 0).t = 0 ∧
      ∀ n, (ws n).step_dt (pdipmEnv 2 H lcp mi collide) 1 dt = .done (ws (n + 1)) ∧ QuietStab bodies.length (ws n) ∧
        (ws (n + 1)).t = (ws n).t + dt := by
  obtain ⟨w, hw, hon, hbs, hjs, hv, ht⟩ := quietStab_initial (H := H) (lcp := lcp) (mi := mi) hf fnd bodies hne hb hsil hm joints
    hfix htwo hin htree dt eps tol strict
  choose nxt hn1 hn2 hn3 using fun (w : {w : World (Option Mat) Finder // QuietStab bodies.length w}) =>
    quietStab_step hH (lcp := lcp) (mi := mi) hf hsil w.2 dt
  let run : ℕ → {w : World (Option Mat) Finder // QuietStab bodies.length w} := fun n =>
    Nat.rec ⟨w, hon⟩ (fun _ x => ⟨nxt x, hn2 x⟩) n
  exact ⟨fun n => (run n).1, hw, hbs, hjs, hv, ht, fun n => ⟨hn1 (run n), (run n).2, hn3 (run n)⟩⟩

end LcpPhysics
