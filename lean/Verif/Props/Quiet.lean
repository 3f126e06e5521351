import Verif.Props.Pivot

/-!
# Worlds in which nothing touches

A world whose constraints are not redundant, and whose contact search reports nothing, makes every step of the engine at full
length, for ever (engines.py:26-50, world.py:83-122).
-/

noncomputable section

namespace LcpPhysics
open Spec

theorem touched_wiring {j j' : Joint} (h : j'.wiring = j.wiring) : touched j' = touched j := by
  simp only [Joint.wiring, Prod.mk.injEq] at h
  unfold touched
  rw [h.1, h.2.1, h.2.2]

theorem held_wiring {j j' : Joint} (h : j'.wiring = j.wiring) (m : ℕ) : held j' m = held j m := by
  unfold held
  rw [touched_wiring h]
  simp only [Joint.wiring, Prod.mk.injEq] at h
  rw [h.1]

theorem jointTree_wiring {js js' : List Joint} (h : js'.map Joint.wiring = js.map Joint.wiring) (ht : JointTree js) :
    JointTree js' := by
  have hl : js'.length = js.length := by simpa using congrArg List.length h
  have hk : ∀ (k : ℕ) (h1 : k < js'.length) (h2 : k < js.length), js'[k].wiring = js[k].wiring := by
    intro k h1 h2
    have := congrArg (fun l => l[k]?) h
    simpa [h1, h2] using this
  intro k hk'
  obtain ⟨m, hm, hc⟩ := ht k (by omega)
  have hw := hk k hk' (by omega)
  refine ⟨m, ?_, ?_⟩
  · simp only [Joint.wiring, Prod.mk.injEq] at hw
    rw [hw.2.1, hw.2.2]; exact hm
  · intro c hc' k2 hk2
    rw [touched_wiring (hk k2 (by omega) (by omega))]
    exact hc c (by rw [← held_wiring hw]; exact hc') k2 hk2

/-- What holds of a world in which nothing touches, at every step. -/
structure Quiet (N : ℕ) (w : World (Option Mat) Finder) : Prop where
  inv : EngineInv w
  count : w.bodies.length = N
  tree : JointTree w.joints
  clear : w.contacts = []
  heavy : ∀ i < N, 0 < (bodyAt w.bodies i).mass ∧ 0 < (bodyAt w.bodies i).ang_inertia
  post : w.post_stab = false

theorem quiet_step {N : ℕ} {H : ForceHeap} (hH : ∀ t, ∃ fl, forceCat H t N = .ok fl) {lcp : LcpSolver} {mi : ℕ}
    {collide : ℝ → Finder → List Body → Except Err (Finder × List Contact)} (hf : FinderOk collide)
    (hsil : ∀ eps f (bs : List Body), bs.length = N → collide eps f bs = .ok (f, []))
    {w : World (Option Mat) Finder} (h : Quiet N w) (dt : ℝ) :
    ∃ w', w.step_dt (pdipmEnv 2 H lcp mi collide) 1 dt = .done w' ∧ Quiet N w' ∧ w'.t = w.t + dt := by
  obtain ⟨fl, hfl⟩ := hH w.t
  have hsolid : ∀ b ∈ w.bodies, 0 < b.mass ∧ 0 < b.ang_inertia := by
    intro b hb
    obtain ⟨q, hq, rfl⟩ := List.getElem_of_mem hb
    have := h.heavy q (by rw [← h.count]; exact hq)
    rw [show bodyAt w.bodies q = w.bodies[q] by simp [bodyAt, List.getD_eq_getElem?_getD, hq]] at this
    exact this
  have hlen := h.count
  obtain ⟨⟨e, v⟩, hr⟩ := C35_no_contact_succeeds 2 H lcp mi w dt h.inv.joints hsolid
    (C71_tree_independent w h.inv.joints h.tree) h.clear fl (by rw [hlen]; exact hfl)
  have silent : ∀ f d, collide w.eps f
      ((({ w with eng := e } : World (Option Mat) Finder).set_v v).bodies.map fun b => b.move d) = .ok (f, []) := by
    intro f d
    apply hsil
    rw [List.length_map, set_v_length]; exact h.count
  obtain ⟨r, hr'⟩ := specLoop_ends (env := pdipmEnv 2 H lcp mi collide)
    (w := ({ w with eng := e } : World (Option Mat) Finder).set_v v) 0 w.fnd dt 0
    (fun f j _ => ⟨_, silent f _⟩)
    (fun f r hc => by
      have := silent f (dt / 2 ^ 0)
      change collide w.eps f _ = _ at hc
      rw [this] at hc
      injection hc with hc
      rw [← hc]
      exact Or.inl fun c hc => by simp at hc)
  have hps : r.1.post_stab = false := by
    obtain ⟨q, -, -, ⟨fk, f', cs, -, -, hq⟩, -⟩ := specLoop_done (w' := r.1) (d' := r.2) hr'
    rw [hq]; exact h.post
  have hstep : w.step_dt (pdipmEnv 2 H lcp mi collide) 1 dt = .done { r.1 with t := r.1.t + r.2 } := by
    rw [step_dt_eq _ _ w h.inv.good dt]
    have hs : (pdipmEnv 2 H lcp mi collide).solve_dynamics w dt = .ok (e, v) := hr
    rw [hs]
    simp only [Run.ofExcept, Run.bind_done]
    rw [hr']
    simp only [Run.bind_done, hps, Bool.false_eq_true, if_false]
  refine ⟨_, hstep, ?_⟩
  have hinv' := step_inv hf h.inv hstep
  have hst := step_dt_statics h.inv.good hstep
  have hpar := step_dt_params h.inv.good hstep
  have hcon := fun i hi => posed_consts (posed_step h.inv.good hstep) (i := i) hi
  generalize ({ r.1 with t := r.1.t + r.2 } : World (Option Mat) Finder) = w' at *
  have hends : w'.contacts = [] ∧ w'.t = w.t + dt := by
    obtain ⟨e, v, k, w1, w2, hsol, hk, rfl, -, ⟨fk, f', cs, hcs, hacc, rfl⟩, hrej, hend⟩ := step_dt_done h.inv.good hstep
    rcases hend with ⟨-, rfl⟩ | ⟨hp, -⟩
    swap
    · rw [h.post] at hp; cases hp
    have hk0 : k = 0 := by omega
    subst hk0
    have := hsil w.eps fk
      ((({ w with eng := e } : World (Option Mat) Finder).set_v v).bodies.map fun b => b.move (dt / 2 ^ 0))
      (by rw [List.length_map, set_v_length]; exact h.count)
    change collide w.eps fk _ = _ at hcs
    rw [this] at hcs
    injection hcs with hcs
    injection hcs with _ hcs
    subst hcs
    refine ⟨rfl, ?_⟩
    show w.t + dt / 2 ^ 0 = _
    norm_num
  exact ⟨⟨hinv', by rw [hpar.2.2.2.2.2.1]; exact h.count, jointTree_wiring hst.2 h.tree, hends.1, fun i hi => by
    rw [(hcon i (by rw [h.count]; exact hi)).1, (hcon i (by rw [h.count]; exact hi)).2]; exact h.heavy i hi,
    by rw [hpar.2.2.2.1]; exact h.post⟩, hends.2⟩

/-- The library's world. -/
theorem quiet_initial {H : ForceHeap} {lcp : LcpSolver} {mi : ℕ}
    {collide : ℝ → Finder → List Body → Except Err (Finder × List Contact)} (hf : FinderOk collide) (fnd : Finder)
    (bodies : List Body) (hne : bodies ≠ []) (hb : ∀ b ∈ bodies, b.RectForm)
    (hsil : ∀ eps f (bs : List Body), bs.length = bodies.length → collide eps f bs = .ok (f, []))
    (hm : ∀ i < bodies.length, 0 < (bodyAt bodies i).mass ∧ 0 < (bodyAt bodies i).ang_inertia)
    (joints : List Joint) (hfix : ∀ j ∈ joints, j.update_pos bodies = j) (htwo : ∀ j ∈ joints, ∀ k ∈ j.i2, j.i1 ≠ k)
    (hin : ∀ j ∈ joints, j.i1 < bodies.length ∧ ∀ k ∈ j.i2, k < bodies.length)
    (htree : JointTree joints) (dt eps tol : ℝ) (strict : Bool) :
    ∃ w, mkWorld (pdipmEnv 2 H lcp mi collide) none fnd bodies joints dt eps tol false strict = .done w ∧
      Quiet bodies.length w ∧ w.bodies = bodies ∧ w.joints = joints ∧ w.v = cat3 (bodies.map Body.v) ∧ w.t = 0 := by
  have hbod : (initWorld (none : Option Mat) fnd bodies joints dt eps tol false strict).bodies = bodies := by
    apply List.ext_getElem
    · simp [initWorld, World.set_v]
    · intro i h1 h2
      simp only [initWorld, World.set_v, List.getElem_map, List.getElem_zipIdx]
      rw [Nat.zero_add, cat3_slice _ i (by simpa using h2), List.getElem_map]
  have hmk : mkWorld (pdipmEnv 2 H lcp mi collide) none fnd bodies joints dt eps tol false strict =
      .done { initWorld (none : Option Mat) fnd bodies joints dt eps tol false strict with contacts := [], fnd := fnd } := by
    unfold mkWorld
    rw [if_neg (by simpa using hne), if_pos (by
      intro j hj
      simpa using hin j hj)]
    unfold World.find_contacts
    have : (pdipmEnv 2 H lcp mi collide).collide
        (initWorld (none : Option Mat) fnd bodies joints dt eps tol false strict).eps
        (initWorld (none : Option Mat) fnd bodies joints dt eps tol false strict).fnd
        (initWorld (none : Option Mat) fnd bodies joints dt eps tol false strict).bodies = .ok (fnd, []) := by
      rw [hbod]; exact hsil _ _ _ rfl
    rw [this]
    simp only [Run.bind]
    cases strict
    · rfl
    · simp only [if_true]
      rw [if_pos]
      intro c hc
      simp at hc
  obtain ⟨m1, m2, m3, m4, -, -, m7, -⟩ := mkWorld_done hf hb hfix htwo hmk
  exact ⟨_, hmk, ⟨m1, by rw [m2], by rw [m3]; exact htree, rfl, by rw [m2]; exact hm, m7⟩, m2, m3, m4, rfl⟩

/-- The run exists, for as long as one likes, in steps of full length. -/
theorem quiet_runs {H : ForceHeap} {lcp : LcpSolver} {mi : ℕ}
    {collide : ℝ → Finder → List Body → Except Err (Finder × List Contact)} (hf : FinderOk collide) (fnd : Finder)
    (bodies : List Body) (hH : ∀ t, ∃ fl, forceCat H t bodies.length = .ok fl) (hne : bodies ≠ [])
    (hb : ∀ b ∈ bodies, b.RectForm)
    (hsil : ∀ eps f (bs : List Body), bs.length = bodies.length → collide eps f bs = .ok (f, []))
    (hm : ∀ i < bodies.length, 0 < (bodyAt bodies i).mass ∧ 0 < (bodyAt bodies i).ang_inertia)
    (joints : List Joint) (hfix : ∀ j ∈ joints, j.update_pos bodies = j) (htwo : ∀ j ∈ joints, ∀ k ∈ j.i2, j.i1 ≠ k)
    (hin : ∀ j ∈ joints, j.i1 < bodies.length ∧ ∀ k ∈ j.i2, k < bodies.length)
    (htree : JointTree joints) (dt eps tol : ℝ) (strict : Bool) :
    ∃ ws : ℕ → World (Option Mat) Finder,
      mkWorld (pdipmEnv 2 H lcp mi collide) none fnd bodies joints dt eps tol false strict = .done (ws 0) ∧
      (ws 0).bodies = bodies ∧ (ws 0).joints = joints ∧ (ws 0).v = cat3 (bodies.map Body.v) ∧ (ws 0).t = 0 ∧
      ∀ n, (ws n).step_dt (pdipmEnv 2 H lcp mi collide) 1 dt = .done (ws (n + 1)) ∧ Quiet bodies.length (ws n) ∧
        (ws (n + 1)).t = (ws n).t + dt := by
  obtain ⟨w, hw, hon, hbs, hjs, hv, ht⟩ := quiet_initial (H := H) (lcp := lcp) (mi := mi) hf fnd bodies hne hb hsil hm joints hfix
    htwo hin htree dt eps tol strict
  choose nxt hn1 hn2 hn3 using fun (w : {w : World (Option Mat) Finder // Quiet bodies.length w}) =>
    quiet_step hH (lcp := lcp) (mi := mi) hf hsil w.2 dt
  let run : ℕ → {w : World (Option Mat) Finder // Quiet bodies.length w} := fun n =>
    Nat.rec ⟨w, hon⟩ (fun _ x => ⟨nxt x, hn2 x⟩) n
  exact ⟨fun n => (run n).1, hw, hbs, hjs, hv, ht, fun n => ⟨hn1 (run n), (run n).2, hn3 (run n)⟩⟩

/-- The contact search has nothing to say of two bodies that were told to ignore each other. -/
theorem pair_silent (cfuel : ℕ) {nc : ℕ → List ℕ} (h0 : 0 ∈ nc 1) (h1 : 1 ∈ nc 0) {pairs : List Body → List (ℕ × ℕ)}
    (hpv : ∀ bs, ∀ p ∈ pairs bs, p.1 < bs.length ∧ p.2 < bs.length ∧ p.1 ≠ p.2) (eps : ℝ) (f : Finder) (bs : List Body)
    (hb : bs.length = 2) : rejectNan (diffCollide cfuel nc pairs) eps f bs = .ok (f, []) := by
  have hall : ∀ (ps : List (ℕ × ℕ)), (∀ p ∈ ps, p.1 < 2 ∧ p.2 < 2 ∧ p.1 ≠ p.2) →
      handleAll cfuel nc eps bs ps f = .done (f, []) := by
    intro ps
    induction ps with
    | nil => intro _; rfl
    | cons p ps ih =>
      intro h
      have hp := h p List.mem_cons_self
      have : handle cfuel nc eps bs f p.1 p.2 = .done (f, []) := by
        unfold handle
        rw [if_pos]
        have : (p.1 = 0 ∧ p.2 = 1) ∨ (p.1 = 1 ∧ p.2 = 0) := by omega
        rcases this with ⟨e1, e2⟩ | ⟨e1, e2⟩ <;> rw [e1, e2] <;> assumption
      simp only [handleAll, this, Run.bind_done]
      rw [ih fun q hq => h q (List.mem_cons_of_mem _ hq)]
      rfl
  have := hall (pairs bs) (fun p hp => by have := hpv bs p hp; omega)
  simp [rejectNan, diffCollide, this, Run.toExcept]

end LcpPhysics
