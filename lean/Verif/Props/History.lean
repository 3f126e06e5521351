import Verif.Props.PostStab
import Verif.Lemmas.StepParams

/-! # C29, C36 (many steps), C37: properties of whole runs with `PdipmEngine` -/

noncomputable section

namespace LcpPhysics
open Spec

variable {φ : Type}

/-! ## C37: the cached inverse -/

/-- A cached inverse exists only in static worlds and is the inverse of the current matrix. -/
def CacheInv (w : World (Option Mat) φ) : Prop :=
  ∀ inv, w.eng = some inv → w.static_inverse = true ∧
    torchInverse (3 * w.bodies.length + w.num_constraints)
      (systemMatrix w.M w.Je (3 * w.bodies.length)) = .ok inv

theorem CacheInv.ok {w : World (Option Mat) φ} (h : CacheInv w) : CacheOk w :=
  fun inv hi => (h inv hi).2

/-- How `solve_dynamics` changes the cache. -/
theorem solve_cache {fd : ℕ} {H : ForceHeap} {lcp : LcpSolver} {mi : ℕ} {w : World (Option Mat) φ}
    {dt : ℝ} {e : Option Mat} {v' : Vec} (h : pdipmSolve fd H lcp mi w dt = .ok (e, v')) :
    e = w.eng ∨ (w.eng = none ∧ w.static_inverse = true ∧ ∃ inv, e = some inv ∧
      torchInverse (3 * w.bodies.length + w.num_constraints)
        (systemMatrix w.M w.Je (3 * w.bodies.length)) = .ok inv) := by
  unfold pdipmSolve at h
  simp only at h
  cases hf : forceCat H w.t w.bodies.length with
  | error x => rw [hf] at h; cases h
  | ok fl =>
    rw [hf] at h
    simp only at h
    by_cases hnc : w.contacts = []
    · rw [if_pos hnc] at h
      cases he : w.eng with
      | some inv =>
        rw [he] at h
        injection h with h
        injection h with h1 h2
        exact Or.inl h1.symm
      | none =>
        rw [he] at h
        simp only at h
        cases hi : torchInverse (3 * w.bodies.length + w.num_constraints)
            (systemMatrix w.M w.Je (3 * w.bodies.length)) with
        | error x => rw [hi] at h; cases h
        | ok inv =>
          rw [hi] at h
          injection h with h
          injection h with h1 h2
          by_cases hs : w.static_inverse = true
          · rw [if_pos hs] at h1
            exact Or.inr ⟨rfl, hs, inv, h1.symm, rfl⟩
          · rw [if_neg hs] at h1
            exact Or.inl h1.symm
    · rw [if_neg hnc] at h
      cases hJ : w.Jf fd with
      | error x => rw [hJ] at h; cases h
      | ok Jf =>
        rw [hJ] at h
        simp only at h
        split at h
        · cases h
        · injection h with h
          injection h with h1 h2
          exact Or.inl h1.symm

theorem cacheInv_congr {w w' : World (Option Mat) φ} (hs : SameStatics w w')
    (h : ∀ inv, w'.eng = some inv → w.static_inverse = true ∧
      torchInverse (3 * w.bodies.length + w.num_constraints)
        (systemMatrix w.M w.Je (3 * w.bodies.length)) = .ok inv) : CacheInv w' := by
  intro inv hi
  obtain ⟨h1, h2⟩ := h inv hi
  rw [sameStatics_static hs, sameStatics_length hs, sameStatics_num hs, sameStatics_M hs,
    sameStatics_Je hs h1]
  exact ⟨h1, h2⟩

theorem solve_cacheInv {fd : ℕ} {H : ForceHeap} {lcp : LcpSolver} {mi : ℕ}
    {w w' : World (Option Mat) φ} {dt : ℝ} {v' : Vec} (hs : SameStatics w w') (hw : CacheInv w)
    (h : pdipmSolve fd H lcp mi w dt = .ok (w'.eng, v')) : CacheInv w' := by
  apply cacheInv_congr hs
  intro inv hi
  rcases solve_cache h with h1 | ⟨_, h2, inv', h3, h4⟩
  · exact hw inv (h1 ▸ hi)
  · rw [hi] at h3
    injection h3 with h3
    subst h3
    exact ⟨h2, h4⟩

theorem step_dt_eng {σ : Type} {env : Env σ φ} {fuel : ℕ} {w w' : World σ φ} {dt : ℝ} (hg : w.Good)
    (h : w.step_dt env fuel dt = .done w') : ∃ v, env.solve_dynamics w dt = .ok (w'.eng, v) := by
  obtain ⟨e, v, k, w1, w2, hs, _, hw1, hg1, ⟨fk, f', cs, _, _, hw2⟩, _, hend⟩ := step_dt_done hg h
  refine ⟨v, ?_⟩
  rw [hs]
  rcases hend with ⟨_, rfl⟩ | ⟨_, dp, f2, cs2, _, w3, hw3, _, rfl⟩
  · subst hw2 hw1; rfl
  · subst hw3 hw2 hw1; rfl

/-- C37: along every run that starts with an empty cache, the cache never goes stale. -/
theorem C37_cache_never_stale (fd : ℕ) (H : ForceHeap) (lcp : LcpSolver) (mi : ℕ)
    (collide : ℝ → φ → List Body → Except Err (φ × List Contact)) (w0 w : World (Option Mat) φ)
    (hg : w0.Good) (h0 : w0.eng = none) (h : Reaches (pdipmEnv fd H lcp mi collide) w0 w) :
    CacheInv w := by
  have key : w.Good ∧ CacheInv w := by
    induction h with
    | refl => exact ⟨hg, fun inv hi => by rw [h0] at hi; cases hi⟩
    | tail _ hstep ih =>
      obtain ⟨fuel, dt, hs⟩ := hstep
      obtain ⟨v, hv⟩ := step_dt_eng ih.1 hs
      exact ⟨step_dt_good ih.1 hs, solve_cacheInv (step_dt_statics ih.1 hs) ih.2 hv⟩
  exact key.2

/-- C37: with a non-static joint nothing is ever cached. -/
theorem C37_nonstatic_never_caches (fd : ℕ) (H : ForceHeap) (lcp : LcpSolver) (mi : ℕ)
    (collide : ℝ → φ → List Body → Except Err (φ × List Contact)) (w0 w : World (Option Mat) φ)
    (hg : w0.Good) (h0 : w0.eng = none) (hns : ∃ j ∈ w0.joints, j.kind = .revolute ∨ j.kind = .fixed)
    (h : Reaches (pdipmEnv fd H lcp mi collide) w0 w) : w.eng = none := by
  have hi := C37_cache_never_stale fd H lcp mi collide w0 w hg h0 h
  cases he : w.eng with
  | none => rfl
  | some inv =>
    exfalso
    have hs := (hi inv he).1
    rw [sameStatics_static (reaches_statics hg h).2] at hs
    obtain ⟨j, hj, hk⟩ := hns
    have := (List.all_eq_true.1 hs) j hj
    rcases hk with hk | hk <;> rw [hk] at this <;> cases this

/-- C37: with a coherent cache, `solve_dynamics` returns the velocities a fresh engine returns. -/
theorem C37_solve_same (fd : ℕ) (H : ForceHeap) (lcp : LcpSolver) (mi : ℕ)
    (w : World (Option Mat) φ) (dt : ℝ) (hc : CacheInv w) :
    (pdipmSolve fd H lcp mi w dt).map Prod.snd =
      (pdipmSolve fd H lcp mi ({ w with eng := none } : World (Option Mat) φ) dt).map Prod.snd := by
  unfold pdipmSolve
  simp only
  cases hf : forceCat H w.t w.bodies.length with
  | error x => rfl
  | ok fl =>
    simp only
    by_cases hnc : w.contacts = []
    · rw [if_pos hnc, if_pos hnc]
      cases he : w.eng with
      | none => rfl
      | some inv =>
        have := (hc inv he).2
        have this' : torchInverse (3 * w.bodies.length +
          ({ w with eng := none } : World (Option Mat) φ).num_constraints)
          (systemMatrix ({ w with eng := none } : World (Option Mat) φ).M
            ({ w with eng := none } : World (Option Mat) φ).Je (3 * w.bodies.length)) = .ok inv := this
        simp only [this']
        rfl
    · rw [if_neg hnc, if_neg hnc]
      have hJ : ({ w with eng := none } : World (Option Mat) φ).Jf fd = w.Jf fd := rfl
      rw [hJ]
      cases w.Jf fd with
      | error x => rfl
      | ok Jf =>
        simp only
        have hM : ({ w with eng := none } : World (Option Mat) φ).M = w.M := rfl
        have hJe : ({ w with eng := none } : World (Option Mat) φ).Je = w.Je := rfl
        have hJc : ({ w with eng := none } : World (Option Mat) φ).Jc = w.Jc := rfl
        have hE : ({ w with eng := none } : World (Option Mat) φ).E fd = w.E fd := rfl
        have hmu : ({ w with eng := none } : World (Option Mat) φ).mu = w.mu := rfl
        have hr : ({ w with eng := none } : World (Option Mat) φ).restitutions = w.restitutions := rfl
        have hn : ({ w with eng := none } : World (Option Mat) φ).num_constraints =
          w.num_constraints := rfl
        rw [hM, hJe, hJc, hE, hmu, hr, hn]
        split <;> rfl

/-- C37: and so does `post_stabilization`. -/
theorem C37_post_stab_same (lcp : LcpSolver) (w : World (Option Mat) φ) (hc : CacheInv w) :
    pdipmPostStab lcp w =
      pdipmPostStab lcp ({ w with eng := none } : World (Option Mat) φ) := by
  unfold pdipmPostStab
  simp only
  by_cases hnc : w.contacts = []
  · rw [if_pos hnc, if_pos hnc]
    cases he : w.eng with
    | none => rfl
    | some inv =>
      have := (hc inv he).2
      have this' : torchInverse (3 * w.bodies.length +
        ({ w with eng := none } : World (Option Mat) φ).num_constraints)
        (systemMatrix ({ w with eng := none } : World (Option Mat) φ).M
          ({ w with eng := none } : World (Option Mat) φ).Je (3 * w.bodies.length)) = .ok inv := this
      simp only [this']
      rfl
  · rw [if_neg hnc, if_neg hnc]
    rfl

/-! ## C29: constrained degrees of freedom -/

/-- A contact finder that reports pairs of distinct existing bodies and no NaN. -/
def FinderOk (collide : ℝ → φ → List Body → Except Err (φ × List Contact)) : Prop :=
  ∀ eps f bs f' cs, collide eps f bs = .ok (f', cs) →
    ∀ c ∈ cs, c.i1 < bs.length ∧ c.i2 < bs.length ∧ c.i1 ≠ c.i2 ∧ c.nan = false

/-- Everything the engine theorems assume of a world, as an invariant. -/
structure EngineInv (w : World (Option Mat) φ) : Prop where
  good : w.Good
  joints : JointsOk w
  contacts : ContactsOk w
  cache : CacheInv w

theorem jointsOk_congr {σ : Type} {w w' : World σ φ} (hs : SameStatics w w') (h : JointsOk w) :
    JointsOk w' := by
  have key : ∀ x ∈ w.joints.map Joint.wiring, x.2.1 < w.bodies.length ∧
      ∀ k ∈ x.2.2, k < w.bodies.length ∧ x.2.1 ≠ k := by
    intro x hx
    obtain ⟨j, hj, rfl⟩ := List.mem_map.1 hx
    exact h j hj
  intro j hj
  have := key j.wiring (hs.2 ▸ List.mem_map.2 ⟨j, hj, rfl⟩)
  rw [sameStatics_length hs]
  exact this

/-- The velocity part of the step: in the middle world `w2` the invariant holds too. -/
theorem step_inv {H : ForceHeap} {lcp : LcpSolver} {mi : ℕ}
    {collide : ℝ → φ → List Body → Except Err (φ × List Contact)} (hfind : FinderOk collide)
    {w w' : World (Option Mat) φ} {fuel : ℕ} {dt : ℝ} (hw : EngineInv w)
    (h : w.step_dt (pdipmEnv 2 H lcp mi collide) fuel dt = .done w') : EngineInv w' := by
  have hg' := step_dt_good hw.good h
  have hst := step_dt_statics hw.good h
  obtain ⟨v, hv⟩ := step_dt_eng hw.good h
  refine ⟨hg', jointsOk_congr hst hw.joints, ?_, solve_cacheInv hst hw.cache hv⟩
  obtain ⟨e, v, k, w1, w2, hs, _, hw1, hg1, ⟨fk, f', cs, hcs, _, hw2⟩, _, hend⟩ := step_dt_done hw.good h
  rcases hend with ⟨_, rfl⟩ | ⟨_, dp, f2, cs2, _, w3, hw3, hcs2, rfl⟩
  · intro c hc
    subst hw2
    exact hfind _ _ _ _ _ hcs c hc
  · intro c hc
    exact hfind _ _ _ _ _ hcs2 c hc

/-- C29: the invariant needed by the engine theorems holds along every run. -/
theorem C29_engine_invariant (H : ForceHeap) (lcp : LcpSolver) (mi : ℕ)
    (collide : ℝ → φ → List Body → Except Err (φ × List Contact)) (hfind : FinderOk collide)
    (w0 w : World (Option Mat) φ) (h0 : EngineInv w0)
    (h : Reaches (pdipmEnv 2 H lcp mi collide) w0 w) : EngineInv w := by
  induction h with
  | refl => exact h0
  | tail _ hstep ih =>
    obtain ⟨fuel, dt, hs⟩ := hstep
    exact step_inv hfind ih hs

/-- The constraint velocities of static constraints only depend on the wiring. -/
theorem jointVel_static (j j' : Joint) (hw : j'.wiring = j.wiring) (hs : j.kind.static = true)
    (v : Vec) : jointVel j' v = jointVel j v := by
  obtain ⟨kind, i1, i2, pos, pos1, pos2, r1, rot1, rot2⟩ := j
  obtain ⟨kind', i1', i2', pos', pos1', pos2', r1', rot1', rot2'⟩ := j'
  simp only [Joint.wiring, Prod.mk.injEq] at hw
  obtain ⟨rfl, rfl, rfl⟩ := hw
  cases kind' <;> first | rfl | (simp [JKind.static] at hs)

/-- One step: for every static constraint, the velocity and the displacement satisfy it. -/
theorem step_static {H : ForceHeap} {lcp : LcpSolver} {mi : ℕ}
    {collide : ℝ → φ → List Body → Except Err (φ × List Contact)} (hfind : FinderOk collide)
    (hx : Exact lcp) {w w' : World (Option Mat) φ} {fuel : ℕ} {dt : ℝ} (hw : EngineInv w)
    (h : w.step_dt (pdipmEnv 2 H lcp mi collide) fuel dt = .done w') (j : Joint) (hj : j ∈ w.joints)
    (hs : j.kind.static = true) :
    ∃ (d : ℝ) (v dp : Vec), (∀ x ∈ jointVel j v, x = 0) ∧ (∀ x ∈ jointVel j dp, x = 0) ∧
      ∀ (i : ℕ) (_ : i < w.bodies.length), (bodyAt w'.bodies i).p =
        (bodyAt w.bodies i).p + d • slice3 v i + d • slice3 (fun n => dp n / 2) i := by
  obtain ⟨e, v, k, w1, w2, hsol, _, hw1, hg1, ⟨fk, f', cs, hcs, _, hw2⟩, _, hend⟩ :=
    step_dt_done hw.good h
  obtain ⟨fl, l, pn, a, b, g, _, hlaw⟩ := C38_engine_contact_law H lcp mi w dt e v hw.joints
    hw.contacts hw.cache.ok hx hsol
  have hv : ∀ x ∈ jointVel j v, x = 0 := fun x hx' =>
    hlaw.joints x (List.mem_flatMap.2 ⟨j, hj, hx'⟩)
  refine ⟨dt / 2 ^ k, v, ?_⟩
  rcases hend with ⟨_, rfl⟩ | ⟨_, dp, f2, cs2, hdp, w3, hw3, hcs2, rfl⟩
  · refine ⟨fun _ => 0, hv, ?_, ?_⟩
    · intro x hx'
      obtain ⟨kind, i1, i2, pos, pos1, pos2, r1, rot1, rot2⟩ := j
      cases kind <;> simp [JKind.static] at hs <;> simp [jointVel, twist] at hx' <;> exact hx'
    · intro i hi
      subst hw2 hw1
      simp only [World.accepted]
      rw [bodyAt_map _ _ _ (by rw [set_v_length]; exact hi), move_p]
      have : bodyAt (({ w with eng := e } : World (Option Mat) φ).set_v v).bodies i =
          { bodyAt w.bodies i with v := slice3 v i } := by
        simp [bodyAt, List.getD_eq_getElem?_getD, World.set_v, hi]
      rw [this]
      ext <;> simp [slice3]
  · have hs2 : SameStatics w w2 := by
      rw [hw2, hw1]
      exact (sameStatics_set_v w v e).trans (sameStatics_accepted _ _ _ _ _)
    have hj2 : JointsOk w2 := jointsOk_congr hs2 hw.joints
    have hc2 : ContactsOk w2 := by
      intro c hc
      subst hw2
      exact hfind _ _ _ _ _ hcs c hc
    have he2 : w2.eng = e := by rw [hw2, hw1]; rfl
    have hcache2 : CacheInv w2 := by
      apply solve_cacheInv hs2 hw.cache
      rw [he2]; exact hsol
    obtain ⟨l2, pn2, hlaw2⟩ := C62_post_stab_law lcp w2 dp hj2 hc2 hcache2.ok hx hdp
    have hv2 : w2.v = v := by rw [hw2, hw1]; rfl
    obtain ⟨j2, hj2m, hj2w⟩ : ∃ j2 ∈ w2.joints, j2.wiring = j.wiring := by
      have : j.wiring ∈ w2.joints.map Joint.wiring := hs2.2 ▸ List.mem_map.2 ⟨j, hj, rfl⟩
      obtain ⟨j2, h1, h2⟩ := List.mem_map.1 this
      exact ⟨j2, h1, h2⟩
    refine ⟨dp, hv, ?_, ?_⟩
    · have hsum : ∀ x ∈ jointVel j (dp + v), x = 0 := by
        intro x hx'
        rw [← jointVel_static j j2 hj2w hs] at hx'
        exact hlaw2.joints x (List.mem_flatMap.2 ⟨j2, hj2m, by rw [hv2]; exact hx'⟩)
      obtain ⟨kind, i1, i2, pos, pos1, pos2, r1, rot1, rot2⟩ := j
      intro x hx'
      cases kind <;> simp [JKind.static] at hs <;>
        simp [jointVel, twist] at hx' hv hsum
      · linarith
      · linarith
      · linarith
      · rcases hx' with h | h | h <;> linarith [hv.1, hv.2.1, hv.2.2, hsum.1, hsum.2.1, hsum.2.2]
    · intro i hi
      subst hw3 hw2 hw1
      have hi1 : i < (({ w with eng := e } : World (Option Mat) φ).set_v v).bodies.length := by
        rw [set_v_length]; exact hi
      simp [World.set_v, World.moveJoints, World.moveBodies, World.accepted, bodyAt,
        List.getD_eq_getElem?_getD, hi, move_p]

/-- C29: along every run with an exact solver (with or without post-stabilization, any forces,
contacts and further joints), X/Y/Rot constraints keep the coordinate and TotalConstraint keeps the
pose exactly. -/
theorem C29_static_constraints_hold (H : ForceHeap) (lcp : LcpSolver) (mi : ℕ)
    (collide : ℝ → φ → List Body → Except Err (φ × List Contact)) (hfind : FinderOk collide)
    (hx : Exact lcp) (w0 w : World (Option Mat) φ) (h0 : EngineInv w0)
    (h : Reaches (pdipmEnv 2 H lcp mi collide) w0 w) (j : Joint) (hj : j ∈ w0.joints) :
    (j.kind = .xc → (bodyAt w.bodies j.i1).p.x = (bodyAt w0.bodies j.i1).p.x) ∧
    (j.kind = .yc → (bodyAt w.bodies j.i1).p.y = (bodyAt w0.bodies j.i1).p.y) ∧
    (j.kind = .rotc → (bodyAt w.bodies j.i1).p.r = (bodyAt w0.bodies j.i1).p.r) ∧
    (j.kind = .total → (bodyAt w.bodies j.i1).p = (bodyAt w0.bodies j.i1).p) := by
  have hbase : ∀ w, Reaches (pdipmEnv 2 H lcp mi collide) w0 w → EngineInv w ∧ SameStatics w0 w := by
    intro w h
    exact ⟨C29_engine_invariant H lcp mi collide hfind w0 w h0 h, (reaches_statics h0.good h).2⟩
  induction h with
  | refl => exact ⟨fun _ => rfl, fun _ => rfl, fun _ => rfl, fun _ => rfl⟩
  | @tail wa wb hab hstep ih =>
    obtain ⟨hinv, hst⟩ := hbase wa hab
    obtain ⟨fuel, dt, hs⟩ := hstep
    obtain ⟨ja, hja, hjaw⟩ : ∃ ja ∈ wa.joints, ja.wiring = j.wiring := by
      have : j.wiring ∈ wa.joints.map Joint.wiring := hst.2 ▸ List.mem_map.2 ⟨j, hj, rfl⟩
      obtain ⟨j2, h1, h2⟩ := List.mem_map.1 this
      exact ⟨j2, h1, h2⟩
    have hw := hjaw
    simp only [Joint.wiring, Prod.mk.injEq] at hw
    have hi : j.i1 < wa.bodies.length := hw.2.1 ▸ (hinv.joints ja hja).1
    have main : ∀ (hk : j.kind.static = true), ∃ (d : ℝ) (v dp : Vec),
        (∀ x ∈ jointVel ja v, x = 0) ∧ (∀ x ∈ jointVel ja dp, x = 0) ∧
        (bodyAt wb.bodies j.i1).p = (bodyAt wa.bodies j.i1).p + d • slice3 v j.i1 +
          d • slice3 (fun n => dp n / 2) j.i1 := by
      intro hk
      obtain ⟨d, v, dp, h1, h2, h3⟩ := step_static hfind hx hinv hs ja hja (by rw [hw.1]; exact hk)
      exact ⟨d, v, dp, h1, h2, h3 j.i1 hi⟩
    refine ⟨fun hk => ?_, fun hk => ?_, fun hk => ?_, fun hk => ?_⟩
    · obtain ⟨d, v, dp, h1, h2, h3⟩ := main (by rw [hk]; rfl)
      rw [← ih.1 hk, h3]
      simp [jointVel, twist, hw.1, hk, hw.2.1] at h1 h2
      simp [slice3, mul_comm j.i1 3, h1, h2]
    · obtain ⟨d, v, dp, h1, h2, h3⟩ := main (by rw [hk]; rfl)
      rw [← ih.2.1 hk, h3]
      simp [jointVel, twist, hw.1, hk, hw.2.1] at h1 h2
      simp [slice3, mul_comm j.i1 3, h1, h2]
    · obtain ⟨d, v, dp, h1, h2, h3⟩ := main (by rw [hk]; rfl)
      rw [← ih.2.2.1 hk, h3]
      simp [jointVel, twist, hw.1, hk, hw.2.1] at h1 h2
      simp [slice3, mul_comm j.i1 3, h1, h2]
    · obtain ⟨d, v, dp, h1, h2, h3⟩ := main (by rw [hk]; rfl)
      rw [← ih.2.2.2 hk, h3]
      simp [jointVel, twist, hw.1, hk, hw.2.1] at h1 h2
      obtain ⟨a1, a2, a3⟩ := h1
      obtain ⟨b1, b2, b3⟩ := h2
      ext <;> simp [slice3, mul_comm j.i1 3, a1, a2, a3, b1, b2, b3]

end LcpPhysics
