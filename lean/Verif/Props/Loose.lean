import Verif.Props.Pace

/-!
# C132: worlds of discs that allow penetration

With `strict_no_pen = False` a step is halved until it is shorter than a quarter of the step length and is then taken
whatever the penetration (world.py:98-100).  Without post-stabilization.
-/

noncomputable section

namespace LcpPhysics
open Spec

variable {fuel : ℕ} {nc : ℕ → List ℕ} {pairs : List Body → List (ℕ × ℕ)}

/-- A world of discs between steps that is not strict; no two discs are deeper in each other than `D`, which is less than the
distance of the centres of any two touching discs. -/
structure LooseScene (fuel : ℕ) (nc : ℕ → List ℕ) (pairs : List Body → List (ℕ × ℕ)) (D : ℝ) (w : World (Option Mat) Finder) : Prop where
  good : w.Good
  joints : JointsOk w
  cache : CacheInv w
  loose : w.strict_no_pen = false
  nostab : w.post_stab = false
  eps : 0 ≤ w.eps
  depth : -w.eps ≤ D
  bodies : ∀ b ∈ w.bodies, CircleBody w.eps b
  radii : ∀ i < w.bodies.length, ∀ j < w.bodies.length, i ≠ j → D < (bodyAt w.bodies i).rad + (bodyAt w.bodies j).rad
  contacts : ∃ f, diffCollide fuel nc pairs w.eps f w.bodies = .ok (w.fnd, w.contacts)
  nopen : ∀ c ∈ w.contacts, c.pen ≤ D

/-- The strict world with the same bodies that tolerates the depth `D`. -/
def heldAt (D : ℝ) (w : World (Option Mat) Finder) : World (Option Mat) Finder := { w with strict_no_pen := true, tol := D }

theorem held_solve (D : ℝ) (w : World (Option Mat) Finder) (H : ForceHeap) (lcp : LcpSolver) (mi : ℕ) (dt : ℝ) :
    pdipmSolve 2 H lcp mi (heldAt D w) dt = pdipmSolve 2 H lcp mi w dt := rfl

theorem LooseScene.held {D : ℝ} {w : World (Option Mat) Finder} (h : LooseScene fuel nc pairs D w) :
    CircleScene fuel nc pairs (heldAt D w) :=
  ⟨⟨h.good.rect, h.good.valid, h.good.fix, h.good.vel⟩, h.joints, h.cache, rfl, h.nostab, h.eps, h.depth, h.bodies, h.radii, h.contacts,
    h.nopen⟩

/-- An attempt of the length `d` finds no pair deeper than `D`, if `2 V d ≤ D + eps`. -/
theorem loose_far (hnc : ∀ i j, i ∈ nc j → j ∈ nc i) (hp : BroadPhase pairs) {D : ℝ} {w : World (Option Mat) Finder}
    (h : LooseScene fuel nc pairs D w) {e : Option Mat} {v : Vec} {d V : ℝ} (hd : 0 ≤ d)
    (hc : ∀ c ∈ w.contacts, 0 ≤ normalVel c v) (hV : ∀ i < w.bodies.length, len (drift v i) ≤ V) (hD : 2 * V * d ≤ D + w.eps)
    {f f' : Finder} {cs : List Contact}
    (hcs : diffCollide fuel nc pairs w.eps f ((({ w with eng := e } : World (Option Mat) Finder).set_v v).bodies.map fun b => b.move d) =
      .ok (f', cs)) : ∀ c ∈ cs, c.pen ≤ D := by
  by_contra hne
  have := refused_far (e := e) hnc hp h.held hd hc hV hcs (by
    unfold World.accepts
    rintro (h1 | ⟨h1, -⟩)
    · exact hne h1
    · cases h1)
  change w.eps + D < _ at this
  linarith

theorem loose_kept (hnc : ∀ i j, i ∈ nc j → j ∈ nc i) (hp : BroadPhase pairs) {D : ℝ} {w w' : World (Option Mat) Finder}
    (h : LooseScene fuel nc pairs D w) {H : ForceHeap} {lcp : LcpSolver} {mi n : ℕ} {V : ℝ} (hdt : 0 < w.dt) {e : Option Mat} {v : Vec}
    (hs : pdipmSolve 2 H lcp mi w w.dt = .ok (e, v)) (hc : ∀ c ∈ w.contacts, 0 ≤ normalVel c v)
    (hV : ∀ i < w.bodies.length, len (drift v i) ≤ V) (htol : w.tol ≤ D) (hD : V * w.dt / 4 ≤ D + w.eps)
    (hstep : w.step_dt (pdipmEnv 2 H lcp mi (diffCollide fuel nc pairs)) n w.dt = .done w') :
    LooseScene fuel nc pairs D w' := by
  obtain ⟨p1, p2, p3, p4, p5, p6, p7⟩ := step_dt_params h.good hstep
  have hst := step_dt_statics h.good hstep
  obtain ⟨v0, hv0⟩ := step_dt_eng h.good hstep
  obtain ⟨e', v', k, w1, w2, hsol, _, rfl, hg1, ⟨fk, f', cs, hcs, ha, rfl⟩, _, hend⟩ := step_dt_done h.good hstep
  have hsol' : pdipmSolve 2 H lcp mi w w.dt = .ok (e', v') := hsol
  rw [hs] at hsol'
  injection hsol' with hsol'
  injection hsol' with he hv
  subst he hv
  have hgood := step_dt_good h.good hstep
  rcases hend with ⟨_, rfl⟩ | ⟨hp', _⟩
  swap
  · rw [h.nostab] at hp'; cases hp'
  obtain ⟨hl, ht⟩ := tried_bodies w e v (w.dt / 2 ^ k)
  refine ⟨hgood, jointsOk_congr hst h.joints, solve_cacheInv hst h.cache hv0, p5.trans h.loose,
    p4.trans h.nostab, by rw [p2]; exact h.eps, by rw [p2]; exact h.depth, ?_, ?_, ⟨fk, hcs⟩, ?_⟩
  · exact tried_circle h.held e v (w.dt / 2 ^ k)
  · have hr : ∀ i < w.bodies.length,
        (bodyAt ((({ w with eng := e } : World (Option Mat) Finder).set_v v).bodies.map fun b => b.move (w.dt / 2 ^ k)) i).rad =
          (bodyAt w.bodies i).rad := by
      intro i hi
      rw [ht i hi, circle_rad_op (circleBody_op (h.bodies _ (bodyAt_mem hi)) _).circle,
        circle_rad_op (h.bodies _ (bodyAt_mem hi)).circle]
    intro i hi j hj hij
    rw [p6] at hi hj
    have := h.radii i hi j hj hij
    rw [← hr i hi, ← hr j hj] at this
    exact this
  · change ∀ c ∈ cs, c.pen ≤ D
    rcases ha with ha | ⟨-, ha⟩
    · exact fun c hcm => (ha c hcm).trans htol
    · change w.dt / 2 ^ k < w.dt / 4 at ha
      have hk : 3 ≤ k := by
        by_contra hk
        push Not at hk
        interval_cases k <;> norm_num at ha <;> linarith
      have hle : w.dt / 2 ^ k ≤ w.dt / 8 := by
        have : (8 : ℝ) ≤ 2 ^ k := by
          calc (8 : ℝ) = 2 ^ 3 := by norm_num
            _ ≤ 2 ^ k := pow_le_pow_right₀ (by norm_num) hk
        exact div_le_div_of_nonneg_left hdt.le (by norm_num) this
      have hdk : 0 ≤ w.dt / 2 ^ k := by positivity
      refine loose_far hnc hp h hdk hc hV ?_ hcs
      rcases le_or_gt 0 V with hV0 | hV0
      · have := mul_le_mul_of_nonneg_left hle (show 0 ≤ 2 * V by linarith)
        linarith
      · have : 2 * V * (w.dt / 2 ^ k) ≤ 0 := mul_nonpos_of_nonpos_of_nonneg (by linarith) hdk
        linarith [h.depth]

theorem LooseScene.noOverlap (hnc : ∀ i j, i ∈ nc j → j ∈ nc i) (hp : BroadPhase pairs) {D : ℝ} {w : World (Option Mat) Finder}
    (h : LooseScene fuel nc pairs D w) : NoOverlap nc D w.bodies :=
  noOverlap_of_contacts hnc hp h.eps h.depth h.bodies (by
    have := h.held.contacts_eq hp
    change w.contacts = circleContacts nc w.eps w.bodies (pairs w.bodies) at this
    rw [← this]
    exact h.nopen)

/-- Once the engine has answered, a step of a world that is not strict returns after at most four attempts. -/
theorem loose_returns (hp : BroadPhase pairs) {D : ℝ} {w : World (Option Mat) Finder} (h : LooseScene fuel nc pairs D w) {H : ForceHeap}
    {lcp : LcpSolver} {mi : ℕ} (hdt : 0 < w.dt) {e : Option Mat} {v : Vec} (hs : pdipmSolve 2 H lcp mi w w.dt = .ok (e, v)) (n : ℕ)
    (hn : 4 ≤ n) : ∃ w', w.step_dt (pdipmEnv 2 H lcp mi (diffCollide fuel nc pairs)) n w.dt = .done w' := by
  cases hd : w.step_dt (pdipmEnv 2 H lcp mi (diffCollide fuel nc pairs)) n w.dt with
  | done w' => exact ⟨w', rfl⟩
  | running => exact absurd hd (C23_nonstrict_terminates _ n hn w w.dt h.good h.loose hdt le_rfl)
  | raised er =>
    exfalso
    set env := pdipmEnv 2 H lcp mi (diffCollide fuel nc pairs) with henv
    have hs' : env.solve_dynamics w w.dt = .ok (e, v) := hs
    rw [step_dt_eq env n w h.good, hs'] at hd
    simp only [Run.ofExcept, Run.bind_done] at hd
    cases hsl : specLoop env (({ w with eng := e } : World (Option Mat) Finder).set_v v) n w.fnd w.dt 0 with
    | running => rw [hsl] at hd; cases hd
    | raised e' =>
      obtain ⟨f, d, hcol⟩ := specLoop_raised hsl
      have hcirc : ∀ i < ((({ w with eng := e } : World (Option Mat) Finder).set_v v).bodies.map fun b => b.move d).length,
          (bodyAt ((({ w with eng := e } : World (Option Mat) Finder).set_v v).bodies.map fun b => b.move d) i).isCircle = true :=
        fun i hi => (tried_circle h.held e v d _ (bodyAt_mem hi)).circle
      have hok := collide_circles (fuel := fuel) (nc := nc) hp hcirc f (eps := w.eps)
      have : diffCollide fuel nc pairs w.eps f
        ((({ w with eng := e } : World (Option Mat) Finder).set_v v).bodies.map fun b => b.move d) = .error e' := hcol
      rw [hok] at this
      cases this
    | done r =>
      rw [hsl] at hd
      obtain ⟨k, _, _, ⟨_, _, _, _, _, h3⟩, _⟩ := specLoop_done hsl
      have hps : r.1.post_stab = false := by rw [h3]; exact h.nostab
      simp only [Run.bind_done, hps, Bool.false_eq_true, ↓reduceIte] at hd
      cases hd

/-- C132: discs that touch do not approach and no disc is faster than `V`.  A step of a world that is not strict returns after at
most four attempts, advances the clock by an eighth of the step length at least, and leaves no two discs deeper in each other than
they were, `tol`, or `V dt / 4 - eps`. -/
theorem C132_step (fuel : ℕ) (nc : ℕ → List ℕ) (hnc : ∀ i j, i ∈ nc j → j ∈ nc i) (pairs : List Body → List (ℕ × ℕ))
    (hp : BroadPhase pairs) (H : ForceHeap) (lcp : LcpSolver) (mi : ℕ) (D V : ℝ) (w : World (Option Mat) Finder)
    (h : LooseScene fuel nc pairs D w) (hdt : 0 < w.dt) (e : Option Mat) (v : Vec)
    (hs : pdipmSolve 2 H lcp mi w w.dt = .ok (e, v)) (hc : ∀ c ∈ w.contacts, 0 ≤ normalVel c v)
    (hV : ∀ i < w.bodies.length, len (drift v i) ≤ V) (htol : w.tol ≤ D) (hD : V * w.dt / 4 - w.eps ≤ D) :
    (∀ n, 4 ≤ n → ∃ w', w.step_dt (pdipmEnv 2 H lcp mi (diffCollide fuel nc pairs)) n w.dt = .done w') ∧
    ∀ n w', w.step_dt (pdipmEnv 2 H lcp mi (diffCollide fuel nc pairs)) n w.dt = .done w' →
      NoOverlap nc D w'.bodies ∧ LooseScene fuel nc pairs D w' ∧ w.t + w.dt / 8 ≤ w'.t ∧ w'.t ≤ w.t + w.dt := by
  refine ⟨fun n hn => ?_, fun n w' hw => ?_⟩
  · exact loose_returns hp h hdt hs n hn
  · have hk := loose_kept hnc hp h hdt hs hc hV htol (by linarith) hw
    obtain ⟨a1, a2⟩ := C23_nonstrict_progress _ n w w' w.dt h.good h.loose hdt hw
    rw [min_eq_right (by linarith)] at a1
    exact ⟨hk.noOverlap hnc hp, hk, by linarith, by linarith⟩

/-- Discs without restitution, with any friction, none lighter than `m`. -/
structure DullLoose (fuel : ℕ) (nc : ℕ → List ℕ) (pairs : List Body → List (ℕ × ℕ)) (D m : ℝ) (w : World (Option Mat) Finder) : Prop where
  scene : LooseScene fuel nc pairs D w
  bodies : ∀ i < w.bodies.length, m ≤ (bodyAt w.bodies i).mass ∧ 0 < (bodyAt w.bodies i).ang_inertia ∧
    0 ≤ (bodyAt w.bodies i).fric_coeff ∧ (bodyAt w.bodies i).restitution = 0

theorem DullLoose.held {D m : ℝ} {w : World (Option Mat) Finder} (h : DullLoose fuel nc pairs D m w) :
    DullScene fuel nc pairs m (heldAt D w) := ⟨h.scene.held, h.bodies⟩

theorem dullLoose_step (hnc : ∀ i j, i ∈ nc j → j ∈ nc i) (hp : BroadPhase pairs) {D m F A : ℝ} (hm : 0 < m)
    {w w' : World (Option Mat) Finder} (h : DullLoose fuel nc pairs D m w) {H : ForceHeap} {lcp : LcpSolver} (hx : Exact lcp) {mi n : ℕ}
    (hdt : 0 < w.dt) (hF : PushAtMost H w.bodies F) (hA : √(2 * kineticEnergy w.bodies w.v) ≤ A) (htol : w.tol ≤ D)
    (hD : (A + w.dt * F) / √m * w.dt / 4 - w.eps ≤ D)
    (hstep : w.step_dt (pdipmEnv 2 H lcp mi (diffCollide fuel nc pairs)) n w.dt = .done w') :
    DullLoose fuel nc pairs D m w' ∧ PushAtMost H w'.bodies F ∧ √(2 * kineticEnergy w'.bodies w'.v) ≤ A + w.dt * F ∧
      w'.dt = w.dt ∧ w'.eps = w.eps ∧ w'.tol = w.tol ∧ w.t + w.dt / 8 ≤ w'.t ∧ w'.t ≤ w.t + w.dt := by
  have hst := step_dt_statics h.scene.good hstep
  obtain ⟨p1, p2, p3, -⟩ := step_dt_params h.scene.good hstep
  obtain ⟨e, v, -, -, -, hsol, -⟩ := step_dt_done h.scene.good hstep
  have hsol : pdipmSolve 2 H lcp mi w w.dt = .ok (e, v) := hsol
  obtain ⟨s1, s2, s3⟩ := dull_solved (w := heldAt D w) hm hp h.held hx hdt.le hF hA ((held_solve D w H lcp mi w.dt).trans hsol)
  obtain ⟨-, k2⟩ := C132_step fuel nc hnc pairs hp H lcp mi D _ w h.scene hdt e v hsol s1 s3 htol hD
  obtain ⟨-, a2, a3, a4⟩ := k2 n w' hstep
  refine ⟨⟨a2, fun i hi => ?_⟩, pushAtMost_statics hst hF, ?_, p1, p2, p3, a3, a4⟩
  · have := sameStatics_bodyAt hst i
    simp only [Body.consts, Prod.mk.injEq] at this
    rw [this.1, this.2.1, this.2.2.1, this.2.2.2]
    exact h.bodies i (by rw [← sameStatics_length hst]; exact hi)
  · rw [consts_kinetic hst, step_velocity h.scene.good hstep hsol]
    exact s2

theorem dullLoose_run (hnc : ∀ i j, i ∈ nc j → j ∈ nc i) (hp : BroadPhase pairs) {D m F A : ℝ} (hm : 0 < m) {H : ForceHeap}
    {lcp : LcpSolver} (hx : Exact lcp) {mi N : ℕ} {ws : ℕ → World (Option Mat) Finder} (h : DullLoose fuel nc pairs D m (ws 0))
    (hdt : 0 < (ws 0).dt) (hF : PushAtMost H (ws 0).bodies F) (hA : √(2 * kineticEnergy (ws 0).bodies (ws 0).v) ≤ A)
    (htol : (ws 0).tol ≤ D) (hD : (A + N * ((ws 0).dt * F)) / √m * (ws 0).dt / 4 - (ws 0).eps ≤ D)
    (hs : Steps (pdipmEnv 2 H lcp mi (diffCollide fuel nc pairs)) (ws 0).dt N ws) : ∀ k ≤ N,
      DullLoose fuel nc pairs D m (ws k) ∧ PushAtMost H (ws k).bodies F ∧
      √(2 * kineticEnergy (ws k).bodies (ws k).v) ≤ A + k * ((ws 0).dt * F) ∧ (ws k).dt = (ws 0).dt ∧ (ws k).eps = (ws 0).eps ∧
      (ws k).tol = (ws 0).tol ∧ (ws 0).t + k * ((ws 0).dt / 8) ≤ (ws k).t ∧ (ws k).t ≤ (ws 0).t + k * (ws 0).dt := by
  intro k
  induction k with
  | zero => intro _; exact ⟨h, hF, by simpa using hA, rfl, rfl, rfl, by simp, by simp⟩
  | succ k ih =>
    intro hk
    obtain ⟨i1, i2, i3, i4, i5, i6, i7, i8⟩ := ih (by omega)
    obtain ⟨n, hn⟩ := hs k (by omega)
    rw [← i4] at hn
    have hk' : ((k : ℝ) + 1) ≤ N := by exact_mod_cast hk
    have hdF : 0 ≤ (ws 0).dt * F := mul_nonneg hdt.le hF.1
    obtain ⟨j1, j2, j3, j4, j5, j6, j7, j8⟩ := dullLoose_step hnc hp hm i1 hx (by rw [i4]; exact hdt) i2 i3 (by rw [i6]; exact htol) (by
      rw [i4, i5]
      refine le_trans ?_ hD
      have h1 : A + k * ((ws 0).dt * F) + (ws 0).dt * F ≤ A + N * ((ws 0).dt * F) := by nlinarith
      have h2 := div_le_div_of_nonneg_right h1 (Real.sqrt_nonneg m)
      have h3 := mul_le_mul_of_nonneg_right h2 hdt.le
      linarith) hn
    rw [i4] at j3 j4 j7 j8
    refine ⟨j1, j2, ?_, j4, j5.trans i5, j6.trans i6, ?_, ?_⟩ <;> push_cast <;> linarith

/-- C132: discs without restitution, in a world that is not strict.  In `N` steps no two discs get deeper into each other than `D`,
if they were not at the start, `D` is at least `tol` and `V dt / 4 - eps`, where `V` bounds the speeds, and `D` is less than the sum of
any two radii. -/
theorem C132_depth (fuel : ℕ) (nc : ℕ → List ℕ) (hnc : ∀ i j, i ∈ nc j → j ∈ nc i) (pairs : List Body → List (ℕ × ℕ))
    (hp : BroadPhase pairs) (H : ForceHeap) (lcp : LcpSolver) (hx : Exact lcp) (mi : ℕ) (D m F A : ℝ) (hm : 0 < m) (N : ℕ)
    (ws : ℕ → World (Option Mat) Finder) (h : DullLoose fuel nc pairs D m (ws 0)) (hdt : 0 < (ws 0).dt)
    (hF : PushAtMost H (ws 0).bodies F) (hA : √(2 * kineticEnergy (ws 0).bodies (ws 0).v) ≤ A) (htol : (ws 0).tol ≤ D)
    (hD : (A + N * ((ws 0).dt * F)) / √m * (ws 0).dt / 4 - (ws 0).eps ≤ D)
    (hs : Steps (pdipmEnv 2 H lcp mi (diffCollide fuel nc pairs)) (ws 0).dt N ws) (k : ℕ) (hk : k ≤ N) :
    NoOverlap nc D (ws k).bodies ∧ (ws 0).t + k * ((ws 0).dt / 8) ≤ (ws k).t ∧ (ws k).t ≤ (ws 0).t + k * (ws 0).dt := by
  obtain ⟨i1, -, -, -, -, -, i7, i8⟩ := dullLoose_run hnc hp hm hx h hdt hF hA htol hD hs k hk
  exact ⟨i1.scene.noOverlap hnc hp, i7, i8⟩

/-- The engine answers in a world of free discs. -/
theorem loose_answers (hp : BroadPhase pairs) {D m : ℝ} (hm : 0 < m) {w : World (Option Mat) Finder} (h : DullLoose fuel nc pairs D m w)
    (hjs : w.joints = []) {H : ForceHeap} (hH : ForcesOk H w.bodies.length) (mi : ℕ) (dt : ℝ) :
    ∃ r, pdipmSolve 2 H exactLcp mi w dt = .ok r := by
  have hb : ∀ b ∈ w.bodies, 0 < b.mass ∧ 0 < b.ang_inertia ∧ 0 ≤ b.fric_coeff := by
    intro b hb
    obtain ⟨i, hi, rfl⟩ := mem_bodyAt hb
    obtain ⟨b1, b2, b3, -⟩ := h.bodies i hi
    exact ⟨hm.trans_le b1, b2, b3⟩
  exact C74_circles_engine_answers fuel nc pairs hp H mi (heldAt D w) h.scene.held hjs (fun b hbm => ⟨(hb b hbm).1, (hb b hbm).2.1⟩)
    (fun b hbm => (hb b hbm).2.2) hH dt

/-- C132: without forces the bound on the speeds does not grow, so the depth is bounded for ever; free discs and an exact solver:
every number of steps returns, with at most four attempts each. -/
theorem C132_for_ever (fuel : ℕ) (nc : ℕ → List ℕ) (hnc : ∀ i j, i ∈ nc j → j ∈ nc i) (pairs : List Body → List (ℕ × ℕ))
    (hp : BroadPhase pairs) (H : ForceHeap) (mi : ℕ) (D m V : ℝ) (hm : 0 < m) (hV : 0 ≤ V) (w : World (Option Mat) Finder)
    (h : DullLoose fuel nc pairs D m w) (hjs : w.joints = []) (hdt : 0 < w.dt) (hH : ForcesOk H w.bodies.length)
    (hF : PushAtMost H w.bodies 0) (hE : 2 * kineticEnergy w.bodies w.v ≤ m * V ^ 2) (htol : w.tol ≤ D)
    (hD : V * w.dt / 4 - w.eps ≤ D) : ∃ ws : ℕ → World (Option Mat) Finder, ws 0 = w ∧
      ∀ k, (ws k).step_dt (pdipmEnv 2 H exactLcp mi (diffCollide fuel nc pairs)) 4 w.dt = .done (ws (k + 1)) ∧
        NoOverlap nc D (ws k).bodies ∧ w.t + k * (w.dt / 8) ≤ (ws k).t := by
  have hrm : 0 < √m := Real.sqrt_pos.2 hm
  have e1 : √m * V / √m = V := by field_simp
  have hA : √(2 * kineticEnergy w.bodies w.v) ≤ √m * V := by
    refine Real.sqrt_le_iff.2 ⟨by positivity, ?_⟩
    rw [mul_pow, Real.sq_sqrt hm.le]
    exact hE
  let Q : World (Option Mat) Finder → Prop := fun u => DullLoose fuel nc pairs D m u ∧ u.joints = [] ∧ u.dt = w.dt ∧ u.eps = w.eps ∧
    u.tol = w.tol ∧ u.bodies.length = w.bodies.length ∧ PushAtMost H u.bodies 0 ∧ √(2 * kineticEnergy u.bodies u.v) ≤ √m * V
  have hstep : ∀ u, Q u → ∃ u', u.step_dt (pdipmEnv 2 H exactLcp mi (diffCollide fuel nc pairs)) 4 w.dt = .done u' ∧ Q u' ∧
      u.t + w.dt / 8 ≤ u'.t := by
    rintro u ⟨q1, q2, q3, q4, q5, q6, q7, q8⟩
    obtain ⟨⟨e, v⟩, hr⟩ := loose_answers hp hm q1 q2 (H := H) (by rw [q6]; exact hH) mi u.dt
    have hVd : (√m * V + u.dt * 0) / √m * u.dt / 4 - u.eps ≤ D := by
      rw [mul_zero, add_zero, e1, q3, q4]; exact hD
    obtain ⟨s1, s2, s3⟩ := dull_solved (w := heldAt D u) hm hp q1.held exactLcp_exact (by rw [q3]; exact hdt.le) q7 q8
      ((held_solve D u H exactLcp mi u.dt).trans hr)
    obtain ⟨k1, -⟩ := C132_step fuel nc hnc pairs hp H exactLcp mi D _ u q1.scene (by rw [q3]; exact hdt) e v hr s1 s3
      (by rw [q5]; exact htol) hVd
    obtain ⟨u', hu'⟩ := k1 4 le_rfl
    obtain ⟨j1, j2, j3, j4, j5, j6, j7, j8⟩ := dullLoose_step hnc hp hm q1 exactLcp_exact (by rw [q3]; exact hdt) q7 q8
      (by rw [q5]; exact htol) hVd hu'
    obtain ⟨-, -, -, -, -, p6, p7⟩ := step_dt_params q1.scene.good hu'
    rw [q3] at hu' j7
    refine ⟨u', hu', ⟨j1, List.eq_nil_of_length_eq_zero (p7.trans (by rw [q2]; rfl)), j4.trans q3, j5.trans q4, j6.trans q5,
      p6.trans q6, j2, by simpa using j3⟩, j7⟩
  choose! next hnext using hstep
  let ws : ℕ → World (Option Mat) Finder := fun k => next^[k] w
  have hws : ∀ k, ws (k + 1) = next (ws k) := fun k => Function.iterate_succ_apply' next k w
  have hQ : ∀ k, Q (ws k) ∧ w.t + k * (w.dt / 8) ≤ (ws k).t := by
    intro k
    induction k with
    | zero => exact ⟨⟨h, hjs, rfl, rfl, rfl, rfl, hF, hA⟩, by change _ ≤ w.t; simp⟩
    | succ k ih =>
      obtain ⟨-, n2, n3⟩ := hnext _ ih.1
      rw [hws]
      refine ⟨n2, ?_⟩
      push_cast
      linarith [ih.2]
  refine ⟨ws, rfl, fun k => ⟨?_, (hQ k).1.1.scene.noOverlap hnc hp, (hQ k).2⟩⟩
  rw [hws]
  exact (hnext _ (hQ k).1).1

/-! ## Two discs -/

variable {cfuel : ℕ} {P : TwoDiscs}

/-- Two discs without friction in a world that is not strict, at different places, between steps. -/
structure LooseDiscs (cfuel : ℕ) (pairs : List Body → List (ℕ × ℕ)) (P : TwoDiscs) (D : ℝ) (w : World (Option Mat) Finder) : Prop where
  scene : LooseScene cfuel (fun _ => []) pairs D w
  two : w.bodies.length = 2
  free : w.joints = []
  mass0 : (bodyAt w.bodies 0).mass = P.m0
  mass1 : (bodyAt w.bodies 1).mass = P.m1
  inertia0 : 0 < (bodyAt w.bodies 0).ang_inertia
  inertia1 : 0 < (bodyAt w.bodies 1).ang_inertia
  rad0 : (bodyAt w.bodies 0).rad = P.r0
  rad1 : (bodyAt w.bodies 1).rad = P.r1
  rest : ((bodyAt w.bodies 0).restitution + (bodyAt w.bodies 1).restitution) / 2 = P.e
  fric0 : (bodyAt w.bodies 0).fric_coeff = 0
  fric1 : (bodyAt w.bodies 1).fric_coeff = 0

theorem LooseDiscs.held {D : ℝ} {w : World (Option Mat) Finder} (h : LooseDiscs cfuel pairs P D w) : Discs cfuel pairs P (heldAt D w) :=
  ⟨h.scene.held, h.two, h.free, h.mass0, h.mass1, h.inertia0, h.inertia1, h.rad0, h.rad1, h.rest, h.fric0, h.fric1⟩

theorem accepts_loose {w : World (Option Mat) Finder} (hst : w.strict_no_pen = false) (htol : -w.eps ≤ w.tol) {R d : ℝ}
    {q : V2} {cs : List Contact} (h : Found R w.eps q cs) : w.accepts d cs ↔ R - w.tol ≤ len q ∨ d < w.dt / 4 := by
  unfold World.accepts
  rw [hst]
  simp only [true_and]
  rcases h with ⟨h1, rfl⟩ | ⟨-, c, rfl, h1, -⟩
  · simp only [List.not_mem_nil, false_imp_iff, implies_true, true_or, true_iff]
    left; linarith
  · simp only [List.mem_singleton, forall_eq]
    rw [h1]
    constructor <;> rintro (h | h)
    · left; linarith
    · exact .inr h
    · left; linarith
    · exact .inr h

/-- One step of two discs: the relative velocity follows the textbook, the length of the step is the first of `dt`, `dt / 2`, … that
leaves the discs no deeper in each other than `tol` or is less than `dt / 4`. -/
theorem C132_pair (P : TwoDiscs) (H : ForceHeap) (lcp : LcpSolver) (pairs : List Body → List (ℕ × ℕ)) (S : DiscSetting P H lcp pairs)
    (mi cfuel n : ℕ) (D D' : ℝ) (w w' : World (Option Mat) Finder) (h : LooseDiscs cfuel pairs P D w) (htol : -w.eps ≤ w.tol)
    (hstep : w.step_dt (pdipmEnv 2 H lcp mi (diffCollide cfuel (fun _ => []) pairs)) n w.dt = .done w') :
    (Strikes P.R w.eps (between w.bodies) (closing w.v) → closing w'.v = struck P.e (between w.bodies) (closing w.v)) ∧
    (¬ Strikes P.R w.eps (between w.bodies) (closing w.v) → closing w'.v = closing w.v) ∧
    (∃ k, w'.t = w.t + w.dt / 2 ^ k ∧ between w'.bodies = between w.bodies + (w.dt / 2 ^ k) • closing w'.v ∧
      (P.R - w.tol ≤ len (between w'.bodies) ∨ w.dt / 2 ^ k < w.dt / 4) ∧
      ∀ i < k, len (between w.bodies + (w.dt / 2 ^ i) • closing w'.v) < P.R - w.tol ∧ w.dt / 4 ≤ w.dt / 2 ^ i) ∧
    (-w.eps ≤ D' → D' < P.R → P.R - len (between w'.bodies) ≤ D' → LooseDiscs cfuel pairs P D' w') := by
  obtain ⟨p1, p2, p3, p4, p5, p6, p7⟩ := step_dt_params h.scene.good hstep
  have hst := step_dt_statics h.scene.good hstep
  obtain ⟨v0, hv0⟩ := step_dt_eng h.scene.good hstep
  have hgood := step_dt_good h.scene.good hstep
  obtain ⟨e, v, k, w1, w2, hsol, _, rfl, hg1, ⟨fk, f', cs, hcs, ha, rfl⟩, hrej, hend⟩ := step_dt_done h.scene.good hstep
  obtain ⟨fl, l, pn, a, b, gs, hfl, law⟩ :=
    C38_engine_contact_law H lcp mi w w.dt e v h.scene.joints (h.held.scene.contactsOk S.broad) h.scene.cache.ok S.exact hsol
  rw [h.two, S.forces w.t] at hfl
  injection hfl with hfl
  subst hfl
  obtain ⟨-, -, -, l4, l5⟩ := discs_law S.broad S.once S.m0 S.m1 S.e h.held law
  rcases hend with ⟨-, rfl⟩ | ⟨hp', -⟩
  swap
  · rw [h.scene.nostab] at hp'; cases hp'
  obtain ⟨b1, b2, b3, b4, b5⟩ := tried_discs h.held e v (w.dt / 2 ^ k)
  have fnd : ∀ (j : ℕ) f f' cs, diffCollide cfuel (fun _ => []) pairs w.eps f
      ((({ w with eng := e } : World (Option Mat) Finder).set_v v).bodies.map fun b => b.move (w.dt / 2 ^ j)) = .ok (f', cs) →
        Found P.R w.eps (between w.bodies + (w.dt / 2 ^ j) • closing v) cs := by
    intro j f f' cs hc
    obtain ⟨f'', cs', hc', ha⟩ := tried_found S.broad S.once h.held e v (w.dt / 2 ^ j) f
    have hc'' : diffCollide cfuel (fun _ => []) pairs w.eps f
      ((({ w with eng := e } : World (Option Mat) Finder).set_v v).bodies.map fun b => b.move (w.dt / 2 ^ j)) = .ok (f'', cs') := hc'
    rw [hc] at hc''
    injection hc'' with hc''
    injection hc'' with _ hc''
    rw [hc'']; exact ha
  have hl1 : (({ w with eng := e } : World (Option Mat) Finder).set_v v).strict_no_pen = false := h.scene.loose
  have hf := fnd k _ _ _ hcs
  refine ⟨l4, l5, ⟨k, rfl, b3, ?_, fun i hi => ?_⟩, fun d1 d2 d3 => ?_⟩
  · have := (accepts_loose (w := ({ w with eng := e } : World (Option Mat) Finder).set_v v) hl1 htol hf).1 ha
    have b3' : between w.bodies + (w.dt / 2 ^ k) • closing v = _ := b3.symm
    rw [b3'] at this
    exact this
  · obtain ⟨fj, fj', cs', hc', hno⟩ := hrej i hi
    have := mt (accepts_loose (w := ({ w with eng := e } : World (Option Mat) Finder).set_v v) (d := w.dt / 2 ^ i) hl1 htol
      (fnd i fj fj' cs' hc')).2 hno
    push Not at this
    exact this
  · have c0 := sameStatics_bodyAt hst 0
    have c1 := sameStatics_bodyAt hst 1
    simp only [Body.consts, Prod.mk.injEq] at c0 c1
    have hlen : P.R - len (between w.bodies + (w.dt / 2 ^ k) • closing v) ≤ D' := by
      have b3' : between w.bodies + (w.dt / 2 ^ k) • closing v = _ := b3.symm
      rw [b3']; exact d3
    refine ⟨⟨hgood, jointsOk_congr hst h.scene.joints, solve_cacheInv hst h.scene.cache hv0, p5.trans h.scene.loose,
      p4.trans h.scene.nostab, by rw [p2]; exact h.scene.eps, by rw [p2]; exact d1, tried_circle h.held.scene e v (w.dt / 2 ^ k), ?_,
      ⟨fk, hcs⟩, ?_⟩, p6.trans h.two, List.eq_nil_of_length_eq_zero (p7.trans (by rw [h.free]; rfl)), c0.1.trans h.mass0,
      c1.1.trans h.mass1, by rw [c0.2.1]; exact h.inertia0, by rw [c1.2.1]; exact h.inertia1, b4, b5, ?_,
      c0.2.2.2.trans h.fric0, c1.2.2.2.trans h.fric1⟩
    · intro i hi j hj hij
      rw [p6, h.two] at hi hj
      have hR : D' < P.r0 + P.r1 := d2
      have : (i = 0 ∧ j = 1) ∨ (i = 1 ∧ j = 0) := by omega
      rcases this with ⟨rfl, rfl⟩ | ⟨rfl, rfl⟩
      · exact lt_of_lt_of_eq hR (congrArg₂ (· + ·) b4.symm b5.symm)
      · exact lt_of_lt_of_eq hR ((add_comm _ _).trans (congrArg₂ (· + ·) b5.symm b4.symm))
    · change ∀ c ∈ cs, c.pen ≤ D'
      intro c hc
      rcases hf with ⟨-, rfl⟩ | ⟨-, c', rfl, h2, -⟩
      · cases hc
      · rw [List.mem_singleton.1 hc, h2]; exact hlen
    · rw [c0.2.2.1, c1.2.2.1]; exact h.rest

/-- A head-on strike without restitution: the relative velocity vanishes. -/
theorem struck_head_on {q v : V2} (hq : q ≠ 0) (hd : Spec.det q v = 0) : struck 0 q v = 0 := by
  have hqq : q.1 ^ 2 + q.2 ^ 2 ≠ 0 := by
    have := len_pos hq
    have h2 := len_sq q
    unfold Spec.inner at h2
    have : 0 < len q ^ 2 := by positivity
    nlinarith
  unfold Spec.det at hd
  unfold struck Spec.inner
  ext
  · simp only [Prod.fst_sub, Prod.smul_fst, smul_eq_mul, Prod.fst_zero]
    field_simp
    linear_combination (-q.2) * hd
  · simp only [Prod.snd_sub, Prod.smul_snd, smul_eq_mul, Prod.snd_zero]
    field_simp
    linear_combination q.1 * hd

/-- C132: two discs without restitution, deeper in each other than `tol`, head on or at rest relative to each other: the step takes an
eighth of the step length, and afterwards they are as deep in each other as before and at rest relative to each other. -/
theorem C132_sunk_step (P : TwoDiscs) (H : ForceHeap) (lcp : LcpSolver) (pairs : List Body → List (ℕ × ℕ)) (S : DiscSetting P H lcp pairs)
    (mi cfuel n : ℕ) (D : ℝ) (w w' : World (Option Mat) Finder) (h : LooseDiscs cfuel pairs P D w) (htol : -w.eps ≤ w.tol)
    (hdt : 0 < w.dt) (he : P.e = 0) (hin : len (between w.bodies) < P.R - w.tol) (hq : between w.bodies ≠ 0)
    (hv : closing w.v = 0 ∨ (Spec.det (between w.bodies) (closing w.v) = 0 ∧ Spec.inner (between w.bodies) (closing w.v) < 0))
    (hstep : w.step_dt (pdipmEnv 2 H lcp mi (diffCollide cfuel (fun _ => []) pairs)) n w.dt = .done w') :
    between w'.bodies = between w.bodies ∧ closing w'.v = 0 ∧ w'.t = w.t + w.dt / 8 ∧ LooseDiscs cfuel pairs P D w' := by
  obtain ⟨a1, a2, ⟨k, k1, k2, k3, k4⟩, a4⟩ := C132_pair P H lcp pairs S mi cfuel n D D w w' h htol hstep
  have hcl : closing w'.v = 0 := by
    by_cases hs : Strikes P.R w.eps (between w.bodies) (closing w.v)
    · rcases hv with hv | ⟨hv, -⟩
      · have := hs.2
        rw [hv] at this
        unfold Spec.inner at this
        simp at this
      · rw [a1 hs, he, struck_head_on hq hv]
    · rcases hv with hv | ⟨-, hv⟩
      · rw [a2 hs, hv]
      · exact absurd ⟨by linarith, hv⟩ hs
  have hb : between w'.bodies = between w.bodies := by rw [k2, hcl]; simp
  have hk : k = 3 := by
    rw [hb] at k3
    have h1 : w.dt / 2 ^ k < w.dt / 4 := by
      rcases k3 with k3 | k3
      · linarith
      · exact k3
    rcases lt_trichotomy k 3 with hk | hk | hk
    · interval_cases k <;> norm_num at h1 <;> linarith
    · exact hk
    · have := (k4 3 hk).2
      norm_num at this
      linarith
  refine ⟨hb, hcl, by rw [k1, hk]; norm_num, a4 h.scene.depth h.held.tol_lt ?_⟩
  rw [hb]
  have := h.held.apart S.broad S.once
  change P.R - D ≤ len (between w.bodies) at this
  linarith

/-- C132: for ever: what has sunk in stays sunk in, and from then on the world runs at an eighth of its pace. -/
theorem C132_sunk (P : TwoDiscs) (H : ForceHeap) (lcp : LcpSolver) (pairs : List Body → List (ℕ × ℕ)) (S : DiscSetting P H lcp pairs)
    (mi cfuel N : ℕ) (D : ℝ) (ws : ℕ → World (Option Mat) Finder) (h : LooseDiscs cfuel pairs P D (ws 0)) (htol : -(ws 0).eps ≤ (ws 0).tol)
    (hdt : 0 < (ws 0).dt) (he : P.e = 0) (hin : len (between (ws 0).bodies) < P.R - (ws 0).tol) (hq : between (ws 0).bodies ≠ 0)
    (hv : closing (ws 0).v = 0 ∨
      (Spec.det (between (ws 0).bodies) (closing (ws 0).v) = 0 ∧ Spec.inner (between (ws 0).bodies) (closing (ws 0).v) < 0))
    (hs : Steps (pdipmEnv 2 H lcp mi (diffCollide cfuel (fun _ => []) pairs)) (ws 0).dt N ws) :
    ∀ k ≤ N, between (ws k).bodies = between (ws 0).bodies ∧ (ws k).t = (ws 0).t + k * ((ws 0).dt / 8) ∧ (0 < k → closing (ws k).v = 0) := by
  have key : ∀ k ≤ N, between (ws k).bodies = between (ws 0).bodies ∧ (ws k).t = (ws 0).t + k * ((ws 0).dt / 8) ∧
      (0 < k → closing (ws k).v = 0) ∧ LooseDiscs cfuel pairs P D (ws k) ∧ (ws k).dt = (ws 0).dt ∧ (ws k).eps = (ws 0).eps ∧
      (ws k).tol = (ws 0).tol := by
    intro k
    induction k with
    | zero => intro _; exact ⟨rfl, by simp, fun h => absurd h (lt_irrefl _), h, rfl, rfl, rfl⟩
    | succ k ih =>
      intro hk
      obtain ⟨i1, i2, i3, i4, i5, i6, i7⟩ := ih (by omega)
      obtain ⟨n, hn⟩ := hs k (by omega)
      rw [← i5] at hn
      obtain ⟨p1, p2, p3, -⟩ := step_dt_params i4.scene.good hn
      obtain ⟨j1, j2, j3, j4⟩ := C132_sunk_step P H lcp pairs S mi cfuel n D (ws k) (ws (k + 1)) i4 (by rw [i6, i7]; exact htol)
        (by rw [i5]; exact hdt) he (by rw [i1, i7]; exact hin) (by rw [i1]; exact hq) (by
          rcases Nat.eq_zero_or_pos k with rfl | hk0
          · exact hv
          · exact .inl (i3 hk0)) hn
      refine ⟨j1.trans i1, ?_, fun _ => j2, j4, p1.trans i5, p2.trans i6, p3.trans i7⟩
      rw [j3, i2, i5]
      push_cast
      ring
  exact fun k hk => ⟨(key k hk).1, (key k hk).2.1, (key k hk).2.2.1⟩

/-- Two discs without friction, an exact solver: the step returns. -/
theorem looseDiscs_returns {H : ForceHeap} (S : DiscSetting P H exactLcp pairs) (mi : ℕ) {D : ℝ} {w : World (Option Mat) Finder}
    (h : LooseDiscs cfuel pairs P D w) (hdt : 0 < w.dt) :
    ∃ w', w.step_dt (pdipmEnv 2 H exactLcp mi (diffCollide cfuel (fun _ => []) pairs)) 4 w.dt = .done w' := by
  have hb : ∀ b ∈ w.bodies, 0 < b.mass ∧ 0 < b.ang_inertia ∧ 0 ≤ b.fric_coeff := by
    intro b hb
    obtain ⟨i, hi, rfl⟩ := mem_bodyAt hb
    rw [h.two] at hi
    interval_cases i
    · exact ⟨by rw [h.mass0]; exact S.m0, h.inertia0, h.fric0.ge⟩
    · exact ⟨by rw [h.mass1]; exact S.m1, h.inertia1, h.fric1.ge⟩
  obtain ⟨⟨e, v⟩, hr⟩ := C74_circles_engine_answers cfuel (fun _ => []) pairs S.broad H mi (heldAt D w) h.scene.held h.free
    (fun b hbm => ⟨(hb b hbm).1, (hb b hbm).2.1⟩) (fun b hbm => (hb b hbm).2.2)
    (fun t => ⟨_, by change forceCat H t w.bodies.length = _; rw [h.two]; exact S.forces t⟩) w.dt
  exact loose_returns S.broad h.scene hdt ((held_solve D w H exactLcp mi w.dt).symm.trans hr) 4 le_rfl

/-! ## Concrete worlds -/

/-- The constructor makes the same world without the demand of strictness. -/
theorem mkWorld_loose {env : Env (Option Mat) Finder} {fnd : Finder} {bs : List Body} {js : List Joint} {dt eps tol : ℝ} {ps : Bool}
    {w : World (Option Mat) Finder} (h : mkWorld env none fnd bs js dt eps tol ps true = .done w) :
    mkWorld env none fnd bs js dt eps tol ps false = .done { w with strict_no_pen := false } := by
  unfold mkWorld at h ⊢
  by_cases h0 : bs.length = 0
  · rw [if_pos h0] at h; cases h
  rw [if_neg h0] at h ⊢
  by_cases h1 : ∀ j ∈ js, j.i1 < bs.length ∧ ∀ k ∈ j.i2, k < bs.length
  swap
  · rw [if_neg h1] at h; cases h
  rw [if_pos h1] at h ⊢
  unfold World.find_contacts at h ⊢
  have hcol : env.collide (initWorld (none : Option Mat) fnd bs js dt eps tol ps false).eps (initWorld (none : Option Mat) fnd bs js dt eps tol ps false).fnd
      (initWorld (none : Option Mat) fnd bs js dt eps tol ps false).bodies =
    env.collide (initWorld (none : Option Mat) fnd bs js dt eps tol ps true).eps (initWorld (none : Option Mat) fnd bs js dt eps tol ps true).fnd
      (initWorld (none : Option Mat) fnd bs js dt eps tol ps true).bodies := rfl
  rw [hcol]
  cases hc : env.collide (initWorld (none : Option Mat) fnd bs js dt eps tol ps true).eps (initWorld (none : Option Mat) fnd bs js dt eps tol ps true).fnd
      (initWorld (none : Option Mat) fnd bs js dt eps tol ps true).bodies with
  | error e => rw [hc] at h; cases h
  | ok r =>
    rw [hc] at h
    simp only [Run.bind_done, if_true] at h
    split_ifs at h
    injection h with h
    subst h
    rfl

theorem loose_made {e D : ℝ} {w : World (Option Mat) Finder} (h : Discs cfuel pairs (unitDiscs e) w) (htol : w.tol ≤ D)
    (hD : D < (unitDiscs e).R) : LooseDiscs cfuel pairs (unitDiscs e) D { w with strict_no_pen := false } := by
  have hs := h.scene
  refine ⟨⟨⟨hs.good.rect, hs.good.valid, hs.good.fix, hs.good.vel⟩, hs.joints, hs.cache, rfl, hs.nostab, hs.eps, ?_, hs.bodies, ?_, hs.contacts,
    fun c hc => (hs.nopen c hc).trans htol⟩, h.two, h.free, h.mass0, h.mass1, h.inertia0, h.inertia1, h.rad0, h.rad1, h.rest, h.fric0, h.fric1⟩
  · change -w.eps ≤ D
    linarith [hs.tol]
  · intro i hi j hj hij
    change i < w.bodies.length at hi
    change j < w.bodies.length at hj
    change D < (bodyAt w.bodies i).rad + (bodyAt w.bodies j).rad
    rw [h.two] at hi hj
    have hR : D < (unitDiscs e).r0 + (unitDiscs e).r1 := hD
    have : (i = 0 ∧ j = 1) ∨ (i = 1 ∧ j = 0) := by omega
    rcases this with ⟨rfl, rfl⟩ | ⟨rfl, rfl⟩
    · rw [h.rad0, h.rad1]; exact hR
    · rw [h.rad0, h.rad1, add_comm]; exact hR

/-- A disc of radius 1 flies with speed 120 at another one, both without restitution, in a world that is not strict, with the default
step length, `eps` and `tol`.  The first step takes it 0.3 deep into the other one, and there it stays for ever, at an eighth of
the pace. -/
theorem C132_sinks (mi cfuel : ℕ) (fnd : Finder) : ∃ ws : ℕ → World (Option Mat) Finder,
    mkWorld (pdipmEnv 2 idleForces exactLcp mi (diffCollide cfuel (fun _ => []) allPairs)) none fnd
      (discBodies 0 (-(11 / 5), 0) (0, 0) (120, 0) (0, 0)) [] (1 / 30) (1 / 10) (1 / 1000000) false false = .done (ws 0) ∧
    (∀ k, (ws k).step_dt (pdipmEnv 2 idleForces exactLcp mi (diffCollide cfuel (fun _ => []) allPairs)) 4 (1 / 30) = .done (ws (k + 1))) ∧
    ∀ k, 1 ≤ k → between (ws k).bodies = (-(17 / 10), 0) ∧ (ws k).t = k / 240 := by
  have S := unit_setting 0 le_rfl
  obtain ⟨w, h1, h2, h3, h4, h5, h6, h7⟩ := discs_made 0 (1 / 30) (1 / 10) (1 / 1000000) (by norm_num) (by norm_num) (-(11 / 5), 0) (0, 0)
    (120, 0) (0, 0) (by norm_num) (by norm_num)
    (by rw [show ((-(11 / 5) : ℝ), (0 : ℝ)) - (0, 0) = (-(11 / 5), 0) by simp, len_x, abs_of_neg (by norm_num)]; norm_num)
    idleForces exactLcp mi cfuel fnd
  have hwd : w.dt = 1 / 30 := (mkWorld_clock h1).2
  have hR : (unitDiscs 0).R = 2 := by norm_num [unitDiscs, TwoDiscs.R]
  have hq : between w.bodies = (-(11 / 5), 0) := by rw [h6]; simp
  have hv : closing w.v = (120, 0) := by rw [h7]; simp
  set u : World (Option Mat) Finder := { w with strict_no_pen := false } with hu
  have l0 : LooseDiscs cfuel allPairs (unitDiscs 0) (1 / 2) u := loose_made h2 (by rw [h4]; norm_num) (by rw [hR]; norm_num)
  have udt : u.dt = 1 / 30 := hwd
  -- the first step
  obtain ⟨u1, hu1⟩ := looseDiscs_returns S mi l0 (by rw [udt]; norm_num)
  obtain ⟨-, a2, ⟨k, k1, k2, k3, k4⟩, a4⟩ := C132_pair _ _ _ _ S mi cfuel 4 (1 / 2) (1 / 2) u u1 l0
    (by change -w.eps ≤ w.tol; rw [h3, h4]; norm_num) hu1
  have hns : ¬ Strikes (unitDiscs 0).R u.eps (between u.bodies) (closing u.v) := by
    rintro ⟨hs, -⟩
    change len (between w.bodies) ≤ _ + w.eps at hs
    rw [hq, len_x, hR, h3, abs_of_neg (by norm_num)] at hs
    norm_num at hs
  have hcl : closing u1.v = (120, 0) := (a2 hns).trans hv
  have hpl : ∀ s : ℝ, between u.bodies + s • ((120 : ℝ), (0 : ℝ)) = (120 * s - 11 / 5, 0) := by
    intro s
    change between w.bodies + _ = _
    rw [hq]
    ext <;> simp
    ring
  have ut : u.tol = 1 / 1000000 := h4
  have hk : k = 3 := by
    rw [k2, hcl, hpl, len_x, hR, udt, ut] at k3
    rcases lt_trichotomy k 3 with hk | hk | hk
    · interval_cases k
      all_goals
        exfalso
        rcases k3 with k3 | k3
        · rcases abs_cases (120 * (1 / 30 / 2 ^ 0 : ℝ) - 11 / 5) with ⟨e, -⟩ | ⟨e, -⟩ <;>
          rcases abs_cases (120 * (1 / 30 / 2 ^ 1 : ℝ) - 11 / 5) with ⟨e', -⟩ | ⟨e', -⟩ <;>
          rcases abs_cases (120 * (1 / 30 / 2 ^ 2 : ℝ) - 11 / 5) with ⟨e'', -⟩ | ⟨e'', -⟩ <;> norm_num at *
        · norm_num at k3
    · exact hk
    · have := (k4 3 hk).2
      rw [udt] at this
      norm_num at this
  subst hk
  have hb1 : between u1.bodies = (-(17 / 10), 0) := by
    rw [k2, hcl, hpl, udt]
    norm_num
  have l1 := a4 (by change -w.eps ≤ _; rw [h3]; norm_num) (by rw [hR]; norm_num) (by
    rw [hb1, len_x, hR, abs_of_neg (by norm_num)]; norm_num)
  obtain ⟨p1, p2, p3, -⟩ := step_dt_params l0.scene.good hu1
  have u1dt : u1.dt = 1 / 30 := p1.trans udt
  have u1t : u1.t = 1 / 240 := by
    rw [k1, udt]
    change w.t + _ = _
    rw [h5]
    norm_num
  have u1tol : u1.tol = 1 / 1000000 := p3.trans ut
  have u1eps : u1.eps = 1 / 10 := p2.trans h3
  -- all others
  let Q : World (Option Mat) Finder → Prop := fun x => LooseDiscs cfuel allPairs (unitDiscs 0) (1 / 2) x ∧ between x.bodies = (-(17 / 10), 0) ∧
    x.dt = 1 / 30 ∧ x.tol = 1 / 1000000 ∧ x.eps = 1 / 10 ∧ (closing x.v = 0 ∨ closing x.v = (120, 0))
  have hstep : ∀ x, Q x → ∃ y, x.step_dt (pdipmEnv 2 idleForces exactLcp mi (diffCollide cfuel (fun _ => []) allPairs)) 4 (1 / 30) = .done y ∧
      Q y ∧ y.t = x.t + 1 / 240 := by
    rintro x ⟨q1, q2, q3, q4, q5, q6⟩
    obtain ⟨y, hy⟩ := looseDiscs_returns S mi q1 (by rw [q3]; norm_num)
    obtain ⟨r1, r2, r3, -⟩ := step_dt_params q1.scene.good hy
    obtain ⟨s1, s2, s3, s4⟩ := C132_sunk_step _ _ _ _ S mi cfuel 4 (1 / 2) x y q1 (by rw [q4, q5]; norm_num) (by rw [q3]; norm_num) rfl
      (by rw [q2, len_x, hR, q4, abs_of_neg (by norm_num)]; norm_num) (by rw [q2]; simp) (by
        rcases q6 with q6 | q6
        · exact .inl q6
        · right; rw [q2, q6]; norm_num [Spec.det, Spec.inner]) hy
    rw [q3] at hy s3
    exact ⟨y, hy, ⟨s4, s1.trans q2, r1.trans q3, r3.trans q4, r2.trans q5, .inl s2⟩, by rw [s3]; norm_num⟩
  choose! next hnext using hstep
  let ws : ℕ → World (Option Mat) Finder := fun k => match k with
    | 0 => u
    | k + 1 => next^[k] u1
  have hws : ∀ k, ws (k + 2) = next (ws (k + 1)) := fun k => Function.iterate_succ_apply' next k u1
  have hQ : ∀ k : ℕ, Q (ws (k + 1)) ∧ (ws (k + 1)).t = ((k + 1 : ℕ) : ℝ) / 240 := by
    intro k
    induction k with
    | zero => exact ⟨⟨l1, hb1, u1dt, u1tol, u1eps, .inr hcl⟩, by change u1.t = _; rw [u1t]; norm_num⟩
    | succ k ih =>
      obtain ⟨-, n2, n3⟩ := hnext _ ih.1
      rw [hws]
      refine ⟨n2, ?_⟩
      rw [n3, ih.2]
      push_cast
      ring
  refine ⟨ws, mkWorld_loose h1, fun k => ?_, fun k hk => ?_⟩
  · rcases k with - | k
    · rw [udt] at hu1; exact hu1
    · rw [hws]; exact (hnext _ (hQ k).1).1
  · obtain ⟨k, rfl⟩ := Nat.exists_eq_succ_of_ne_zero (by omega : k ≠ 0)
    exact ⟨(hQ k).1.2.1, (hQ k).2⟩

/-- Example for `C132_for_ever`: two discs without restitution, one of which flies with speed 1 towards the other; the world is not
strict, yet they never get deeper into each other than `tol`. -/
example (mi cfuel : ℕ) (fnd : Finder) : ∃ ws : ℕ → World (Option Mat) Finder,
    mkWorld (pdipmEnv 2 idleForces exactLcp mi (diffCollide cfuel (fun _ => []) allPairs)) none fnd
      (discBodies 0 (-5, 0) (0, 0) (1, 0) (0, 0)) [] (1 / 30) (1 / 10) (1 / 1000000) false false = .done (ws 0) ∧
    ∀ k, (ws k).step_dt (pdipmEnv 2 idleForces exactLcp mi (diffCollide cfuel (fun _ => []) allPairs)) 4 (1 / 30) = .done (ws (k + 1)) ∧
      NoOverlap (fun _ => []) (1 / 1000000) (ws k).bodies ∧ k / 240 ≤ (ws k).t := by
  obtain ⟨w, h1, h2, h3, h4, h5, h6, h7⟩ := discs_made 0 (1 / 30) (1 / 10) (1 / 1000000) (by norm_num) (by norm_num) (-5, 0) (0, 0)
    (1, 0) (0, 0) (by norm_num) (by norm_num)
    (by rw [show (((-5 : ℝ), (0 : ℝ)) - (0, 0)) = (-5, 0) by simp, len_x]; norm_num) idleForces exactLcp mi cfuel fnd
  obtain ⟨hb, hv⟩ := made_bodies h1
  have hR : (unitDiscs 0).R = 2 := by norm_num [unitDiscs, TwoDiscs.R]
  set u : World (Option Mat) Finder := { w with strict_no_pen := false } with hu
  have l0 : LooseDiscs cfuel allPairs (unitDiscs 0) (1 / 1000000) u := loose_made h2 h4.le (by rw [hR]; norm_num)
  have hdull : DullLoose cfuel (fun _ => []) allPairs (1 / 1000000) 1 u := ⟨l0.scene, (dull_made _ _ _ _ h2 hb).bodies⟩
  have udt : u.dt = 1 / 30 := (mkWorld_clock h1).2
  have utol : u.tol = 1 / 1000000 := h4
  have ueps : u.eps = 1 / 10 := h3
  have ut : u.t = 0 := h5
  obtain ⟨ws, hw0, hws⟩ := C132_for_ever cfuel (fun _ => []) (by simp) allPairs allPairs_broad idleForces mi (1 / 1000000) 1 1 one_pos zero_le_one
    u hdull l0.free (by rw [udt]; norm_num) (fun t => ⟨_, by rw [l0.two]; exact idle_none t⟩)
    ⟨le_rfl, fun t fl hfl => by
      rw [l0.two, idle_none t] at hfl
      injection hfl with hfl
      unfold pushSq
      rw [l0.two, ← hfl, Finset.sum_range_succ, Finset.sum_range_one, l0.mass0, l0.mass1]
      norm_num [unitDiscs]⟩
    (by
      change 2 * kineticEnergy w.bodies w.v ≤ _
      unfold kineticEnergy
      rw [h2.two, Finset.sum_range_succ, Finset.sum_range_one, h2.mass0, h2.mass1, hv]
      norm_num [unitDiscs, cat3, discBodies, mkCircle, Arg.toV3])
    utol.le (by rw [udt, ueps]; norm_num)
  refine ⟨ws, by rw [hw0]; exact mkWorld_loose h1, fun k => ?_⟩
  obtain ⟨a1, a2, a3⟩ := hws k
  rw [udt] at a1
  rw [udt, ut] at a3
  exact ⟨a1, a2, by linarith⟩

end LcpPhysics
