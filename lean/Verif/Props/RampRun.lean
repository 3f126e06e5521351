import Verif.Props.Ramp
import Mathlib.Analysis.Real.Pi.Bounds

/-! # C100: runs of a box on an inclined plane -/

noncomputable section

namespace LcpPhysics
open Spec
variable {S : RampScene}

/-- The box lies on the plane at `ξ` and moves down it at speed `y`, the plane rests. -/
structure OnRamp (S : RampScene) (ξ y : ℝ) (w : World (Option Mat) Finder) : Prop where
  inv : EngineInv w
  posed : Posed S.bodies w.bodies
  wiring : w.joints.map Joint.wiring = S.joints.map Joint.wiring
  fixed : (bodyAt w.bodies 0).p = S.plane.p
  rest : twist w.v 0 = 0
  place : (bodyAt w.bodies 1).p = S.pose ξ
  moves : twist w.v 1 = S.vel y
  carried : S.Carried w.contacts
  post : w.post_stab = false
  tol : 0 ≤ w.tol
  eps : 0 ≤ w.eps

variable {ξ y : ℝ} {w : World (Option Mat) Finder}

theorem OnRamp.len (h : OnRamp S ξ y w) : w.bodies.length = 2 := h.posed.1

theorem OnRamp.joint (h : OnRamp S ξ y w) : FloorFixed w.joints := by
  have hw := h.wiring
  rcases hj : w.joints with _ | ⟨j, _ | ⟨j', js⟩⟩
  · rw [hj] at hw; simp [RampScene.joints] at hw
  · rw [hj] at hw
    simp [RampScene.joints, Joint.wiring, mkTotal] at hw
    exact ⟨j, rfl, hw⟩
  · rw [hj] at hw; simp [RampScene.joints] at hw

theorem OnRamp.consts (h : OnRamp S ξ y w) :
    (bodyAt w.bodies 0).consts = S.plane.consts ∧ (bodyAt w.bodies 1).consts = S.box.consts := by
  obtain ⟨o0, e0⟩ := h.posed.2 0 (by simp [RampScene.bodies])
  obtain ⟨o1, e1⟩ := h.posed.2 1 (by simp [RampScene.bodies])
  rw [e0, e1, run_consts, run_consts]
  exact ⟨rfl, rfl⟩

theorem ramp_consts (S : RampScene) :
    S.plane.consts = (S.mf, S.mf * (S.W ^ 2 + S.L ^ 2) / 12, S.ef, S.μf) ∧
    S.box.consts = (S.m, S.m * (S.w ^ 2 + S.h ^ 2) / 12, S.eb, S.μb) :=
  ⟨set_p_consts _ _, set_p_consts _ _⟩

theorem OnRamp.fric (h : OnRamp S ξ y w) {X : ℝ} {c : Contact} (hc : S.Touches X c) : meanFriction w.bodies c = S.μ := by
  obtain ⟨h0, h1⟩ := h.consts
  rw [(ramp_consts S).1] at h0
  rw [(ramp_consts S).2] at h1
  simp only [Body.consts, Prod.mk.injEq] at h0 h1
  unfold meanFriction RampScene.μ
  rcases hc.2.2 with ⟨e1, e2, -⟩ | ⟨e1, e2, -⟩ <;> rw [e1, e2, h0.2.2.2, h1.2.2.2]
  ring

theorem OnRamp.box (h : OnRamp S ξ y w) :
    (bodyAt w.bodies 1).mass = S.m ∧ (bodyAt w.bodies 1).ang_inertia = S.m * (S.w ^ 2 + S.h ^ 2) / 12 := by
  have h1 := h.consts.2
  rw [(ramp_consts S).2] at h1
  simp only [Body.consts, Prod.mk.injEq] at h1
  exact ⟨h1.1, h1.2.1⟩

theorem OnRamp.solid (hS : S.Valid) (h : OnRamp S ξ y w) : ∀ b ∈ w.bodies, 0 < b.mass ∧ 0 < b.ang_inertia := by
  obtain ⟨h0, h1⟩ := h.consts
  rw [(ramp_consts S).1] at h0
  rw [(ramp_consts S).2] at h1
  simp only [Body.consts, Prod.mk.injEq] at h0 h1
  have hm := hS.m
  have hmf := hS.mf
  have hW := hS.W
  have hw := hS.w
  intro b hb
  obtain ⟨i, hi, rfl⟩ := List.getElem_of_mem hb
  have hb' : w.bodies[i] = bodyAt w.bodies i := by simp [bodyAt, List.getD_eq_getElem?_getD, hi]
  rw [hb']
  rw [h.len] at hi
  interval_cases i
  · rw [h0.1, h0.2.1]
    exact ⟨hmf, by positivity⟩
  · rw [h1.1, h1.2.1]
    exact ⟨hm, by positivity⟩

theorem touches_presses {X : ℝ} {c : Contact} (ht : S.Touches X c) {v v' : Vec} (h0 : twist v 0 = 0)
    (h0' : twist v' 0 = 0) : PressesAt c v v' 1 S.ν (S.h / 2) X := by
  rcases ht.2.2 with ⟨e1, e2, e3, e4⟩ | ⟨e1, e2, e3, e4⟩
  · exact .inl ⟨e1, by rw [e2]; simp, e3, e4, by rw [e2]; exact h0, by rw [e2]; exact h0'⟩
  · exact .inr ⟨e2, by rw [e1]; simp, e3, e4, by rw [e1]; exact h0, by rw [e1]; exact h0'⟩

theorem ramp_flat (h : OnRamp S ξ y w) {v' : Vec} (h0 : twist v' 0 = 0) :
    LiesFlat w.bodies w.contacts w.v v' 1 S.ν (S.h / 2) (S.w / 2) S.μ := by
  refine ⟨?_, ?_, ?_⟩
  · intro c hc _
    obtain ⟨X, hX, ht⟩ := h.carried.all c hc
    exact ⟨⟨X, hX, touches_presses ht h.rest h0⟩, h.fric ht⟩
  · obtain ⟨c, hc, ht⟩ := h.carried.left
    exact ⟨c, hc, touches_presses ht h.rest h0⟩
  · obtain ⟨c, hc, ht⟩ := h.carried.right
    exact ⟨c, hc, touches_presses ht h.rest h0⟩

theorem ramp_unit (S : RampScene) : Spec.inner S.ν S.ν = 1 := by
  simp only [Spec.inner, RampScene.ν]
  linear_combination Real.sin_sq_add_cos_sq S.θ

/-- What the forces alone would do to the box. -/
theorem ramp_free (hS : S.Valid) (h : OnRamp S ξ y w) {g dt : ℝ} {F : V3} :
    let u := freeTwist w.bodies (impulse [F, ⟨0, 0, S.m * g⟩] dt) w.v 1
    u.r = 0 ∧ lift S.ν u = -(g * dt * Real.cos S.θ) ∧ glide S.ν u = -(y + g * dt * Real.sin S.θ) := by
  have hm := hS.m
  obtain ⟨bm, bI⟩ := h.box
  have e : freeTwist w.bodies (impulse [F, ⟨0, 0, S.m * g⟩] dt) w.v 1 =
      ⟨0, y * Real.cos S.θ, y * Real.sin S.θ + g * dt⟩ := by
    unfold freeTwist impulse
    rw [bm, bI, h.moves]
    apply V3.ext
    · simp [RampScene.vel]
    · simp [RampScene.vel]
    · simp [RampScene.vel]; field_simp
  intro u
  have hu : u = ⟨0, y * Real.cos S.θ, y * Real.sin S.θ + g * dt⟩ := e
  rw [hu]
  refine ⟨rfl, ?_, ?_⟩
  · simp only [lift, Spec.inner, RampScene.ν]; ring
  · simp only [glide, Spec.inner, tangent, RampScene.ν]
    linear_combination -y * Real.sin_sq_add_cos_sq S.θ

theorem ramp_before (h : OnRamp S ξ y w) : lift S.ν (twist w.v 1) = 0 ∧ (twist w.v 1).r = 0 := by
  rw [h.moves]
  refine ⟨?_, rfl⟩
  simp only [lift, Spec.inner, RampScene.ν, RampScene.vel]; ring

theorem glide_vel {u : V3} {y : ℝ} (hr : u.r = 0) (hl : lift S.ν u = 0) (hg : glide S.ν u = -y) : u = S.vel y := by
  have hu := Real.sin_sq_add_cos_sq S.θ
  simp only [lift, glide, Spec.inner, tangent, RampScene.ν] at hl hg
  apply V3.ext
  · exact hr
  · show u.x = y * Real.cos S.θ
    linear_combination Real.sin S.θ * hl - Real.cos S.θ * hg - u.x * hu
  · show u.y = y * Real.sin S.θ
    linear_combination -Real.cos S.θ * hl - Real.sin S.θ * hg - u.y * hu

theorem OnRamp.plane_rests (h : OnRamp S ξ y w) {f : ℕ → V3} {v' l : Vec} {pn a b gs : ℕ → ℝ}
    (law : ContactLaw w.bodies w.joints w.contacts f w.v v' l pn a b gs) : twist v' 0 = 0 :=
  (floorFixed_vels h.joint v').1 law.joints

theorem OnRamp.loose (h : OnRamp S ξ y w) : ∀ j ∈ w.joints, j.i1 ≠ 1 ∧ 1 ∉ j.i2 := by
  obtain ⟨j, hj, -, hi1, hi2⟩ := h.joint
  intro j' hj'
  rw [hj, List.mem_singleton] at hj'
  rw [hj', hi1, hi2]
  simp

/-- The outcome of one step of the engine. -/
theorem ramp_law (hS : S.Valid) (h : OnRamp S ξ y w) {g dt : ℝ} (hg : 0 ≤ g) (hdt : 0 ≤ dt) (hbr : S.Broad g dt y)
    {F : V3} {v' l : Vec} {pn a b gs : ℕ → ℝ}
    (law : ContactLaw w.bodies w.joints w.contacts (impulse [F, ⟨0, 0, S.m * g⟩] dt) w.v v' l pn a b gs) :
    twist v' 0 = 0 ∧ twist v' 1 = S.vel (S.next g dt y) := by
  have h0 := h.plane_rests law
  have hc := hS.steep
  have hN : 0 ≤ g * dt * Real.cos S.θ := by positivity
  obtain ⟨u1, u2, u3⟩ := ramp_free hS h (g := g) (dt := dt) (F := F)
  have hsol := h.solid hS (bodyAt w.bodies 1) (by
    have := h.len
    simp [bodyAt, List.getD_eq_getElem?_getD, this])
  obtain ⟨r1, r2, r3⟩ := C100_block _ _ _ _ _ _ _ _ _ _ _ law 1 (by rw [h.len]; omega) S.ν (S.h / 2) (S.w / 2) S.μ
    (ramp_unit S) (by linarith [hS.h]) (by linarith [hS.w]) hS.μ h.loose (ramp_flat h h0) hsol (ramp_before h) u1
    (by rw [u2]; linarith) (by
      rw [u2, u3, abs_neg, neg_neg]
      rcases hbr with hb | hb
      · left; linarith
      · right; linarith)
  refine ⟨h0, glide_vel r1 r2 ?_⟩
  rw [r3, u2, u3, neg_neg, clamp_neg (mul_nonneg hS.μ hN), RampScene.next]
  ring

/-- The weight of the box is the only force on it. -/
def Spec.RampScene.Weighs (S : RampScene) (H : ForceHeap) (g : ℝ) : Prop :=
  ∀ t, ∃ F, forceCat H t 2 = .ok [F, ⟨0, 0, S.m * g⟩]

theorem ramp_moved (h : OnRamp S ξ y w) (e : Option Mat) {v : Vec} {y' : ℝ} (h0 : twist v 0 = 0)
    (h1 : twist v 1 = S.vel y') (d : ℝ) :
    let bs := (({ w with eng := e } : World (Option Mat) Finder).set_v v).bodies.map fun b => b.move d
    Posed S.bodies bs ∧ (bodyAt bs 0).p = S.plane.p ∧ (bodyAt bs 1).p = S.pose (ξ + d * y') := by
  intro bs
  have hl : (({ w with eng := e } : World (Option Mat) Finder).set_v v).bodies.length = 2 := by
    rw [set_v_length]; exact h.len
  have b1 : ∀ i < 2, (bodyAt bs i).p = (bodyAt w.bodies i).p + d • twist v i := by
    intro i hi
    rw [bodyAt_map _ _ _ (by omega), move_p,
      set_v_at ({ w with eng := e } : World (Option Mat) Finder) v i (by show i < w.bodies.length; rw [h.len]; omega)]
  refine ⟨(h.posed.trans (posed_set_v ({ w with eng := e } : World (Option Mat) Finder) v)).trans (posed_move _ _),
    ?_, ?_⟩
  · rw [b1 0 (by omega), h0, h.fixed]
    apply V3.ext <;> simp
  · rw [b1 1 (by omega), h1, h.place]
    apply V3.ext <;> simp [RampScene.pose, RampScene.vel, rot] <;> ring

theorem ramp_step (hS : S.Valid) {H : ForceHeap} {g : ℝ} (hg : 0 ≤ g) (hH : S.Weighs H g) {lcp : LcpSolver}
    (hx : Exact lcp) {mi cfuel : ℕ} {pairs : List Body → List (ℕ × ℕ)} (hp : BroadPhase pairs)
    {w' : World (Option Mat) Finder} (h : OnRamp S ξ y w) {dt : ℝ} (hdt : 0 ≤ dt) {fuel : ℕ}
    (hbr : S.Broad g dt y) (hroom : S.Room (ξ + dt * S.next g dt y))
    (hstep : w.step_dt (pdipmEnv 2 H lcp mi (rejectNan (diffCollide cfuel (fun _ => []) pairs))) fuel dt = .done w') :
    OnRamp S (ξ + dt * S.next g dt y) (S.next g dt y) w' ∧ w'.t = w.t + dt := by
  have hinv' := step_inv (C12_finder_ok cfuel _ pairs hp.valid) h.inv hstep
  have hst := step_dt_statics h.inv.good hstep
  have hpos := h.posed.trans (posed_step h.inv.good hstep)
  obtain ⟨e, v, k, w1, w2, hsol, -, rfl, -, ⟨fk, f', cs, hcs, -, rfl⟩, hrej, hend⟩ := step_dt_done h.inv.good hstep
  obtain ⟨fl, l, pn, a, b, gs, hfl, law⟩ :=
    C38_engine_contact_law H lcp mi w dt e v h.inv.joints h.inv.contacts h.inv.cache.ok hx hsol
  obtain ⟨F, hF⟩ := hH w.t
  rw [h.len, hF] at hfl
  injection hfl with hfl
  subst hfl
  obtain ⟨v0, v1⟩ := ramp_law hS h hg hdt hbr law
  obtain ⟨m1, m2, m3⟩ := ramp_moved h e v0 v1 dt
  have search : ∀ f f' cs, rejectNan (diffCollide cfuel (fun _ => []) pairs) w.eps f
      ((({ w with eng := e } : World (Option Mat) Finder).set_v v).bodies.map fun b => b.move dt) = .ok (f', cs) →
        S.Carried cs := fun f f' cs hc => ramp_search hS hp m1 m2 m3 hroom h.eps hc
  have hk : k = 0 := by
    by_contra hk
    obtain ⟨fj, fj', cs', hc', hno⟩ := hrej 0 (by omega)
    rw [pow_zero, div_one] at hc' hno
    refine hno (Or.inl fun c' hc'' => ?_)
    obtain ⟨X, -, ht⟩ := (search _ _ _ hc').all c' hc''
    rw [ht.1]
    exact h.tol
  subst hk
  rw [pow_zero, div_one] at hcs hend
  rcases hend with ⟨-, rfl⟩ | ⟨hp, -⟩
  swap
  · rw [h.post] at hp; cases hp
  exact ⟨⟨hinv', hpos, hst.2.trans h.wiring, m2, v0, m3, v1, search _ _ _ hcs, h.post, h.tol, h.eps⟩, rfl⟩

/-! ## The trajectory -/

/-- Place and speed after `k` steps of length `dt`. -/
def Spec.RampScene.course (S : RampScene) (g dt ξ y : ℝ) : ℕ → ℝ × ℝ
  | 0 => (ξ, y)
  | k + 1 =>
    let q := S.course g dt ξ y k
    (q.1 + dt * S.next g dt q.2, S.next g dt q.2)

theorem ramp_course (hS : S.Valid) {H : ForceHeap} {g : ℝ} (hg : 0 ≤ g) (hH : S.Weighs H g) {lcp : LcpSolver}
    (hx : Exact lcp) {mi cfuel : ℕ} {pairs : List Body → List (ℕ × ℕ)} (hp : BroadPhase pairs)
    {dt : ℝ} (hdt : 0 ≤ dt) {n : ℕ} {ws : ℕ → World (Option Mat) Finder} (h : OnRamp S ξ y (ws 0))
    (hst : Steps (pdipmEnv 2 H lcp mi (rejectNan (diffCollide cfuel (fun _ => []) pairs))) dt n ws)
    (hbr : ∀ k < n, S.Broad g dt (S.course g dt ξ y k).2) (hroom : ∀ k ≤ n, S.Room (S.course g dt ξ y k).1) :
    ∀ k ≤ n, OnRamp S (S.course g dt ξ y k).1 (S.course g dt ξ y k).2 (ws k) ∧ (ws k).t = (ws 0).t + k * dt := by
  intro k
  induction k with
  | zero => intro _; exact ⟨h, by simp⟩
  | succ k ih =>
    intro hk
    obtain ⟨i1, i2⟩ := ih (by omega)
    obtain ⟨fuel, hs⟩ := hst k (by omega)
    obtain ⟨o1, o2⟩ := ramp_step hS hg hH hx hp i1 hdt (hbr k (by omega)) (hroom (k + 1) hk) hs
    refine ⟨o1, ?_⟩
    rw [o2, i2]; push_cast; ring

/-- On a plane that falls off to the right, the speed of a box that does not move uphill. -/
theorem next_down (hμ : 0 ≤ S.μ) (hc : 0 ≤ Real.cos S.θ) (hs : 0 ≤ Real.sin S.θ) {g dt y : ℝ} (hg : 0 ≤ g) (hdt : 0 ≤ dt) (hy : 0 ≤ y) :
    S.next g dt y = max 0 (y + g * dt * (Real.sin S.θ - S.μ * Real.cos S.θ)) := by
  have hG : 0 ≤ g * dt := mul_nonneg hg hdt
  have h1 : 0 ≤ g * dt * Real.sin S.θ := mul_nonneg hG hs
  have h2 : 0 ≤ S.μ * (g * dt * Real.cos S.θ) := mul_nonneg hμ (mul_nonneg hG hc)
  unfold RampScene.next clampTo
  rcases le_total (y + g * dt * Real.sin S.θ) (S.μ * (g * dt * Real.cos S.θ)) with h | h
  · rw [min_eq_right h, max_eq_right (by linarith), max_eq_left (by linarith)]; ring
  · rw [min_eq_left h, max_eq_right (by linarith), max_eq_right (by linarith)]; ring

theorem course_down (hμ : 0 ≤ S.μ) (hc : 0 ≤ Real.cos S.θ) (hs : 0 ≤ Real.sin S.θ) {g dt ξ y : ℝ} (hg : 0 ≤ g) (hdt : 0 ≤ dt) (hy : 0 ≤ y) (k : ℕ) :
    (S.course g dt ξ y k).2 = max 0 (y + k * (g * dt * (Real.sin S.θ - S.μ * Real.cos S.θ))) ∧
    (S.course g dt ξ y k).1 = ξ + dt * ∑ j ∈ Finset.range k,
      max 0 (y + (j + 1) * (g * dt * (Real.sin S.θ - S.μ * Real.cos S.θ))) := by
  induction k with
  | zero => simp [RampScene.course, hy]
  | succ k ih =>
    obtain ⟨i1, i2⟩ := ih
    have e : S.next g dt (S.course g dt ξ y k).2 =
        max 0 (y + (k + 1) * (g * dt * (Real.sin S.θ - S.μ * Real.cos S.θ))) := by
      rw [i1, next_down hμ hc hs hg hdt (le_max_left _ _)]
      set D := g * dt * (Real.sin S.θ - S.μ * Real.cos S.θ)
      rcases le_total 0 D with hD | hD
      · have hk : 0 ≤ (k : ℝ) * D := by positivity
        rw [max_eq_right (by linarith : 0 ≤ y + k * D)]; ring_nf
      · rcases le_total 0 (y + k * D) with h0 | h0
        · rw [max_eq_right h0]; ring_nf
        · rw [max_eq_left h0, max_eq_left (by linarith), max_eq_left (by linarith)]
    refine ⟨?_, ?_⟩
    · show S.next g dt (S.course g dt ξ y k).2 = _
      rw [e]; push_cast; rfl
    · show (S.course g dt ξ y k).1 + dt * S.next g dt (S.course g dt ξ y k).2 = _
      rw [e, i2, Finset.sum_range_succ]; ring

/-- C100: the motion of a box down an inclined plane, along a run of the simulator of any length: its speed changes by
`g·dt·(sin θ − μ cos θ)` each step, it never turns, never leaves the plane and never goes through it; where friction is
the stronger it slows down, comes to rest and stays where it is. -/
theorem C100_slides (S : RampScene) (hS : S.Valid) (hs : 0 ≤ Real.sin S.θ) (hb : S.μ * S.h ≤ S.w) (H : ForceHeap) (g : ℝ)
    (hg : 0 ≤ g) (hH : S.Weighs H g) (lcp : LcpSolver) (hx : Exact lcp) (mi cfuel : ℕ) (pairs : List Body → List (ℕ × ℕ))
    (hp : BroadPhase pairs) (dt : ℝ) (hdt : 0 ≤ dt) (n : ℕ) (ws : ℕ → World (Option Mat) Finder) (ξ y : ℝ) (hy : 0 ≤ y)
    (h : OnRamp S ξ y (ws 0)) (hst : Steps (pdipmEnv 2 H lcp mi (rejectNan (diffCollide cfuel (fun _ => []) pairs))) dt n ws)
    (a : ℝ) (ha : a = g * (Real.sin S.θ - S.μ * Real.cos S.θ))
    (hroom : ∀ k ≤ n, S.Room (ξ + dt * ∑ j ∈ Finset.range k, max 0 (y + (j + 1) * dt * a))) :
    ∀ k ≤ n, OnRamp S (ξ + dt * ∑ j ∈ Finset.range k, max 0 (y + (j + 1) * dt * a)) (max 0 (y + k * dt * a)) (ws k) ∧
      (ws k).t = (ws 0).t + k * dt := by
  have key : ∀ k, (S.course g dt ξ y k).2 = max 0 (y + k * dt * a) ∧
      (S.course g dt ξ y k).1 = ξ + dt * ∑ j ∈ Finset.range k, max 0 (y + (j + 1) * dt * a) := by
    intro k
    obtain ⟨e1, e2⟩ := course_down hS.μ hS.steep.le hs (ξ := ξ) hg hdt hy k
    have e : g * dt * (Real.sin S.θ - S.μ * Real.cos S.θ) = dt * a := by rw [ha]; ring
    rw [e] at e1 e2
    simp only [← mul_assoc] at e1 e2
    exact ⟨e1, e2⟩
  intro k hk
  have := ramp_course hS hg hH hx hp hdt h hst (fun _ _ => .inl hb) (by intro k hk; rw [(key k).2]; exact hroom k hk) k hk
  rwa [(key k).1, (key k).2] at this

theorem next_rest {g dt : ℝ} (hg : 0 ≤ g) (hdt : 0 ≤ dt)
    (hf : |Real.sin S.θ| ≤ S.μ * Real.cos S.θ) : S.next g dt 0 = 0 := by
  have hG : 0 ≤ g * dt := mul_nonneg hg hdt
  obtain ⟨h1, h2⟩ := abs_le.1 hf
  unfold RampScene.next clampTo
  rw [min_eq_right (by nlinarith), max_eq_right (by nlinarith)]; ring

/-- C100: within the cone of friction, and if the vertical through its centre meets its base, a box at rest on an inclined
plane stays there for ever, whatever the sizes of the steps. -/
theorem C100_stays (S : RampScene) (hS : S.Valid) (hf : |Real.sin S.θ| ≤ S.μ * Real.cos S.θ)
    (hb : S.h * |Real.sin S.θ| ≤ S.w * Real.cos S.θ) (H : ForceHeap) (g : ℝ)
    (hg : 0 ≤ g) (hH : S.Weighs H g) (lcp : LcpSolver) (hx : Exact lcp) (mi cfuel : ℕ) (pairs : List Body → List (ℕ × ℕ))
    (hp : BroadPhase pairs) (ξ : ℝ) (hroom : S.Room ξ) (w w' : World (Option Mat) Finder) (h : OnRamp S ξ 0 w)
    (hr : ReachesFwd (pdipmEnv 2 H lcp mi (rejectNan (diffCollide cfuel (fun _ => []) pairs))) w w') : OnRamp S ξ 0 w' := by
  induction hr with
  | refl => exact h
  | tail _ hs ih =>
    obtain ⟨fuel, dt, hdt, hs⟩ := hs
    have e := next_rest hg hdt hf
    have := (ramp_step hS hg hH hx hp ih hdt (.inr (by
      rw [zero_add, abs_mul, abs_of_nonneg (mul_nonneg hg hdt)]
      nlinarith [mul_nonneg hg hdt])) (by rw [e]; simpa using hroom) hs).1
    rwa [e, mul_zero, add_zero] at this

/-- C100: the exact condition for a box at rest to stay at rest in a step. -/
theorem C100_rest_iff (S : RampScene) (hS : S.Valid) (H : ForceHeap) (g : ℝ)
    (hg : 0 < g) (hH : S.Weighs H g) (lcp : LcpSolver) (hx : Exact lcp) (mi cfuel : ℕ) (pairs : List Body → List (ℕ × ℕ))
    (ξ : ℝ) (w w' : World (Option Mat) Finder) (h : OnRamp S ξ 0 w) (dt : ℝ) (hdt : 0 < dt)
    (fuel : ℕ) (hstep : w.step_dt (pdipmEnv 2 H lcp mi (rejectNan (diffCollide cfuel (fun _ => []) pairs))) fuel dt = .done w') :
    twist w'.v 1 = 0 ↔ |Real.sin S.θ| ≤ S.μ * Real.cos S.θ ∧ S.h * |Real.sin S.θ| ≤ S.w * Real.cos S.θ := by
  obtain ⟨e, v, k, w1, w2, hsol, -, rfl, -, ⟨fk, f', cs, hcs, -, rfl⟩, hrej, hend⟩ := step_dt_done h.inv.good hstep
  obtain ⟨fl, l, pn, a, b, gs, hfl, law⟩ :=
    C38_engine_contact_law H lcp mi w dt e v h.inv.joints h.inv.contacts h.inv.cache.ok hx hsol
  obtain ⟨F, hF⟩ := hH w.t
  rw [h.len, hF] at hfl
  injection hfl with hfl
  subst hfl
  rcases hend with ⟨-, rfl⟩ | ⟨hp, -⟩
  swap
  · rw [h.post] at hp; cases hp
  show twist v 1 = 0 ↔ _
  have hG : 0 < g * dt := mul_pos hg hdt
  have hc := hS.steep
  have hN : 0 < g * dt * Real.cos S.θ := by positivity
  have hh := hS.h
  have hw := hS.w
  constructor
  · intro hv
    have h0 := h.plane_rests law
    obtain ⟨u1, u2, u3⟩ := ramp_free hS h (g := g) (dt := dt) (F := F)
    have hsol := h.solid hS (bodyAt w.bodies 1) (by
      have := h.len
      simp [bodyAt, List.getD_eq_getElem?_getD, this])
    have ht := (C100_tips_iff _ _ _ _ _ _ _ _ _ _ _ law 1 (by rw [h.len]; omega) S.ν (S.h / 2) (S.w / 2) S.μ
      (ramp_unit S) (by linarith) (by linarith) hS.μ h.loose (ramp_flat h h0) hsol (ramp_before h) u1
      (by rw [u2]; linarith)).1 (by rw [hv]; rfl)
    rw [u2, u3, abs_neg, neg_neg, zero_add, abs_mul, abs_of_pos hG] at ht
    have hbr : S.Broad g dt 0 := by
      unfold RampScene.Broad
      rw [zero_add, abs_mul, abs_of_pos hG]
      rcases le_total (S.μ * (g * dt * Real.cos S.θ)) (g * dt * |Real.sin S.θ|) with hm | hm
      · rw [min_eq_left hm] at ht
        left
        by_contra hcon
        push Not at hcon
        nlinarith
      · rw [min_eq_right hm] at ht
        right; linarith
    have hv1 := (ramp_law hS h hg.le hdt.le hbr law).2
    rw [hv] at hv1
    have hn : S.next g dt 0 = 0 := by
      have ex := congrArg V3.x hv1
      simp only [RampScene.vel] at ex
      have : S.next g dt 0 * Real.cos S.θ = 0 := by rw [← ex]; rfl
      rcases mul_eq_zero.1 this with h1 | h1
      · exact h1
      · linarith
    have hf : |Real.sin S.θ| ≤ S.μ * Real.cos S.θ := by
      have := (clamp_rest (m := S.μ * (g * dt * Real.cos S.θ)) (x := 0 + g * dt * Real.sin S.θ)
        (mul_nonneg hS.μ hN.le)).1
      have hn : 0 + g * dt * Real.sin S.θ - clampTo (S.μ * (g * dt * Real.cos S.θ)) (0 + g * dt * Real.sin S.θ) = 0 := hn
      rw [hn, abs_zero, zero_add, abs_mul, abs_of_pos hG] at this
      have h2 := le_max_right 0 (g * dt * |Real.sin S.θ| - S.μ * (g * dt * Real.cos S.θ))
      rw [← this] at h2
      have h3 : g * dt * |Real.sin S.θ| ≤ g * dt * (S.μ * Real.cos S.θ) := by linarith
      exact le_of_mul_le_mul_left h3 hG
    refine ⟨hf, ?_⟩
    rw [min_eq_right (by nlinarith)] at ht
    have h3 : g * dt * (S.h * |Real.sin S.θ|) ≤ g * dt * (S.w * Real.cos S.θ) := by linarith
    exact le_of_mul_le_mul_left h3 hG
  · rintro ⟨hf, hb⟩
    have := (ramp_law hS h hg.le hdt.le (.inr (by
      rw [zero_add, abs_mul, abs_of_pos hG]; nlinarith)) law).2
    rw [this, next_rest hg.le hdt.le hf]
    apply V3.ext <;> simp [RampScene.vel]

/-! ## The runs exist -/

theorem ramp_solvable (hS : S.Valid) (h : OnRamp S ξ y w) (f : ℕ → V3) :
    ∃ v' l pn a b g, ContactLaw w.bodies w.joints w.contacts f w.v v' l pn a b g := by
  exact C74_friction_inelastic w h.inv.joints h.inv.contacts (h.solid hS)
    (by
      intro c' hc'
      obtain ⟨X, -, ht⟩ := h.carried.all c' hc'
      rw [h.fric ht]
      exact hS.μ)
    (by
      intro c' hc'
      obtain ⟨X, -, ht⟩ := h.carried.all c' hc'
      have hr := h.rest
      have hm := h.moves
      have : normalVel c' w.v = 0 := by
        rcases ht.2.2 with ⟨e1, e2, e3, e4⟩ | ⟨e1, e2, e3, e4⟩
        · simp [normalVel, contactVel, e1, e2, e3, e4, hr, hm, pointVel, Spec.inner, RampScene.vel, RampScene.ν]; ring
        · simp [normalVel, contactVel, e1, e2, e3, e4, hr, hm, pointVel, Spec.inner, RampScene.vel, RampScene.ν]; ring
      rw [this, mul_zero])
    f

theorem ramp_returns (hS : S.Valid) {H : ForceHeap} {g : ℝ} (hg : 0 ≤ g) (hH : S.Weighs H g) {mi cfuel : ℕ}
    (hcf : 66 ≤ cfuel) {pairs : List Body → List (ℕ × ℕ)} (hp : BroadPhase pairs)
    (h : OnRamp S ξ y w) {dt : ℝ} (hdt : 0 ≤ dt) (fuel : ℕ) (hbr : S.Broad g dt y)
    (hroom : S.Room (ξ + dt * S.next g dt y)) :
    ∃ w', w.step_dt (pdipmEnv 2 H exactLcp mi (rejectNan (diffCollide cfuel (fun _ => []) pairs))) (fuel + 1) dt =
      .done w' := by
  obtain ⟨F, hF⟩ := hH w.t
  obtain ⟨v0, l0, pn0, a0, b0, g0, law0⟩ := ramp_solvable hS h (impulse [F, ⟨0, 0, S.m * g⟩] dt)
  obtain ⟨c0, hc0, -⟩ := h.carried.left
  obtain ⟨-, ⟨e, v⟩, hr⟩ := C74_exact_engine_returns H mi w dt h.inv.joints
    h.inv.contacts (by intro hn; rw [hn] at hc0; simp at hc0) _ (by rw [h.len]; exact hF) _ _ _ _ _ _ law0
  obtain ⟨fl, l, pn, a, b, gs, hfl, law⟩ :=
    C38_engine_contact_law H exactLcp mi w dt e v h.inv.joints h.inv.contacts h.inv.cache.ok exactLcp_exact hr
  rw [h.len, hF] at hfl
  injection hfl with hfl
  subst hfl
  obtain ⟨v0, v1⟩ := ramp_law hS h hg hdt hbr law
  obtain ⟨m1, m2, m3⟩ := ramp_moved h e v0 v1 dt
  obtain ⟨⟨f', cs⟩, hcol⟩ := ramp_searches hS hp m1 hcf w.eps w.fnd
  refine ⟨_, step_first _ fuel w h.inv.good dt h.post e v hr f' cs hcol ?_⟩
  intro c'' hc''
  obtain ⟨X, -, ht⟩ := (ramp_search hS hp m1 m2 m3 hroom h.eps hcol).all c'' hc''
  rw [ht.1]
  exact h.tol

/-- C100: such runs exist, of any length for which the plane is long enough, if the contact problems are solved exactly. -/
theorem C100_runs (S : RampScene) (hS : S.Valid) (H : ForceHeap) (g : ℝ) (hg : 0 ≤ g) (hH : S.Weighs H g) (mi cfuel : ℕ)
    (hcf : 66 ≤ cfuel) (pairs : List Body → List (ℕ × ℕ)) (hp : BroadPhase pairs)
    (w : World (Option Mat) Finder) (ξ y : ℝ) (h : OnRamp S ξ y w) (dt : ℝ) (hdt : 0 ≤ dt) (n : ℕ)
    (hbr : ∀ k < n, S.Broad g dt (S.course g dt ξ y k).2) (hroom : ∀ k ≤ n, S.Room (S.course g dt ξ y k).1) :
    ∃ ws, ws 0 = w ∧ Steps (pdipmEnv 2 H exactLcp mi (rejectNan (diffCollide cfuel (fun _ => []) pairs))) dt n ws := by
  induction n with
  | zero => exact ⟨fun _ => w, rfl, fun k hk => by omega⟩
  | succ n ih =>
    obtain ⟨ws, rfl, hst⟩ := ih (fun k hk => hbr k (by omega)) (fun k hk => hroom k (by omega))
    obtain ⟨i1, -⟩ := ramp_course hS hg hH exactLcp_exact hp hdt h hst (fun k hk => hbr k (by omega))
      (fun k hk => hroom k (by omega)) n le_rfl
    obtain ⟨w', hw'⟩ := ramp_returns hS hg hH (mi := mi) hcf hp i1 hdt 0 (hbr n (by omega)) (hroom (n + 1) le_rfl)
    refine ⟨fun k => if k ≤ n then ws k else w', by simp, ?_⟩
    intro k hk
    simp only
    rcases Nat.lt_or_ge k n with hkn | hkn
    · rw [if_pos (by omega), if_pos (by omega)]
      exact hst k hkn
    · rw [if_pos (by omega), if_neg (by omega)]
      have : k = n := by omega
      subst this
      exact ⟨1, hw'⟩

/-- C100: the world as the constructor makes it: the box lies on the plane. -/
theorem C100_initial (S : RampScene) (hS : S.Valid) (hroom : S.Room S.ξ) (H : ForceHeap) (lcp : LcpSolver)
    (mi cfuel : ℕ) (hcf : 66 ≤ cfuel) (pairs : List Body → List (ℕ × ℕ)) (hp : BroadPhase pairs) (fnd : Finder) (dt eps tol : ℝ)
    (heps : 0 ≤ eps) (htol : 0 ≤ tol) (strict : Bool) :
    ∃ w, mkWorld (pdipmEnv 2 H lcp mi (rejectNan (diffCollide cfuel (fun _ => []) pairs))) none fnd S.bodies S.joints dt eps
      tol false strict = .done w ∧ OnRamp S S.ξ S.u w := by
  have hbod : (initWorld (none : Option Mat) fnd S.bodies S.joints dt eps tol false strict).bodies = S.bodies := by
    apply List.ext_getElem
    · simp [initWorld, World.set_v]
    · intro i h1 h2
      simp only [initWorld, World.set_v, List.getElem_map, List.getElem_zipIdx]
      rw [Nat.zero_add, cat3_slice _ i (by simpa using h2), List.getElem_map]
  have hpos : Posed S.bodies S.bodies := ⟨rfl, fun i _ => ⟨[], rfl⟩⟩
  have hbp : (bodyAt S.bodies 1).p = S.pose S.ξ := by
    show S.box.p = _
    unfold RampScene.box
    exact set_p_p _ _
  obtain ⟨⟨f', cs⟩, hcol⟩ := ramp_searches hS hp hpos hcf eps fnd
  have hcar := ramp_search hS hp hpos rfl hbp hroom heps hcol
  have hpen : ∀ c' ∈ cs, c'.pen ≤ tol := by
    intro c' hc'
    obtain ⟨X, -, ht⟩ := hcar.all c' hc'
    rw [ht.1]; exact htol
  have hmk : mkWorld (pdipmEnv 2 H lcp mi (rejectNan (diffCollide cfuel (fun _ => []) pairs))) none fnd S.bodies S.joints dt eps
      tol false strict = .done { initWorld (none : Option Mat) fnd S.bodies S.joints dt eps tol false strict with
        contacts := cs, fnd := f' } := by
    unfold mkWorld
    rw [if_neg (by simp [RampScene.bodies]), if_pos (by
      intro j hj
      simp only [RampScene.joints, List.mem_singleton] at hj
      subst hj
      simp [mkTotal, RampScene.bodies])]
    unfold World.find_contacts
    have : (pdipmEnv 2 H lcp mi (rejectNan (diffCollide cfuel (fun _ => []) pairs))).collide
        (initWorld (none : Option Mat) fnd S.bodies S.joints dt eps tol false strict).eps
        (initWorld (none : Option Mat) fnd S.bodies S.joints dt eps tol false strict).fnd
        (initWorld (none : Option Mat) fnd S.bodies S.joints dt eps tol false strict).bodies = .ok (f', cs) := by
      rw [hbod]; exact hcol
    rw [this]
    simp only [Run.bind]
    cases strict
    · simp
    · simp only [if_true]
      rw [if_pos]
      exact hpen
  have hgood := C30_mkWorld_good _ _ _ _ _ _ _ _ _ _ _ (by
      intro b hb
      simp only [RampScene.bodies, List.mem_cons, List.not_mem_nil, or_false] at hb
      rcases hb with rfl | rfl
      · exact mkRect_rectForm (plane_built hS)
      · exact mkRect_rectForm (box_built hS)) (by
      intro j hj
      simp only [RampScene.joints, List.mem_singleton] at hj
      subst hj
      exact mkTotal_fix _ _ _ rfl) hmk
  refine ⟨_, hmk, ⟨⟨hgood, ?_, ?_, ?_⟩, ?_, rfl, ?_, ?_, ?_, ?_, hcar, rfl, htol, heps⟩⟩
  · intro j hj
    simp only [initWorld, World.set_v, RampScene.joints, List.mem_singleton] at hj
    subst hj
    refine ⟨?_, by simp [mkTotal]⟩
    show 0 < (initWorld (none : Option Mat) fnd S.bodies S.joints dt eps tol false strict).bodies.length
    rw [hbod]; simp [RampScene.bodies]
  · intro c' hc'
    show _ < (initWorld (none : Option Mat) fnd S.bodies S.joints dt eps tol false strict).bodies.length ∧
      _ < (initWorld (none : Option Mat) fnd S.bodies S.joints dt eps tol false strict).bodies.length ∧ _
    rw [hbod]
    exact C12_finder_ok cfuel _ pairs hp.valid _ _ _ _ _ hcol c' hc'
  · intro inv hi; cases hi
  · show Posed S.bodies (initWorld (none : Option Mat) fnd S.bodies S.joints dt eps tol false strict).bodies
    rw [hbod]; exact hpos
  · show (bodyAt (initWorld (none : Option Mat) fnd S.bodies S.joints dt eps tol false strict).bodies 0).p = _
    rw [hbod]; rfl
  · rfl
  · show (bodyAt (initWorld (none : Option Mat) fnd S.bodies S.joints dt eps tol false strict).bodies 1).p = _
    rw [hbod]; exact hbp
  · rfl

/-! ## Concrete scenes

A box of size 60 by 60 on a plane of inclination 3 : 4 : 5, with friction 1, moving downwards at speed 10. -/

def slope : ℝ := Real.arcsin (3 / 5)

theorem slope_sin : Real.sin slope = 3 / 5 := Real.sin_arcsin (by norm_num) (by norm_num)

theorem slope_cos : Real.cos slope = 4 / 5 := by
  unfold slope
  rw [Real.cos_arcsin, show (1 : ℝ) - (3 / 5) ^ 2 = (4 / 5) ^ 2 by norm_num]
  exact Real.sqrt_sq (by norm_num)

def brakeScene : RampScene where
  θ := slope
  cx := 500
  cy := 300
  W := 900
  L := 10
  mf := 1
  w := 60
  h := 60
  m := 1
  ξ := 0
  u := 10
  eb := 1 / 2
  ef := 1 / 2
  μb := 1
  μf := 1
  epsb := 1 / 10
  epsf := 1 / 10

theorem brake_valid : brakeScene.Valid := by
  constructor <;> norm_num [brakeScene, RampScene.μ, slope_cos]

/-- `Gravity(g=10)` or `Gravity(g=100)` added to the box. -/
def boxForces (g : ℝ) : ForceHeap := (⟨fun _ => .gravity g none, fun _ => []⟩ : ForceHeap).add_force 1 1 0

theorem box_cat (g t : ℝ) : forceCat (boxForces g) t 2 = .ok [0, ⟨0, 0, g⟩] := by
  have h0 : (boxForces g).apply_forces 1 t = some ⟨0, 0, g⟩ := by
    simp [boxForces, ForceHeap.apply_forces, ForceHeap.add_force, sumForces, Force.force, Force.set_body]
    apply V3.ext <;> simp
  have h1 : (boxForces g).apply_forces 0 t = some 0 := by
    simp [boxForces, ForceHeap.apply_forces, ForceHeap.add_force]
  simp [forceCat, h0, h1]

theorem box_weighs (S : RampScene) (hm : S.m = 1) (g : ℝ) : S.Weighs (boxForces g) g := by
  intro t
  refine ⟨0, ?_⟩
  rw [box_cat, hm, one_mul]

/-- It brakes by 1 in each step of length 1/2, comes to rest after 10 steps, 22.5 further down, and stays there. -/
example (mi : ℕ) (fnd : Finder) (strict : Bool) :
    ∃ w ws, mkWorld (pdipmEnv 2 (boxForces 10) exactLcp mi (rejectNan (diffCollide 66 (fun _ => []) allPairs))) none fnd
        brakeScene.bodies brakeScene.joints (1 / 2) (1 / 10) (1 / 1000000) false strict = .done w ∧ ws 0 = w ∧
      Steps (pdipmEnv 2 (boxForces 10) exactLcp mi (rejectNan (diffCollide 66 (fun _ => []) allPairs))) (1 / 2) 12 ws ∧
      OnRamp brakeScene (45 / 2) 1 (ws 9) ∧ OnRamp brakeScene (45 / 2) 0 (ws 10) ∧ OnRamp brakeScene (45 / 2) 0 (ws 12) := by
  obtain ⟨w, hw, hon⟩ := C100_initial brakeScene brake_valid (by norm_num [RampScene.Room, brakeScene]) (boxForces 10)
    exactLcp mi 66 le_rfl allPairs allPairs_broad fnd (1 / 2) (1 / 10) (1 / 1000000) (by norm_num) (by norm_num) strict
  have hsn : Real.sin brakeScene.θ = 3 / 5 := slope_sin
  have hcs : Real.cos brakeScene.θ = 4 / 5 := slope_cos
  have hmu : brakeScene.μ = 1 := by norm_num [RampScene.μ, brakeScene]
  have hb : brakeScene.μ * brakeScene.h ≤ brakeScene.w := by rw [hmu]; norm_num [brakeScene]
  have hroom : ∀ k ≤ 12, brakeScene.Room (brakeScene.ξ + 1 / 2 * ∑ j ∈ Finset.range k,
      max 0 (brakeScene.u + (j + 1) * (1 / 2) * (-2))) := by
    intro k hk
    interval_cases k <;> norm_num [Finset.sum_range_succ, RampScene.Room, brakeScene, abs_of_nonneg]
  have ha : (-2 : ℝ) = 10 * (Real.sin brakeScene.θ - brakeScene.μ * Real.cos brakeScene.θ) := by
    rw [hsn, hcs, hmu]; norm_num
  obtain ⟨ws, h0, hst⟩ := C100_runs brakeScene brake_valid (boxForces 10) 10 (by norm_num) (box_weighs _ rfl 10) mi 66 le_rfl
    allPairs allPairs_broad w _ _ hon (1 / 2) (by norm_num) 12 (fun _ _ => .inl hb) (by
      intro k hk
      have := hroom k hk
      rw [(course_down brake_valid.μ brake_valid.steep.le (by rw [hsn]; norm_num) (by norm_num) (by norm_num)
        (by norm_num [brakeScene]) k).2]
      rw [hsn, hcs, hmu]
      norm_num at this ⊢
      simpa [mul_comm, mul_assoc] using this)
  subst h0
  have key := C100_slides brakeScene brake_valid (by rw [hsn]; norm_num) hb (boxForces 10) 10 (by norm_num) (box_weighs _ rfl 10)
    exactLcp exactLcp_exact mi 66 allPairs allPairs_broad (1 / 2) (by norm_num) 12 ws _ _ (by norm_num [brakeScene]) hon hst (-2)
    ha hroom
  refine ⟨ws 0, ws, hw, rfl, hst, ?_, ?_, ?_⟩
  · have := (key 9 (by omega)).1
    norm_num [Finset.sum_range_succ, brakeScene] at this
    exact this
  · have := (key 10 (by omega)).1
    norm_num [Finset.sum_range_succ, brakeScene] at this
    exact this
  · have := (key 12 (by omega)).1
    norm_num [Finset.sum_range_succ, brakeScene] at this
    exact this

/-- The scene of `slide_demo` (demos/demo.py:93-115) with the box put down on the plane: inclination `π/32`, friction 0.15. -/
def demoScene (ξ : ℝ) : RampScene where
  θ := Real.pi / 32
  cx := 500
  cy := 300
  W := 900
  L := 10
  mf := 1
  w := 60
  h := 60
  m := 1
  ξ := ξ
  u := 0
  eb := 1 / 2
  ef := 1 / 2
  μb := 3 / 20
  μf := 3 / 20
  epsb := 1 / 10
  epsf := 1 / 10

theorem demo_angle : 0 ≤ Real.sin (Real.pi / 32) ∧ Real.sin (Real.pi / 32) ≤ 1 / 10 ∧ 9 / 10 ≤ Real.cos (Real.pi / 32) := by
  have hp := Real.pi_pos
  have hp4 := Real.pi_le_four
  have hp3 := Real.pi_lt_d2
  refine ⟨Real.sin_nonneg_of_nonneg_of_le_pi (by positivity) (by linarith), ?_, ?_⟩
  · exact (Real.sin_le (by positivity)).trans (by linarith)
  · have := Real.one_sub_sq_div_two_le_cos (x := Real.pi / 32)
    nlinarith

theorem demo_valid (ξ : ℝ) : (demoScene ξ).Valid := by
  have : 0 < Real.cos (demoScene ξ).θ := lt_of_lt_of_le (by norm_num) demo_angle.2.2
  exact ⟨this, by norm_num [demoScene], by norm_num [demoScene], by norm_num [demoScene], by norm_num [demoScene],
    by norm_num [demoScene], by norm_num [demoScene], by norm_num [demoScene], by norm_num [demoScene, RampScene.μ],
    by norm_num [demoScene], by norm_num [demoScene]⟩

/-- In spite of its name, in `slide_demo` a box that has come to rest on the plane does not slide: friction 0.15 is more
than the slope `tan (π/32) < 0.1`. It stays where it is for ever. -/
theorem C100_slide_demo (ξ : ℝ) (hξ : |ξ| ≤ 420) (lcp : LcpSolver) (hx : Exact lcp) (mi cfuel : ℕ) (hcf : 66 ≤ cfuel)
    (pairs : List Body → List (ℕ × ℕ)) (hp : BroadPhase pairs) (fnd : Finder) (strict : Bool) :
    ∃ w, mkWorld (pdipmEnv 2 (boxForces 100) lcp mi (rejectNan (diffCollide cfuel (fun _ => []) pairs))) none fnd
        (demoScene ξ).bodies (demoScene ξ).joints (1 / 30) (1 / 10) (1 / 1000000) false strict = .done w ∧
      ∀ w', ReachesFwd (pdipmEnv 2 (boxForces 100) lcp mi (rejectNan (diffCollide cfuel (fun _ => []) pairs))) w w' →
        (bodyAt w'.bodies 1).p = (demoScene ξ).pose ξ ∧ twist w'.v 1 = 0 := by
  have hroom : (demoScene ξ).Room ξ := by
    simp only [RampScene.Room, demoScene]; linarith
  obtain ⟨w, hw, hon⟩ := C100_initial (demoScene ξ) (demo_valid ξ) hroom (boxForces 100) lcp mi cfuel hcf pairs hp fnd (1 / 30)
    (1 / 10) (1 / 1000000) (by norm_num) (by norm_num) strict
  obtain ⟨d1, d2, d3⟩ := demo_angle
  have habs : |Real.sin (demoScene ξ).θ| = Real.sin (Real.pi / 32) := abs_of_nonneg d1
  have hcs : Real.cos (demoScene ξ).θ = Real.cos (Real.pi / 32) := rfl
  refine ⟨w, hw, fun w' hr => ?_⟩
  have := C100_stays (demoScene ξ) (demo_valid ξ) (by rw [habs, hcs]; simp only [RampScene.μ, demoScene]; linarith)
    (by rw [habs, hcs]; simp only [demoScene]; linarith) (boxForces 100) 100 (by norm_num) (box_weighs _ rfl 100) lcp hx mi cfuel
    pairs hp ξ hroom w w' hon hr
  refine ⟨this.place, ?_⟩
  rw [this.moves]
  apply V3.ext <;> simp [RampScene.vel]

/-- The world of `C100_slide_demo` does step. -/
example (mi : ℕ) (fnd : Finder) (strict : Bool) : ∃ w w', mkWorld (pdipmEnv 2 (boxForces 100) exactLcp mi
      (rejectNan (diffCollide 66 (fun _ => []) allPairs))) none fnd
        (demoScene 0).bodies (demoScene 0).joints (1 / 30) (1 / 10) (1 / 1000000) false strict = .done w ∧
    w.step_dt (pdipmEnv 2 (boxForces 100) exactLcp mi (rejectNan (diffCollide 66 (fun _ => []) allPairs))) 1 (1 / 30) = .done w' ∧
    OnRamp (demoScene 0) 0 0 w ∧ twist w'.v 1 = 0 := by
  have hroom : (demoScene 0).Room 0 := by norm_num [RampScene.Room, demoScene]
  obtain ⟨d1, d2, d3⟩ := demo_angle
  have habs : |Real.sin (demoScene 0).θ| = Real.sin (Real.pi / 32) := abs_of_nonneg d1
  have hcs : Real.cos (demoScene 0).θ = Real.cos (Real.pi / 32) := rfl
  have hf : |Real.sin (demoScene 0).θ| ≤ (demoScene 0).μ * Real.cos (demoScene 0).θ := by
    rw [habs, hcs]; simp only [RampScene.μ, demoScene]; linarith
  obtain ⟨w, hw, hon⟩ := C100_initial (demoScene 0) (demo_valid 0) hroom (boxForces 100) exactLcp mi 66 le_rfl allPairs
    allPairs_broad fnd (1 / 30) (1 / 10) (1 / 1000000) (by norm_num) (by norm_num) strict
  obtain ⟨w', hw'⟩ := ramp_returns (demo_valid 0) (by norm_num) (box_weighs _ rfl 100) (mi := mi) le_rfl allPairs_broad hon
    (dt := 1 / 30) (by norm_num) 0 (.inl (by norm_num [RampScene.μ, demoScene])) (by
      have : (demoScene 0).next 100 (1 / 30) (demoScene 0).u = 0 := next_rest (by norm_num) (by norm_num) hf
      rw [this]; simpa [demoScene] using hroom)
  refine ⟨w, w', hw, hw', hon, ?_⟩
  exact (C100_rest_iff _ (demo_valid 0) _ 100 (by norm_num) (box_weighs _ rfl 100) exactLcp exactLcp_exact mi 66 allPairs 0 w w' hon
    (1 / 30) (by norm_num) 1 hw').2 ⟨hf, by rw [habs, hcs]; simp only [demoScene]; linarith⟩

/-- A tall box at rest on the plane of inclination 3 : 4 : 5. -/
def tallScene : RampScene := { brakeScene with w := 20, h := 60, u := 0 }

/-- The hypotheses of `C100_tips_iff` (with `u = 0`) and `C100_block` are met by the worlds the constructor makes: the tall
box tips over, the broad one does not. -/
example (mi : ℕ) (fnd : Finder) :
    (∃ w v' l pn a b g, OnRamp tallScene 0 0 w ∧
      ContactLaw w.bodies w.joints w.contacts (impulse [0, ⟨0, 0, tallScene.m * 10⟩] (1 / 30)) w.v v' l pn a b g ∧
      LiesFlat w.bodies w.contacts w.v v' 1 tallScene.ν 30 10 1 ∧ (twist v' 1).r ≠ 0) ∧
    (∃ w v' l pn a b g, OnRamp brakeScene 0 10 w ∧
      ContactLaw w.bodies w.joints w.contacts (impulse [0, ⟨0, 0, brakeScene.m * 10⟩] (1 / 30)) w.v v' l pn a b g ∧
      LiesFlat w.bodies w.contacts w.v v' 1 brakeScene.ν 30 30 1 ∧ (twist v' 1).r = 0) := by
  have hval : tallScene.Valid := by
    constructor <;> norm_num [tallScene, brakeScene, RampScene.μ, slope_cos]
  have hsn : Real.sin tallScene.θ = 3 / 5 := slope_sin
  have hcs : Real.cos tallScene.θ = 4 / 5 := slope_cos
  have hmu : tallScene.μ = 1 := by norm_num [RampScene.μ, tallScene, brakeScene]
  have hmu' : brakeScene.μ = 1 := by norm_num [RampScene.μ, brakeScene]
  constructor
  · obtain ⟨w, -, h⟩ := C100_initial tallScene hval (by norm_num [RampScene.Room, tallScene, brakeScene]) (boxForces 10)
      exactLcp mi 66 le_rfl allPairs allPairs_broad fnd (1 / 2) (1 / 10) (1 / 1000000) (by norm_num) (by norm_num) false
    obtain ⟨v', l, pn, a, b, g, law⟩ := ramp_solvable hval h (impulse [0, ⟨0, 0, tallScene.m * 10⟩] (1 / 30))
    have hl := ramp_flat h (h.plane_rests law)
    obtain ⟨u1, u2, u3⟩ := ramp_free hval h (g := 10) (dt := 1 / 30) (F := 0)
    have hsol := h.solid hval (bodyAt w.bodies 1) (by
      have := h.len
      simp [bodyAt, List.getD_eq_getElem?_getD, this])
    have ht := C100_tips_iff _ _ _ _ _ _ _ _ _ _ _ law 1 (by rw [h.len]; omega) tallScene.ν (tallScene.h / 2) (tallScene.w / 2)
      tallScene.μ (ramp_unit _) (by linarith [hval.h]) (by linarith [hval.w]) hval.μ h.loose hl hsol (ramp_before h) u1
      (by rw [u2, hcs]; norm_num)
    refine ⟨w, v', l, pn, a, b, g, h, law, ?_, fun h0 => ?_⟩
    · rw [hmu] at hl
      norm_num [tallScene] at hl ⊢
      exact hl
    · have := ht.1 h0
      rw [u2, u3, hsn, hcs, hmu] at this
      norm_num [tallScene, brakeScene, abs_of_neg] at this
  · obtain ⟨w, -, h⟩ := C100_initial brakeScene brake_valid (by norm_num [RampScene.Room, brakeScene]) (boxForces 10)
      exactLcp mi 66 le_rfl allPairs allPairs_broad fnd (1 / 2) (1 / 10) (1 / 1000000) (by norm_num) (by norm_num) false
    obtain ⟨v', l, pn, a, b, g, law⟩ := ramp_solvable brake_valid h (impulse [0, ⟨0, 0, brakeScene.m * 10⟩] (1 / 30))
    have hl := ramp_flat h (h.plane_rests law)
    have hv := (ramp_law brake_valid h (by norm_num) (by norm_num) (.inl (by rw [hmu']; norm_num [brakeScene])) law).2
    refine ⟨w, v', l, pn, a, b, g, h, law, ?_, by rw [hv]; rfl⟩
    rw [hmu'] at hl
    norm_num [brakeScene] at hl ⊢
    exact hl

end LcpPhysics
