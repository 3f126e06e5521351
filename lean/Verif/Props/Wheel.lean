import Verif.Props.Rolling

/-!
# C133: a wheel on a floor, pulled and driven

A round body on a floor under a constant force and a constant torque: the weight, a pull along the floor (a rope at the axle, or the part
of the weight along an inclined plane, whose direction is then called level) and the torque of a motor.  With the contact search of the
library, along whole runs of `World.step`.
-/

noncomputable section

namespace LcpPhysics
open Spec

variable {S : RollScene}

/-- The ball is pulled along the floor with the acceleration `a`, pressed on it with the acceleration `g` and turned with the torque
`τ`. -/
def Driven (S : RollScene) (H : ForceHeap) (τ a g : ℝ) : Prop := ∀ t, ∃ F, forceCat H t 2 = .ok [⟨τ, S.m * a, S.m * g⟩, F]

/-- How fast pull and torque would make the wheel slip if there were no friction: the acceleration of its lowest point. -/
def slipRate (S : RollScene) (τ a : ℝ) : ℝ := a - 2 * τ / (S.m * S.r)

/-- The slip that friction takes away in one step. -/
def gripped (S : RollScene) (τ a g dt : ℝ) (u : V3) : ℝ := clampTo (3 * S.μ * g * dt) (floorSlip S.r u + slipRate S τ a * dt)

/-- The velocity after one step. -/
def driveNext (S : RollScene) (τ a g dt : ℝ) (u : V3) : V3 :=
  ⟨u.r + 2 * τ * dt / (S.m * S.r ^ 2) + 2 * gripped S τ a g dt u / (3 * S.r), u.x + a * dt - gripped S τ a g dt u / 3, 0⟩

/-- The outcome of one step of the engine. -/
theorem drive_law (hS : S.Valid) {w : World (Option Mat) Finder} (h : OnFloor S w) {τ a' g dt : ℝ} (hg : 0 ≤ g) (hdt : 0 ≤ dt)
    {F : V3} {v' l : Vec} {pn a b gs : ℕ → ℝ}
    (law : ContactLaw w.bodies w.joints w.contacts (impulse [⟨τ, S.m * a', S.m * g⟩, F] dt) w.v v' l pn a b gs) :
    twist v' 1 = 0 ∧ twist v' 0 = driveNext S τ a' g dt (twist w.v 0) := by
  have hr := hS.r
  have hm := hS.m
  obtain ⟨j, hj, hk, hi1, hi2⟩ := h.joint
  have hrest : twist v' 1 = 0 := by
    rw [← hi1]
    refine total_rest hk fun x hx => law.joints x ?_
    exact List.mem_flatMap.2 ⟨j, by rw [hj]; simp, hx⟩
  obtain ⟨c, hc, htf⟩ := h.contact
  rw [hc] at law
  obtain ⟨bm, bI⟩ := h.ball
  have hI : 0 < S.m * S.r * S.r / 2 := by positivity
  have hpr := floor_presses h hrest htf
  obtain ⟨-, -, hv⟩ := C97_rub w.bodies w.joints [c] _ w.v v' l pn a b gs law 0 (by simp) 0 (by rw [h.len]; omega)
    (0, -1) S.r (by norm_num [Spec.inner]) hpr
    (by
      intro j' hj'
      rw [hj] at hj'
      simp only [List.mem_singleton] at hj'
      subst hj'
      rw [hi1, hi2]
      simp)
    (by
      intro q hq hne
      simp at hq
      exact absurd hq hne)
    (by rw [bm, bI]; exact ⟨hm, hI⟩)
  simp only [List.getElem_cons_zero] at hv
  rw [h.fric htf, bm, bI] at hv
  have hfree : freeTwist w.bodies (impulse [⟨τ, S.m * a', S.m * g⟩, F] dt) w.v 0 =
      ⟨(twist w.v 0).r + 2 * τ * dt / (S.m * S.r ^ 2), (twist w.v 0).x + a' * dt, g * dt⟩ := by
    unfold freeTwist impulse
    rw [bm, bI, h.level]
    apply V3.ext
    · simp; field_simp
    · simp; field_simp
    · simp; field_simp
  rw [hfree] at hv
  have hl0 : lift (0, -1) (twist w.v 0) = 0 := by simp [lift, Spec.inner, h.level]
  have hP : max 0 (-(S.m * (lift (0, -1) ⟨(twist w.v 0).r + 2 * τ * dt / (S.m * S.r ^ 2), (twist w.v 0).x + a' * dt, g * dt⟩ +
      meanRestitution w.bodies c * lift (0, -1) (twist w.v 0)))) = S.m * g * dt := by
    rw [hl0, mul_zero, add_zero, max_eq_right]
    · simp [lift, Spec.inner]; ring
    · simp [lift, Spec.inner]; positivity
  rw [hP] at hv
  have hslip : -slip (0, -1) S.r ⟨(twist w.v 0).r + 2 * τ * dt / (S.m * S.r ^ 2), (twist w.v 0).x + a' * dt, g * dt⟩ =
      floorSlip S.r (twist w.v 0) + slipRate S τ a' * dt := by
    simp [slip, floorSlip, tangent, Spec.inner, slipRate]
    field_simp
    ring
  rw [hslip] at hv
  have hK : (1 / S.m + S.r ^ 2 / (S.m * S.r * S.r / 2)) = 3 / S.m := by field_simp; norm_num
  rw [hK] at hv
  have hQ : clampTo (S.μ * (S.m * g * dt)) ((floorSlip S.r (twist w.v 0) + slipRate S τ a' * dt) / (3 / S.m)) =
      S.m / 3 * gripped S τ a' g dt (twist w.v 0) := by
    have := clamp_scale (K := 3 / S.m) (m := S.μ * (S.m * g * dt)) (x := floorSlip S.r (twist w.v 0) + slipRate S τ a' * dt)
      (by positivity)
    rw [show 3 / S.m * (S.μ * (S.m * g * dt)) = 3 * S.μ * g * dt by field_simp] at this
    unfold gripped
    rw [← this]
    field_simp
  rw [hQ] at hv
  refine ⟨hrest, ?_⟩
  rw [hv]
  unfold driveNext
  apply V3.ext
  · simp [rubbed]; field_simp
  · simp [rubbed, tangent]; field_simp
    ring
  · simp [rubbed, tangent]; field_simp
    ring

/-- One returning step of a world in which the ball is on the floor and stays above it. -/
theorem drive_step (hS : S.Valid) {H : ForceHeap} {τ a g : ℝ} (hg : 0 ≤ g) (hH : Driven S H τ a g) {lcp : LcpSolver}
    (hx : Exact lcp) {mi cfuel : ℕ} (hcf : 66 ≤ cfuel) {pairs : List Body → List (ℕ × ℕ)} (hpr : OnePair pairs)
    (hpv : ∀ bs, ∀ p ∈ pairs bs, p.1 < bs.length ∧ p.2 < bs.length ∧ p.1 ≠ p.2)
    {w w' : World (Option Mat) Finder} (h : OnFloor S w) {dt : ℝ} (hdt : 0 ≤ dt) {fuel : ℕ}
    (hstep : w.step_dt (pdipmEnv 2 H lcp mi (rejectNan (diffCollide cfuel (fun _ => []) pairs))) fuel dt = .done w')
    (hroom : |(bodyAt w.bodies 0).p.x + dt * (driveNext S τ a g dt (twist w.v 0)).x - S.cx| ≤ S.W / 2) :
    OnFloor S w' ∧ w'.t = w.t + dt ∧ twist w'.v 0 = driveNext S τ a g dt (twist w.v 0) ∧
      (bodyAt w'.bodies 0).p = (bodyAt w.bodies 0).p + dt • twist w'.v 0 := by
  have hinv' := step_inv (C12_finder_ok cfuel _ pairs hpv) h.inv hstep
  have hst := step_dt_statics h.inv.good hstep
  have hpos := h.posed.trans (posed_step h.inv.good hstep)
  obtain ⟨e, v, k, w1, w2, hsol, -, rfl, -, ⟨fk, f', cs, hcs, -, rfl⟩, hrej, hend⟩ := step_dt_done h.inv.good hstep
  obtain ⟨fl, l, pn, a, b, gs, hfl, law⟩ :=
    C38_engine_contact_law H lcp mi w dt e v h.inv.joints h.inv.contacts h.inv.cache.ok hx hsol
  obtain ⟨F, hF⟩ := hH w.t
  rw [h.len, hF] at hfl
  injection hfl with hfl
  subst hfl
  obtain ⟨v1, v0⟩ := drive_law hS h hg hdt law
  have search : ∀ f, ∃ f' c, rejectNan (diffCollide cfuel (fun _ => []) pairs) w.eps f
      ((({ w with eng := e } : World (Option Mat) Finder).set_v v).bodies.map fun b => b.move dt) = .ok (f', [c]) ∧
        TouchesFloor S.r c := by
    intro f
    obtain ⟨m1, m2, m3, m4⟩ := roll_moved h e v1 (by rw [v0]; rfl) dt
    refine floor_search hS cfuel hcf pairs hpr w.eps h.eps f _ m1 m2 m4 ?_
    rw [m3]
    simp only [V3.add_x, V3.smul_x]
    rw [v0]
    exact hroom
  have hk : k = 0 := by
    by_contra hk
    obtain ⟨fj, fj', cs', hc', hno⟩ := hrej 0 (by omega)
    rw [pow_zero, div_one] at hc' hno
    obtain ⟨f'', c, hc'', ht⟩ := search fj
    change rejectNan (diffCollide cfuel (fun _ => []) pairs) w.eps fj _ = _ at hc'
    rw [hc''] at hc'
    injection hc' with hc'
    injection hc' with _ hc'
    subst hc'
    refine hno (Or.inl fun c' hc' => ?_)
    simp only [List.mem_singleton] at hc'
    subst hc'
    rw [ht.1]
    exact h.tol
  subst hk
  rw [pow_zero, div_one] at hcs hend
  rcases hend with ⟨-, rfl⟩ | ⟨hp, -⟩
  swap
  · rw [h.post] at hp; cases hp
  obtain ⟨m1, m2, m3, m4⟩ := roll_moved h e v1 (by rw [v0]; rfl) dt
  obtain ⟨f'', c, hc'', ht⟩ := search fk
  change rejectNan (diffCollide cfuel (fun _ => []) pairs) w.eps fk _ = _ at hcs
  rw [hc''] at hcs
  injection hcs with hcs
  injection hcs with _ hcs
  subst hcs
  refine ⟨⟨hinv', hpos, hst.2.trans h.wiring, m2, v1, m4, ?_, ⟨c, rfl, ht⟩, h.post, ?_, ?_⟩, rfl, v0, m3⟩
  · show (twist v 0).y = 0
    rw [v0]; rfl
  · exact h.tol
  · exact h.eps

/-- Such a step returns if the equations are solved exactly. -/
theorem drive_returns (hS : S.Valid) {H : ForceHeap} {τ a' g : ℝ} (hg : 0 ≤ g) (hH : Driven S H τ a' g) {mi cfuel : ℕ}
    (hcf : 66 ≤ cfuel) {pairs : List Body → List (ℕ × ℕ)} (hpr : OnePair pairs)
    {w : World (Option Mat) Finder} (h : OnFloor S w) {dt : ℝ} (hdt : 0 ≤ dt) (fuel : ℕ)
    (hroom : |(bodyAt w.bodies 0).p.x + dt * (driveNext S τ a' g dt (twist w.v 0)).x - S.cx| ≤ S.W / 2) :
    ∃ w', w.step_dt (pdipmEnv 2 H exactLcp mi (rejectNan (diffCollide cfuel (fun _ => []) pairs))) (fuel + 1) dt =
      .done w' := by
  obtain ⟨F, hF⟩ := hH w.t
  obtain ⟨c, hc, htf⟩ := h.contact
  obtain ⟨v0, l0, pn0, a0, b0, g0, law0⟩ := C74_friction_inelastic w h.inv.joints h.inv.contacts (h.solid hS)
    (by
      intro c' hc'
      rw [hc, List.mem_singleton] at hc'
      rw [hc', h.fric htf]
      exact hS.μ)
    (by
      intro c' hc'
      rw [hc, List.mem_singleton] at hc'
      subst hc'
      have hr := h.rest
      have hl := h.level
      have : normalVel c' w.v = 0 := by
        rcases htf.2.2 with ⟨e1, e2, e3, e4⟩ | ⟨e1, e2, e3, e4⟩
        · simp [normalVel, contactVel, e1, e2, e3, e4, hr, pointVel, Spec.inner, hl]
        · simp [normalVel, contactVel, e1, e2, e3, e4, hr, pointVel, Spec.inner, hl]
      rw [this, mul_zero])
    (impulse [⟨τ, S.m * a', S.m * g⟩, F] dt)
  obtain ⟨-, ⟨e, v⟩, hr⟩ := C74_exact_engine_returns H mi w dt h.inv.joints
    h.inv.contacts (by rw [hc]; simp) _ (by rw [h.len]; exact hF) _ _ _ _ _ _ law0
  obtain ⟨fl, l, pn, a, b, gs, hfl, law⟩ :=
    C38_engine_contact_law H exactLcp mi w dt e v h.inv.joints h.inv.contacts h.inv.cache.ok exactLcp_exact hr
  rw [h.len, hF] at hfl
  injection hfl with hfl
  subst hfl
  obtain ⟨v1, v0⟩ := drive_law hS h hg hdt law
  obtain ⟨m1, m2, m3, m4⟩ := roll_moved h e v1 (by rw [v0]; rfl) dt
  obtain ⟨f', c', hcol, ht⟩ := floor_search hS cfuel hcf pairs hpr w.eps h.eps w.fnd _ m1 m2 m4 (by
    rw [m3]
    simp only [V3.add_x, V3.smul_x]
    rw [v0]
    exact hroom)
  refine ⟨_, step_first _ fuel w h.inv.good dt h.post e v hr f' [c'] hcol ?_⟩
  intro c'' hc''
  rw [List.mem_singleton] at hc''
  rw [hc'', ht.1]
  exact h.tol

/-! ## Many steps -/

theorem gripped_le (hS : S.Valid) {τ a g dt : ℝ} (hg : 0 ≤ g) (hdt : 0 ≤ dt) (u : V3) :
    |gripped S τ a g dt u| ≤ 3 * S.μ * g * dt := by
  have hμ := hS.μ
  have hD : 0 ≤ 3 * S.μ * g * dt := by positivity
  unfold gripped clampTo
  rw [abs_le]
  refine ⟨le_max_left _ _, max_le (by linarith) (min_le_left _ _)⟩

theorem drive_slip (hS : S.Valid) (τ a g dt : ℝ) (u : V3) : floorSlip S.r (driveNext S τ a g dt u) =
    floorSlip S.r u + slipRate S τ a * dt - gripped S τ a g dt u := by
  have hr := hS.r
  have hm := hS.m
  unfold floorSlip driveNext slipRate
  simp only
  field_simp
  ring

/-- The floor is long enough for `n` steps. -/
def RoomFor (S : RollScene) (a g dt : ℝ) (n : ℕ) (w : World (Option Mat) Finder) : Prop :=
  |(bodyAt w.bodies 0).p.x - S.cx| + n * (dt * (|(twist w.v 0).x| + n * (dt * (|a| + S.μ * g)))) ≤ S.W / 2

theorem drive_steps (hS : S.Valid) {H : ForceHeap} {τ a g : ℝ} (hg : 0 ≤ g) (hH : Driven S H τ a g) {lcp : LcpSolver}
    (hx : Exact lcp) {mi cfuel : ℕ} (hcf : 66 ≤ cfuel) {pairs : List Body → List (ℕ × ℕ)} (hpr : OnePair pairs)
    (hpv : ∀ bs, ∀ p ∈ pairs bs, p.1 < bs.length ∧ p.2 < bs.length ∧ p.1 ≠ p.2)
    {dt : ℝ} (hdt : 0 ≤ dt) {N n : ℕ} (hnN : n ≤ N) {ws : ℕ → World (Option Mat) Finder} (h : OnFloor S (ws 0))
    (hst : Steps (pdipmEnv 2 H lcp mi (rejectNan (diffCollide cfuel (fun _ => []) pairs))) dt n ws)
    (hroom : RoomFor S a g dt N (ws 0)) :
    ∀ k ≤ n, OnFloor S (ws k) ∧ (ws k).t = (ws 0).t + k * dt ∧
      (k < N → |(bodyAt (ws k).bodies 0).p.x + dt * (driveNext S τ a g dt (twist (ws k).v 0)).x - S.cx| ≤ S.W / 2) ∧
      (k < n → twist (ws (k + 1)).v 0 = driveNext S τ a g dt (twist (ws k).v 0) ∧
        (bodyAt (ws (k + 1)).bodies 0).p = (bodyAt (ws k).bodies 0).p + dt • twist (ws (k + 1)).v 0) := by
  have hμ := hS.μ
  set q := dt * (|a| + S.μ * g) with hq
  have hq0 : 0 ≤ q := by positivity
  have grow : ∀ u : V3, |(driveNext S τ a g dt u).x| ≤ |u.x| + q := by
    intro u
    have h1 := gripped_le hS (τ := τ) (a := a) hg hdt u
    have h2 : (driveNext S τ a g dt u).x = u.x + a * dt - gripped S τ a g dt u / 3 := rfl
    rw [h2]
    have h3 : |a * dt| = |a| * dt := by rw [abs_mul, abs_of_nonneg hdt]
    have h4 := abs_sub (u.x + a * dt) (gripped S τ a g dt u / 3)
    have h5 := abs_add_le u.x (a * dt)
    have h6 : |gripped S τ a g dt u / 3| = |gripped S τ a g dt u| / 3 := by rw [abs_div]; norm_num
    rw [h6] at h4
    rw [hq]
    linarith
  have ahead : ∀ k : ℕ, k < N → ∀ w : World (Option Mat) Finder, |(twist w.v 0).x| ≤ |(twist (ws 0).v 0).x| + k * q →
      |(bodyAt w.bodies 0).p.x - S.cx| ≤ |(bodyAt (ws 0).bodies 0).p.x - S.cx| + k * (dt * (|(twist (ws 0).v 0).x| + N * q)) →
      |(bodyAt w.bodies 0).p.x + dt * (driveNext S τ a g dt (twist w.v 0)).x - S.cx| ≤
        |(bodyAt (ws 0).bodies 0).p.x - S.cx| + (k + 1 : ℕ) * (dt * (|(twist (ws 0).v 0).x| + N * q)) ∧
      |(bodyAt (ws 0).bodies 0).p.x - S.cx| + (k + 1 : ℕ) * (dt * (|(twist (ws 0).v 0).x| + N * q)) ≤ S.W / 2 := by
    intro k hk w h1 h2
    have h3 := grow (twist w.v 0)
    have hk' : ((k + 1 : ℕ) : ℝ) ≤ N := by exact_mod_cast hk
    have h4 : ((k + 1 : ℕ) : ℝ) * q ≤ N * q := mul_le_mul_of_nonneg_right hk' hq0
    have h5 : dt * |(driveNext S τ a g dt (twist w.v 0)).x| ≤ dt * (|(twist (ws 0).v 0).x| + N * q) := by
      apply mul_le_mul_of_nonneg_left _ hdt
      push_cast at h4
      linarith
    constructor
    · rw [add_sub_right_comm]
      refine (abs_add_le _ _).trans ?_
      rw [abs_mul, abs_of_nonneg hdt]
      push_cast
      linarith
    · have h6 : 0 ≤ dt * (|(twist (ws 0).v 0).x| + N * q) := by positivity
      have h7 := mul_le_mul_of_nonneg_right hk' h6
      have h8 : |(bodyAt (ws 0).bodies 0).p.x - S.cx| + N * (dt * (|(twist (ws 0).v 0).x| + N * q)) ≤ S.W / 2 := hroom
      linarith
  have key : ∀ k ≤ n, OnFloor S (ws k) ∧ (ws k).t = (ws 0).t + k * dt ∧ |(twist (ws k).v 0).x| ≤ |(twist (ws 0).v 0).x| + k * q ∧
      |(bodyAt (ws k).bodies 0).p.x - S.cx| ≤ |(bodyAt (ws 0).bodies 0).p.x - S.cx| + k * (dt * (|(twist (ws 0).v 0).x| + N * q)) := by
    intro k
    induction k with
    | zero => exact fun _ => ⟨h, by simp, by simp, by simp⟩
    | succ k ih =>
      intro hk
      obtain ⟨i1, i2, i3, i4⟩ := ih (by omega)
      obtain ⟨fuel, hs⟩ := hst k (by omega)
      obtain ⟨r1, r2⟩ := ahead k (by omega) _ i3 i4
      obtain ⟨j1, j2, j3, j4⟩ := drive_step hS hg hH hx hcf hpr hpv i1 hdt hs (r1.trans r2)
      refine ⟨j1, ?_, ?_, ?_⟩
      · rw [j2, i2]; push_cast; ring
      · rw [j3]
        have := grow (twist (ws k).v 0)
        push_cast
        linarith
      · rw [j4, j3]
        exact r1
  intro k hk
  obtain ⟨i1, i2, i3, i4⟩ := key k hk
  refine ⟨i1, i2, fun hkN => ?_, fun hkn => ?_⟩
  · obtain ⟨r1, r2⟩ := ahead k hkN _ i3 i4
    exact r1.trans r2
  · obtain ⟨fuel, hs⟩ := hst k hkn
    obtain ⟨r1, r2⟩ := ahead k (by omega) _ i3 i4
    obtain ⟨-, -, j3, j4⟩ := drive_step hS hg hH hx hcf hpr hpv i1 hdt hs (r1.trans r2)
    exact ⟨j3, j4⟩

section
variable (S : RollScene) (hS : S.Valid) (H : ForceHeap) (τ a g : ℝ) (hg : 0 ≤ g) (hH : Driven S H τ a g) (mi cfuel : ℕ)
  (hcf : 66 ≤ cfuel) (pairs : List Body → List (ℕ × ℕ)) (hpr : OnePair pairs)
  (hpv : ∀ bs, ∀ p ∈ pairs bs, p.1 < bs.length ∧ p.2 < bs.length ∧ p.1 ≠ p.2) (dt : ℝ) (hdt : 0 ≤ dt) (n : ℕ)

include hS hg hH hcf hpr hpv hdt

/-- C133: a wheel that rolls and is pulled and driven so gently that `|a - 2 τ / (m r)| ≤ 3 μ g` keeps rolling: it never slips, and its
acceleration is two thirds of what the pull and the torque together would give a body that does not turn.  (On an inclined plane: it rolls
if the slope is at most `3 μ`.) -/
theorem C133_rolls (lcp : LcpSolver) (hx : Exact lcp) (ws : ℕ → World (Option Mat) Finder) (h : OnFloor S (ws 0))
    (hst : Steps (pdipmEnv 2 H lcp mi (rejectNan (diffCollide cfuel (fun _ => []) pairs))) dt n ws)
    (hroom : RoomFor S a g dt n (ws 0)) (hroll : floorSlip S.r (twist (ws 0).v 0) = 0)
    (hgrip : |a - 2 * τ / (S.m * S.r)| ≤ 3 * S.μ * g) (k : ℕ) (hk : k ≤ n) :
    let α := 2 / 3 * (a + τ / (S.m * S.r))
    OnFloor S (ws k) ∧ (ws k).t = (ws 0).t + k * dt ∧ floorSlip S.r (twist (ws k).v 0) = 0 ∧
      (twist (ws k).v 0).x = (twist (ws 0).v 0).x + k * dt * α ∧
      (bodyAt (ws k).bodies 0).p.x = (bodyAt (ws 0).bodies 0).p.x + k * dt * (twist (ws 0).v 0).x + k * (k + 1) / 2 * dt ^ 2 * α := by
  intro α
  have hr := hS.r
  have hm := hS.m
  have hs := drive_steps hS hg hH hx hcf hpr hpv hdt le_rfl h hst hroom
  obtain ⟨h1, h2, -, -⟩ := hs k hk
  refine ⟨h1, h2, ?_⟩
  clear h1 h2
  induction k with
  | zero => simp [hroll]
  | succ k ih =>
    obtain ⟨i1, i2, i3⟩ := ih (by omega)
    obtain ⟨-, -, -, h4⟩ := hs k (by omega)
    obtain ⟨j1, j2⟩ := h4 (by omega)
    have hc : gripped S τ a g dt (twist (ws k).v 0) = slipRate S τ a * dt := by
      unfold gripped
      rw [i1, zero_add]
      unfold clampTo
      have : |slipRate S τ a * dt| ≤ 3 * S.μ * g * dt := by
        rw [abs_mul, abs_of_nonneg hdt]
        exact mul_le_mul_of_nonneg_right hgrip hdt
      rw [min_eq_right (abs_le.1 this).2, max_eq_right (abs_le.1 this).1]
    have hv : (twist (ws (k + 1)).v 0).x = (twist (ws 0).v 0).x + (k + 1 : ℕ) * dt * α := by
      rw [j1]
      show (twist (ws k).v 0).x + a * dt - gripped S τ a g dt (twist (ws k).v 0) / 3 = _
      rw [hc, i2]
      unfold slipRate
      simp only [α]
      push_cast
      field_simp
      ring
    refine ⟨?_, hv, ?_⟩
    · rw [j1, drive_slip hS, i1, hc]; ring
    · rw [j2]
      show (bodyAt (ws k).bodies 0).p.x + dt * (twist (ws (k + 1)).v 0).x = _
      rw [hv, i3]
      push_cast
      ring

/-- C133: pulled or driven harder than that (in the direction `σ = 1` or `σ = -1`, in which it slips already or not at all) the wheel slips,
faster and faster: the floor gives it the acceleration `μ g` against the slip, however strong the motor is. -/
theorem C133_spins (lcp : LcpSolver) (hx : Exact lcp) (ws : ℕ → World (Option Mat) Finder) (h : OnFloor S (ws 0))
    (hst : Steps (pdipmEnv 2 H lcp mi (rejectNan (diffCollide cfuel (fun _ => []) pairs))) dt n ws)
    (hroom : RoomFor S a g dt n (ws 0)) (σ : ℝ) (hσ : σ = 1 ∨ σ = -1) (hslip : 0 ≤ σ * floorSlip S.r (twist (ws 0).v 0))
    (hhard : 3 * S.μ * g ≤ σ * (a - 2 * τ / (S.m * S.r))) (k : ℕ) (hk : k ≤ n) :
    let α := a - σ * (S.μ * g)
    OnFloor S (ws k) ∧ (ws k).t = (ws 0).t + k * dt ∧
      σ * floorSlip S.r (twist (ws k).v 0) = σ * floorSlip S.r (twist (ws 0).v 0) +
        k * dt * (σ * (a - 2 * τ / (S.m * S.r)) - 3 * S.μ * g) ∧
      (twist (ws k).v 0).x = (twist (ws 0).v 0).x + k * dt * α ∧
      (bodyAt (ws k).bodies 0).p.x = (bodyAt (ws 0).bodies 0).p.x + k * dt * (twist (ws 0).v 0).x + k * (k + 1) / 2 * dt ^ 2 * α := by
  intro α
  have hr := hS.r
  have hm := hS.m
  have hμ := hS.μ
  have hs := drive_steps hS hg hH hx hcf hpr hpv hdt le_rfl h hst hroom
  obtain ⟨h1, h2, -, -⟩ := hs k hk
  refine ⟨h1, h2, ?_⟩
  clear h1 h2
  have hσ2 : σ * σ = 1 := by rcases hσ with rfl | rfl <;> norm_num
  have hD : 0 ≤ 3 * S.μ * g * dt := by positivity
  induction k with
  | zero => simp
  | succ k ih =>
    obtain ⟨i1, i2, i3⟩ := ih (by omega)
    obtain ⟨-, -, -, h4⟩ := hs k (by omega)
    obtain ⟨j1, j2⟩ := h4 (by omega)
    have hc : gripped S τ a g dt (twist (ws k).v 0) = σ * (3 * S.μ * g * dt) := by
      have hbig : 3 * S.μ * g * dt ≤ σ * (floorSlip S.r (twist (ws k).v 0) + slipRate S τ a * dt) := by
        have e1 : 0 ≤ σ * floorSlip S.r (twist (ws k).v 0) := by
          rw [i1]
          have : 0 ≤ k * dt * (σ * (a - 2 * τ / (S.m * S.r)) - 3 * S.μ * g) := mul_nonneg (by positivity) (by linarith)
          linarith
        have e2 := mul_le_mul_of_nonneg_right hhard hdt
        rw [mul_add, ← mul_assoc]
        unfold slipRate
        linarith
      unfold gripped clampTo
      rcases hσ with rfl | rfl
      · rw [min_eq_left (by linarith), max_eq_right (by linarith)]; ring
      · rw [min_eq_right (by linarith), max_eq_left (by linarith)]; ring
    have hv : (twist (ws (k + 1)).v 0).x = (twist (ws 0).v 0).x + (k + 1 : ℕ) * dt * α := by
      rw [j1]
      show (twist (ws k).v 0).x + a * dt - gripped S τ a g dt (twist (ws k).v 0) / 3 = _
      rw [hc, i2]
      simp only [α]
      push_cast
      ring
    refine ⟨?_, hv, ?_⟩
    · rw [j1, drive_slip hS, hc, mul_sub, mul_add, i1, ← mul_assoc σ σ, hσ2]
      unfold slipRate
      push_cast
      ring
    · rw [j2]
      show (bodyAt (ws k).bodies 0).p.x + dt * (twist (ws (k + 1)).v 0).x = _
      rw [hv, i3]
      push_cast
      ring

/-- C133: whatever its slip at the beginning, a wheel that is pulled and driven gently loses it: the slip speed decreases by at least
`(3 μ g - |a - 2 τ / (m r)|) dt` in every step until the wheel rolls. -/
theorem C133_grips (lcp : LcpSolver) (hx : Exact lcp) (ws : ℕ → World (Option Mat) Finder) (h : OnFloor S (ws 0))
    (hst : Steps (pdipmEnv 2 H lcp mi (rejectNan (diffCollide cfuel (fun _ => []) pairs))) dt n ws)
    (hroom : RoomFor S a g dt n (ws 0)) (hgrip : |a - 2 * τ / (S.m * S.r)| ≤ 3 * S.μ * g) (k : ℕ) (hk : k ≤ n) :
    |floorSlip S.r (twist (ws k).v 0)| ≤
      max 0 (|floorSlip S.r (twist (ws 0).v 0)| - k * dt * (3 * S.μ * g - |a - 2 * τ / (S.m * S.r)|)) := by
  have hs := drive_steps hS hg hH hx hcf hpr hpv hdt le_rfl h hst hroom
  have hμ := hS.μ
  have hD : 0 ≤ 3 * S.μ * g * dt := by positivity
  induction k with
  | zero => simp
  | succ k ih =>
    obtain ⟨-, -, -, h4⟩ := hs k (by omega)
    obtain ⟨j1, -⟩ := h4 (by omega)
    have ih := ih (by omega)
    rw [j1, drive_slip hS]
    obtain ⟨q1, -⟩ := clamp_rest (x := floorSlip S.r (twist (ws k).v 0) + slipRate S τ a * dt) hD
    unfold gripped
    rw [q1]
    have e1 := abs_add_le (floorSlip S.r (twist (ws k).v 0)) (slipRate S τ a * dt)
    have e2 : |slipRate S τ a * dt| = |a - 2 * τ / (S.m * S.r)| * dt := by rw [abs_mul, abs_of_nonneg hdt]; rfl
    have e3 := mul_le_mul_of_nonneg_right hgrip hdt
    rw [e2] at e1
    apply max_le (le_max_left _ _)
    rcases le_total (|floorSlip S.r (twist (ws 0).v 0)| - k * dt * (3 * S.μ * g - |a - 2 * τ / (S.m * S.r)|)) 0 with hz | hz
    · rw [max_eq_left hz] at ih
      refine le_trans ?_ (le_max_left _ _)
      linarith
    · rw [max_eq_right hz] at ih
      refine le_trans ?_ (le_max_right _ _)
      push_cast
      linarith

/-- C133: such runs exist, for any number of steps for which there is room, if the contact problems are solved exactly. -/
theorem C133_runs (w : World (Option Mat) Finder) (h : OnFloor S w) (hroom : RoomFor S a g dt n w) :
    ∃ ws, ws 0 = w ∧ Steps (pdipmEnv 2 H exactLcp mi (rejectNan (diffCollide cfuel (fun _ => []) pairs))) dt n ws := by
  suffices ∀ m ≤ n, ∃ ws, ws 0 = w ∧ Steps (pdipmEnv 2 H exactLcp mi (rejectNan (diffCollide cfuel (fun _ => []) pairs))) dt m ws from
    this n le_rfl
  intro m
  induction m with
  | zero => exact fun _ => ⟨fun _ => w, rfl, fun k hk => by omega⟩
  | succ m ih =>
    intro hm
    obtain ⟨ws, rfl, hst⟩ := ih (by omega)
    obtain ⟨i1, -, i3, -⟩ := drive_steps hS hg hH exactLcp_exact hcf hpr hpv hdt (N := n) (by omega) h hst hroom m le_rfl
    obtain ⟨w', hw'⟩ := drive_returns hS hg hH (mi := mi) hcf hpr i1 hdt 0 (i3 (by omega))
    refine ⟨fun k => if k ≤ m then ws k else w', by simp, ?_⟩
    intro k hk
    simp only
    rcases Nat.lt_or_ge k m with hkn | hkn
    · rw [if_pos (by omega), if_pos (by omega)]
      exact hst k hkn
    · rw [if_pos (by omega), if_neg (by omega)]
      have : k = m := by omega
      subst this
      exact ⟨1, hw'⟩

end

/-! ## Concrete cases

The ball of C98 at rest on the floor, driven by a motor, and on an inclined plane. -/

def wheelScene : RollScene := { slideScene with u := 0 }

theorem wheel_valid : wheelScene.Valid := by
  constructor <;> norm_num [wheelScene, slideScene, RollScene.μ]

/-- Weight 10, pull `a`, torque `τ` on the ball. -/
def wheelForces (τ a : ℝ) : ForceHeap :=
  (⟨fun _ => .external (fun _ => ⟨τ, a, 10⟩) 1, fun _ => []⟩ : ForceHeap).add_force 0 1 0

theorem wheel_driven (τ a : ℝ) : Driven wheelScene (wheelForces τ a) τ a 10 := by
  intro t
  have h0 : (wheelForces τ a).apply_forces 0 t = some ⟨τ, a, 10⟩ := by
    simp [wheelForces, ForceHeap.apply_forces, ForceHeap.add_force, sumForces, Force.force, Force.set_body]
    apply V3.ext <;> simp
  have h1 : (wheelForces τ a).apply_forces 1 t = some 0 := by
    simp [wheelForces, ForceHeap.apply_forces, ForceHeap.add_force]
  refine ⟨0, ?_⟩
  simp [forceCat, h0, h1, wheelScene, slideScene]

theorem wheel_runs (τ a : ℝ) (ha : |a| ≤ 20) (mi : ℕ) (fnd : Finder) (fl strict : Bool) :
    ∃ (w : World (Option Mat) Finder) (ws : ℕ → World (Option Mat) Finder), mkWorld (pdipmEnv 2 (wheelForces τ a) exactLcp mi (rejectNan (diffCollide 66 (fun _ => []) (bouncePairs fl)))) none fnd
        wheelScene.bodies wheelScene.joints (1 / 30) (1 / 10) (1 / 1000000) false strict = .done w ∧ ws 0 = w ∧ OnFloor wheelScene w ∧
      (bodyAt w.bodies 0).p.x = 0 ∧ twist w.v 0 = 0 ∧ RoomFor wheelScene a 10 (1 / 30) 60 w ∧
      Steps (pdipmEnv 2 (wheelForces τ a) exactLcp mi (rejectNan (diffCollide 66 (fun _ => []) (bouncePairs fl)))) (1 / 30) 60 ws := by
  obtain ⟨w, h1, h2, h3, h4⟩ := C98_initial wheelScene wheel_valid (by norm_num [wheelScene, slideScene]) (wheelForces τ a) exactLcp mi 66
    le_rfl (bouncePairs fl) (bouncePairs_one fl) (bouncePairs_valid fl) fnd (1 / 30) (1 / 10) (1 / 1000000) (by norm_num) (by norm_num) strict
  have hx : (bodyAt w.bodies 0).p.x = 0 := by rw [h3]; rfl
  have hv : twist w.v 0 = 0 := by rw [h4]; rfl
  have hroom : RoomFor wheelScene a 10 (1 / 30) 60 w := by
    unfold RoomFor
    rw [hx, hv]
    have e1 : wheelScene.μ = 1 / 2 := by norm_num [wheelScene, slideScene, RollScene.μ]
    have e2 : wheelScene.cx = 0 := rfl
    have e3 : wheelScene.W = 1000 := rfl
    rw [e1, e2, e3]
    norm_num
    linarith
  obtain ⟨ws, w0, hst⟩ := C133_runs wheelScene wheel_valid (wheelForces τ a) τ a 10 (by norm_num) (wheel_driven τ a) mi 66 le_rfl
    (bouncePairs fl) (bouncePairs_one fl) (bouncePairs_valid fl) (1 / 30) (by norm_num) 60 w h2 hroom
  exact ⟨w, ws, h1, w0, h2, hx, hv, hroom, hst⟩

/-- A gentle motor, torque 60: after two seconds the wheel rolls at speed 8. -/
example (mi : ℕ) (fnd : Finder) (fl strict : Bool) :
    ∃ (w : World (Option Mat) Finder) (ws : ℕ → World (Option Mat) Finder), mkWorld (pdipmEnv 2 (wheelForces 60 0) exactLcp mi (rejectNan (diffCollide 66 (fun _ => []) (bouncePairs fl)))) none fnd
        wheelScene.bodies wheelScene.joints (1 / 30) (1 / 10) (1 / 1000000) false strict = .done w ∧ ws 0 = w ∧
      floorSlip 10 (twist (ws 60).v 0) = 0 ∧ (twist (ws 60).v 0).x = 8 := by
  obtain ⟨w, ws, h1, rfl, h2, hx, hv, hroom, hst⟩ := wheel_runs 60 0 (by norm_num) mi fnd fl strict
  obtain ⟨-, -, q1, q2, -⟩ := C133_rolls wheelScene wheel_valid (wheelForces 60 0) 60 0 10 (by norm_num) (wheel_driven 60 0) mi 66 le_rfl
    (bouncePairs fl) (bouncePairs_one fl) (bouncePairs_valid fl) (1 / 30) (by norm_num) 60 exactLcp exactLcp_exact ws h2 hst hroom
    (by rw [hv]; simp [floorSlip]) (by norm_num [wheelScene, slideScene, RollScene.μ]) 60 le_rfl
  refine ⟨_, ws, h1, rfl, q1, ?_⟩
  rw [q2, hv]
  norm_num [wheelScene, slideScene]

/-- A strong motor, torque 600: the wheel spins, and gets no more than `μ g = 5` from the floor. -/
example (mi : ℕ) (fnd : Finder) (fl strict : Bool) :
    ∃ (w : World (Option Mat) Finder) (ws : ℕ → World (Option Mat) Finder), mkWorld (pdipmEnv 2 (wheelForces 600 0) exactLcp mi (rejectNan (diffCollide 66 (fun _ => []) (bouncePairs fl)))) none fnd
        wheelScene.bodies wheelScene.joints (1 / 30) (1 / 10) (1 / 1000000) false strict = .done w ∧ ws 0 = w ∧
      floorSlip 10 (twist (ws 60).v 0) = -210 ∧ (twist (ws 60).v 0).x = 10 := by
  obtain ⟨w, ws, h1, rfl, h2, hx, hv, hroom, hst⟩ := wheel_runs 600 0 (by norm_num) mi fnd fl strict
  obtain ⟨-, -, q1, q2, -⟩ := C133_spins wheelScene wheel_valid (wheelForces 600 0) 600 0 10 (by norm_num) (wheel_driven 600 0) mi 66 le_rfl
    (bouncePairs fl) (bouncePairs_one fl) (bouncePairs_valid fl) (1 / 30) (by norm_num) 60 exactLcp exactLcp_exact ws h2 hst hroom
    (-1) (Or.inr rfl) (by rw [hv]; simp [floorSlip]) (by norm_num [wheelScene, slideScene, RollScene.μ]) 60 le_rfl
  refine ⟨_, ws, h1, rfl, ?_, ?_⟩
  · rw [hv] at q1
    change -1 * floorSlip 10 (twist (ws 60).v 0) = -1 * floorSlip 10 0 + _ at q1
    norm_num [wheelScene, slideScene, RollScene.μ, floorSlip] at q1 ⊢
    linarith
  · rw [q2, hv]
    norm_num [wheelScene, slideScene, RollScene.μ]

/-- An inclined plane with slope 1 and friction 1/2 (pull 10, weight on the plane 10): the ball rolls down, never slips, and gets
two thirds of the pull. -/
example (mi : ℕ) (fnd : Finder) (fl strict : Bool) :
    ∃ (w : World (Option Mat) Finder) (ws : ℕ → World (Option Mat) Finder), mkWorld (pdipmEnv 2 (wheelForces 0 10) exactLcp mi (rejectNan (diffCollide 66 (fun _ => []) (bouncePairs fl)))) none fnd
        wheelScene.bodies wheelScene.joints (1 / 30) (1 / 10) (1 / 1000000) false strict = .done w ∧ ws 0 = w ∧
      (∀ k ≤ 60, |floorSlip 10 (twist (ws k).v 0)| ≤ 0) ∧ (twist (ws 30).v 0).x = 20 / 3 := by
  obtain ⟨w, ws, h1, rfl, h2, hx, hv, hroom, hst⟩ := wheel_runs 0 10 (by norm_num) mi fnd fl strict
  have hgrip : |(10 : ℝ) - 2 * 0 / (wheelScene.m * wheelScene.r)| ≤ 3 * wheelScene.μ * 10 := by
    norm_num [wheelScene, slideScene, RollScene.μ]
  obtain ⟨-, -, -, q2, -⟩ := C133_rolls wheelScene wheel_valid (wheelForces 0 10) 0 10 10 (by norm_num) (wheel_driven 0 10) mi 66 le_rfl
    (bouncePairs fl) (bouncePairs_one fl) (bouncePairs_valid fl) (1 / 30) (by norm_num) 60 exactLcp exactLcp_exact ws h2 hst hroom
    (by rw [hv]; simp [floorSlip]) hgrip 30 (by norm_num)
  refine ⟨_, ws, h1, rfl, fun k hk => ?_, ?_⟩
  · have := C133_grips wheelScene wheel_valid (wheelForces 0 10) 0 10 10 (by norm_num) (wheel_driven 0 10) mi 66 le_rfl
      (bouncePairs fl) (bouncePairs_one fl) (bouncePairs_valid fl) (1 / 30) (by norm_num) 60 exactLcp exactLcp_exact ws h2 hst hroom hgrip k hk
    rw [hv] at this
    refine this.trans (max_le le_rfl ?_)
    have e : 0 ≤ (k : ℝ) * (1 / 30) * (3 * wheelScene.μ * 10 - |(10 : ℝ) - 2 * 0 / (wheelScene.m * wheelScene.r)|) :=
      mul_nonneg (by positivity) (by linarith)
    have e0 : floorSlip wheelScene.r 0 = 0 := by simp [floorSlip]
    rw [e0, abs_zero]
    linarith
  · rw [q2, hv]
    norm_num [wheelScene, slideScene]

end LcpPhysics
