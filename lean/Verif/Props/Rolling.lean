import Verif.Props.Rub
import Verif.Props.Isolated
import Verif.Props.SearchTotal
import Verif.Props.FrictionSolvable
import Verif.Props.LibraryRun
import Verif.Props.InferenceRun
import Verif.Props.Court
import Verif.Spec.Rolling

/-!
# C98: a ball sliding on a level floor ends up rolling

Along whole runs of `World.step`, with the contact search of the library.
-/

noncomputable section

namespace LcpPhysics
open Spec

variable {S : RollScene}

theorem floor_built (hS : S.Valid) : mkRect (.two (S.cx, S.cy)) (S.W, S.L)
    { vel := .two (0, 0), mass := S.mf, restitution := S.ef, fric_coeff := S.μf, eps := S.epsf } = .ok S.floor := by
  rw [mkRect_eq _ _ _ (mul_pos hS.W hS.L)]; rfl

/-! ## The contact search -/

/-- The floor at its place. -/
theorem floor_at (hS : S.Valid) (ops : List BodyOp) (hp : (S.floor.run ops).p = S.floor.p) :
    (S.floor.run ops).isCircle = false ∧ (S.floor.run ops).pos = (S.cx, S.cy) ∧
    RectForm (S.floor.run ops).verts ∧ (∀ q ∈ (S.floor.run ops).verts, len q ≤ S.W + S.L) ∧
    ∀ x : V2, x ∈ solid (S.floor.run ops).verts ↔ |x.1| ≤ S.W / 2 ∧ |x.2| ≤ S.L / 2 := by
  have hb := floor_built hS
  have hv := C05_rect_rigid _ _ _ _ hb ops
  have hrot : (S.floor.run ops).rot = 0 := by
    unfold Body.rot; rw [hp]; rfl
  have hpos : (S.floor.run ops).pos = (S.cx, S.cy) := by
    unfold Body.pos; rw [hp]; rfl
  have hf := rot_rectForm (dims := (S.W, S.L)) (mul_pos hS.W hS.L) (S.floor.run ops).rot
  rw [← hv] at hf
  refine ⟨?_, hpos, hf, ?_, ?_⟩
  · have := rect_length hf
    unfold Body.verts at this
    unfold Body.isCircle
    cases hs : (S.floor.run ops).shape with
    | circle r => rw [hs] at this; simp at this
    | hull vs => rfl
    | rect d vs => rfl
  · intro q hq
    rw [hv, hrot] at hq
    have hW := hS.W
    have hL := hS.L
    simp only [List.map_cons, List.map_nil, rot_zero, List.mem_cons, List.not_mem_nil, or_false] at hq
    have key : (q.1 = S.W / 2 ∨ q.1 = -(S.W / 2)) ∧ (q.2 = S.L / 2 ∨ q.2 = -(S.L / 2)) := by
      rcases hq with rfl | rfl | rfl | rfl <;> simp
    unfold len
    apply Real.sqrt_le_iff.2
    refine ⟨by positivity, ?_⟩
    rcases key with ⟨h1 | h1, h2 | h2⟩ <;> rw [h1, h2] <;> nlinarith
  · intro x
    rw [hv, hrot]
    change x ∈ solid ((rectCorners (S.W, S.L)).map (rot 0)) ↔ _
    rw [corners_solid (S.W, S.L) hS.W hS.L]
    simp only [rot_zero, exists_eq_right, boxRegion, Set.mem_ofPred_eq]

/-- What the search finds for a ball on the floor, in the order ball, floor. -/
theorem floor_pair (hS : S.Valid) (fuel : ℕ) (hfuel : 66 ≤ fuel) (eps : ℝ) (heps : 0 ≤ eps) (f : Finder)
    (bs : List Body) (hP : Posed S.bodies bs) (h1 : (bodyAt bs 1).p = S.floor.p)
    (hy : (bodyAt bs 0).p.y = S.cy - S.L / 2 - S.r) (hx : |(bodyAt bs 0).p.x - S.cx| ≤ S.W / 2) :
    ∃ f' c, handlePair fuel eps bs f 0 1 = .done (f', [c]) ∧ c.pen = 0 ∧ c.nan = false ∧ c.i1 = 0 ∧ c.i2 = 1 ∧
      c.normal = (0, -1) ∧ c.p1 = (0, S.r) := by
  have hL := hS.L
  have hr := hS.r
  obtain ⟨o0, e0⟩ := hP.2 0 (by simp [RollScene.bodies])
  obtain ⟨o1, e1⟩ := hP.2 1 (by simp [RollScene.bodies])
  have e0' : bodyAt bs 0 = S.ball.run o0 := e0
  have e1' : bodyAt bs 1 = S.floor.run o1 := e1
  have hs0 : (bodyAt bs 0).shape = .circle S.r := by
    rw [e0']; exact run_circle _ rfl o0
  have c0 : (bodyAt bs 0).isCircle = true := by unfold Body.isCircle; rw [hs0]
  have r0 : (bodyAt bs 0).rad = S.r := by unfold Body.rad; rw [hs0]
  obtain ⟨c1, hpos, hform, hlen, hsol⟩ := floor_at hS o1 (by rw [← e1', h1])
  rw [← e1'] at c1 hpos hform hlen hsol
  set c : V2 := (bodyAt bs 0).pos with hc
  have hcx : c = ((bodyAt bs 0).p.x, S.cy - S.L / 2 - S.r) := by
    rw [hc, ← hy]; rfl
  set d : ℝ := (bodyAt bs 0).p.x - S.cx with hd
  have hcp : c - (bodyAt bs 1).pos = (d, -(S.L / 2) - S.r) := by
    rw [hcx, hpos]; ext <;> simp [hd]; ring
  have hout : c - (bodyAt bs 1).pos ∉ solid (bodyAt bs 1).verts := by
    rw [hcp, hsol]
    rintro ⟨-, h2⟩
    have := (abs_le.1 h2).1
    simp only at this
    linarith
  have hne : (bodyAt bs 1).verts ≠ [] := by
    intro h
    have := rect_length hform
    rw [h] at this; simp at this
  have hnear : IsNearest (solid (bodyAt bs 1).verts) (d, -(S.L / 2) - S.r) (d, -(S.L / 2)) := by
    constructor
    · rw [hsol]
      refine ⟨hx, ?_⟩
      simp only [abs_neg]
      rw [abs_of_pos (by linarith)]
    · intro q hq
      rw [hsol] at hq
      have hq2 := (abs_le.1 hq.2).1
      unfold Spec.dist len
      apply Real.sqrt_le_sqrt
      simp only [Prod.fst_sub, Prod.snd_sub]
      nlinarith [mul_self_nonneg (d - q.1)]
  obtain ⟨⟨res, last'⟩, htot⟩ := rect_circleHull_total hform hlen hS.size fuel hfuel eps c (bodyAt bs 1).pos
    (f.rnd 0) (f.sat 1)
  obtain ⟨q, hq, -, -, hnone, hk⟩ := C16_circle_hull_exact fuel eps S.r c (bodyAt bs 1).pos (bodyAt bs 1).verts
    (f.rnd 0) (f.sat 1) last' hne hout res htot
  rw [hcp] at hq hnone hk
  have hqe : q = (d, -(S.L / 2)) := nearest_unique (convex_convexHull ℝ _) hq hnear
  have hdist : Spec.dist (d, -(S.L / 2) - S.r) q = S.r := by
    rw [hqe]
    unfold Spec.dist len
    simp only [Prod.fst_sub, Prod.snd_sub]
    rw [show (d - d) ^ 2 + (-(S.L / 2) - S.r - -(S.L / 2)) ^ 2 = S.r * S.r by ring]
    exact Real.sqrt_mul_self hr.le
  rw [hdist] at hnone hk
  cases hres : res with
  | none => exact absurd (hnone.1 hres) (by simpa using heps)
  | some k =>
    obtain ⟨k1, k2, k3, -, k5, k6⟩ := hk k hres
    rw [hres] at htot
    have hn : k.normal = (0, -1) := by
      have h5 := k5
      rw [hqe] at h5
      have a1 := congrArg Prod.fst h5
      have a2 := congrArg Prod.snd h5
      simp at a1 a2
      ext
      · rcases a1 with a1 | a1
        · exact absurd a1 hr.ne'
        · exact a1
      · simp only
        have : S.r * k.normal.2 = S.r * (-1) := by linarith
        exact mul_left_cancel₀ hr.ne' this
    have hp1 : k.pt1 = (0, S.r) := by
      have : k.pt1 = (bodyAt bs 1).pos + q - c := by rw [← k3]; simp
      rw [this, hqe, hpos, hcx]
      ext <;> simp [hd]
      ring
    refine ⟨({ f with rnd := fun n => f.rnd (n + 1) } : Finder).setSat 1 last',
      { normal := k.normal, p1 := k.pt1, p2 := k.pt2, pen := -k.dist, i1 := 0, i2 := 1, nan := k.nan },
      ?_, ?_, k6, rfl, rfl, hn, hp1⟩
    · unfold handlePair
      simp only [c0, c1, Bool.false_eq_true, and_false, if_false, or_false, if_true, r0]
      rw [← hc, htot]
      simp only [Run.bind, Option.toList, List.map_cons, List.map_nil]
      rfl
    · simp [k1]

/-- What the broad phase presents for two bodies that may touch: the pair once, in either order. -/
def OnePair (pairs : List Body → List (ℕ × ℕ)) : Prop :=
  ∀ bs, bs.length = 2 → pairs bs = [(0, 1)] ∨ pairs bs = [(1, 0)]

/-- The search of the library finds one contact without penetration. -/
theorem floor_search (hS : S.Valid) (fuel : ℕ) (hfuel : 66 ≤ fuel) (pairs : List Body → List (ℕ × ℕ))
    (hpr : OnePair pairs) (eps : ℝ) (heps : 0 ≤ eps) (f : Finder)
    (bs : List Body) (hP : Posed S.bodies bs) (h1 : (bodyAt bs 1).p = S.floor.p)
    (hy : (bodyAt bs 0).p.y = S.cy - S.L / 2 - S.r) (hx : |(bodyAt bs 0).p.x - S.cx| ≤ S.W / 2) :
    ∃ f' c, rejectNan (diffCollide fuel (fun _ => []) pairs) eps f bs = .ok (f', [c]) ∧ TouchesFloor S.r c := by
  obtain ⟨f', c, hp, e1, e2, e3, e4, e5, e6⟩ := floor_pair hS fuel hfuel eps heps f bs hP h1 hy hx
  have hlen : bs.length = 2 := hP.1
  rcases hpr bs hlen with h | h
  · refine ⟨f', c, ?_, e1, e2, Or.inl ⟨e3, e4, e5, e6⟩⟩
    unfold rejectNan diffCollide
    rw [h]
    simp [handleAll, handle, hp, Run.bind, Run.toExcept, e2]
  · obtain ⟨o0, e0⟩ := hP.2 0 (by simp [RollScene.bodies])
    obtain ⟨o1, e1'⟩ := hP.2 1 (by simp [RollScene.bodies])
    have c0 : (bodyAt bs 0).isCircle = true := by
      unfold Body.isCircle
      rw [e0, show (bodyAt S.bodies 0).run o0 = S.ball.run o0 from rfl, run_circle (r := S.r) _ rfl o0]
    have c1 : (bodyAt bs 1).isCircle = false := by
      rw [e1']; exact (floor_at hS o1 (by rw [← h1, e1']; rfl)).1
    have hflip := C16_circle_hull_flip fuel eps bs f f' 0 1 c0 c1 [c] hp
    refine ⟨f', swapContact c, ?_, e1, e2, Or.inr ⟨?_, ?_, ?_, ?_⟩⟩
    · unfold rejectNan diffCollide
      rw [h]
      simp [handleAll, handle, hflip, Run.bind, Run.toExcept, swapContact, e2]
    · simp [swapContact, e4]
    · simp [swapContact, e3]
    · simp [swapContact, e5]
    · simp [swapContact, e6]

/-! ## One step -/

/-- The ball rolls or slides on the floor, the floor rests. -/
structure OnFloor (S : RollScene) (w : World (Option Mat) Finder) : Prop where
  inv : EngineInv w
  posed : Posed S.bodies w.bodies
  wiring : w.joints.map Joint.wiring = S.joints.map Joint.wiring
  fixed : (bodyAt w.bodies 1).p = S.floor.p
  rest : twist w.v 1 = 0
  height : (bodyAt w.bodies 0).p.y = S.cy - S.L / 2 - S.r
  level : (twist w.v 0).y = 0
  contact : ∃ c, w.contacts = [c] ∧ TouchesFloor S.r c
  post : w.post_stab = false
  tol : 0 ≤ w.tol
  eps : 0 ≤ w.eps

theorem OnFloor.len {w : World (Option Mat) Finder} (h : OnFloor S w) : w.bodies.length = 2 := h.posed.1

theorem OnFloor.joint {w : World (Option Mat) Finder} (h : OnFloor S w) :
    ∃ j, w.joints = [j] ∧ j.kind = .total ∧ j.i1 = 1 ∧ j.i2 = none := by
  have hw := h.wiring
  rcases hj : w.joints with _ | ⟨j, _ | ⟨j', js⟩⟩
  · rw [hj] at hw; simp [RollScene.joints] at hw
  · rw [hj] at hw
    simp [RollScene.joints, Joint.wiring, mkTotal] at hw
    exact ⟨j, rfl, hw⟩
  · rw [hj] at hw; simp [RollScene.joints] at hw

theorem run_consts (b : Body) (ops : List BodyOp) : (b.run ops).consts = b.consts := by
  induction ops generalizing b with
  | nil => rfl
  | cons o ops ih =>
    change (Body.run (b.op o) ops).consts = _
    rw [ih]
    cases o with
    | setP q => exact set_p_consts _ _
    | move dt => exact set_p_consts _ _
    | setV v => rfl

/-- The constants of the bodies. -/
theorem OnFloor.consts {w : World (Option Mat) Finder} (h : OnFloor S w) :
    (bodyAt w.bodies 0).consts = S.ball.consts ∧ (bodyAt w.bodies 1).consts = S.floor.consts := by
  obtain ⟨o0, e0⟩ := h.posed.2 0 (by simp [RollScene.bodies])
  obtain ⟨o1, e1⟩ := h.posed.2 1 (by simp [RollScene.bodies])
  rw [e0, e1, run_consts, run_consts]
  exact ⟨rfl, rfl⟩

theorem OnFloor.ball {w : World (Option Mat) Finder} (h : OnFloor S w) :
    (bodyAt w.bodies 0).mass = S.m ∧ (bodyAt w.bodies 0).ang_inertia = S.m * S.r * S.r / 2 := by
  have := h.consts.1
  simp only [Body.consts, Prod.mk.injEq] at this
  exact ⟨this.1, this.2.1⟩

theorem OnFloor.fric {w : World (Option Mat) Finder} (h : OnFloor S w) {c : Contact} (hc : TouchesFloor S.r c) :
    meanFriction w.bodies c = S.μ := by
  obtain ⟨h0, h1⟩ := h.consts
  simp only [Body.consts, Prod.mk.injEq] at h0 h1
  have f0 : (bodyAt w.bodies 0).fric_coeff = S.μb := h0.2.2.2
  have f1 : (bodyAt w.bodies 1).fric_coeff = S.μf := h1.2.2.2
  unfold meanFriction RollScene.μ
  rcases hc.2.2 with ⟨e1, e2, -⟩ | ⟨e1, e2, -⟩ <;> rw [e1, e2, f0, f1]
  ring

theorem floor_presses {w : World (Option Mat) Finder} (h : OnFloor S w) {v' : Vec} (hrest : twist v' 1 = 0) {c : Contact}
    (htf : TouchesFloor S.r c) : PressesOn c w.v v' 0 (0, -1) S.r := by
  rcases htf.2.2 with ⟨e1, e2, e3, e4⟩ | ⟨e1, e2, e3, e4⟩
  · exact Or.inl ⟨e1, by rw [e2]; simp, e3, by rw [e4]; ext <;> simp, by rw [e2]; exact h.rest, by rw [e2]; exact hrest⟩
  · exact Or.inr ⟨e2, by rw [e1]; simp, by rw [e3]; ext <;> simp, by rw [e4]; ext <;> simp,
      by rw [e1]; exact h.rest, by rw [e1]; exact hrest⟩

/-- The outcome of one step of the engine. -/
theorem roll_law (hS : S.Valid) {w : World (Option Mat) Finder} (h : OnFloor S w) {g dt : ℝ} (hg : 0 ≤ g) (hdt : 0 ≤ dt)
    {F : V3} {v' l : Vec} {pn a b gs : ℕ → ℝ}
    (law : ContactLaw w.bodies w.joints w.contacts (impulse [⟨0, 0, S.m * g⟩, F] dt) w.v v' l pn a b gs) :
    let c := clampTo (3 * S.μ * g * dt) (floorSlip S.r (twist w.v 0))
    twist v' 1 = 0 ∧ twist v' 0 = ⟨(twist w.v 0).r + 2 * c / (3 * S.r), (twist w.v 0).x - c / 3, 0⟩ := by
  have hr := hS.r
  have hm := hS.m
  obtain ⟨j, hj, hk, hi1, hi2⟩ := h.joint
  have hrest : twist v' 1 = 0 := by
    rw [← hi1]
    refine total_rest hk fun x hx => law.joints x ?_
    exact List.mem_flatMap.2 ⟨j, by rw [hj]; simp, hx⟩
  obtain ⟨c, hc, htf⟩ := h.contact
  rw [hc] at law
  obtain ⟨bm, bI⟩ := h.ball
  have hI : 0 < S.m * S.r * S.r / 2 := by positivity
  have hpr := floor_presses h hrest htf
  obtain ⟨-, -, hv⟩ := C97_rub w.bodies w.joints [c] _ w.v v' l pn a b gs law 0 (by simp) 0 (by rw [h.len]; omega)
    (0, -1) S.r (by norm_num [Spec.inner]) hpr
    (by
      intro j' hj'
      rw [hj] at hj'
      simp only [List.mem_singleton] at hj'
      subst hj'
      rw [hi1, hi2]
      simp)
    (by
      intro q hq hne
      simp at hq
      exact absurd hq hne)
    (by rw [bm, bI]; exact ⟨hm, hI⟩)
  simp only [List.getElem_cons_zero] at hv
  rw [h.fric htf, bm, bI] at hv
  have hfree : freeTwist w.bodies (impulse [⟨0, 0, S.m * g⟩, F] dt) w.v 0 =
      ⟨(twist w.v 0).r, (twist w.v 0).x, g * dt⟩ := by
    unfold freeTwist impulse
    rw [bm, bI, h.level]
    apply V3.ext
    · simp
    · simp
    · simp; field_simp
  rw [hfree] at hv
  have hl0 : lift (0, -1) (twist w.v 0) = 0 := by simp [lift, Spec.inner, h.level]
  have hP : max 0 (-(S.m * (lift (0, -1) ⟨(twist w.v 0).r, (twist w.v 0).x, g * dt⟩ +
      meanRestitution w.bodies c * lift (0, -1) (twist w.v 0)))) = S.m * g * dt := by
    rw [hl0, mul_zero, add_zero, max_eq_right]
    · simp [lift, Spec.inner]; ring
    · simp [lift, Spec.inner]; positivity
  rw [hP] at hv
  have hslip : -slip (0, -1) S.r ⟨(twist w.v 0).r, (twist w.v 0).x, g * dt⟩ = floorSlip S.r (twist w.v 0) := by
    simp [slip, floorSlip, tangent, Spec.inner]; ring
  rw [hslip] at hv
  have hK : (1 / S.m + S.r ^ 2 / (S.m * S.r * S.r / 2)) = 3 / S.m := by field_simp; norm_num
  rw [hK] at hv
  have hQ : clampTo (S.μ * (S.m * g * dt)) (floorSlip S.r (twist w.v 0) / (3 / S.m)) =
      S.m / 3 * clampTo (3 * S.μ * g * dt) (floorSlip S.r (twist w.v 0)) := by
    have := clamp_scale (K := 3 / S.m) (m := S.μ * (S.m * g * dt)) (x := floorSlip S.r (twist w.v 0)) (by positivity)
    rw [show 3 / S.m * (S.μ * (S.m * g * dt)) = 3 * S.μ * g * dt by field_simp] at this
    rw [← this]
    field_simp
  rw [hQ] at hv
  refine ⟨hrest, ?_⟩
  rw [hv]
  apply V3.ext
  · simp [rubbed]; field_simp
  · simp [rubbed, tangent]; field_simp
    ring
  · simp [rubbed, tangent]; field_simp
    ring

/-- The weight of the ball is the only force on it. -/
def Weighs (S : RollScene) (H : ForceHeap) (g : ℝ) : Prop := ∀ t, ∃ F, forceCat H t 2 = .ok [⟨0, 0, S.m * g⟩, F]

/-- The bodies after a move with the velocities `v`. -/
theorem roll_moved {w : World (Option Mat) Finder} (h : OnFloor S w) (e : Option Mat) {v : Vec} (h1 : twist v 1 = 0)
    (h0 : (twist v 0).y = 0) (d : ℝ) :
    let bs := (({ w with eng := e } : World (Option Mat) Finder).set_v v).bodies.map fun b => b.move d
    Posed S.bodies bs ∧ (bodyAt bs 1).p = S.floor.p ∧ (bodyAt bs 0).p = (bodyAt w.bodies 0).p + d • twist v 0 ∧
      (bodyAt bs 0).p.y = S.cy - S.L / 2 - S.r := by
  intro bs
  have hl : (({ w with eng := e } : World (Option Mat) Finder).set_v v).bodies.length = 2 := by
    rw [set_v_length]; exact h.len
  have b1 : ∀ i < 2, (bodyAt bs i).p = (bodyAt w.bodies i).p + d • twist v i := by
    intro i hi
    rw [bodyAt_map _ _ _ (by omega), move_p,
      set_v_at ({ w with eng := e } : World (Option Mat) Finder) v i (by show i < w.bodies.length; rw [h.len]; omega)]
  refine ⟨(h.posed.trans (posed_set_v ({ w with eng := e } : World (Option Mat) Finder) v)).trans (posed_move _ _),
    ?_, b1 0 (by omega), ?_⟩
  · rw [b1 1 (by omega), h1, h.fixed]
    apply V3.ext <;> simp
  · rw [b1 0 (by omega)]
    simp [h0, h.height]

/-- One returning step of a world in which the ball is on the floor and stays above it. -/
theorem roll_step (hS : S.Valid) {H : ForceHeap} {g : ℝ} (hg : 0 ≤ g) (hH : Weighs S H g) {lcp : LcpSolver}
    (hx : Exact lcp) {mi cfuel : ℕ} (hcf : 66 ≤ cfuel) {pairs : List Body → List (ℕ × ℕ)} (hpr : OnePair pairs)
    (hpv : ∀ bs, ∀ p ∈ pairs bs, p.1 < bs.length ∧ p.2 < bs.length ∧ p.1 ≠ p.2)
    {w w' : World (Option Mat) Finder} (h : OnFloor S w) {dt : ℝ} (hdt : 0 ≤ dt) {fuel : ℕ}
    (hstep : w.step_dt (pdipmEnv 2 H lcp mi (rejectNan (diffCollide cfuel (fun _ => []) pairs))) fuel dt = .done w')
    (hroom : |(bodyAt w.bodies 0).p.x + dt * ((twist w.v 0).x -
      clampTo (3 * S.μ * g * dt) (floorSlip S.r (twist w.v 0)) / 3) - S.cx| ≤ S.W / 2) :
    let c := clampTo (3 * S.μ * g * dt) (floorSlip S.r (twist w.v 0))
    OnFloor S w' ∧ w'.t = w.t + dt ∧
      twist w'.v 0 = ⟨(twist w.v 0).r + 2 * c / (3 * S.r), (twist w.v 0).x - c / 3, 0⟩ ∧
      (bodyAt w'.bodies 0).p = (bodyAt w.bodies 0).p + dt • twist w'.v 0 := by
  have hinv' := step_inv (C12_finder_ok cfuel _ pairs hpv) h.inv hstep
  have hst := step_dt_statics h.inv.good hstep
  have hpar := step_dt_params h.inv.good hstep
  have hpos := h.posed.trans (posed_step h.inv.good hstep)
  obtain ⟨e, v, k, w1, w2, hsol, -, rfl, -, ⟨fk, f', cs, hcs, -, rfl⟩, hrej, hend⟩ := step_dt_done h.inv.good hstep
  obtain ⟨fl, l, pn, a, b, gs, hfl, law⟩ :=
    C38_engine_contact_law H lcp mi w dt e v h.inv.joints h.inv.contacts h.inv.cache.ok hx hsol
  obtain ⟨F, hF⟩ := hH w.t
  rw [h.len, hF] at hfl
  injection hfl with hfl
  subst hfl
  obtain ⟨v1, v0⟩ := roll_law hS h hg hdt law
  have search : ∀ f, ∃ f' c, rejectNan (diffCollide cfuel (fun _ => []) pairs) w.eps f
      ((({ w with eng := e } : World (Option Mat) Finder).set_v v).bodies.map fun b => b.move dt) = .ok (f', [c]) ∧
        TouchesFloor S.r c := by
    intro f
    obtain ⟨m1, m2, m3, m4⟩ := roll_moved h e v1 (by rw [v0]) dt
    refine floor_search hS cfuel hcf pairs hpr w.eps h.eps f _ m1 m2 m4 ?_
    rw [m3]
    simp only [V3.add_x, V3.smul_x]
    rw [v0]
    exact hroom
  have hk : k = 0 := by
    by_contra hk
    obtain ⟨fj, fj', cs', hc', hno⟩ := hrej 0 (by omega)
    rw [pow_zero, div_one] at hc' hno
    obtain ⟨f'', c, hc'', ht⟩ := search fj
    change rejectNan (diffCollide cfuel (fun _ => []) pairs) w.eps fj _ = _ at hc'
    rw [hc''] at hc'
    injection hc' with hc'
    injection hc' with _ hc'
    subst hc'
    refine hno (Or.inl fun c' hc' => ?_)
    simp only [List.mem_singleton] at hc'
    subst hc'
    rw [ht.1]
    exact h.tol
  subst hk
  rw [pow_zero, div_one] at hcs hend
  rcases hend with ⟨-, rfl⟩ | ⟨hp, -⟩
  swap
  · rw [h.post] at hp; cases hp
  obtain ⟨m1, m2, m3, m4⟩ := roll_moved h e v1 (by rw [v0]) dt
  obtain ⟨f'', c, hc'', ht⟩ := search fk
  change rejectNan (diffCollide cfuel (fun _ => []) pairs) w.eps fk _ = _ at hcs
  rw [hc''] at hcs
  injection hcs with hcs
  injection hcs with _ hcs
  subst hcs
  refine ⟨⟨hinv', hpos, hst.2.trans h.wiring, m2, v1, m4, ?_, ⟨c, rfl, ht⟩, h.post, ?_, ?_⟩, rfl, v0, m3⟩
  · show (twist v 0).y = 0
    rw [v0]
  · exact h.tol
  · exact h.eps

/-! ## Many steps -/

theorem clamp_add {a b x : ℝ} (ha : 0 ≤ a) (hb : 0 ≤ b) :
    clampTo (a + b) x = clampTo a x + clampTo b (x - clampTo a x) := by
  unfold clampTo
  rcases le_total a x with h | h
  · rw [min_eq_left h, max_eq_right (by linarith : -a ≤ a), max_eq_right, max_eq_right]
    · rcases le_total (a + b) x with h' | h'
      · rw [min_eq_left h', min_eq_left (by linarith)]
      · rw [min_eq_right h', min_eq_right (by linarith)]; ring
    · exact le_min (by linarith) (by linarith)
    · exact le_min (by linarith) (by linarith)
  · rw [min_eq_right h, min_eq_right (by linarith)]
    rcases le_total (-a) x with h' | h'
    · rw [max_eq_right h', sub_self, min_eq_right hb, max_eq_right (by linarith), max_eq_right (by linarith), add_zero]
    · rw [max_eq_left h', min_eq_right (by linarith)]
      rcases le_total (-(a + b)) x with h'' | h''
      · rw [max_eq_right h'', max_eq_right (by linarith)]; ring
      · rw [max_eq_left h'', max_eq_left (by linarith)]; ring

/-- What is cut off lies between nothing and all. -/
theorem clamp_between {a x : ℝ} (ha : 0 ≤ a) : ∃ t, 0 ≤ t ∧ t ≤ 1 ∧ clampTo a x = t * x := by
  unfold clampTo
  rcases le_total x (-a) with h | h
  · rw [min_eq_right (by linarith), max_eq_left h]
    rcases eq_or_lt_of_le (show x ≤ 0 by linarith) with h0 | h0
    · exact ⟨0, le_rfl, zero_le_one, by rw [h0] at h; linarith⟩
    · refine ⟨-a / x, div_nonneg_of_nonpos (by linarith) h0.le, ?_, by rw [div_mul_cancel₀ _ h0.ne]⟩
      rw [div_le_one_of_neg h0]; exact h
  · rcases le_total x a with h' | h'
    · exact ⟨1, zero_le_one, le_rfl, by rw [min_eq_right h', max_eq_right h, one_mul]⟩
    · rw [min_eq_left h', max_eq_right (by linarith)]
      rcases eq_or_lt_of_le (show 0 ≤ x by linarith) with h0 | h0
      · exact ⟨0, le_rfl, zero_le_one, by rw [← h0] at h'; linarith⟩
      · refine ⟨a / x, by positivity, ?_, by field_simp⟩
        rw [div_le_one h0]; exact h'

theorem clamp_speed {a u s : ℝ} (ha : 0 ≤ a) : |u - clampTo a s / 3| ≤ max |u| |u - s / 3| := by
  obtain ⟨t, t0, t1, ht⟩ := clamp_between (x := s) ha
  rw [ht, show u - t * s / 3 = (1 - t) * u + t * (u - s / 3) by ring]
  calc |(1 - t) * u + t * (u - s / 3)| ≤ |(1 - t) * u| + |t * (u - s / 3)| := abs_add_le _ _
    _ = (1 - t) * |u| + t * |u - s / 3| := by
      rw [abs_mul, abs_mul, abs_of_nonneg (by linarith : 0 ≤ 1 - t), abs_of_nonneg t0]
    _ ≤ (1 - t) * max |u| |u - s / 3| + t * max |u| |u - s / 3| := by
      gcongr
      · exact le_max_left _ _
      · exact le_max_right _ _
    _ = max |u| |u - s / 3| := by ring

/-- The ball never moves faster than this. -/
def topSpeed (r : ℝ) (u : V3) : ℝ := max |u.x| |u.x - floorSlip r u / 3|

/-- A sequence of worlds each of which is the result of a step of length `dt` from the one before. -/
def Steps {σ φ : Type} (env : Env σ φ) (dt : ℝ) (n : ℕ) (ws : ℕ → World σ φ) : Prop :=
  ∀ k < n, ∃ fuel, (ws k).step_dt env fuel dt = .done (ws (k + 1))

theorem roll_steps (hS : S.Valid) {H : ForceHeap} {g : ℝ} (hg : 0 ≤ g) (hH : Weighs S H g) {lcp : LcpSolver}
    (hx : Exact lcp) {mi cfuel : ℕ} (hcf : 66 ≤ cfuel) {pairs : List Body → List (ℕ × ℕ)} (hpr : OnePair pairs)
    (hpv : ∀ bs, ∀ p ∈ pairs bs, p.1 < bs.length ∧ p.2 < bs.length ∧ p.1 ≠ p.2)
    {dt : ℝ} (hdt : 0 ≤ dt) {n : ℕ} {ws : ℕ → World (Option Mat) Finder} (h : OnFloor S (ws 0))
    (hst : Steps (pdipmEnv 2 H lcp mi (rejectNan (diffCollide cfuel (fun _ => []) pairs))) dt n ws)
    (hroom : |(bodyAt (ws 0).bodies 0).p.x - S.cx| + n * (dt * topSpeed S.r (twist (ws 0).v 0)) ≤ S.W / 2) :
    ∀ k ≤ n,
      let c := clampTo (k * (3 * S.μ * g * dt)) (floorSlip S.r (twist (ws 0).v 0))
      OnFloor S (ws k) ∧ (ws k).t = (ws 0).t + k * dt ∧
      twist (ws k).v 0 = ⟨(twist (ws 0).v 0).r + 2 * c / (3 * S.r), (twist (ws 0).v 0).x - c / 3, 0⟩ ∧
      (bodyAt (ws k).bodies 0).p.x =
        (bodyAt (ws 0).bodies 0).p.x + dt * ∑ i ∈ Finset.range k, (twist (ws (i + 1)).v 0).x ∧
      |(bodyAt (ws k).bodies 0).p.x - S.cx| ≤
        |(bodyAt (ws 0).bodies 0).p.x - S.cx| + k * (dt * topSpeed S.r (twist (ws 0).v 0)) := by
  have hr := hS.r
  have hD : 0 ≤ 3 * S.μ * g * dt := by
    have := hS.μ
    positivity
  have hM : 0 ≤ topSpeed S.r (twist (ws 0).v 0) := le_max_of_le_left (abs_nonneg _)
  intro k
  induction k with
  | zero =>
    intro _ c
    have hc : c = 0 := by
      simp only [c, clampTo, Nat.cast_zero, zero_mul, neg_zero]
      rcases le_total 0 (floorSlip S.r (twist (ws 0).v 0)) with h | h
      · rw [min_eq_left h, max_self]
      · rw [min_eq_right h, max_eq_left h]
    refine ⟨h, by simp, ?_, by simp, by simp⟩
    rw [hc]
    apply V3.ext <;> simp [h.level]
  | succ k ih =>
    intro hk
    obtain ⟨i1, i2, i3, i4, i5⟩ := ih (by omega)
    obtain ⟨fuel, hs⟩ := hst k (by omega)
    set s := floorSlip S.r (twist (ws 0).v 0) with hsdef
    set D := 3 * S.μ * g * dt with hDdef
    have hslip : floorSlip S.r (twist (ws k).v 0) = s - clampTo (k * D) s := by
      rw [i3, hsdef]
      unfold floorSlip
      field_simp
      ring
    have hc : clampTo ((k + 1 : ℕ) * D) s = clampTo (k * D) s + clampTo D (s - clampTo (k * D) s) := by
      rw [← clamp_add (by positivity) hD]
      congr 1
      push_cast; ring
    have hsp : (twist (ws k).v 0).x - clampTo D (floorSlip S.r (twist (ws k).v 0)) / 3 =
        (twist (ws 0).v 0).x - clampTo ((k + 1 : ℕ) * D) s / 3 := by
      rw [hslip, hc, i3]
      ring
    have hle : |(twist (ws 0).v 0).x - clampTo ((k + 1 : ℕ) * D) s / 3| ≤ topSpeed S.r (twist (ws 0).v 0) :=
      clamp_speed (by positivity)
    have hbound : |(bodyAt (ws k).bodies 0).p.x + dt * ((twist (ws 0).v 0).x - clampTo ((k + 1 : ℕ) * D) s / 3) - S.cx| ≤
        |(bodyAt (ws 0).bodies 0).p.x - S.cx| + (k + 1 : ℕ) * (dt * topSpeed S.r (twist (ws 0).v 0)) := by
      rw [add_sub_right_comm]
      refine (abs_add_le _ _).trans ?_
      rw [abs_mul, abs_of_nonneg hdt]
      have := mul_le_mul_of_nonneg_left hle hdt
      push_cast at this ⊢
      linarith
    obtain ⟨j1, j2, j3, j4⟩ := roll_step hS hg hH hx hcf hpr hpv i1 hdt hs (by
      rw [hsp]
      refine hbound.trans (le_trans ?_ hroom)
      have : ((k + 1 : ℕ) : ℝ) ≤ n := by exact_mod_cast hk
      have h2 := mul_le_mul_of_nonneg_right this (mul_nonneg hdt hM)
      linarith)
    have hpx : (bodyAt (ws (k + 1)).bodies 0).p.x = (bodyAt (ws k).bodies 0).p.x + dt * (twist (ws (k + 1)).v 0).x := by
      rw [j4]; simp
    have hvx : (twist (ws (k + 1)).v 0).x = (twist (ws 0).v 0).x - clampTo ((k + 1 : ℕ) * D) s / 3 := by
      rw [j3]; exact hsp
    refine ⟨j1, ?_, ?_, ?_, ?_⟩
    · rw [j2, i2]; push_cast; ring
    · rw [j3]
      apply V3.ext
      · show _ + 2 * clampTo D (floorSlip S.r (twist (ws k).v 0)) / (3 * S.r) = _
        rw [hslip, hc, i3]
        show _ + _ + _ = _ + _
        ring
      · exact hsp
      · rfl
    · rw [hpx, i4, Finset.sum_range_succ]; ring
    · rw [hpx, hvx]; exact hbound

/-- Energy of a ball of mass `m` and radius `r`. -/
def ballEnergy (m r : ℝ) (u : V3) : ℝ := m * (u.x ^ 2 + u.y ^ 2) / 2 + m * r ^ 2 / 2 * u.r ^ 2 / 2

/-- C98: a ball on a level floor that is long enough, over any number of steps: it neither leaves the floor nor sinks
into it, its slip speed decreases by `3 μ g dt` per step until it is zero and never reverses, a third of the lost slip is
taken from the speed and two thirds go to the spin, the loss of energy is that of the slip. -/
theorem C98_sliding (S : RollScene) (hS : S.Valid) (H : ForceHeap) (g : ℝ) (hg : 0 ≤ g) (hH : Weighs S H g) (lcp : LcpSolver)
    (hx : Exact lcp) (mi cfuel : ℕ) (hcf : 66 ≤ cfuel) (pairs : List Body → List (ℕ × ℕ)) (hpr : OnePair pairs)
    (hpv : ∀ bs, ∀ p ∈ pairs bs, p.1 < bs.length ∧ p.2 < bs.length ∧ p.1 ≠ p.2)
    (dt : ℝ) (hdt : 0 ≤ dt) (n : ℕ) (ws : ℕ → World (Option Mat) Finder) (h : OnFloor S (ws 0))
    (hst : Steps (pdipmEnv 2 H lcp mi (rejectNan (diffCollide cfuel (fun _ => []) pairs))) dt n ws)
    (hroom : |(bodyAt (ws 0).bodies 0).p.x - S.cx| + n * (dt * topSpeed S.r (twist (ws 0).v 0)) ≤ S.W / 2)
    (k : ℕ) (hk : k ≤ n) :
    let u0 := twist (ws 0).v 0
    let u := twist (ws k).v 0
    let s0 := floorSlip S.r u0
    let s := floorSlip S.r u
    OnFloor S (ws k) ∧ (ws k).t = (ws 0).t + k * dt ∧ |s| = max 0 (|s0| - k * (3 * S.μ * g * dt)) ∧ 0 ≤ s * s0 ∧
      u.x = u0.x - (s0 - s) / 3 ∧ S.r * u.r = S.r * u0.r + 2 * (s0 - s) / 3 ∧ u.y = 0 ∧
      ballEnergy S.m S.r u = ballEnergy S.m S.r u0 - S.m / 6 * (s0 ^ 2 - s ^ 2) ∧
      (bodyAt (ws k).bodies 0).p.x =
        (bodyAt (ws 0).bodies 0).p.x + dt * ∑ i ∈ Finset.range k, (twist (ws (i + 1)).v 0).x := by
  intro u0 u s0 s
  have hr := hS.r
  obtain ⟨i1, i2, i3, i4, -⟩ := roll_steps hS hg hH hx hcf hpr hpv hdt h hst hroom k hk
  have hD : 0 ≤ k * (3 * S.μ * g * dt) := by
    have := hS.μ
    positivity
  have hs : s = s0 - clampTo (k * (3 * S.μ * g * dt)) s0 := by
    simp only [s, u, i3]
    unfold floorSlip
    simp only [s0, u0]
    unfold floorSlip
    field_simp
    ring
  obtain ⟨q1, q2⟩ := clamp_rest (x := s0) hD
  have hux : u.x = u0.x - (s0 - s) / 3 := by rw [hs]; simp only [u, i3]; simp only [s0, u0]; ring
  have hur : S.r * u.r = S.r * u0.r + 2 * (s0 - s) / 3 := by
    rw [hs]; simp only [u, i3]; simp only [s0, u0]; field_simp; ring
  have huy : u.y = 0 := by simp only [u, i3]
  have hu0y : u0.y = 0 := h.level
  refine ⟨i1, i2, by rw [hs]; exact q1, by rw [hs]; exact q2, hux, hur, huy, ?_, i4⟩
  have hs0 : s0 = u0.x - S.r * u0.r := rfl
  have e : ∀ v : V3, ballEnergy S.m S.r v = S.m * (v.x ^ 2 + v.y ^ 2) / 2 + S.m / 4 * (S.r * v.r) ^ 2 := by
    intro v; unfold ballEnergy; ring
  rw [e, e, hux, hur, huy, hu0y, hs0]
  ring

/-- C98: when the slip speed has been used up the ball rolls, with `(2 u + r ω) / 3` for the speed `u` and the spin `ω` at
the beginning, however large the friction, the weight and the steps are: a ball that does not spin at first keeps exactly
two thirds of its speed. -/
theorem C98_rolls (S : RollScene) (hS : S.Valid) (H : ForceHeap) (g : ℝ) (hg : 0 ≤ g) (hH : Weighs S H g) (lcp : LcpSolver)
    (hx : Exact lcp) (mi cfuel : ℕ) (hcf : 66 ≤ cfuel) (pairs : List Body → List (ℕ × ℕ)) (hpr : OnePair pairs)
    (hpv : ∀ bs, ∀ p ∈ pairs bs, p.1 < bs.length ∧ p.2 < bs.length ∧ p.1 ≠ p.2)
    (dt : ℝ) (hdt : 0 ≤ dt) (n : ℕ) (ws : ℕ → World (Option Mat) Finder) (h : OnFloor S (ws 0))
    (hst : Steps (pdipmEnv 2 H lcp mi (rejectNan (diffCollide cfuel (fun _ => []) pairs))) dt n ws)
    (hroom : |(bodyAt (ws 0).bodies 0).p.x - S.cx| + n * (dt * topSpeed S.r (twist (ws 0).v 0)) ≤ S.W / 2)
    (k : ℕ) (hk : k ≤ n) (hlate : |floorSlip S.r (twist (ws 0).v 0)| ≤ k * (3 * S.μ * g * dt)) :
    let u0 := twist (ws 0).v 0
    let u := twist (ws k).v 0
    u.x = S.r * u.r ∧ u.x = (2 * u0.x + S.r * u0.r) / 3 ∧ u.y = 0 ∧ (u0.r = 0 → u.x = 2 / 3 * u0.x) := by
  intro u0 u
  obtain ⟨-, -, hs, -, hux, -, huy, -, -⟩ :=
    C98_sliding S hS H g hg hH lcp hx mi cfuel hcf pairs hpr hpv dt hdt n ws h hst hroom k hk
  rw [max_eq_left (by linarith), abs_eq_zero] at hs
  rw [hs] at hux
  have h0 : floorSlip S.r u0 = u0.x - S.r * u0.r := rfl
  have h1 : u.x - S.r * u.r = 0 := hs
  change u.x = u0.x - (floorSlip S.r u0 - 0) / 3 at hux
  rw [h0] at hux
  refine ⟨by linarith, by rw [hux]; ring, huy, fun hz => ?_⟩
  rw [hux, hz]; ring

/-- C98: without friction nothing changes. -/
theorem C98_frictionless (S : RollScene) (hS : S.Valid) (hmu : S.μ = 0) (H : ForceHeap) (g : ℝ) (hg : 0 ≤ g) (hH : Weighs S H g)
    (lcp : LcpSolver) (hx : Exact lcp) (mi cfuel : ℕ) (hcf : 66 ≤ cfuel) (pairs : List Body → List (ℕ × ℕ)) (hpr : OnePair pairs)
    (hpv : ∀ bs, ∀ p ∈ pairs bs, p.1 < bs.length ∧ p.2 < bs.length ∧ p.1 ≠ p.2)
    (dt : ℝ) (hdt : 0 ≤ dt) (n : ℕ) (ws : ℕ → World (Option Mat) Finder) (h : OnFloor S (ws 0))
    (hst : Steps (pdipmEnv 2 H lcp mi (rejectNan (diffCollide cfuel (fun _ => []) pairs))) dt n ws)
    (hroom : |(bodyAt (ws 0).bodies 0).p.x - S.cx| + n * (dt * topSpeed S.r (twist (ws 0).v 0)) ≤ S.W / 2)
    (k : ℕ) (hk : k ≤ n) : twist (ws k).v 0 = twist (ws 0).v 0 := by
  obtain ⟨-, -, i3, -, -⟩ := roll_steps hS hg hH hx hcf hpr hpv hdt h hst hroom k hk
  have hc : clampTo (k * (3 * S.μ * g * dt)) (floorSlip S.r (twist (ws 0).v 0)) = 0 := by
    rw [hmu]
    simp only [clampTo, mul_zero, zero_mul, neg_zero]
    rcases le_total 0 (floorSlip S.r (twist (ws 0).v 0)) with h | h
    · rw [min_eq_left h, max_self]
    · rw [min_eq_right h, max_eq_left h]
  rw [i3, hc]
  apply V3.ext <;> simp [h.level]

/-! ## The runs exist -/

theorem OnFloor.solid {w : World (Option Mat) Finder} (hS : S.Valid) (h : OnFloor S w) :
    ∀ b ∈ w.bodies, 0 < b.mass ∧ 0 < b.ang_inertia := by
  obtain ⟨h0, h1⟩ := h.consts
  simp only [Body.consts, Prod.mk.injEq] at h0 h1
  have hr := hS.r
  have hm := hS.m
  have hW := hS.W
  have hmf := hS.mf
  intro b hb
  obtain ⟨i, hi, rfl⟩ := List.getElem_of_mem hb
  have hb' : w.bodies[i] = bodyAt w.bodies i := by simp [bodyAt, List.getD_eq_getElem?_getD, hi]
  rw [hb']
  rw [h.len] at hi
  interval_cases i
  · rw [h0.1, h0.2.1]
    refine ⟨hm, ?_⟩
    show 0 < S.m * S.r * S.r / 2
    positivity
  · rw [h1.1, h1.2.1]
    refine ⟨hmf, ?_⟩
    show 0 < S.mf * (S.W ^ 2 + S.L ^ 2) / 12
    positivity

/-- A step returns if the equations are solved exactly. -/
theorem roll_returns (hS : S.Valid) {H : ForceHeap} {g : ℝ} (hg : 0 ≤ g) (hH : Weighs S H g) {mi cfuel : ℕ}
    (hcf : 66 ≤ cfuel) {pairs : List Body → List (ℕ × ℕ)} (hpr : OnePair pairs)
    {w : World (Option Mat) Finder} (h : OnFloor S w) {dt : ℝ} (hdt : 0 ≤ dt) (fuel : ℕ)
    (hroom : |(bodyAt w.bodies 0).p.x + dt * ((twist w.v 0).x -
      clampTo (3 * S.μ * g * dt) (floorSlip S.r (twist w.v 0)) / 3) - S.cx| ≤ S.W / 2) :
    ∃ w', w.step_dt (pdipmEnv 2 H exactLcp mi (rejectNan (diffCollide cfuel (fun _ => []) pairs))) (fuel + 1) dt =
      .done w' := by
  obtain ⟨F, hF⟩ := hH w.t
  obtain ⟨c, hc, htf⟩ := h.contact
  obtain ⟨v0, l0, pn0, a0, b0, g0, law0⟩ := C74_friction_inelastic w h.inv.joints h.inv.contacts (h.solid hS)
    (by
      intro c' hc'
      rw [hc, List.mem_singleton] at hc'
      rw [hc', h.fric htf]
      exact hS.μ)
    (by
      intro c' hc'
      rw [hc, List.mem_singleton] at hc'
      subst hc'
      have hr := h.rest
      have hl := h.level
      have : normalVel c' w.v = 0 := by
        rcases htf.2.2 with ⟨e1, e2, e3, e4⟩ | ⟨e1, e2, e3, e4⟩
        · simp [normalVel, contactVel, e1, e2, e3, e4, hr, pointVel, Spec.inner, hl]
        · simp [normalVel, contactVel, e1, e2, e3, e4, hr, pointVel, Spec.inner, hl]
      rw [this, mul_zero])
    (impulse [⟨0, 0, S.m * g⟩, F] dt)
  obtain ⟨-, ⟨e, v⟩, hr⟩ := C74_exact_engine_returns H mi w dt h.inv.joints
    h.inv.contacts (by rw [hc]; simp) _ (by rw [h.len]; exact hF) _ _ _ _ _ _ law0
  obtain ⟨fl, l, pn, a, b, gs, hfl, law⟩ :=
    C38_engine_contact_law H exactLcp mi w dt e v h.inv.joints h.inv.contacts h.inv.cache.ok exactLcp_exact hr
  rw [h.len, hF] at hfl
  injection hfl with hfl
  subst hfl
  obtain ⟨v1, v0⟩ := roll_law hS h hg hdt law
  obtain ⟨m1, m2, m3, m4⟩ := roll_moved h e v1 (by rw [v0]) dt
  obtain ⟨f', c', hcol, ht⟩ := floor_search hS cfuel hcf pairs hpr w.eps h.eps w.fnd _ m1 m2 m4 (by
    rw [m3]
    simp only [V3.add_x, V3.smul_x]
    rw [v0]
    exact hroom)
  refine ⟨_, step_first _ fuel w h.inv.good dt h.post e v hr f' [c'] hcol ?_⟩
  intro c'' hc''
  rw [List.mem_singleton] at hc''
  rw [hc'', ht.1]
  exact h.tol

/-- C98: such runs exist, of any length for which the floor is long enough, if the contact problems are solved exactly. -/
theorem C98_runs (S : RollScene) (hS : S.Valid) (H : ForceHeap) (g : ℝ) (hg : 0 ≤ g) (hH : Weighs S H g) (mi cfuel : ℕ)
    (hcf : 66 ≤ cfuel) (pairs : List Body → List (ℕ × ℕ)) (hpr : OnePair pairs)
    (hpv : ∀ bs, ∀ p ∈ pairs bs, p.1 < bs.length ∧ p.2 < bs.length ∧ p.1 ≠ p.2)
    (w : World (Option Mat) Finder) (h : OnFloor S w) (dt : ℝ) (hdt : 0 ≤ dt) (n : ℕ)
    (hroom : |(bodyAt w.bodies 0).p.x - S.cx| + n * (dt * topSpeed S.r (twist w.v 0)) ≤ S.W / 2) :
    ∃ ws, ws 0 = w ∧ Steps (pdipmEnv 2 H exactLcp mi (rejectNan (diffCollide cfuel (fun _ => []) pairs))) dt n ws := by
  have hM : 0 ≤ dt * topSpeed S.r (twist w.v 0) := mul_nonneg hdt (le_max_of_le_left (abs_nonneg _))
  induction n with
  | zero => exact ⟨fun _ => w, rfl, fun k hk => by omega⟩
  | succ n ih =>
    obtain ⟨ws, rfl, hst⟩ := ih (by push_cast at hroom; linarith)
    have hroom' : |(bodyAt (ws 0).bodies 0).p.x - S.cx| + n * (dt * topSpeed S.r (twist (ws 0).v 0)) ≤ S.W / 2 := by
      push_cast at hroom; linarith
    obtain ⟨i1, -, i3, -, i5⟩ := roll_steps hS hg hH exactLcp_exact hcf hpr hpv hdt h hst hroom' n le_rfl
    have hD : 0 ≤ 3 * S.μ * g * dt := by
      have := hS.μ
      positivity
    obtain ⟨w', hw'⟩ := roll_returns hS hg hH (mi := mi) hcf hpr i1 hdt 0 (by
      have hslip : floorSlip S.r (twist (ws n).v 0) = floorSlip S.r (twist (ws 0).v 0) -
          clampTo (n * (3 * S.μ * g * dt)) (floorSlip S.r (twist (ws 0).v 0)) := by
        rw [i3]
        have hr := hS.r
        unfold floorSlip
        field_simp
        ring
      have hc := clamp_add (a := n * (3 * S.μ * g * dt)) (x := floorSlip S.r (twist (ws 0).v 0)) (by positivity) hD
      have hx : (twist (ws n).v 0).x - clampTo (3 * S.μ * g * dt) (floorSlip S.r (twist (ws n).v 0)) / 3 =
          (twist (ws 0).v 0).x - clampTo (n * (3 * S.μ * g * dt) + 3 * S.μ * g * dt)
            (floorSlip S.r (twist (ws 0).v 0)) / 3 := by
        rw [hslip, hc, i3]; ring
      rw [hx, add_sub_right_comm]
      refine (abs_add_le _ _).trans ?_
      rw [abs_mul, abs_of_nonneg hdt]
      have := mul_le_mul_of_nonneg_left (clamp_speed (a := n * (3 * S.μ * g * dt) + 3 * S.μ * g * dt)
        (u := (twist (ws 0).v 0).x) (s := floorSlip S.r (twist (ws 0).v 0)) (by positivity)) hdt
      change _ ≤ dt * topSpeed S.r (twist (ws 0).v 0) at this
      push_cast at hroom
      linarith)
    refine ⟨fun k => if k ≤ n then ws k else w', by simp, ?_⟩
    intro k hk
    simp only
    rcases Nat.lt_or_ge k n with hkn | hkn
    · rw [if_pos (by omega), if_pos (by omega)]
      exact hst k hkn
    · rw [if_pos (by omega), if_neg (by omega)]
      have : k = n := by omega
      subst this
      exact ⟨1, hw'⟩

/-- C98: the world as the constructor makes it: the ball touches the floor. -/
theorem C98_initial (S : RollScene) (hS : S.Valid) (hx : |S.x - S.cx| ≤ S.W / 2) (H : ForceHeap) (lcp : LcpSolver)
    (mi cfuel : ℕ) (hcf : 66 ≤ cfuel) (pairs : List Body → List (ℕ × ℕ)) (hpr : OnePair pairs)
    (hpv : ∀ bs, ∀ p ∈ pairs bs, p.1 < bs.length ∧ p.2 < bs.length ∧ p.1 ≠ p.2) (fnd : Finder) (dt eps tol : ℝ)
    (heps : 0 ≤ eps) (htol : 0 ≤ tol) (strict : Bool) :
    ∃ w, mkWorld (pdipmEnv 2 H lcp mi (rejectNan (diffCollide cfuel (fun _ => []) pairs))) none fnd S.bodies S.joints dt eps
      tol false strict = .done w ∧ OnFloor S w ∧ (bodyAt w.bodies 0).p.x = S.x ∧ twist w.v 0 = ⟨S.ω, S.u, 0⟩ := by
  have hbod : (initWorld (none : Option Mat) fnd S.bodies S.joints dt eps tol false strict).bodies = S.bodies := by
    apply List.ext_getElem
    · simp [initWorld, World.set_v]
    · intro i h1 h2
      simp only [initWorld, World.set_v, List.getElem_map, List.getElem_zipIdx]
      rw [Nat.zero_add, cat3_slice _ i (by simpa using h2), List.getElem_map]
  obtain ⟨f', c, hcol, ht⟩ := floor_search hS cfuel hcf pairs hpr eps heps fnd S.bodies
    ⟨rfl, fun i _ => ⟨[], rfl⟩⟩ rfl rfl hx
  have hpen : ∀ c' ∈ [c], c'.pen ≤ tol := by
    intro c' hc'
    rw [List.mem_singleton] at hc'
    rw [hc', ht.1]; exact htol
  have hmk : mkWorld (pdipmEnv 2 H lcp mi (rejectNan (diffCollide cfuel (fun _ => []) pairs))) none fnd S.bodies S.joints dt eps
      tol false strict = .done { initWorld (none : Option Mat) fnd S.bodies S.joints dt eps tol false strict with
        contacts := [c], fnd := f' } := by
    unfold mkWorld
    rw [if_neg (by simp [RollScene.bodies]), if_pos (by
      intro j hj
      simp only [RollScene.joints, List.mem_singleton] at hj
      subst hj
      simp [mkTotal, RollScene.bodies])]
    unfold World.find_contacts
    have : (pdipmEnv 2 H lcp mi (rejectNan (diffCollide cfuel (fun _ => []) pairs))).collide
        (initWorld (none : Option Mat) fnd S.bodies S.joints dt eps tol false strict).eps
        (initWorld (none : Option Mat) fnd S.bodies S.joints dt eps tol false strict).fnd
        (initWorld (none : Option Mat) fnd S.bodies S.joints dt eps tol false strict).bodies = .ok (f', [c]) := by
      rw [hbod]; exact hcol
    rw [this]
    simp only [Run.bind]
    cases strict
    · simp
    · simp only [if_true]
      rw [if_pos]
      exact hpen
  have hgood := C30_mkWorld_good _ _ _ _ _ _ _ _ _ _ _ (by
      intro b hb
      simp only [RollScene.bodies, List.mem_cons, List.not_mem_nil, or_false] at hb
      rcases hb with rfl | rfl
      · exact trivial
      · exact mkRect_rectForm (floor_built hS)) (by
      intro j hj
      simp only [RollScene.joints, List.mem_singleton] at hj
      subst hj
      exact mkTotal_fix _ _ _ rfl) hmk
  refine ⟨_, hmk, ⟨⟨hgood, ?_, ?_, ?_⟩, ?_, rfl, rfl, ?_, rfl, rfl, ⟨c, rfl, ht⟩, rfl, htol, heps⟩, rfl, ?_⟩
  · intro j hj
    simp only [initWorld, World.set_v, RollScene.joints, List.mem_singleton] at hj
    subst hj
    refine ⟨?_, by simp [mkTotal]⟩
    show 1 < (initWorld (none : Option Mat) fnd S.bodies S.joints dt eps tol false strict).bodies.length
    rw [hbod]; simp [RollScene.bodies]
  · intro c' hc'
    show _ < (initWorld (none : Option Mat) fnd S.bodies S.joints dt eps tol false strict).bodies.length ∧
      _ < (initWorld (none : Option Mat) fnd S.bodies S.joints dt eps tol false strict).bodies.length ∧ _
    rw [hbod]
    exact C12_finder_ok cfuel _ pairs hpv _ _ _ _ _ hcol c' hc'
  · intro inv hi; cases hi
  · show Posed S.bodies (initWorld (none : Option Mat) fnd S.bodies S.joints dt eps tol false strict).bodies
    rw [hbod]; exact ⟨rfl, fun i _ => ⟨[], rfl⟩⟩
  · rfl
  · rfl

/-! ## A concrete scene

A ball of radius 10 and mass 1 sliding at speed 30 on a floor of length 1000, friction 1/2, gravity 10, steps of 1/30. -/

def slideScene : RollScene where
  r := 10
  m := 1
  x := 0
  u := 30
  ω := 0
  cx := 0
  cy := 200
  W := 1000
  L := 10
  mf := 1
  eb := 1 / 2
  ef := 1 / 2
  μb := 1 / 4
  μf := 3 / 4
  epsb := 1 / 10
  epsf := 1 / 10

theorem slide_valid : slideScene.Valid := by
  constructor <;> norm_num [slideScene, RollScene.μ]

/-- `Gravity(g=10)` added to the ball. -/
def slideForces : ForceHeap := (⟨fun _ => .gravity 10 none, fun _ => []⟩ : ForceHeap).add_force 0 1 0

theorem slide_cat (t : ℝ) : forceCat slideForces t 2 = .ok [⟨0, 0, 10⟩, 0] := by
  have h0 : slideForces.apply_forces 0 t = some ⟨0, 0, 10⟩ := by
    simp [slideForces, ForceHeap.apply_forces, ForceHeap.add_force, sumForces, Force.force, Force.set_body]
    apply V3.ext <;> simp
  have h1 : slideForces.apply_forces 1 t = some 0 := by
    simp [slideForces, ForceHeap.apply_forces, ForceHeap.add_force]
  simp [forceCat, h0, h1]

theorem slide_weighs : Weighs slideScene slideForces 10 := by
  intro t
  refine ⟨0, ?_⟩
  rw [slide_cat]
  norm_num [slideScene]

theorem bouncePairs_one (fl : Bool) : OnePair (bouncePairs fl) := by
  intro bs hb
  unfold bouncePairs
  rw [if_pos hb]
  cases fl <;> simp

/-- After 60 steps of sliding it rolls, at speed 20. -/
example (mi : ℕ) (fnd : Finder) (fl strict : Bool) :
    ∃ w ws, mkWorld (pdipmEnv 2 slideForces exactLcp mi (rejectNan (diffCollide 66 (fun _ => []) (bouncePairs fl)))) none fnd
        slideScene.bodies slideScene.joints (1 / 30) (1 / 10) (1 / 1000000) false strict = .done w ∧ ws 0 = w ∧
      Steps (pdipmEnv 2 slideForces exactLcp mi (rejectNan (diffCollide 66 (fun _ => []) (bouncePairs fl)))) (1 / 30) 100 ws ∧
      (∀ k ≤ 100, OnFloor slideScene (ws k)) ∧
      (twist (ws 30).v 0).x = 25 ∧ (twist (ws 60).v 0) = ⟨2, 20, 0⟩ ∧ (twist (ws 100).v 0) = ⟨2, 20, 0⟩ := by
  obtain ⟨w, hw, hon, hx, hv⟩ := C98_initial slideScene slide_valid (by norm_num [slideScene]) slideForces exactLcp mi 66 le_rfl
    (bouncePairs fl) (bouncePairs_one fl) (bouncePairs_valid fl) fnd (1 / 30) (1 / 10) (1 / 1000000) (by norm_num)
    (by norm_num) strict
  have hroom : |(bodyAt w.bodies 0).p.x - slideScene.cx| + (100 : ℕ) *
      ((1 / 30) * topSpeed slideScene.r (twist w.v 0)) ≤ slideScene.W / 2 := by
    have : topSpeed slideScene.r (twist w.v 0) = 30 := by
      rw [hv]
      norm_num [topSpeed, floorSlip, slideScene, abs_of_pos]
    rw [hx, this]
    norm_num [slideScene]
  obtain ⟨ws, h0, hst⟩ := C98_runs slideScene slide_valid slideForces 10 (by norm_num) slide_weighs mi 66 le_rfl (bouncePairs fl)
    (bouncePairs_one fl) (bouncePairs_valid fl) w hon (1 / 30) (by norm_num) 100 hroom
  subst h0
  refine ⟨ws 0, ws, hw, rfl, hst, ?_, ?_, ?_, ?_⟩
  · intro k hk
    exact (C98_sliding slideScene slide_valid slideForces 10 (by norm_num) slide_weighs exactLcp exactLcp_exact mi 66 le_rfl
      (bouncePairs fl) (bouncePairs_one fl) (bouncePairs_valid fl) (1 / 30) (by norm_num) 100 ws hon hst hroom k hk).1
  · have h := (roll_steps slide_valid (by norm_num : (0 : ℝ) ≤ 10) slide_weighs exactLcp_exact le_rfl (bouncePairs_one fl)
      (bouncePairs_valid fl) (by norm_num : (0 : ℝ) ≤ 1 / 30) hon hst hroom 30 (by omega)).2.2.1
    rw [h, hv]
    norm_num [slideScene, floorSlip, RollScene.μ, clampTo]
  · obtain ⟨e1, e2, e3, -⟩ := C98_rolls slideScene slide_valid slideForces 10 (by norm_num) slide_weighs exactLcp exactLcp_exact mi 66
      le_rfl (bouncePairs fl) (bouncePairs_one fl) (bouncePairs_valid fl) (1 / 30) (by norm_num) 100 ws hon hst hroom 60 (by omega)
      (by rw [hv]; norm_num [slideScene, floorSlip, RollScene.μ, abs_of_pos])
    rw [hv] at e2
    norm_num [slideScene] at e1 e2
    rw [e2] at e1
    apply V3.ext
    · show _ = (2 : ℝ)
      linarith
    · exact e2
    · exact e3
  · obtain ⟨e1, e2, e3, -⟩ := C98_rolls slideScene slide_valid slideForces 10 (by norm_num) slide_weighs exactLcp exactLcp_exact mi 66
      le_rfl (bouncePairs fl) (bouncePairs_one fl) (bouncePairs_valid fl) (1 / 30) (by norm_num) 100 ws hon hst hroom 100 (by omega)
      (by rw [hv]; norm_num [slideScene, floorSlip, RollScene.μ, abs_of_pos])
    rw [hv] at e2
    norm_num [slideScene] at e1 e2
    rw [e2] at e1
    apply V3.ext
    · show _ = (2 : ℝ)
      linarith
    · exact e2
    · exact e3

/-- The hypotheses of `C98_frictionless` are met by the same scene with smooth bodies. -/
example (mi : ℕ) (fnd : Finder) (fl strict : Bool) :
    let S : RollScene := { slideScene with μb := 0, μf := 0 }
    S.Valid ∧ S.μ = 0 ∧ Weighs S slideForces 10 ∧
    ∃ ws, OnFloor S (ws 0) ∧ (twist (ws 0).v 0).x = 30 ∧ Steps (pdipmEnv 2 slideForces exactLcp mi
      (rejectNan (diffCollide 66 (fun _ => []) (bouncePairs fl)))) (1 / 30) 100 ws ∧
      |(bodyAt (ws 0).bodies 0).p.x - S.cx| + (100 : ℕ) * ((1 / 30) * topSpeed S.r (twist (ws 0).v 0)) ≤ S.W / 2 ∧
      (twist (ws 100).v 0).x = 30 := by
  intro S
  have hval : S.Valid := by
    constructor <;> norm_num [S, slideScene, RollScene.μ]
  have hmu : S.μ = 0 := by norm_num [S, RollScene.μ]
  have hwe : Weighs S slideForces 10 := slide_weighs
  obtain ⟨w, hw, hon, hx, hv⟩ := C98_initial S hval (by norm_num [S, slideScene]) slideForces exactLcp mi 66 le_rfl
    (bouncePairs fl) (bouncePairs_one fl) (bouncePairs_valid fl) fnd (1 / 30) (1 / 10) (1 / 1000000) (by norm_num)
    (by norm_num) strict
  have hv' : twist w.v 0 = ⟨0, 30, 0⟩ := hv
  have hroom : |(bodyAt w.bodies 0).p.x - S.cx| + (100 : ℕ) * ((1 / 30) * topSpeed S.r (twist w.v 0)) ≤ S.W / 2 := by
    have : topSpeed S.r (twist w.v 0) = 30 := by
      rw [hv']
      norm_num [topSpeed, floorSlip, abs_of_pos]
    rw [hx, this]
    norm_num [S, slideScene]
  obtain ⟨ws, h0, hst⟩ := C98_runs S hval slideForces 10 (by norm_num) hwe mi 66 le_rfl (bouncePairs fl)
    (bouncePairs_one fl) (bouncePairs_valid fl) w hon (1 / 30) (by norm_num) 100 hroom
  subst h0
  refine ⟨hval, hmu, hwe, ws, hon, by rw [hv'], hst, hroom, ?_⟩
  rw [C98_frictionless S hval hmu slideForces 10 (by norm_num) hwe exactLcp exactLcp_exact mi 66
      le_rfl (bouncePairs fl) (bouncePairs_one fl) (bouncePairs_valid fl) (1 / 30) (by norm_num) 100 ws hon hst hroom 100 le_rfl, hv']

/-- The hypotheses of `C97_rub` and `C97_slip` are met in this scene, and the first step brakes the ball to `30 - 1/6`. -/
example (fnd : Finder) (fl strict : Bool) :
    ∃ (w : World (Option Mat) Finder) (v' l : Vec) (pn a b g : ℕ → ℝ) (hk : 0 < w.contacts.length),
      ContactLaw w.bodies w.joints w.contacts (impulse [⟨0, 0, 10⟩, 0] (1 / 30)) w.v v' l pn a b g ∧
      PressesOn w.contacts[0] w.v v' 0 (0, -1) 10 ∧ (∀ j ∈ w.joints, j.i1 ≠ 0 ∧ 0 ∉ j.i2) ∧
      (∀ (q : ℕ) (hq : q < w.contacts.length), q ≠ 0 → w.contacts[q].i1 ≠ 0 ∧ w.contacts[q].i2 ≠ 0) ∧
      (0 < (bodyAt w.bodies 0).mass ∧ 0 < (bodyAt w.bodies 0).ang_inertia) ∧ meanFriction w.bodies w.contacts[0] = 1 / 2 ∧
      twist w.v 0 = ⟨0, 30, 0⟩ ∧ (twist v' 0).x = 30 - 1 / 6 := by
  obtain ⟨w, hw, hon, hx, hv⟩ := C98_initial slideScene slide_valid (by norm_num [slideScene]) slideForces exactLcp 0 66 le_rfl
    (bouncePairs fl) (bouncePairs_one fl) (bouncePairs_valid fl) fnd (1 / 30) (1 / 10) (1 / 1000000) (by norm_num)
    (by norm_num) strict
  have hv' : twist w.v 0 = ⟨0, 30, 0⟩ := hv
  have hst : |(bodyAt w.bodies 0).p.x + 1 / 30 * ((twist w.v 0).x -
      clampTo (3 * slideScene.μ * 10 * (1 / 30)) (floorSlip slideScene.r (twist w.v 0)) / 3) - slideScene.cx| ≤
      slideScene.W / 2 := by
    rw [hx, hv']
    norm_num [slideScene, RollScene.μ, clampTo, floorSlip, abs_of_pos]
  obtain ⟨w', hw'⟩ := roll_returns slide_valid (by norm_num : (0 : ℝ) ≤ 10) slide_weighs (mi := 0) le_rfl (bouncePairs_one fl) hon
    (by norm_num : (0 : ℝ) ≤ 1 / 30) 0 hst
  obtain ⟨fl', l, pn, a, b, g, hfl, law⟩ := step_law exactLcp_exact hon.inv hw'
  rw [hon.len, slide_cat] at hfl
  injection hfl with hfl
  subst hfl
  obtain ⟨c, hc, htf⟩ := hon.contact
  have law' : ContactLaw w.bodies w.joints w.contacts (impulse [⟨0, 0, slideScene.m * 10⟩, 0] (1 / 30)) w.v w'.v l pn a b g := by
    rw [show slideScene.m * 10 = 10 by norm_num [slideScene]]; exact law
  obtain ⟨r1, r0⟩ := roll_law slide_valid hon (by norm_num : (0 : ℝ) ≤ 10) (by norm_num : (0 : ℝ) ≤ 1 / 30) law'
  obtain ⟨j, hj, hjk, hi1, hi2⟩ := hon.joint
  have hc0 : ∀ hk : 0 < w.contacts.length, w.contacts[0] = c := by
    intro hk; simp only [hc, List.getElem_cons_zero]
  have hk : 0 < w.contacts.length := by rw [hc]; simp
  refine ⟨w, w'.v, l, pn, a, b, g, hk, law, ?_, ?_, ?_, ?_, ?_, hv', ?_⟩
  · rw [hc0 hk]; exact floor_presses hon r1 htf
  · intro j' hj'
    rw [hj, List.mem_singleton] at hj'
    rw [hj', hi1, hi2]
    simp
  · intro q hq hne
    rw [hc] at hq
    simp at hq
    exact absurd hq hne
  · rw [hon.ball.1, hon.ball.2]; norm_num [slideScene]
  · rw [hc0 hk, hon.fric htf]; norm_num [slideScene, RollScene.μ]
  · rw [r0, hv']
    norm_num [slideScene, RollScene.μ, clampTo, floorSlip]

end LcpPhysics
