import Verif.Props.Rolling
import Verif.Props.Phantom
import Verif.Lemmas.Bounce

/-!
# C103: a ball bouncing off the floor — the place it reaches is right, its derivative is not

Along whole runs of `World.step_dt` with the contact search of the library.
-/

noncomputable section

namespace LcpPhysics
open Spec Filter Topology

variable {S : RollScene} {g0 u0 : ℝ}

/-! ## The contact search -/

/-- What the search finds for a ball at the height `g`, in the order ball, floor. -/
theorem drop_pair (hS : S.Valid) (hSx : |S.x - S.cx| ≤ S.W / 2) (fuel : ℕ) (hfuel : 66 ≤ fuel) (eps g : ℝ) (f : Finder)
    (bs : List Body) (hP : Posed (S.dropped g0 u0) bs) (h1 : (bodyAt bs 1).p = S.floor.p)
    (hx : (bodyAt bs 0).p.x = S.x) (hy : (bodyAt bs 0).p.y = S.cy - S.L / 2 - S.r - g) (hg : -S.r < g) :
    (eps < g → ∃ f', handlePair fuel eps bs f 0 1 = .done (f', [])) ∧
    (g ≤ eps → ∃ f' c, handlePair fuel eps bs f 0 1 = .done (f', [c]) ∧ c.pen = -g ∧ c.nan = false ∧ c.i1 = 0 ∧
      c.i2 = 1 ∧ c.normal = (0, -1) ∧ c.p1 = (0, S.r + g)) := by
  have hL := hS.L
  have hr := hS.r
  have hrg : 0 < S.r + g := by linarith
  obtain ⟨o0, e0⟩ := hP.2 0 (by simp [RollScene.dropped])
  obtain ⟨o1, e1⟩ := hP.2 1 (by simp [RollScene.dropped])
  have e1' : bodyAt bs 1 = S.floor.run o1 := e1
  have hs0 : (bodyAt bs 0).shape = .circle S.r := by
    rw [e0]; exact run_circle _ rfl o0
  have c0 : (bodyAt bs 0).isCircle = true := by unfold Body.isCircle; rw [hs0]
  have r0 : (bodyAt bs 0).rad = S.r := by unfold Body.rad; rw [hs0]
  obtain ⟨c1, hpos, hform, hlen, hsol⟩ := floor_at hS o1 (by rw [← e1', h1])
  rw [← e1'] at c1 hpos hform hlen hsol
  set c : V2 := (bodyAt bs 0).pos with hc
  have hcx : c = (S.x, S.cy - S.L / 2 - S.r - g) := by
    rw [hc, ← hy, ← hx]; rfl
  set d : ℝ := S.x - S.cx with hd
  have hcp : c - (bodyAt bs 1).pos = (d, -(S.L / 2) - (S.r + g)) := by
    rw [hcx, hpos]; ext <;> simp [hd]; ring
  have hout : c - (bodyAt bs 1).pos ∉ solid (bodyAt bs 1).verts := by
    rw [hcp, hsol]
    rintro ⟨-, h2⟩
    have := (abs_le.1 h2).1
    simp only at this
    linarith
  have hne : (bodyAt bs 1).verts ≠ [] := by
    intro h
    have := rect_length hform
    rw [h] at this; simp at this
  have hnear : IsNearest (solid (bodyAt bs 1).verts) (d, -(S.L / 2) - (S.r + g)) (d, -(S.L / 2)) := by
    constructor
    · rw [hsol]
      refine ⟨hSx, ?_⟩
      simp only [abs_neg]
      rw [abs_of_pos (by linarith)]
    · intro q hq
      rw [hsol] at hq
      have hq2 := (abs_le.1 hq.2).1
      unfold Spec.dist len
      apply Real.sqrt_le_sqrt
      simp only [Prod.fst_sub, Prod.snd_sub]
      nlinarith [mul_self_nonneg (d - q.1)]
  obtain ⟨⟨res, last'⟩, htot⟩ := rect_circleHull_total hform hlen hS.size fuel hfuel eps c (bodyAt bs 1).pos
    (f.rnd 0) (f.sat 1)
  obtain ⟨q, hq, -, -, hnone, hk⟩ := C16_circle_hull_exact fuel eps S.r c (bodyAt bs 1).pos (bodyAt bs 1).verts
    (f.rnd 0) (f.sat 1) last' hne hout res htot
  rw [hcp] at hq hnone hk
  have hqe : q = (d, -(S.L / 2)) := nearest_unique (convex_convexHull ℝ _) hq hnear
  have hdist : Spec.dist (d, -(S.L / 2) - (S.r + g)) q = S.r + g := by
    rw [hqe]
    unfold Spec.dist len
    simp only [Prod.fst_sub, Prod.snd_sub]
    rw [show (d - d) ^ 2 + (-(S.L / 2) - (S.r + g) - -(S.L / 2)) ^ 2 = (S.r + g) * (S.r + g) by ring]
    exact Real.sqrt_mul_self hrg.le
  rw [hdist] at hnone hk
  have hsub : S.r + g - S.r = g := by ring
  rw [hsub] at hnone hk
  cases hres : res with
  | none =>
    refine ⟨fun _ => ?_, fun h => absurd (hnone.1 hres) (not_lt.2 h)⟩
    rw [hres] at htot
    refine ⟨({ f with rnd := fun n => f.rnd (n + 1) } : Finder).setSat 1 last', ?_⟩
    unfold handlePair
    simp only [c0, c1, Bool.false_eq_true, and_false, if_false, or_false, if_true, r0]
    rw [← hc, htot]
    simp only [Run.bind, Option.toList, List.map_nil]
  | some k =>
    refine ⟨fun h => absurd (hnone.2 h) (by rw [hres]; simp), fun _ => ?_⟩
    obtain ⟨k1, k2, k3, -, k5, k6⟩ := hk k hres
    rw [hres] at htot
    have hn : k.normal = (0, -1) := by
      have h5 := k5
      rw [hqe] at h5
      have a1 := congrArg Prod.fst h5
      have a2 := congrArg Prod.snd h5
      simp at a1 a2
      ext
      · rcases a1 with a1 | a1
        · exact absurd a1 hrg.ne'
        · exact a1
      · simp only
        have : (S.r + g) * k.normal.2 = (S.r + g) * (-1) := by linarith
        exact mul_left_cancel₀ hrg.ne' this
    have hp1 : k.pt1 = (0, S.r + g) := by
      have : k.pt1 = (bodyAt bs 1).pos + q - c := by rw [← k3]; simp
      rw [this, hqe, hpos, hcx]
      ext <;> simp [hd]
      ring
    refine ⟨({ f with rnd := fun n => f.rnd (n + 1) } : Finder).setSat 1 last',
      { normal := k.normal, p1 := k.pt1, p2 := k.pt2, pen := -k.dist, i1 := 0, i2 := 1, nan := k.nan },
      ?_, ?_, k6, rfl, rfl, hn, hp1⟩
    · unfold handlePair
      simp only [c0, c1, Bool.false_eq_true, and_false, if_false, or_false, if_true, r0]
      rw [← hc, htot]
      simp only [Run.bind, Option.toList, List.map_cons, List.map_nil]
      rfl
    · simp [k1]

/-- The contacts of a ball at the height `g`. -/
def AtHeight (r eps g : ℝ) (cs : List Contact) : Prop :=
  (eps < g ∧ cs = []) ∨ (g ≤ eps ∧ ∃ c, cs = [c] ∧ MeetsFloor r g c)

/-- What the search of the library finds. -/
theorem drop_search (hS : S.Valid) (hSx : |S.x - S.cx| ≤ S.W / 2) (fuel : ℕ) (hfuel : 66 ≤ fuel)
    (pairs : List Body → List (ℕ × ℕ)) (eps : ℝ) (hpr : SeesFloor S eps pairs) (g : ℝ) (f : Finder)
    (bs : List Body) (hP : Posed (S.dropped g0 u0) bs) (h1 : (bodyAt bs 1).p = S.floor.p)
    (hx : (bodyAt bs 0).p.x = S.x) (hy : (bodyAt bs 0).p.y = S.cy - S.L / 2 - S.r - g) (hg : -S.r < g) :
    ∃ f' cs, rejectNan (diffCollide fuel (fun _ => []) pairs) eps f bs = .ok (f', cs) ∧ AtHeight S.r eps g cs := by
  have hlen : bs.length = 2 := hP.1
  have hgap : S.gap bs = g := by unfold RollScene.gap; rw [hy]; ring
  obtain ⟨far, near⟩ := drop_pair hS hSx fuel hfuel eps g f bs hP h1 hx hy hg
  obtain ⟨o0, e0⟩ := hP.2 0 (by simp [RollScene.dropped])
  obtain ⟨o1, e1'⟩ := hP.2 1 (by simp [RollScene.dropped])
  have c0 : (bodyAt bs 0).isCircle = true := by
    unfold Body.isCircle
    rw [e0, run_circle (r := S.r) _ rfl o0]
  have c1 : (bodyAt bs 1).isCircle = false := by
    rw [e1']; exact (floor_at hS o1 (by rw [← h1, e1']; rfl)).1
  rcases lt_or_ge eps g with h | h
  · obtain ⟨f', hp⟩ := far h
    rcases hpr bs hlen with q | q | ⟨q, -⟩
    · refine ⟨f', [], ?_, Or.inl ⟨h, rfl⟩⟩
      unfold rejectNan diffCollide
      rw [q]
      simp [handleAll, handle, hp, Run.bind, Run.toExcept]
    · have hflip := C16_circle_hull_flip fuel eps bs f f' 0 1 c0 c1 [] hp
      refine ⟨f', [], ?_, Or.inl ⟨h, rfl⟩⟩
      unfold rejectNan diffCollide
      rw [q]
      simp [handleAll, handle, hflip, Run.bind, Run.toExcept]
    · refine ⟨f, [], ?_, Or.inl ⟨h, rfl⟩⟩
      unfold rejectNan diffCollide
      rw [q]
      simp [handleAll, Run.toExcept]
  · obtain ⟨f', c, hp, k1, k2, k3, k4, k5, k6⟩ := near h
    rcases hpr bs hlen with q | q | ⟨q, q'⟩
    · refine ⟨f', [c], ?_, Or.inr ⟨h, c, rfl, k1, k2, Or.inl ⟨k3, k4, k5, k6⟩⟩⟩
      unfold rejectNan diffCollide
      rw [q]
      simp [handleAll, handle, hp, Run.bind, Run.toExcept, k2]
    · have hflip := C16_circle_hull_flip fuel eps bs f f' 0 1 c0 c1 [c] hp
      refine ⟨f', [swapContact c], ?_, Or.inr ⟨h, _, rfl, k1, k2, Or.inr ⟨?_, ?_, ?_, ?_⟩⟩⟩
      · unfold rejectNan diffCollide
        rw [q]
        simp [handleAll, handle, hflip, Run.bind, Run.toExcept, swapContact, k2]
      · simp [swapContact, k4]
      · simp [swapContact, k3]
      · simp [swapContact, k5]
      · simp [swapContact, k6]
    · rw [hgap] at q'
      exact absurd q' (not_lt.2 h)

/-! ## One step -/

/-- The ball is at the height `g` and moves down with the velocity `u`; the floor rests. -/
structure Bouncing (S : RollScene) (g0 u0 : ℝ) (w : World (Option Mat) Finder) (g u : ℝ) : Prop where
  inv : EngineInv w
  posed : Posed (S.dropped g0 u0) w.bodies
  wiring : w.joints.map Joint.wiring = (S.held g0 u0).map Joint.wiring
  fixed : (bodyAt w.bodies 1).p = S.floor.p
  rest : twist w.v 1 = 0
  place : (bodyAt w.bodies 0).p.x = S.x ∧ (bodyAt w.bodies 0).p.y = S.cy - S.L / 2 - S.r - g
  speed : twist w.v 0 = ⟨0, 0, u⟩
  contact : AtHeight S.r w.eps g w.contacts
  post : w.post_stab = false
  strict : w.strict_no_pen = true

theorem Bouncing.len {w : World (Option Mat) Finder} {g u : ℝ} (h : Bouncing S g0 u0 w g u) : w.bodies.length = 2 := h.posed.1

theorem Bouncing.joint {w : World (Option Mat) Finder} {g u : ℝ} (h : Bouncing S g0 u0 w g u) :
    ∃ j, w.joints = [j] ∧ j.kind = .total ∧ j.i1 = 1 ∧ j.i2 = none := by
  have hw := h.wiring
  rcases hj : w.joints with _ | ⟨j, _ | ⟨j', js⟩⟩
  · rw [hj] at hw; simp [RollScene.held] at hw
  · rw [hj] at hw
    simp [RollScene.held, Joint.wiring, mkTotal] at hw
    exact ⟨j, rfl, hw⟩
  · rw [hj] at hw; simp [RollScene.held] at hw

theorem Bouncing.consts {w : World (Option Mat) Finder} {g u : ℝ} (h : Bouncing S g0 u0 w g u) :
    (bodyAt w.bodies 0).consts = (bodyAt (S.dropped g0 u0) 0).consts ∧ (bodyAt w.bodies 1).consts = S.floor.consts := by
  obtain ⟨o0, e0⟩ := h.posed.2 0 (by simp [RollScene.dropped])
  obtain ⟨o1, e1⟩ := h.posed.2 1 (by simp [RollScene.dropped])
  rw [e0, e1, run_consts, run_consts]
  exact ⟨rfl, rfl⟩

theorem Bouncing.ball {w : World (Option Mat) Finder} {g u : ℝ} (h : Bouncing S g0 u0 w g u) :
    (bodyAt w.bodies 0).mass = S.m ∧ (bodyAt w.bodies 0).ang_inertia = S.m * S.r * S.r / 2 := by
  have := h.consts.1
  simp only [Body.consts, Prod.mk.injEq] at this
  exact ⟨this.1, this.2.1⟩

theorem Bouncing.coeff {w : World (Option Mat) Finder} {g u : ℝ} (h : Bouncing S g0 u0 w g u) {c : Contact} {g' : ℝ}
    (hc : MeetsFloor S.r g' c) : meanFriction w.bodies c = S.μ ∧ meanRestitution w.bodies c = S.e := by
  obtain ⟨h0, h1⟩ := h.consts
  simp only [Body.consts, Prod.mk.injEq] at h0 h1
  have f0 : (bodyAt w.bodies 0).fric_coeff = S.μb := h0.2.2.2
  have f1 : (bodyAt w.bodies 1).fric_coeff = S.μf := h1.2.2.2
  have r0 : (bodyAt w.bodies 0).restitution = S.eb := h0.2.2.1
  have r1 : (bodyAt w.bodies 1).restitution = S.ef := h1.2.2.1
  unfold meanFriction meanRestitution RollScene.μ RollScene.e
  rcases hc.2.2 with ⟨e1, e2, -⟩ | ⟨e1, e2, -⟩ <;> rw [e1, e2, f0, f1, r0, r1]
  · exact ⟨rfl, rfl⟩
  · exact ⟨by ring, by ring⟩

theorem drop_presses {w : World (Option Mat) Finder} {g u : ℝ} (h : Bouncing S g0 u0 w g u) {v' : Vec} (hrest : twist v' 1 = 0)
    {c : Contact} (htf : MeetsFloor S.r g c) : PressesOn c w.v v' 0 (0, -1) (S.r + g) := by
  rcases htf.2.2 with ⟨e1, e2, e3, e4⟩ | ⟨e1, e2, e3, e4⟩
  · exact Or.inl ⟨e1, by rw [e2]; simp, e3, by rw [e4]; ext <;> simp, by rw [e2]; exact h.rest, by rw [e2]; exact hrest⟩
  · exact Or.inr ⟨e2, by rw [e1]; simp, by rw [e3]; ext <;> simp, by rw [e4]; ext <;> simp,
      by rw [e1]; exact h.rest, by rw [e1]; exact hrest⟩

/-- A body that no joint holds and nothing touches moves as the forces say. -/
theorem free_body {bs : List Body} {js : List Joint} {f : ℕ → V3} {v v' l : Vec} {pn a b g : ℕ → ℝ}
    (h : ContactLaw bs js [] f v v' l pn a b g) (i : ℕ) (hi : i < bs.length) (hj : ∀ j ∈ js, j.i1 ≠ i ∧ i ∉ j.i2)
    (hm : 0 < (bodyAt bs i).mass ∧ 0 < (bodyAt bs i).ang_inertia) : twist v' i = freeTwist bs f v i := by
  obtain ⟨hm, hI⟩ := hm
  have key : ∀ u : Vec, (bodyAt bs i).ang_inertia * v' (3 * i) * u (3 * i) +
      (bodyAt bs i).mass * (v' (3 * i + 1) * u (3 * i + 1) + v' (3 * i + 2) * u (3 * i + 2)) =
    (bodyAt bs i).ang_inertia * v (3 * i) * u (3 * i) +
      (bodyAt bs i).mass * (v (3 * i + 1) * u (3 * i + 1) + v (3 * i + 2) * u (3 * i + 2)) +
      ((f i).r * u (3 * i) + (f i).x * u (3 * i + 1) + (f i).y * u (3 * i + 2)) := by
    intro u
    have hd := h.dynamics (onlyOn (· = i) u)
    have hj0 : jointPower js l (onlyOn (· = i) u) = 0 := by
      apply jointPower_zero
      intro x hx
      obtain ⟨j, hjm, hx⟩ := List.mem_flatMap.1 hx
      refine jointVel_out (S := (· = i)) ?_ u x hx
      simp only [holds, decide_eq_true_eq, not_or, not_exists, not_and]
      exact ⟨(hj j hjm).1, fun k hk hki => (hj j hjm).2 (hki ▸ hk)⟩
    have hs : (Finset.range bs.length).filter (· = i) = {i} := by
      ext k
      simp only [Finset.mem_filter, Finset.mem_range, Finset.mem_singleton]
      constructor
      · exact fun h => h.2
      · rintro rfl; exact ⟨hi, rfl⟩
    have hc0 : ∀ pt, contactPower [] pn pt (onlyOn (· = i) u) = 0 := fun pt => by simp [contactPower]
    rw [hj0, hc0, momentumPower_onlyOn, momentumPower_onlyOn, forcePower_onlyOn, hs] at hd
    simp only [Finset.sum_singleton, twist, add_zero] at hd
    exact hd
  have k1 := key fun k => if k = 3 * i then 1 else 0
  have k2 := key fun k => if k = 3 * i + 1 then 1 else 0
  have k3 := key fun k => if k = 3 * i + 2 then 1 else 0
  have q1 : 3 * i + 1 ≠ 3 * i := by omega
  have q2 : 3 * i + 2 ≠ 3 * i := by omega
  have q3 : 3 * i ≠ 3 * i + 1 := by omega
  have q4 : 3 * i + 2 ≠ 3 * i + 1 := by omega
  have q5 : 3 * i ≠ 3 * i + 2 := by omega
  have q6 : 3 * i + 1 ≠ 3 * i + 2 := by omega
  simp only [if_true, if_neg q1, if_neg q2, if_neg q3, if_neg q4, if_neg q5, if_neg q6] at k1 k2 k3
  simp only [twist, freeTwist]
  refine V3.ext ?_ ?_ ?_ <;> simp only <;> field_simp <;> linarith

open Classical in
/-- The downward velocity after the engine, with the gain `a` of the weight: reversed at a contact. -/
def turned (e eps a g u : ℝ) : ℝ := if g ≤ eps then min (u + a) (-(e * u)) else u + a

/-- The outcome of one step of the engine. -/
theorem drop_law (hS : S.Valid) {w : World (Option Mat) Finder} {g u : ℝ} (h : Bouncing S g0 u0 w g u)
    {dt γ : ℝ} {F : V3} {v' l : Vec} {pn a b gs : ℕ → ℝ}
    (law : ContactLaw w.bodies w.joints w.contacts (impulse [⟨0, 0, S.m * γ⟩, F] dt) w.v v' l pn a b gs) :
    twist v' 1 = 0 ∧ twist v' 0 = ⟨0, 0, turned S.e w.eps (dt * γ) g u⟩ := by
  have hr := hS.r
  have hm := hS.m
  obtain ⟨j, hj, hk, hi1, hi2⟩ := h.joint
  have hrest : twist v' 1 = 0 := by
    rw [← hi1]
    refine total_rest hk fun x hx => law.joints x ?_
    exact List.mem_flatMap.2 ⟨j, by rw [hj]; simp, hx⟩
  refine ⟨hrest, ?_⟩
  obtain ⟨bm, bI⟩ := h.ball
  have hI : 0 < S.m * S.r * S.r / 2 := by positivity
  have hfree : freeTwist w.bodies (impulse [⟨0, 0, S.m * γ⟩, F] dt) w.v 0 = ⟨0, 0, u + dt * γ⟩ := by
    unfold freeTwist impulse
    rw [h.speed, bm]
    apply V3.ext <;> simp
    field_simp
  have hjf : ∀ j' ∈ w.joints, j'.i1 ≠ 0 ∧ 0 ∉ j'.i2 := by
    intro j' hj'
    rw [hj] at hj'
    simp only [List.mem_singleton] at hj'
    subst hj'
    rw [hi1, hi2]
    simp
  rcases h.contact with ⟨hg, hcs⟩ | ⟨hg, c, hcs, htf⟩
  · rw [hcs] at law
    have := free_body law 0 (by rw [h.len]; omega) hjf (by rw [bm, bI]; exact ⟨hm, hI⟩)
    rw [this, hfree]
    unfold turned
    rw [if_neg (by linarith)]
  · rw [hcs] at law
    have hpr := drop_presses h hrest htf
    obtain ⟨-, -, hv⟩ := C97_rub w.bodies w.joints [c] _ w.v v' l pn a b gs law 0 (by simp) 0 (by rw [h.len]; omega)
      (0, -1) (S.r + g) (by norm_num [Spec.inner]) hpr hjf
      (by
        intro q hq hne
        simp at hq
        exact absurd hq hne)
      (by rw [bm, bI]; exact ⟨hm, hI⟩)
    simp only [List.getElem_cons_zero] at hv
    obtain ⟨c1, c2⟩ := h.coeff htf
    rw [c1, c2, bm, bI, hfree, h.speed] at hv
    have hl : ∀ x, lift (0, -1) ⟨0, 0, x⟩ = -x := fun x => by simp [lift, Spec.inner]
    have hs : ∀ x, slip (0, -1) (S.r + g) ⟨0, 0, x⟩ = 0 := fun x => by simp [slip, tangent, Spec.inner]
    rw [hl, hl, hs] at hv
    have hQ : ∀ x, 0 ≤ x → clampTo x (-(0 : ℝ) / (1 / S.m + (S.r + g) ^ 2 / (S.m * S.r * S.r / 2))) = 0 := by
      intro x hx
      rw [neg_zero, zero_div]
      unfold clampTo
      rw [min_eq_right hx, max_eq_right (by linarith)]
    rw [hQ _ (mul_nonneg hS.μ (le_max_left _ _))] at hv
    rw [hv]
    unfold turned
    rw [if_pos hg]
    rcases le_total (u + dt * γ) (-(S.e * u)) with hu | hu
    · rw [min_eq_left hu, max_eq_left (by
        have := mul_nonneg hm.le (sub_nonneg.2 hu)
        nlinarith)]
      apply V3.ext <;> simp [rubbed, tangent]
    · rw [min_eq_right hu, max_eq_right (by
        have := mul_nonneg hm.le (sub_nonneg.2 hu)
        nlinarith)]
      apply V3.ext
      · simp [rubbed, tangent]
      · simp [rubbed, tangent]
      · simp [rubbed, tangent]; field_simp; ring

/-- The bodies after a move with the velocities `v`. -/
theorem drop_moved {w : World (Option Mat) Finder} {g u : ℝ} (h : Bouncing S g0 u0 w g u) (e : Option Mat) {v : Vec} {u' : ℝ}
    (h1 : twist v 1 = 0) (h0 : twist v 0 = ⟨0, 0, u'⟩) (d : ℝ) :
    let bs := (({ w with eng := e } : World (Option Mat) Finder).set_v v).bodies.map fun b => b.move d
    Posed (S.dropped g0 u0) bs ∧ (bodyAt bs 1).p = S.floor.p ∧ (bodyAt bs 0).p.x = S.x ∧
      (bodyAt bs 0).p.y = S.cy - S.L / 2 - S.r - (g - u' * d) := by
  intro bs
  have hl : (({ w with eng := e } : World (Option Mat) Finder).set_v v).bodies.length = 2 := by
    rw [set_v_length]; exact h.len
  have b1 : ∀ i < 2, (bodyAt bs i).p = (bodyAt w.bodies i).p + d • twist v i := by
    intro i hi
    rw [bodyAt_map _ _ _ (by omega), move_p,
      set_v_at ({ w with eng := e } : World (Option Mat) Finder) v i (by show i < w.bodies.length; rw [h.len]; omega)]
  refine ⟨(h.posed.trans (posed_set_v ({ w with eng := e } : World (Option Mat) Finder) v)).trans (posed_move _ _),
    ?_, ?_, ?_⟩
  · rw [b1 1 (by omega), h1, h.fixed]
    apply V3.ext <;> simp
  · rw [b1 0 (by omega), h0]
    simp [h.place.1]
  · rw [b1 0 (by omega), h0]
    simp [h.place.2]
    ring

/-- A trial is accepted if it does not end below the tolerance. -/
theorem accepts_height {w : World (Option Mat) Finder} (hst : w.strict_no_pen = true) {r g d : ℝ} {cs : List Contact}
    (heps : 0 ≤ w.eps) (htol : 0 ≤ w.tol) (h : AtHeight r w.eps g cs) : w.accepts d cs ↔ -w.tol ≤ g := by
  unfold World.accepts
  rw [hst]
  simp only [Bool.true_eq_false, false_and, or_false]
  rcases h with ⟨h1, rfl⟩ | ⟨-, c, rfl, h1, -⟩
  · simp only [List.not_mem_nil, false_imp_iff, implies_true, true_iff]
    linarith
  · simp only [List.mem_singleton, forall_eq]
    rw [h1]
    constructor <;> intro h <;> linarith

theorem drop_step (hS : S.Valid) (hSx : |S.x - S.cx| ≤ S.W / 2) (he : 0 ≤ S.e) {H : ForceHeap} {γ : ℝ} (hH : Weighs S H γ)
    {lcp : LcpSolver} (hx : Exact lcp) {mi cfuel : ℕ} (hcf : 66 ≤ cfuel) {pairs : List Body → List (ℕ × ℕ)}
    {w w' : World (Option Mat) Finder} {g u : ℝ} (hpr : SeesFloor S w.eps pairs)
    (hpv : ∀ bs, ∀ p ∈ pairs bs, p.1 < bs.length ∧ p.2 < bs.length ∧ p.1 ≠ p.2)
    (h : Bouncing S g0 u0 w g u) (heps : 0 ≤ w.eps) (htol : 0 ≤ w.tol) {dt : ℝ} (hdt : 0 < dt) {fuel : ℕ}
    (hstep : w.step_dt (pdipmEnv 2 H lcp mi (rejectNan (diffCollide cfuel (fun _ => []) pairs))) fuel dt = .done w')
    (hin : -S.r < g) (hroom : turned S.e w.eps (dt * γ) g u * dt < g + S.r) :
    ∃ d, Hop dt w.tol g (turned S.e w.eps (dt * γ) g u) d ∧ w'.t = w.t + d ∧ w'.eps = w.eps ∧ w'.tol = w.tol ∧
      Bouncing S g0 u0 w' (g - turned S.e w.eps (dt * γ) g u * d) (turned S.e w.eps (dt * γ) g u) := by
  have hinv' := step_inv (C12_finder_ok cfuel _ pairs hpv) h.inv hstep
  have hst := step_dt_statics h.inv.good hstep
  have hpos := h.posed.trans (posed_step h.inv.good hstep)
  obtain ⟨e, v, k, w1, w2, hsol, -, rfl, -, ⟨fk, f', cs, hcs, hacc, rfl⟩, hrej, hend⟩ := step_dt_done h.inv.good hstep
  obtain ⟨fl, l, pn, a, b, gs, hfl, law⟩ :=
    C38_engine_contact_law H lcp mi w dt e v h.inv.joints h.inv.contacts h.inv.cache.ok hx hsol
  obtain ⟨F, hF⟩ := hH w.t
  rw [h.len, hF] at hfl
  injection hfl with hfl
  subst hfl
  obtain ⟨v1, v0⟩ := drop_law hS h law
  set u' := turned S.e w.eps (dt * γ) g u with hu'
  have search : ∀ (j : ℕ) f f' cs, rejectNan (diffCollide cfuel (fun _ => []) pairs) w.eps f
      ((({ w with eng := e } : World (Option Mat) Finder).set_v v).bodies.map fun b => b.move (dt / 2 ^ j)) = .ok (f', cs) →
        AtHeight S.r w.eps (g - u' * (dt / 2 ^ j)) cs := by
    intro j f f' cs hc
    obtain ⟨m1, m2, m3, m4⟩ := drop_moved h e v1 v0 (dt / 2 ^ j)
    have hd : 0 < dt / 2 ^ j ∧ dt / 2 ^ j ≤ dt := ⟨by positivity, div_le_self hdt.le (one_le_pow₀ (by norm_num))⟩
    obtain ⟨f'', cs', hc', ha⟩ := drop_search hS hSx cfuel hcf pairs w.eps hpr _ f _ m1 m2 m3 m4 (by
      rcases le_or_gt u' 0 with h0 | h0
      · nlinarith [mul_nonneg (neg_nonneg.2 h0) hd.1.le]
      · nlinarith [mul_le_mul_of_nonneg_left hd.2 h0.le])
    rw [hc'] at hc
    injection hc with hc
    injection hc with _ hc
    rw [← hc]; exact ha
  have hw1 : (({ w with eng := e } : World (Option Mat) Finder).set_v v).strict_no_pen = true := h.strict
  have hA := search k fk f' cs hcs
  rcases hend with ⟨-, rfl⟩ | ⟨hp, -⟩
  swap
  · rw [h.post] at hp; cases hp
  refine ⟨dt / 2 ^ k, ⟨k, rfl, ?_, fun i hi => ?_⟩, rfl, rfl, rfl, ?_⟩
  · have := (accepts_height (w := ({ w with eng := e } : World (Option Mat) Finder).set_v v) hw1 heps htol hA).1 hacc
    change -w.tol ≤ _ at this
    linarith
  · obtain ⟨fj, fj', cs', hc', hno⟩ := hrej i hi
    have := mt (accepts_height (w := ({ w with eng := e } : World (Option Mat) Finder).set_v v) (d := dt / 2 ^ i) hw1 heps htol
      (search i fj fj' cs' hc')).2 hno
    change ¬ -w.tol ≤ _ at this
    push Not at this
    linarith
  · obtain ⟨m1, m2, m3, m4⟩ := drop_moved h e v1 v0 (dt / 2 ^ k)
    exact ⟨hinv', hpos, hst.2.trans h.wiring, m2, v1, ⟨m3, m4⟩, v0, hA, h.post, h.strict⟩

/-! ## Many steps -/

theorem turned_fall {e eps a g u : ℝ} (h : eps < g) : turned e eps (a * 0) g u = u := by
  unfold turned; rw [if_neg (by linarith)]; ring

theorem turned_turn {e eps a g u : ℝ} (he : 0 ≤ e) (h : g ≤ eps) (hu : 0 < u) : turned e eps (a * 0) g u = -(e * u) := by
  unfold turned
  rw [if_pos h, min_eq_right (by nlinarith [mul_nonneg he hu.le])]

theorem turned_leave {e eps a g u : ℝ} (he : 0 ≤ e) (hu : u ≤ 0) : turned e eps (a * 0) g u = u := by
  unfold turned
  split_ifs
  · rw [min_eq_left (by nlinarith [mul_nonneg he (neg_nonneg.2 hu)])]; ring
  · ring

/-- The state after `k` steps. -/
theorem drop_run (hS : S.Valid) (hSx : |S.x - S.cx| ≤ S.W / 2) (he : 0 ≤ S.e) {H : ForceHeap} (hH : Weighs S H 0)
    {lcp : LcpSolver} (hx : Exact lcp) {mi cfuel : ℕ} (hcf : 66 ≤ cfuel) {pairs : List Body → List (ℕ × ℕ)}
    {ws : ℕ → World (Option Mat) Finder} {g u : ℝ} (hpr : SeesFloor S (ws 0).eps pairs)
    (hpv : ∀ bs, ∀ p ∈ pairs bs, p.1 < bs.length ∧ p.2 < bs.length ∧ p.1 ≠ p.2)
    (h : Bouncing S g0 u0 (ws 0) g u) (heps : 0 ≤ (ws 0).eps) (htol : 0 ≤ (ws 0).tol) {dt : ℝ} (hdt : 0 < dt)
    (hg : 0 ≤ g) (hu : 0 < u) (hudt : u * dt < S.r) {n : ℕ}
    (hst : Steps (pdipmEnv 2 H lcp mi (rejectNan (diffCollide cfuel (fun _ => []) pairs))) dt n ws) :
    ∀ k ≤ n, ∃ T o, Track dt (ws 0).eps (ws 0).tol g u k T o ∧ (ws k).t = (ws 0).t + T ∧ (ws k).eps = (ws 0).eps ∧
      (ws k).tol = (ws 0).tol ∧ Bouncing S g0 u0 (ws k) (heightAt S.e g u T o) (speedAt S.e u o) := by
  intro k
  induction k with
  | zero =>
    intro _
    refine ⟨0, none, .start, by simp, rfl, rfl, ?_⟩
    simpa [heightAt, speedAt] using h
  | succ k ih =>
    intro hk
    obtain ⟨T, o, tr, i2, i3, i4, i5⟩ := ih (by omega)
    obtain ⟨fuel, hs⟩ := hst k (by omega)
    obtain ⟨b1, b2, b3⟩ := track_bounds hdt hu hg htol heps tr
    have heu : 0 ≤ S.e * u := mul_nonneg he hu.le
    cases o with
    | none =>
      obtain ⟨b4, b5⟩ := b2 rfl
      simp only [heightAt, speedAt] at i5
      rcases le_or_gt (g - u * T) (ws 0).eps with hc | hc
      · have ht : turned S.e (ws k).eps (dt * 0) (g - u * T) u = -(S.e * u) := turned_turn he (by rw [i3]; exact hc) hu
        obtain ⟨d, hd, j1, j2, j3, j4⟩ := drop_step hS hSx he hH hx hcf (by rw [i3]; exact hpr) hpv i5 (by rw [i3]; exact heps)
          (by rw [i4]; exact htol) hdt hs (by linarith) (by rw [ht]; nlinarith)
        rw [ht] at hd j4
        have := hop_unique hd (hop_first (by rw [i4]; nlinarith))
        subst this
        refine ⟨_, _, .turn tr hc, by rw [j1, i2]; ring, by rw [j2, i3], by rw [j3, i4], ?_⟩
        simp only [heightAt, speedAt]
        rw [show g - u * T + S.e * u * (T + d - T) = g - u * T - -(S.e * u) * d by ring]
        exact j4
      · have ht : turned S.e (ws k).eps (dt * 0) (g - u * T) u = u := turned_fall (by rw [i3]; exact hc)
        obtain ⟨d, hd, j1, j2, j3, j4⟩ := drop_step hS hSx he hH hx hcf (by rw [i3]; exact hpr) hpv i5 (by rw [i3]; exact heps)
          (by rw [i4]; exact htol) hdt hs (by linarith [hS.r]) (by rw [ht]; linarith)
        rw [ht] at hd j4
        rw [i4] at hd
        refine ⟨_, _, .fall tr hc hd, by rw [j1, i2]; ring, by rw [j2, i3], by rw [j3, i4], ?_⟩
        simp only [heightAt, speedAt]
        rw [show g - u * (T + d) = g - u * T - u * d by ring]
        exact j4
    | some τ =>
      obtain ⟨b4, b5, b6, b7, b8⟩ := b3 τ rfl
      simp only [heightAt, speedAt] at i5
      have ht : turned S.e (ws k).eps (dt * 0) (g - u * τ + S.e * u * (T - τ)) (-(S.e * u)) = -(S.e * u) := turned_leave he (by linarith)
      have hup : 0 ≤ S.e * u * (T - τ) := mul_nonneg heu (by linarith)
      obtain ⟨d, hd, j1, j2, j3, j4⟩ := drop_step hS hSx he hH hx hcf (by rw [i3]; exact hpr) hpv i5 (by rw [i3]; exact heps)
        (by rw [i4]; exact htol) hdt hs (by linarith) (by rw [ht]; nlinarith)
      rw [ht] at hd j4
      have := hop_unique hd (hop_first (by rw [i4]; nlinarith))
      subst this
      refine ⟨_, _, .leave tr, by rw [j1, i2]; ring, by rw [j2, i3], by rw [j3, i4], ?_⟩
      simp only [heightAt, speedAt]
      rw [show g - u * τ + S.e * u * (T + d - τ) = g - u * τ + S.e * u * (T - τ) - -(S.e * u) * d by ring]
      exact j4

/-! ## Such runs exist -/

theorem Bouncing.solid {w : World (Option Mat) Finder} {g u : ℝ} (hS : S.Valid) (h : Bouncing S g0 u0 w g u) :
    ∀ b ∈ w.bodies, 0 < b.mass ∧ 0 < b.ang_inertia := by
  obtain ⟨h0, h1⟩ := h.consts
  simp only [Body.consts, Prod.mk.injEq] at h0 h1
  have hr := hS.r
  have hm := hS.m
  have hW := hS.W
  have hmf := hS.mf
  intro b hb
  obtain ⟨i, hi, rfl⟩ := List.getElem_of_mem hb
  have hb' : w.bodies[i] = bodyAt w.bodies i := by simp [bodyAt, List.getD_eq_getElem?_getD, hi]
  rw [hb']
  rw [h.len] at hi
  interval_cases i
  · rw [h.ball.1, h.ball.2]
    exact ⟨hm, by positivity⟩
  · rw [h1.1, h1.2.1]
    refine ⟨hmf, ?_⟩
    show 0 < S.mf * (S.W ^ 2 + S.L ^ 2) / 12
    positivity

/-- The engine returns if the equations are solved exactly. -/
theorem drop_engine (hS : S.Valid) {H : ForceHeap} {γ : ℝ} (hH : Weighs S H γ) (mi : ℕ) {w : World (Option Mat) Finder} {g u : ℝ}
    (h : Bouncing S g0 u0 w g u) (dt : ℝ) : ∃ r, pdipmSolve 2 H exactLcp mi w dt = .ok r := by
  obtain ⟨F, hF⟩ := hH w.t
  obtain ⟨j, hj, hk, hi1, hi2⟩ := h.joint
  rcases h.contact with ⟨-, hcs⟩ | ⟨-, c, hcs, htf⟩
  · refine C35_no_contact_succeeds 2 H exactLcp mi w dt h.inv.joints (h.solid hS) (C71_tree_independent w h.inv.joints ?_) hcs _
      (by rw [h.len]; exact hF)
    intro k hk'
    rw [hj] at hk'
    have : k = 0 := by simpa using hk'
    subst this
    exact ⟨_, Or.inl rfl, fun _ _ k' hk' => by omega⟩
  · obtain ⟨v0, l0, pn0, a0, b0, g0, law0⟩ := C74_friction_separable w h.inv.joints h.inv.contacts (h.solid hS)
      (by
        intro c' hc'
        rw [hcs, List.mem_singleton] at hc'
        rw [hc', (h.coeff htf).1]
        exact hS.μ)
      (by
        refine ⟨fun k => if k = 2 then -1 else 0, ?_, ?_⟩
        · intro r hr
          rw [hj] at hr
          obtain ⟨j', hj', hr2⟩ := List.mem_flatMap.1 hr
          rw [List.mem_singleton] at hj'
          subst hj'
          refine jointVel_out (j := j') (S := (· = 0)) ?_ (fun k => if k = 2 then -1 else 0) r ?_
          · simp [holds, hi1, hi2]
          · rw [show (onlyOn (· = 0) fun k : ℕ => if k = 2 then (-1 : ℝ) else 0) = fun k => if k = 2 then -1 else 0 from ?_]
            · exact hr2
            · funext k
              unfold onlyOn
              by_cases h2 : k = 2
              · subst h2; simp
              · simp [h2]
        · intro c' hc'
          rw [hcs, List.mem_singleton] at hc'
          subst hc'
          have t0 : twist (fun k => if k = 2 then (-1 : ℝ) else 0) 0 = ⟨0, 0, -1⟩ := by simp [twist]
          have t1 : twist (fun k => if k = 2 then (-1 : ℝ) else 0) 1 = 0 := by
            simp [twist]; rfl
          rcases htf.2.2 with ⟨e1, e2, e3, e4⟩ | ⟨e1, e2, e3, e4⟩
          · simp [normalVel, slipVel, contactVel, e1, e2, e3, e4, t0, t1, pointVel, Spec.inner, tangent]
          · simp [normalVel, slipVel, contactVel, e1, e2, e3, e4, t0, t1, pointVel, Spec.inner, tangent])
      (impulse [⟨0, 0, S.m * γ⟩, F] dt)
    exact (C74_exact_engine_returns H mi w dt h.inv.joints h.inv.contacts (by rw [hcs]; simp) _ (by rw [h.len]; exact hF)
      _ _ _ _ _ _ law0).2

theorem drop_returns (hS : S.Valid) (hSx : |S.x - S.cx| ≤ S.W / 2) (he : 0 ≤ S.e) {H : ForceHeap} {γ : ℝ} (hH : Weighs S H γ)
    (mi : ℕ) {cfuel : ℕ} (hcf : 66 ≤ cfuel) {pairs : List Body → List (ℕ × ℕ)}
    {w : World (Option Mat) Finder} {g u : ℝ} (hpr : SeesFloor S w.eps pairs)
    (h : Bouncing S g0 u0 w g u) (heps : 0 ≤ w.eps) (htol : 0 ≤ w.tol) {dt : ℝ} (hdt : 0 < dt)
    (hin : -S.r < g) (hroom : turned S.e w.eps (dt * γ) g u * dt < g + S.r) {d : ℝ}
    (hhop : Hop dt w.tol g (turned S.e w.eps (dt * γ) g u) d) :
    ∃ fuel w', w.step_dt (pdipmEnv 2 H exactLcp mi (rejectNan (diffCollide cfuel (fun _ => []) pairs))) fuel dt = .done w' := by
  obtain ⟨⟨e, v⟩, hr⟩ := drop_engine hS hH mi h dt
  obtain ⟨fl, l, pn, a, b, gs, hfl, law⟩ :=
    C38_engine_contact_law H exactLcp mi w dt e v h.inv.joints h.inv.contacts h.inv.cache.ok exactLcp_exact hr
  obtain ⟨F, hF⟩ := hH w.t
  rw [h.len, hF] at hfl
  injection hfl with hfl
  subst hfl
  obtain ⟨v1, v0⟩ := drop_law hS h law
  obtain ⟨n, rfl, hok, -⟩ := hhop
  set u' := turned S.e w.eps (dt * γ) g u with hu'
  have search : ∀ (j : ℕ) f, ∃ f' cs, rejectNan (diffCollide cfuel (fun _ => []) pairs) w.eps f
      ((({ w with eng := e } : World (Option Mat) Finder).set_v v).bodies.map fun b => b.move (dt / 2 ^ j)) = .ok (f', cs) ∧
        AtHeight S.r w.eps (g - u' * (dt / 2 ^ j)) cs := by
    intro j f
    obtain ⟨m1, m2, m3, m4⟩ := drop_moved h e v1 v0 (dt / 2 ^ j)
    have hd : 0 < dt / 2 ^ j ∧ dt / 2 ^ j ≤ dt := ⟨by positivity, div_le_self hdt.le (one_le_pow₀ (by norm_num))⟩
    exact drop_search hS hSx cfuel hcf pairs w.eps hpr _ f _ m1 m2 m3 m4 (by
      rcases le_or_gt u' 0 with h0 | h0
      · nlinarith [mul_nonneg (neg_nonneg.2 h0) hd.1.le]
      · nlinarith [mul_le_mul_of_nonneg_left hd.2 h0.le])
  obtain ⟨r, hr'⟩ := specLoop_ends (env := pdipmEnv 2 H exactLcp mi (rejectNan (diffCollide cfuel (fun _ => []) pairs)))
    (w := ({ w with eng := e } : World (Option Mat) Finder).set_v v) n w.fnd dt 0
    (fun f j _ => by obtain ⟨f', cs, hc, -⟩ := search j f; exact ⟨_, hc⟩)
    (fun f r hc => by
      obtain ⟨f', cs, hc', ha⟩ := search n f
      change rejectNan (diffCollide cfuel (fun _ => []) pairs) w.eps f _ = _ at hc
      rw [hc'] at hc
      injection hc with hc
      rw [← hc]
      refine (accepts_height (w := ({ w with eng := e } : World (Option Mat) Finder).set_v v) h.strict heps htol ha).2 ?_
      change -w.tol ≤ _
      linarith)
  have hps : r.1.post_stab = false := by
    obtain ⟨q, -, -, ⟨fk, f', cs, -, -, hq⟩, -⟩ := specLoop_done (w' := r.1) (d' := r.2) hr'
    rw [hq]; exact h.post
  refine ⟨n + 1, { r.1 with t := r.1.t + r.2 }, ?_⟩
  rw [step_dt_eq _ _ w h.inv.good dt]
  have hs : (pdipmEnv 2 H exactLcp mi (rejectNan (diffCollide cfuel (fun _ => []) pairs))).solve_dynamics w dt = .ok (e, v) := hr
  rw [hs]
  simp only [Run.ofExcept, Run.bind_done]
  rw [hr']
  simp only [Run.bind_done, hps, Bool.false_eq_true, if_false]

/-- The world as the constructor makes it. -/
theorem drop_initial (S : RollScene) (hS : S.Valid) (hx : |S.x - S.cx| ≤ S.W / 2) (H : ForceHeap) (lcp : LcpSolver)
    (mi cfuel : ℕ) (hcf : 66 ≤ cfuel) (pairs : List Body → List (ℕ × ℕ)) (fnd : Finder) (dt eps tol : ℝ)
    (hpr : SeesFloor S eps pairs)
    (hpv : ∀ bs, ∀ p ∈ pairs bs, p.1 < bs.length ∧ p.2 < bs.length ∧ p.1 ≠ p.2)
    (htol : 0 ≤ tol) (g u : ℝ) (hg : 0 ≤ g) :
    ∃ w, mkWorld (pdipmEnv 2 H lcp mi (rejectNan (diffCollide cfuel (fun _ => []) pairs))) none fnd (S.dropped g u) (S.held g u)
      dt eps tol false true = .done w ∧ Bouncing S g u w g u ∧ w.eps = eps ∧ w.tol = tol ∧ w.t = 0 ∧ w.dt = dt := by
  have hbod : (initWorld (none : Option Mat) fnd (S.dropped g u) (S.held g u) dt eps tol false true).bodies =
      S.dropped g u := by
    apply List.ext_getElem
    · simp [initWorld, World.set_v]
    · intro i h1 h2
      simp only [initWorld, World.set_v, List.getElem_map, List.getElem_zipIdx]
      rw [Nat.zero_add, cat3_slice _ i (by simpa using h2), List.getElem_map]
  obtain ⟨f', cs, hcol, ht⟩ := drop_search hS hx cfuel hcf pairs eps hpr g fnd (S.dropped g u)
    ⟨rfl, fun i _ => ⟨[], rfl⟩⟩ rfl rfl rfl (by linarith [hS.r])
  have hpen : ∀ c' ∈ cs, c'.pen ≤ tol := by
    intro c' hc'
    rcases ht with ⟨-, rfl⟩ | ⟨-, c, rfl, h1, -⟩
    · simp at hc'
    · rw [List.mem_singleton] at hc'
      rw [hc', h1]; linarith
  have hmk : mkWorld (pdipmEnv 2 H lcp mi (rejectNan (diffCollide cfuel (fun _ => []) pairs))) none fnd (S.dropped g u) (S.held g u)
      dt eps tol false true = .done { initWorld (none : Option Mat) fnd (S.dropped g u) (S.held g u) dt eps tol false true with
        contacts := cs, fnd := f' } := by
    unfold mkWorld
    rw [if_neg (by simp [RollScene.dropped]), if_pos (by
      intro j hj
      simp only [RollScene.held, List.mem_singleton] at hj
      subst hj
      simp [mkTotal, RollScene.dropped])]
    unfold World.find_contacts
    have : (pdipmEnv 2 H lcp mi (rejectNan (diffCollide cfuel (fun _ => []) pairs))).collide
        (initWorld (none : Option Mat) fnd (S.dropped g u) (S.held g u) dt eps tol false true).eps
        (initWorld (none : Option Mat) fnd (S.dropped g u) (S.held g u) dt eps tol false true).fnd
        (initWorld (none : Option Mat) fnd (S.dropped g u) (S.held g u) dt eps tol false true).bodies = .ok (f', cs) := by
      rw [hbod]; exact hcol
    rw [this]
    simp only [Run.bind]
    simp only [if_true]
    rw [if_pos]
    exact hpen
  have hgood := C30_mkWorld_good _ _ _ _ _ _ _ _ _ _ _ (by
      intro b hb
      simp only [RollScene.dropped, List.mem_cons, List.not_mem_nil, or_false] at hb
      rcases hb with rfl | rfl
      · exact trivial
      · exact mkRect_rectForm (floor_built hS)) (by
      intro j hj
      simp only [RollScene.held, List.mem_singleton] at hj
      subst hj
      exact mkTotal_fix _ _ _ rfl) hmk
  refine ⟨_, hmk, ⟨⟨hgood, ?_, ?_, ?_⟩, ?_, rfl, rfl, ?_, ⟨rfl, rfl⟩, ?_, ht, rfl, rfl⟩, rfl, rfl, rfl, rfl⟩
  · intro j hj
    simp only [initWorld, World.set_v, RollScene.held, List.mem_singleton] at hj
    subst hj
    refine ⟨?_, by simp [mkTotal]⟩
    show 1 < (initWorld (none : Option Mat) fnd (S.dropped g u) (S.held g u) dt eps tol false true).bodies.length
    rw [hbod]; simp [RollScene.dropped]
  · intro c' hc'
    show _ < (initWorld (none : Option Mat) fnd (S.dropped g u) (S.held g u) dt eps tol false true).bodies.length ∧
      _ < (initWorld (none : Option Mat) fnd (S.dropped g u) (S.held g u) dt eps tol false true).bodies.length ∧ _
    rw [hbod]
    exact C12_finder_ok cfuel _ pairs hpv _ _ _ _ _ hcol c' hc'
  · intro inv hi; cases hi
  · show Posed (S.dropped g u) (initWorld (none : Option Mat) fnd (S.dropped g u) (S.held g u) dt eps tol false true).bodies
    rw [hbod]; exact ⟨rfl, fun i _ => ⟨[], rfl⟩⟩
  · rfl
  · rfl

/-- Runs of `n` steps of the library from the height `g` and the speed `u`: the world as the constructor makes it, in the
default (strict) mode, and the worlds after the steps. -/
def BounceRun (S : RollScene) (env : Env (Option Mat) Finder) (dt eps tol : ℝ) (n : ℕ) (g u : ℝ)
    (ws : ℕ → World (Option Mat) Finder) : Prop :=
  ∃ fnd, mkWorld env none fnd (S.dropped g u) (S.held g u) dt eps tol false true = .done (ws 0) ∧ Steps env dt n ws

/-- The setting: a ball over a level floor without gravity, an exact solver, the contact search of the library, steps in
which the ball moves by less than its radius. -/
structure BounceSetting (S : RollScene) (H : ForceHeap) (lcp : LcpSolver) (cfuel : ℕ) (pairs : List Body → List (ℕ × ℕ))
    (dt eps tol : ℝ) : Prop where
  scene : S.Valid
  over : |S.x - S.cx| ≤ S.W / 2
  e : 0 ≤ S.e
  light : Weighs S H 0
  exact : Exact lcp
  fuel : 66 ≤ cfuel
  sees : SeesFloor S eps pairs
  pairs : ∀ bs, ∀ p ∈ pairs bs, p.1 < bs.length ∧ p.2 < bs.length ∧ p.1 ≠ p.2
  dt : 0 < dt
  eps : 0 ≤ eps
  tol : 0 ≤ tol

variable {H : ForceHeap} {lcp : LcpSolver} {cfuel : ℕ} {pairs : List Body → List (ℕ × ℕ)} {dt eps tol : ℝ}

theorem bounce_track (B : BounceSetting S H lcp cfuel pairs dt eps tol) (mi : ℕ) {n : ℕ} {g u : ℝ} (hg : 0 ≤ g) (hu : 0 < u)
    (hudt : u * dt < S.r) {ws : ℕ → World (Option Mat) Finder}
    (hr : BounceRun S (pdipmEnv 2 H lcp mi (rejectNan (diffCollide cfuel (fun _ => []) pairs))) dt eps tol n g u ws) :
    ∀ k ≤ n, ∃ o, Track dt eps tol g u k (ws k).t o ∧ (ws k).eps = eps ∧ (ws k).tol = tol ∧
      Bouncing S g u (ws k) (heightAt S.e g u (ws k).t o) (speedAt S.e u o) := by
  obtain ⟨fnd, hmk, hst⟩ := hr
  obtain ⟨w, hw, hb, he, ht, h0, -⟩ := drop_initial S B.scene B.over H lcp mi cfuel B.fuel pairs fnd dt eps tol B.sees B.pairs B.tol g u hg
  rw [hmk] at hw
  injection hw with hw
  subst hw
  intro k hk
  obtain ⟨T, o, q1, q2, q3, q4, q5⟩ := drop_run B.scene B.over B.e B.light B.exact B.fuel (by rw [he]; exact B.sees) B.pairs hb
    (by rw [he]; exact B.eps) (by rw [ht]; exact B.tol) B.dt hg hu hudt hst k hk
  rw [h0, zero_add] at q2
  rw [he] at q1 q3
  rw [ht] at q1 q4
  rw [q2]
  exact ⟨o, q1, q3, q4, q5⟩

theorem bouncing_gap {w : World (Option Mat) Finder} {g u : ℝ} (h : Bouncing S g0 u0 w g u) : S.gap w.bodies = g := by
  unfold RollScene.gap
  rw [h.place.2]; ring

/-- C103: such runs exist, of any length, if the contact problems are solved exactly. -/
theorem C103_runs (S : RollScene) (H : ForceHeap) (mi cfuel : ℕ) (pairs : List Body → List (ℕ × ℕ)) (dt eps tol : ℝ)
    (B : BounceSetting S H exactLcp cfuel pairs dt eps tol) (fnd : Finder) (g u : ℝ) (hg : 0 ≤ g) (hu : 0 < u)
    (hudt : u * dt < S.r) (n : ℕ) :
    ∃ ws, BounceRun S (pdipmEnv 2 H exactLcp mi (rejectNan (diffCollide cfuel (fun _ => []) pairs))) dt eps tol n g u ws := by
  induction n with
  | zero =>
    obtain ⟨w, hw, -⟩ := drop_initial S B.scene B.over H exactLcp mi cfuel B.fuel pairs fnd dt eps tol B.sees B.pairs B.tol g u hg
    exact ⟨fun _ => w, fnd, hw, fun k hk => by omega⟩
  | succ n ih =>
    obtain ⟨ws, hr⟩ := ih
    obtain ⟨o, tr, i3, i4, i5⟩ := bounce_track B mi hg hu hudt hr n le_rfl
    obtain ⟨b1, b2, b3⟩ := track_bounds B.dt hu hg B.tol B.eps tr
    have heu : 0 ≤ S.e * u := mul_nonneg B.e hu.le
    have hS := B.scene
    have hr0 := hS.r
    have hdt := B.dt
    have heps := B.eps
    have htol := B.tol
    have hsee : SeesFloor S (ws n).eps pairs := by rw [i3]; exact B.sees
    have key : ∃ fuel w', (ws n).step_dt (pdipmEnv 2 H exactLcp mi (rejectNan (diffCollide cfuel (fun _ => []) pairs))) fuel dt =
        .done w' := by
      cases o with
      | none =>
        obtain ⟨b4, b5⟩ := b2 rfl
        simp only [heightAt, speedAt] at i5
        rcases le_or_gt (g - u * (ws n).t) eps with hc | hc
        · have ht : turned S.e (ws n).eps (dt * 0) (g - u * (ws n).t) u = -(S.e * u) := turned_turn B.e (by rw [i3]; exact hc) hu
          exact drop_returns hS B.over B.e B.light mi B.fuel hsee i5 (by rw [i3]; exact heps) (by rw [i4]; exact htol) hdt
            (by linarith) (by rw [ht]; nlinarith) (by rw [ht, i4]; exact hop_first (by nlinarith))
        · have ht : turned S.e (ws n).eps (dt * 0) (g - u * (ws n).t) u = u := turned_fall (by rw [i3]; exact hc)
          obtain ⟨d, hd⟩ := hop_exists (dt := dt) (tol := tol) (g := g - u * (ws n).t) (u := u) (by linarith)
          exact drop_returns hS B.over B.e B.light mi B.fuel hsee i5 (by rw [i3]; exact heps) (by rw [i4]; exact htol) hdt
            (by linarith) (by rw [ht]; linarith) (by rw [ht, i4]; exact hd)
      | some τ =>
        obtain ⟨b4, b5, b6, b7, b8⟩ := b3 τ rfl
        simp only [heightAt, speedAt] at i5
        have ht : turned S.e (ws n).eps (dt * 0) (g - u * τ + S.e * u * ((ws n).t - τ)) (-(S.e * u)) = -(S.e * u) :=
          turned_leave B.e (by linarith)
        have hup : 0 ≤ S.e * u * ((ws n).t - τ) := mul_nonneg heu (by linarith)
        exact drop_returns hS B.over B.e B.light mi B.fuel hsee i5 (by rw [i3]; exact heps) (by rw [i4]; exact htol) hdt
          (by linarith) (by rw [ht]; nlinarith) (by rw [ht, i4]; exact hop_first (by nlinarith))
    obtain ⟨fuel, w', hw'⟩ := key
    obtain ⟨fnd', hmk, hst⟩ := hr
    refine ⟨fun k => if k ≤ n then ws k else w', fnd', by simpa using hmk, ?_⟩
    intro k hk
    simp only
    rcases Nat.lt_or_ge k n with hkn | hkn
    · rw [if_pos (by omega), if_pos (by omega)]
      exact hst k hkn
    · rw [if_pos (by omega), if_neg (by omega)]
      have : k = n := by omega
      subst this
      exact ⟨fuel, hw'⟩

/-- C103: the height of the ball is right at every step, to within `(1 + e)` times the larger of the contact distance and
the tolerance, however long the steps are. -/
theorem C103_accuracy (S : RollScene) (H : ForceHeap) (lcp : LcpSolver) (mi cfuel : ℕ) (pairs : List Body → List (ℕ × ℕ))
    (dt eps tol : ℝ) (B : BounceSetting S H lcp cfuel pairs dt eps tol) (n : ℕ) (g u : ℝ) (hg : 0 ≤ g) (hu : 0 < u)
    (hudt : u * dt < S.r) (ws : ℕ → World (Option Mat) Finder)
    (hr : BounceRun S (pdipmEnv 2 H lcp mi (rejectNan (diffCollide cfuel (fun _ => []) pairs))) dt eps tol n g u ws)
    (k : ℕ) (hk : k ≤ n) :
    |S.gap (ws k).bodies - bouncePath S.e g u (ws k).t| ≤ (1 + S.e) * max eps tol ∧
      (twist (ws k).v 0 = ⟨0, 0, u⟩ ∨ twist (ws k).v 0 = ⟨0, 0, -(S.e * u)⟩) := by
  obtain ⟨o, tr, -, -, h⟩ := bounce_track B mi hg hu hudt hr k hk
  refine ⟨?_, ?_⟩
  · rw [bouncing_gap h]
    exact track_accurate B.e B.dt hu hg B.tol B.eps tr
  · rw [h.speed]
    cases o
    · exact Or.inl rfl
    · exact Or.inr rfl

/-- C103: after enough steps the ball has bounced; the number depends on the start only. -/
theorem C103_bounces (S : RollScene) (H : ForceHeap) (lcp : LcpSolver) (mi cfuel : ℕ) (pairs : List Body → List (ℕ × ℕ))
    (dt eps tol : ℝ) (B : BounceSetting S H lcp cfuel pairs dt eps tol) (hpos : 0 < eps + tol) (g u : ℝ) (hg : 0 ≤ g) (hu : 0 < u)
    (hudt : u * dt < S.r) :
    ∃ N, ∀ n ≥ N, ∀ ws, BounceRun S (pdipmEnv 2 H lcp mi (rejectNan (diffCollide cfuel (fun _ => []) pairs))) dt eps tol n g u ws →
      twist (ws n).v 0 = ⟨0, 0, -(S.e * u)⟩ := by
  obtain ⟨N, hN⟩ := track_turns (dt := dt) (g := g) B.dt hu B.eps B.tol hpos
  refine ⟨N, fun n hn ws hr => ?_⟩
  obtain ⟨o, tr, -, -, h⟩ := bounce_track B mi hg hu hudt hr n le_rfl
  obtain ⟨T, τ, tr'⟩ := hN n hn
  rw [h.speed, (track_unique tr tr').2]
  rfl

/-- C103: the derivative of the height after `n` steps with respect to the height at the beginning is `1`, before and after
the bounce, whatever the length of the steps, the contact distance, the tolerance and the restitution are.  The exact
height has the derivative `-e` after the bounce. -/
theorem C103_height_gradient (S : RollScene) (H : ForceHeap) (lcp : LcpSolver) (mi cfuel : ℕ) (pairs : List Body → List (ℕ × ℕ))
    (dt eps tol : ℝ) (B : BounceSetting S H lcp cfuel pairs dt eps tol) (n : ℕ) (g u : ℝ) (hg : 0 < g) (hu : 0 < u)
    (hudt : u * dt < S.r) (hoff : OffGrid dt eps tol g u) (ws : ℝ → ℕ → World (Option Mat) Finder)
    (hr : ∀ᶠ g' in 𝓝 g,
      BounceRun S (pdipmEnv 2 H lcp mi (rejectNan (diffCollide cfuel (fun _ => []) pairs))) dt eps tol n g' u (ws g')) :
    HasDerivAt (fun g' => S.gap (ws g' n).bodies) 1 g ∧
    (∀ᶠ g' in 𝓝 g, (ws g' n).t = (ws g n).t) ∧
    (g < u * (ws g n).t → HasDerivAt (fun g' => bouncePath S.e g' u (ws g n).t) (-S.e) g) := by
  obtain ⟨o, tr, -, -, -⟩ := bounce_track B mi hg.le hu hudt hr.self_of_nhds n le_rfl
  have hnear : ∀ᶠ g' in 𝓝 g, Track dt eps tol g' u n (ws g n).t o :=
    (Continuous.prodMk_left u).continuousAt.eventually (track_near hoff tr)
  have hall : ∀ᶠ g' in 𝓝 g, (ws g' n).t = (ws g n).t ∧ S.gap (ws g' n).bodies = heightAt S.e g' u (ws g n).t o := by
    filter_upwards [hr, hnear, lt_mem_nhds hg] with g' h1 h2 h3
    obtain ⟨o', tr', -, -, h⟩ := bounce_track B mi (le_of_lt h3) hu hudt h1 n le_rfl
    obtain ⟨e1, e2⟩ := track_unique tr' h2
    refine ⟨e1, ?_⟩
    rw [bouncing_gap h, e1, e2]
  refine ⟨?_, hall.mono fun _ h => h.1, fun hlt => ?_⟩
  · refine HasDerivAt.congr_of_eventuallyEq ?_ (hall.mono fun _ h => h.2)
    cases o with
    | none => exact (hasDerivAt_id g).sub_const _
    | some τ =>
      simp only [heightAt]
      exact ((hasDerivAt_id g).sub_const _).add_const _
  · have : ∀ᶠ g' in 𝓝 g, bouncePath S.e g' u (ws g n).t = S.e * (u * (ws g n).t - g') := by
      filter_upwards [gt_mem_nhds hlt] with g' h'
      unfold bouncePath
      rw [if_neg (not_le.2 h')]
    refine HasDerivAt.congr_of_eventuallyEq ?_ this
    have := ((hasDerivAt_id g).const_sub (u * (ws g n).t)).const_mul S.e
    simpa using this

/-- C103: the hypothesis that the start is off the grid leaves out countably many heights only. -/
theorem C103_almost_every_height (dt eps tol u : ℝ) : {g | ¬ OffGrid dt eps tol g u}.Countable :=
  offGrid_heights dt eps tol u

/-- C103: the derivative of the height after the bounce with respect to the speed at the beginning is
`e T - (1 + e) g / u` to within `(1 + e) max eps tol / u`; the exact height has the derivative `e T`. -/
theorem C103_speed_gradient (S : RollScene) (H : ForceHeap) (lcp : LcpSolver) (mi cfuel : ℕ) (pairs : List Body → List (ℕ × ℕ))
    (dt eps tol : ℝ) (B : BounceSetting S H lcp cfuel pairs dt eps tol) (n : ℕ) (g u : ℝ) (hg : 0 ≤ g) (hu : 0 < u)
    (hudt : u * dt < S.r) (hoff : OffGrid dt eps tol g u) (ws : ℝ → ℕ → World (Option Mat) Finder)
    (hr : ∀ᶠ u' in 𝓝 u,
      BounceRun S (pdipmEnv 2 H lcp mi (rejectNan (diffCollide cfuel (fun _ => []) pairs))) dt eps tol n g u' (ws u'))
    (hturn : (twist (ws u n).v 0).y < 0) :
    ∃ D, HasDerivAt (fun u' => S.gap (ws u' n).bodies) D u ∧
      |D - (S.e * (ws u n).t - (1 + S.e) * (g / u))| ≤ (1 + S.e) * (max eps tol / u) ∧
      (g < u * (ws u n).t → HasDerivAt (fun u' => bouncePath S.e g u' (ws u n).t) (S.e * (ws u n).t) u) := by
  obtain ⟨o, tr, -, -, h0⟩ := bounce_track B mi hg hu hudt hr.self_of_nhds n le_rfl
  have hnear : ∀ᶠ u' in 𝓝 u, Track dt eps tol g u' n (ws u n).t o :=
    (Continuous.prodMk_right g).continuousAt.eventually (track_near hoff tr)
  have hall : ∀ᶠ u' in 𝓝 u, S.gap (ws u' n).bodies = heightAt S.e g u' (ws u n).t o := by
    have hs : ∀ᶠ u' in 𝓝 u, u' * dt < S.r :=
      (continuous_id.mul continuous_const).continuousAt.eventually (gt_mem_nhds (by simpa using hudt))
    filter_upwards [hr, hnear, lt_mem_nhds hu, hs] with u' h1 h2 h3 h4
    obtain ⟨o', tr', -, -, h⟩ := bounce_track B mi hg h3 h4 h1 n le_rfl
    obtain ⟨e1, e2⟩ := track_unique tr' h2
    rw [bouncing_gap h, e1, e2]
  cases o with
  | none =>
    rw [h0.speed] at hturn
    simp only [speedAt] at hturn
    linarith
  | some τ =>
    obtain ⟨-, -, b3⟩ := track_bounds B.dt hu hg B.tol B.eps tr
    obtain ⟨b4, b5, b6, -, b8⟩ := b3 τ rfl
    have he := B.e
    refine ⟨-τ + S.e * ((ws u n).t - τ), ?_, ?_, fun hlt => ?_⟩
    · refine HasDerivAt.congr_of_eventuallyEq ?_ hall
      simp only [heightAt]
      have h1 := ((hasDerivAt_id u).mul_const τ).const_sub g
      have h2 := ((hasDerivAt_id u).const_mul S.e).mul_const ((ws u n).t - τ)
      have : HasDerivAt (fun x => g - x * τ + S.e * x * ((ws u n).t - τ)) (-(1 * τ) + S.e * 1 * ((ws u n).t - τ)) u := h1.add h2
      simpa using this
    · have e : -τ + S.e * ((ws u n).t - τ) - (S.e * (ws u n).t - (1 + S.e) * (g / u)) = (1 + S.e) * ((g - u * τ) / u) := by
        field_simp; ring
      rw [e, abs_mul, abs_of_nonneg (by linarith : 0 ≤ 1 + S.e), abs_div, abs_of_pos hu]
      gcongr
      rw [abs_le]
      have m1 : eps ≤ max eps tol := le_max_left _ _
      have m2 : tol ≤ max eps tol := le_max_right _ _
      constructor <;> linarith
    · have hs : ∀ᶠ u' in 𝓝 u, g < u' * (ws u n).t :=
        (continuous_id.mul continuous_const).continuousAt.eventually (lt_mem_nhds (by simpa using hlt))
      have : ∀ᶠ u' in 𝓝 u, bouncePath S.e g u' (ws u n).t = S.e * (u' * (ws u n).t - g) := by
        filter_upwards [hs] with u' h'
        unfold bouncePath
        rw [if_neg (not_le.2 h')]
      refine HasDerivAt.congr_of_eventuallyEq ?_ this
      have := (((hasDerivAt_id u).mul_const (ws u n).t).sub_const g).const_mul S.e
      simpa using this

/-- C103: consequently, where the loss is the squared distance of the ball from a target height, the derivative of the
loss that the program computes and the one of the exact motion have opposite signs after the bounce, unless the ball is
at the target to within the accuracy. -/
theorem C103_wrong_way (S : RollScene) (H : ForceHeap) (lcp : LcpSolver) (mi cfuel : ℕ) (pairs : List Body → List (ℕ × ℕ))
    (dt eps tol : ℝ) (B : BounceSetting S H lcp cfuel pairs dt eps tol) (he : 0 < S.e) (n : ℕ) (g u : ℝ) (hg : 0 < g) (hu : 0 < u)
    (hudt : u * dt < S.r) (hoff : OffGrid dt eps tol g u) (ws : ℝ → ℕ → World (Option Mat) Finder)
    (hr : ∀ᶠ g' in 𝓝 g,
      BounceRun S (pdipmEnv 2 H lcp mi (rejectNan (diffCollide cfuel (fun _ => []) pairs))) dt eps tol n g' u (ws g'))
    (hlate : g < u * (ws g n).t) (target : ℝ) (hfar : (1 + S.e) * max eps tol < |S.gap (ws g n).bodies - target|) :
    ∃ D D', HasDerivAt (fun g' => (S.gap (ws g' n).bodies - target) ^ 2) D g ∧
      HasDerivAt (fun g' => (bouncePath S.e g' u (ws g n).t - target) ^ 2) D' g ∧ D * D' < 0 := by
  obtain ⟨d1, -, d2⟩ := C103_height_gradient S H lcp mi cfuel pairs dt eps tol B n g u hg hu hudt hoff ws hr
  have acc := (C103_accuracy S H lcp mi cfuel pairs dt eps tol B n g u hg.le hu hudt (ws g) hr.self_of_nhds n le_rfl).1
  refine ⟨_, _, (d1.sub_const target).pow 2, ((d2 hlate).sub_const target).pow 2, ?_⟩
  generalize S.gap (ws g n).bodies = a at acc hfar ⊢
  generalize bouncePath S.e g u (ws g n).t = b at acc ⊢
  have hab : 0 < (a - target) * (b - target) := by
    have hacc := lt_of_le_of_lt acc hfar
    rcases le_or_gt 0 (a - target) with h | h
    · rw [abs_of_nonneg h] at hacc
      have := (abs_lt.1 hacc).2
      have hb : 0 < b - target := by linarith
      have ha : 0 < a - target := by
        rcases eq_or_lt_of_le h with h0 | h0
        · rw [← h0] at hacc
          exact absurd hacc (not_lt.2 (abs_nonneg _))
        · exact h0
      exact mul_pos ha hb
    · rw [abs_of_neg h] at hacc
      have := (abs_lt.1 hacc).1
      exact mul_pos_of_neg_of_neg h (by linarith)
  simp only [Nat.cast_ofNat, Nat.add_one_sub_one, pow_one]
  nlinarith [mul_pos he hab]

/-! ## A concrete run

A ball of radius 10 at the height 10/3 comes down with speed 30 on a floor with restitution 1/2; the constants of the
library: steps of 1/30, contact distance 1/10, tolerance 1e-6. -/

theorem bounce_setting (fl : Bool) :
    BounceSetting slideScene noForces exactLcp 66 (bouncePairs fl) (1 / 30) (1 / 10) (1 / 1000000) where
  scene := slide_valid
  over := by norm_num [slideScene]
  e := by norm_num [slideScene, RollScene.e]
  light := fun t => ⟨0, by rw [noForces_cat]; simp; rfl⟩
  exact := exactLcp_exact
  fuel := le_rfl
  sees := fun bs hb => by
    rcases bouncePairs_one fl bs hb with h | h
    · exact Or.inl h
    · exact Or.inr (Or.inl h)
  pairs := bouncePairs_valid fl
  dt := by norm_num
  eps := by norm_num
  tol := by norm_num

theorem not_dyadic {p q a m : ℕ} (hq : 3 ∣ q) (hp : ¬ 3 ∣ p) : q * a ≠ p * 2 ^ m := by
  intro h
  have h3 : 3 ∣ p * 2 ^ m := h ▸ Dvd.dvd.mul_right hq a
  rcases (Nat.prime_three.dvd_mul).1 h3 with h' | h'
  · exact hp h'
  · exact absurd (Nat.prime_three.dvd_of_dvd_pow h') (by norm_num)

theorem bounce_off : OffGrid (1 / 30) (1 / 10) (1 / 1000000) (10 / 3) 30 := by
  intro a m
  have hp : (0 : ℝ) < 2 ^ m := by positivity
  constructor
  · intro h
    have e : (30 : ℝ) * a = 97 * 2 ^ m := by
      field_simp at h
      linarith
    exact not_dyadic (p := 97) (q := 30) (a := a) (m := m) (by norm_num) (by norm_num) (by exact_mod_cast e)
  · intro h
    have e : (3000000 : ℝ) * a = 10000003 * 2 ^ m := by
      field_simp at h
      linarith
    exact not_dyadic (p := 10000003) (q := 3000000) (a := a) (m := m) (by norm_num) (by norm_num) (by exact_mod_cast e)

/-- Three full steps, one of a quarter, the bounce, five steps up. -/
theorem bounce_steps : Track (1 / 30) (1 / 10) (1 / 1000000) (10 / 3) 30 10 (37 / 120) (some (13 / 120)) := by
  have t1 := Track.fall (Track.start (dt := 1 / 30) (eps := 1 / 10) (tol := 1 / 1000000) (g := 10 / 3) (u := 30))
    (by norm_num) (hop_first (by norm_num))
  have t2 := Track.fall t1 (by norm_num) (hop_first (by norm_num))
  have t3 := Track.fall t2 (by norm_num) (hop_first (by norm_num))
  have t4 := Track.fall t3 (h := 1 / 120) (by norm_num) ⟨2, by norm_num, by norm_num, fun i hi => by
    interval_cases i <;> norm_num⟩
  have t5 := track_turned (Track.turn t4 (by norm_num)) 5
  norm_num at t5
  exact t5

/-- All hypotheses of the theorems are met.  The program has the ball at 37/12, the exact height is 71/24; the derivative
with respect to the starting height is 1 in the program and -1/2 exactly. -/
example (fl : Bool) (mi : ℕ) (fnd : Finder) :
    ∃ ws : ℝ → ℕ → World (Option Mat) Finder, (∀ᶠ g' in 𝓝 (10 / 3 : ℝ),
      BounceRun slideScene (pdipmEnv 2 noForces exactLcp mi (rejectNan (diffCollide 66 (fun _ => []) (bouncePairs fl)))) (1 / 30)
        (1 / 10) (1 / 1000000) 10 g' 30 (ws g')) ∧
      (ws (10 / 3) 10).t = 37 / 120 ∧ (10 / 3 : ℝ) < 30 * (ws (10 / 3) 10).t ∧
      twist (ws (10 / 3) 10).v 0 = ⟨0, 0, -15⟩ ∧
      slideScene.gap (ws (10 / 3) 10).bodies = 37 / 12 ∧ bouncePath slideScene.e (10 / 3) 30 (37 / 120) = 71 / 24 ∧
      HasDerivAt (fun g' => slideScene.gap (ws g' 10).bodies) 1 (10 / 3) ∧
      HasDerivAt (fun g' => bouncePath slideScene.e g' 30 (37 / 120)) (-(1 / 2)) (10 / 3) ∧
      ∃ D D', HasDerivAt (fun g' => (slideScene.gap (ws g' 10).bodies - 2) ^ 2) D (10 / 3) ∧
        HasDerivAt (fun g' => (bouncePath slideScene.e g' 30 (37 / 120) - 2) ^ 2) D' (10 / 3) ∧ D * D' < 0 := by
  have B := bounce_setting fl
  have hud : (30 : ℝ) * (1 / 30) < slideScene.r := by norm_num [slideScene]
  have hex : ∀ g' : ℝ, ∃ ws, 0 ≤ g' → BounceRun slideScene (pdipmEnv 2 noForces exactLcp mi
      (rejectNan (diffCollide 66 (fun _ => []) (bouncePairs fl)))) (1 / 30) (1 / 10) (1 / 1000000) 10 g' 30 ws := by
    intro g'
    rcases le_or_gt 0 g' with h | h
    · obtain ⟨ws, hw⟩ := C103_runs slideScene noForces mi 66 (bouncePairs fl) (1 / 30) (1 / 10) (1 / 1000000) B fnd g' 30 h
        (by norm_num) hud 10
      exact ⟨ws, fun _ => hw⟩
    · obtain ⟨ws, hw⟩ := C103_runs slideScene noForces mi 66 (bouncePairs fl) (1 / 30) (1 / 10) (1 / 1000000) B fnd 0 30 le_rfl
        (by norm_num) hud 10
      exact ⟨ws, fun h' => absurd h' (not_le.2 h)⟩
  choose ws hws using hex
  have hr : ∀ᶠ g' in 𝓝 (10 / 3 : ℝ),
      BounceRun slideScene (pdipmEnv 2 noForces exactLcp mi (rejectNan (diffCollide 66 (fun _ => []) (bouncePairs fl)))) (1 / 30)
        (1 / 10) (1 / 1000000) 10 g' 30 (ws g') := by
    filter_upwards [lt_mem_nhds (show (0 : ℝ) < 10 / 3 by norm_num)] with g' h
    exact hws g' (le_of_lt h)
  have he : slideScene.e = 1 / 2 := by norm_num [slideScene, RollScene.e]
  obtain ⟨o, tr, -, -, hb⟩ := bounce_track B mi (by norm_num : (0 : ℝ) ≤ 10 / 3) (by norm_num) hud hr.self_of_nhds 10 le_rfl
  obtain ⟨ht, ho⟩ := track_unique tr bounce_steps
  rw [ht, ho, he] at hb
  have hgap : slideScene.gap (ws (10 / 3) 10).bodies = 37 / 12 := by
    rw [bouncing_gap hb]; norm_num [heightAt]
  obtain ⟨d1, -, d2⟩ := C103_height_gradient slideScene noForces exactLcp mi 66 (bouncePairs fl) (1 / 30) (1 / 10) (1 / 1000000) B
    10 (10 / 3) 30 (by norm_num) (by norm_num) hud bounce_off ws hr
  have hw := C103_wrong_way slideScene noForces exactLcp mi 66 (bouncePairs fl) (1 / 30) (1 / 10) (1 / 1000000) B (by rw [he]; norm_num)
    10 (10 / 3) 30 (by norm_num) (by norm_num) hud bounce_off ws hr (by rw [ht]; norm_num) 2
    (by rw [hgap, he]; norm_num [abs_of_pos])
  have d2 := d2 (by rw [ht]; norm_num)
  rw [ht] at d2 hw
  rw [he] at d2
  refine ⟨ws, hr, ht, by rw [ht]; norm_num, ?_, hgap, ?_, d1, by rw [he]; exact d2, hw⟩
  · rw [hb.speed]
    norm_num [speedAt]
  · rw [he]
    norm_num [bouncePath]

/-- The same run meets the hypotheses of `C103_speed_gradient`. -/
example (fl : Bool) (mi : ℕ) (fnd : Finder) :
    ∃ ws : ℝ → ℕ → World (Option Mat) Finder, (∀ᶠ u' in 𝓝 (30 : ℝ),
      BounceRun slideScene (pdipmEnv 2 noForces exactLcp mi (rejectNan (diffCollide 66 (fun _ => []) (bouncePairs fl)))) (1 / 30)
        (1 / 10) (1 / 1000000) 10 (10 / 3) u' (ws u')) ∧ (twist (ws 30 10).v 0).y < 0 ∧
      ∃ D, HasDerivAt (fun u' => slideScene.gap (ws u' 10).bodies) D 30 ∧ D < 0 ∧
        HasDerivAt (fun u' => bouncePath slideScene.e (10 / 3) u' (37 / 120)) (37 / 240) 30 := by
  have B := bounce_setting fl
  have hex : ∀ u' : ℝ, ∃ ws, 0 < u' → u' * (1 / 30) < slideScene.r → BounceRun slideScene (pdipmEnv 2 noForces exactLcp mi
      (rejectNan (diffCollide 66 (fun _ => []) (bouncePairs fl)))) (1 / 30) (1 / 10) (1 / 1000000) 10 (10 / 3) u' ws := by
    intro u'
    by_cases h : 0 < u' ∧ u' * (1 / 30) < slideScene.r
    · obtain ⟨ws, hw⟩ := C103_runs slideScene noForces mi 66 (bouncePairs fl) (1 / 30) (1 / 10) (1 / 1000000) B fnd (10 / 3) u'
        (by norm_num) h.1 h.2 10
      exact ⟨ws, fun _ _ => hw⟩
    · obtain ⟨ws, hw⟩ := C103_runs slideScene noForces mi 66 (bouncePairs fl) (1 / 30) (1 / 10) (1 / 1000000) B fnd (10 / 3) 30
        (by norm_num) (by norm_num) (by norm_num [slideScene]) 10
      exact ⟨ws, fun h1 h2 => absurd ⟨h1, h2⟩ h⟩
  choose ws hws using hex
  have hr : ∀ᶠ u' in 𝓝 (30 : ℝ),
      BounceRun slideScene (pdipmEnv 2 noForces exactLcp mi (rejectNan (diffCollide 66 (fun _ => []) (bouncePairs fl)))) (1 / 30)
        (1 / 10) (1 / 1000000) 10 (10 / 3) u' (ws u') := by
    filter_upwards [lt_mem_nhds (show (0 : ℝ) < 30 by norm_num), gt_mem_nhds (show (30 : ℝ) < 60 by norm_num)] with u' h h'
    exact hws u' h (by norm_num [slideScene]; linarith)
  have he : slideScene.e = 1 / 2 := by norm_num [slideScene, RollScene.e]
  have hud : (30 : ℝ) * (1 / 30) < slideScene.r := by norm_num [slideScene]
  obtain ⟨o, tr, -, -, hb⟩ := bounce_track B mi (by norm_num : (0 : ℝ) ≤ 10 / 3) (by norm_num) hud hr.self_of_nhds 10 le_rfl
  obtain ⟨ht, ho⟩ := track_unique tr bounce_steps
  rw [ht, ho, he] at hb
  have hy : (twist (ws 30 10).v 0).y < 0 := by
    rw [hb.speed]; norm_num [speedAt]
  obtain ⟨D, d1, d2, d3⟩ := C103_speed_gradient slideScene noForces exactLcp mi 66 (bouncePairs fl) (1 / 30) (1 / 10) (1 / 1000000) B
    10 (10 / 3) 30 (by norm_num) (by norm_num) hud bounce_off ws hr hy
  have d3 := d3 (by rw [ht]; norm_num)
  rw [ht, he] at d2 d3
  refine ⟨ws, hr, hy, D, d1, ?_, ?_⟩
  · have := (abs_le.1 d2).2
    rw [max_eq_left (by norm_num)] at this
    norm_num at this
    linarith
  · rw [he]
    norm_num at d3 ⊢
    exact d3

end LcpPhysics
