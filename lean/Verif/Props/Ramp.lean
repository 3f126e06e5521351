import Verif.Props.Block
import Verif.Props.Tower
import Verif.Spec.Ramp

/-! # C100: a box on an inclined plane, along whole runs of `World.step` with the contact search of the library -/

noncomputable section

namespace LcpPhysics
open Spec
variable {S : RampScene}

theorem plane_built (hS : S.Valid) : mkRect (.three ⟨S.θ, S.cx, S.cy⟩) (S.W, S.L)
    { vel := .two (0, 0), mass := S.mf, restitution := S.ef, fric_coeff := S.μf, eps := S.epsf } = .ok S.plane := by
  rw [mkRect_eq _ _ _ (mul_pos hS.W hS.L)]; rfl

theorem box_built (hS : S.Valid) : mkRect (.three (S.pose S.ξ)) (S.w, S.h)
    { vel := .three (S.vel S.u), mass := S.m, restitution := S.eb, fric_coeff := S.μb, eps := S.epsb } = .ok S.box := by
  rw [mkRect_eq _ _ _ (mul_pos hS.w hS.h)]; rfl

/-- The frame of the plane. -/
def Spec.RampScene.frame (S : RampScene) : Spec.Frame := ⟨S.θ, (S.cx, S.cy), 0⟩

/-- The two bodies while the box lies on the plane. -/
theorem ramp_at (hS : S.Valid) {bs : List Body} (hP : Posed S.bodies bs) (h0 : (bodyAt bs 0).p = S.plane.p) {ξ : ℝ}
    (h1 : (bodyAt bs 1).p = S.pose ξ) :
    ((bodyAt bs 0).verts = (levelBox S.W S.L).map (rot S.θ) ∧ (bodyAt bs 0).pos = S.frame.point 0 0 ∧
      (bodyAt bs 0).isCircle = false ∧ Alive (bodyAt bs 0) ∧ (bodyAt bs 0).eps = S.epsf) ∧
    (bodyAt bs 1).verts = (levelBox S.w S.h).map (rot S.θ) ∧
      (bodyAt bs 1).pos = S.frame.point 0 (ξ, -((S.L + S.h) / 2)) ∧
      (bodyAt bs 1).isCircle = false ∧ Alive (bodyAt bs 1) ∧ (bodyAt bs 1).eps = S.epsb := by
  obtain ⟨o0, e0⟩ := hP.2 0 (by simp [RampScene.bodies])
  obtain ⟨o1, e1⟩ := hP.2 1 (by simp [RampScene.bodies])
  have e0 : bodyAt bs 0 = S.plane.run o0 := e0
  have e1 : bodyAt bs 1 = S.box.run o1 := e1
  have hp : S.plane.p = ⟨S.θ, S.cx, S.cy⟩ := set_p_p _ _
  have r0 : (bodyAt bs 0).rot = S.θ := by unfold Body.rot; rw [h0, hp]
  have r1 : (bodyAt bs 1).rot = S.θ := by unfold Body.rot; rw [h1]; rfl
  refine ⟨⟨?_, ?_, ?_, ⟨_, o0, .rect _ _ _ _ (plane_built hS) hS.W hS.L, e0⟩, ?_⟩, ?_, ?_, ?_,
    ⟨_, o1, .rect _ _ _ _ (box_built hS) hS.w hS.h, e1⟩, ?_⟩
  · have := C05_rect_rigid _ _ _ _ (plane_built hS) o0
    rw [← e0, r0] at this
    exact this
  · unfold Body.pos; rw [h0, hp]
    ext <;> simp [RampScene.frame, Frame.point, rot, V3.xy]
  · rw [e0, run_shape]; rfl
  · rw [e0, run_eps]; exact set_p_eps _ _
  · have := C05_rect_rigid _ _ _ _ (box_built hS) o1
    rw [← e1, r1] at this
    exact this
  · unfold Body.pos; rw [h1]
    ext <;> simp [RampScene.frame, Frame.point, RampScene.pose, V3.xy] <;> ring
  · rw [e1, run_shape]; rfl
  · rw [e1, run_eps]; exact set_p_eps _ _

theorem rot_arm (S : RampScene) (x y : ℝ) : rot S.θ (x, y) = (-x) • tangent S.ν - y • S.ν := by
  ext <;> simp [rot, tangent, RampScene.ν] <;> ring

/-- The contacts the library reports between the two. -/
theorem ramp_pair (hS : S.Valid) {bs : List Body} (hP : Posed S.bodies bs) (h0 : (bodyAt bs 0).p = S.plane.p) {ξ : ℝ}
    (h1 : (bodyAt bs 1).p = S.pose ξ) (hroom : S.Room ξ) {fuel : ℕ} {eps : ℝ} (heps : 0 ≤ eps) {g g' : Finder} {i j : ℕ}
    (hij : i = 1 ∧ j = 0 ∨ i = 0 ∧ j = 1) {cs : List Contact} (h : handlePair fuel eps bs g i j = .done (g', cs)) :
    S.Carried cs := by
  obtain ⟨⟨v0, p0, c0, -, -⟩, v1, p1, c1, -, -⟩ := ramp_at hS hP h0 h1
  have hW := hS.W
  have hL := hS.L
  have hw := hS.w
  have hh := hS.h
  unfold RampScene.Room at hroom
  have hξ : |ξ| < (S.w + S.W) / 2 := by linarith
  obtain ⟨ξ1, ξ2⟩ := abs_le.1 (show |ξ| ≤ S.W / 2 - S.w / 2 by linarith)
  have hn : rot S.θ ((0, -1) : V2) = S.ν := by ext <;> simp [rot, RampScene.ν]
  have hn' : rot S.θ ((0, 1) : V2) = -S.ν := by ext <;> simp [rot, RampScene.ν]
  rcases hij with ⟨rfl, rfl⟩ | ⟨rfl, rfl⟩
  · obtain ⟨f', pts, hc, rfl⟩ := pair_hulls c1 c0 h
    rw [v0, v1, p0, p1] at hc
    have hf := hullHull_frame S.frame 0 eps (ξ, -((S.L + S.h) / 2)) 0 (levelBox S.w S.h) (levelBox S.W S.L) 1 0 g
    change hullHull eps _ _ ((levelBox S.w S.h).map (rot S.θ)) ((levelBox S.W S.L).map (rot S.θ)) 1 0 g = _ at hf
    rw [hf] at hc
    cases hr : hullHull eps (ξ, -((S.L + S.h) / 2)) 0 (levelBox S.w S.h) (levelBox S.W S.L) 1 0 g with
    | error e => rw [hr] at hc; cases hc
    | ok r =>
      rw [hr] at hc
      simp only [Except.map] at hc
      injection hc with hc
      obtain ⟨-, rfl⟩ := Prod.mk.inj hc
      have hD : ((0 : V2) - (ξ, -((S.L + S.h) / 2))) = (-ξ, (S.L + S.h) / 2) := by ext <;> simp
      have Lp := level_hullHull (s := 1) hw hh hW hL (.inl rfl) (by rw [hD]; simp only; linarith)
        (by rw [hD]; simp only; linarith) (by rw [hD]; simp only [abs_neg]; linarith)
        (by rw [hD]; simp only [abs_neg]; linarith) hr
      rw [hD] at Lp
      obtain ⟨La, Ll, Lr⟩ := Lp
      rw [max_eq_left (by simp only; linarith)] at Ll
      rw [min_eq_left (by simp only; linarith)] at Lr
      have key : ∀ p ∈ r.2, S.Touches (-p.p1.1)
          { normal := (p.turned S.θ).normal, p1 := (p.turned S.θ).p1, p2 := (p.turned S.θ).p2, pen := (p.turned S.θ).pen,
            i1 := 1, i2 := 0, nan := (p.turned S.θ).nan } := by
        intro p hp
        obtain ⟨a1, a2, a3, a4, a5, a6⟩ := La p hp
        refine ⟨?_, a2, .inl ⟨rfl, rfl, ?_, ?_⟩⟩
        · show p.pen = 0
          rw [a3]; ring
        · show rot S.θ p.normal = _
          rw [a1, hn]
        · show rot S.θ p.p1 = _
          rw [show p.p1 = (p.p1.1, S.h / 2) by ext; rfl; rw [a4]; ring, rot_arm]
      simp only [List.map_map]
      refine ⟨?_, ?_, ?_⟩
      · intro c hc
        obtain ⟨p, hp, rfl⟩ := List.mem_map.1 hc
        obtain ⟨a1, a2, a3, a4, a5, a6, a7⟩ := La p hp
        refine ⟨_, ?_, key p hp⟩
        rw [abs_neg, abs_le]
        exact ⟨(le_max_left _ _).trans a6, a7.trans (min_le_left _ _)⟩
      · obtain ⟨p, hp, e⟩ := Lr
        have := key p hp
        rw [e] at this
        exact ⟨_, List.mem_map.2 ⟨p, hp, rfl⟩, this⟩
      · obtain ⟨p, hp, e⟩ := Ll
        have := key p hp
        rw [e, neg_neg] at this
        exact ⟨_, List.mem_map.2 ⟨p, hp, rfl⟩, this⟩
  · obtain ⟨f', pts, hc, rfl⟩ := pair_hulls c0 c1 h
    rw [v0, v1, p0, p1] at hc
    have hf := hullHull_frame S.frame 0 eps 0 (ξ, -((S.L + S.h) / 2)) (levelBox S.W S.L) (levelBox S.w S.h) 0 1 g
    change hullHull eps _ _ ((levelBox S.W S.L).map (rot S.θ)) ((levelBox S.w S.h).map (rot S.θ)) 0 1 g = _ at hf
    rw [hf] at hc
    cases hr : hullHull eps 0 (ξ, -((S.L + S.h) / 2)) (levelBox S.W S.L) (levelBox S.w S.h) 0 1 g with
    | error e => rw [hr] at hc; cases hc
    | ok r =>
      rw [hr] at hc
      simp only [Except.map] at hc
      injection hc with hc
      obtain ⟨-, rfl⟩ := Prod.mk.inj hc
      have hD : (((ξ, -((S.L + S.h) / 2)) : V2) - 0) = (ξ, -((S.L + S.h) / 2)) := by simp
      have Lp := level_hullHull (s := -1) hW hL hw hh (.inr rfl) (by rw [hD]; simp only; linarith)
        (by rw [hD]; simp only; linarith) (by rw [hD]; simp only; linarith)
        (by rw [hD]; simp only; linarith) hr
      rw [hD] at Lp
      obtain ⟨La, Ll, Lr⟩ := Lp
      rw [max_eq_right (by simp only; linarith)] at Ll
      rw [min_eq_right (by simp only; linarith)] at Lr
      simp only at Ll Lr
      have key : ∀ p ∈ r.2, S.Touches (-(p.p1.1 - ξ))
          { normal := (p.turned S.θ).normal, p1 := (p.turned S.θ).p1, p2 := (p.turned S.θ).p2, pen := (p.turned S.θ).pen,
            i1 := 0, i2 := 1, nan := (p.turned S.θ).nan } := by
        intro p hp
        obtain ⟨a1, a2, a3, a4, a5, a6⟩ := La p hp
        refine ⟨?_, a2, .inr ⟨rfl, rfl, ?_, ?_⟩⟩
        · show p.pen = 0
          rw [a3]; ring
        · show rot S.θ p.normal = _
          rw [a1, neg_neg, hn']
        · show rot S.θ p.p2 = _
          rw [show p.p2 = (p.p1.1 - ξ, S.h / 2) by
            rw [a5]; ext
            · rfl
            · simp only [Prod.snd_sub, a4]; ring, rot_arm]
      simp only [List.map_map]
      refine ⟨?_, ?_, ?_⟩
      · intro c hc
        obtain ⟨p, hp, rfl⟩ := List.mem_map.1 hc
        obtain ⟨a1, a2, a3, a4, a5, a6, a7⟩ := La p hp
        refine ⟨_, ?_, key p hp⟩
        have b1 := (le_max_right _ _).trans a6
        have b2 := a7.trans (min_le_right _ _)
        simp only at b1 b2
        rw [abs_neg, abs_le]
        constructor <;> linarith
      · obtain ⟨p, hp, e⟩ := Lr
        have := key p hp
        rw [e, add_sub_cancel_left] at this
        exact ⟨_, List.mem_map.2 ⟨p, hp, rfl⟩, this⟩
      · obtain ⟨p, hp, e⟩ := Ll
        have := key p hp
        rw [e, show -(ξ - S.w / 2 - ξ) = S.w / 2 by ring] at this
        exact ⟨_, List.mem_map.2 ⟨p, hp, rfl⟩, this⟩

/-- The broad phase presents the two. -/
theorem ramp_presented (hS : S.Valid) {pairs : List Body → List (ℕ × ℕ)} (hp : BroadPhase pairs) {bs : List Body}
    (hP : Posed S.bodies bs) (h0 : (bodyAt bs 0).p = S.plane.p) {ξ : ℝ} (h1 : (bodyAt bs 1).p = S.pose ξ)
    (hroom : S.Room ξ) : (0, 1) ∈ pairs bs ∨ (1, 0) ∈ pairs bs := by
  obtain ⟨⟨v0, p0, c0, a0, e0⟩, v1, p1, c1, a1, e1⟩ := ramp_at hS hP h0 h1
  have hw := hS.w
  have hh := hS.h
  have hL := hS.L
  have hl : bs.length = 2 := hP.1
  refine hp.complete bs 0 1 (by omega) (by omega) (by omega) ?_
  have hx0 : S.frame.point 0 (ξ, -(S.L / 2)) ∈ bodyRegion (bodyAt bs 0) := by
    rw [(alive_verts a0 c0).2, v0, p0, point_sub]
    change _ ∈ solid ((rectCorners (S.W, S.L)).map (rot S.θ))
    rw [corners_solid (S.W, S.L) hS.W hS.L]
    refine ⟨_, ⟨?_, ?_⟩, rfl⟩
    · simp only [sub_zero]
      unfold RampScene.Room at hroom
      linarith
    · simp only [sub_zero, abs_neg]
      rw [abs_of_pos (by linarith)]
  have hx1 : S.frame.point 0 (ξ, -(S.L / 2)) ∈ bodyRegion (bodyAt bs 1) := by
    rw [(alive_verts a1 c1).2, v1, p1, point_sub]
    change _ ∈ solid ((rectCorners (S.w, S.h)).map (rot S.θ))
    rw [corners_solid (S.w, S.h) hS.w hS.h]
    refine ⟨_, ⟨?_, ?_⟩, rfl⟩
    · simp only [Prod.fst_sub, sub_self, abs_zero]
      linarith
    · simp only [Prod.snd_sub]
      rw [show -(S.L / 2) - -((S.L + S.h) / 2) = S.h / 2 by ring, abs_of_pos (by linarith)]
  have f0 : 0 ≤ (bodyAt bs 0).eps := by rw [e0]; exact hS.epsf
  have f1 : 0 ≤ (bodyAt bs 1).eps := by rw [e1]; exact hS.epsb
  refine (C09_near_bodies_overlap _ _ a0 a1 f0 f1 _ hx0 _ hx1 ?_).2
  unfold Spec.dist
  simp [len]
  linarith

/-- What the search reports while the box lies on the plane. -/
theorem ramp_search (hS : S.Valid) {pairs : List Body → List (ℕ × ℕ)} (hp : BroadPhase pairs) {bs : List Body}
    (hP : Posed S.bodies bs) (h0 : (bodyAt bs 0).p = S.plane.p) {ξ : ℝ} (h1 : (bodyAt bs 1).p = S.pose ξ)
    (hroom : S.Room ξ) {fuel : ℕ} {eps : ℝ} (heps : 0 ≤ eps) {f f' : Finder} {cs : List Contact}
    (h : rejectNan (diffCollide fuel (fun _ => []) pairs) eps f bs = .ok (f', cs)) : S.Carried cs := by
  have hall := rejectNan_diff h
  have hl : bs.length = 2 := hP.1
  have hsome : ∃ p ∈ pairs bs, p = (1, 0) ∨ p = (0, 1) := by
    rcases ramp_presented hS hp hP h0 h1 hroom with hm | hm
    · exact ⟨_, hm, .inr rfl⟩
    · exact ⟨_, hm, .inl rfl⟩
  obtain ⟨p, hm, hpe⟩ := hsome
  obtain ⟨g, g', cs', hh, hsub⟩ := handleAll_handled hall _ hm (by simp)
  have hc := ramp_pair hS hP h0 h1 hroom heps (by rcases hpe with rfl | rfl <;> simp) hh
  refine ⟨?_, ?_, ?_⟩
  · intro c hcm
    obtain ⟨q, hq, g, g', cs', -, hh, hc'⟩ := handleAll_mem hall c hcm
    obtain ⟨v1, v2, v3⟩ := hp.valid bs q hq
    rw [hl] at v1 v2
    exact (ramp_pair hS hP h0 h1 hroom heps (by omega) hh).all c hc'
  · obtain ⟨c, hc, ht⟩ := hc.left
    exact ⟨c, hsub c hc, ht⟩
  · obtain ⟨c, hc, ht⟩ := hc.right
    exact ⟨c, hsub c hc, ht⟩

/-- The search returns wherever the two bodies are. -/
theorem ramp_searches (hS : S.Valid) {pairs : List Body → List (ℕ × ℕ)} (hp : BroadPhase pairs)
    {bs : List Body} (hb : Posed S.bodies bs) {cfuel : ℕ} (hcf : 66 ≤ cfuel) (eps : ℝ) (f : Finder) :
    ∃ r, rejectNan (diffCollide cfuel (fun _ => []) pairs) eps f bs = .ok r := by
  have hW := hS.W
  have hL := hS.L
  have hw := hS.w
  have hh := hS.h
  have hlen : ∀ x y : ℝ, 0 < x → 0 < y → x + y ≤ 10 ^ 9 → len (x, y) ≤ 10 ^ 9 := by
    intro x y hx hy hxy
    unfold len
    apply Real.sqrt_le_iff.2
    exact ⟨by norm_num, by nlinarith⟩
  have hat : ∀ b ∈ bs, (∃ ops, b = S.plane.run ops) ∨ ∃ ops, b = S.box.run ops := by
    intro b hb'
    obtain ⟨i, hi, rfl⟩ := List.getElem_of_mem hb'
    have hbi : bs[i] = bodyAt bs i := by simp [bodyAt, List.getD_eq_getElem?_getD, hi]
    rw [hb.1] at hi
    obtain ⟨ops, ho⟩ := hb.2 i hi
    have hi : i < 2 := hi
    interval_cases i
    · exact .inl ⟨ops, by rw [hbi, ho]; rfl⟩
    · exact .inr ⟨ops, by rw [hbi, ho]; rfl⟩
  have hv := fun p hm => hp.valid bs p hm
  have hs := hS.size
  rw [C12_hulls_never_nan cfuel _ pairs eps f bs (fun p hm => ⟨(hv p hm).1, (hv p hm).2.1⟩)]
  · refine C94_search_total cfuel hcf _ pairs eps f bs (fun p hm => ⟨(hv p hm).1, (hv p hm).2.1⟩) ?_
    intro b hb'
    rcases hat b hb' with ⟨ops, rfl⟩ | ⟨ops, rfl⟩
    · exact .inr ⟨_, _, _, _, ops, plane_built hS, rfl, hlen _ _ hW hL (by linarith)⟩
    · exact .inr ⟨_, _, _, _, ops, box_built hS, rfl, hlen _ _ hw hh (by linarith)⟩
  · intro b hb'
    rcases hat b hb' with ⟨ops, rfl⟩ | ⟨ops, rfl⟩
    · rw [run_shape]; rfl
    · rw [run_shape]; rfl

end LcpPhysics
