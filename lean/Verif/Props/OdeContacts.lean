import Verif.Spec.Ode
import Verif.Props.CircleWorld

/-!
# C81: the ODE contact handler and the differentiable one
-/

noncomputable section

namespace LcpPhysics
open Spec

open Classical in
/-- C81: if no depth is negative the handler appends exactly the contacts with `z ≤ 0`, in order, with
`2 eps` taken off the depth. -/
theorem C81_loop (eps : ℝ) (bs : List Body) : ∀ cs : List OdeContact, (∀ c ∈ cs, 0 ≤ c.depth) →
    odeLoop eps bs cs = (cs.filter fun c => c.point.2.2 ≤ 0).map fun c =>
      { normal := (c.normal.1, c.normal.2.1),
        p1 := (c.point.1, c.point.2.1) - (bodyAt bs c.i1).geom.pos,
        p2 := (c.point.1, c.point.2.1) - (bodyAt bs c.i2).geom.pos,
        pen := c.depth - 2 * eps, i1 := c.i1, i2 := c.i2 }
  | [], _ => rfl
  | c :: cs, h => by
    have ih := C81_loop eps bs cs fun x hx => h x (by simp [hx])
    have hc := h c (by simp)
    unfold odeLoop
    by_cases hz : 0 < c.point.2.2
    · rw [if_pos hz, ih, List.filter_cons_of_neg (by simpa using hz)]
    · rw [if_neg hz, if_neg (by linarith), ih, List.filter_cons_of_pos (by simpa using hz)]
      rfl

/-- C81: one contact with negative depth hides all contacts after it. -/
theorem C81_negative_depth_hides (eps : ℝ) (bs : List Body) (c : OdeContact) (cs cs' : List OdeContact)
    (hz : c.point.2.2 ≤ 0) (hd : c.depth < 0) : odeLoop eps bs (c :: cs) = odeLoop eps bs (c :: cs') := by
  unfold odeLoop
  rw [if_neg (not_lt.2 hz), if_pos (by linarith), if_neg (not_lt.2 hz), if_pos (by linarith)]

/-- The geometry of a circle during its life. -/
theorem circle_geom {b : Body} (ha : Alive b) (hc : b.isCircle = true) :
    b.geom.kind = .sphere (b.rad + b.eps) ∧ b.geom.pos = b.pos := by
  obtain ⟨b0, ops, hb, rfl⟩ := ha
  cases hb with
  | circle pos rad a =>
    have hs : ((mkCircle pos rad a).run ops).shape = .circle rad := run_circle _ rfl ops
    have hk : ((mkCircle pos rad a).run ops).geom.kind = .sphere (rad + a.eps) := run_geomKind _ ops
    have hp := run_geom_pos (mkCircle pos rad a) rfl ops
    have he : ((mkCircle pos rad a).run ops).eps = a.eps := run_eps _ ops
    refine ⟨?_, hp⟩
    rw [hk, he]
    unfold Body.rad
    rw [hs]
  | hull ref vs a _ h =>
    obtain ⟨_, _, _, hs, -⟩ := mkHull_ok h
    obtain ⟨ws, hws⟩ := run_hull b0 ⟨_, hs⟩ ops
    unfold Body.isCircle at hc
    rw [hws] at hc
    simp at hc
  | rect pos dims a _ h h1 h2 =>
    obtain ⟨d, ws, hws⟩ := run_rect b0 (mkRect_shape h).1 ops
    unfold Body.isCircle at hc
    rw [hws] at hc
    simp at hc

/-- What the ODE handler reports on two circles that are not concentric. -/
theorem odeLoop_circles {eps : ℝ} {bs : List Body} {collide : ℕ → ℕ → List OdeContact}
    (hcol : CollidesSpheres bs collide) {i j : ℕ} (hi : i < bs.length) (hj : j < bs.length)
    (hb : ∀ k < bs.length, Alive (bodyAt bs k) ∧ (bodyAt bs k).isCircle = true ∧ (bodyAt bs k).eps = eps)
    (hd : 0 < Spec.dist (bodyAt bs i).pos (bodyAt bs j).pos) :
    odeLoop eps bs (collide i j) =
      (circleCircle (2 * eps) (bodyAt bs i).rad (bodyAt bs j).rad (bodyAt bs i).pos (bodyAt bs j).pos).map
        fun q => { normal := q.normal, p1 := q.p1, p2 := q.p2, pen := q.pen, i1 := i, i2 := j, nan := q.nan } := by
  obtain ⟨hk1, hp1⟩ := circle_geom (hb i hi).1 (hb i hi).2.1
  obtain ⟨hk2, hp2⟩ := circle_geom (hb j hj).1 (hb j hj).2.1
  have h := hcol i hi j hj _ _ hk1 hk2
  rw [(hb i hi).2.2, (hb j hj).2.2, hp1, hp2] at h
  set c1 := (bodyAt bs i).pos with hc1
  set c2 := (bodyAt bs j).pos with hc2
  have hn : nrm (c1 - c2) = Spec.dist c1 c2 := by
    unfold nrm Spec.dist Spec.len; congr 1; ring
  set d := Spec.dist c1 c2 with hdd
  set r1 := (bodyAt bs i).rad
  set r2 := (bodyAt bs j).rad
  unfold circleCircle
  simp only [hn]
  by_cases hap : r1 + eps + (r2 + eps) < d
  · rw [h.apart hap, if_pos (by linarith)]
    rfl
  · obtain ⟨n, hn, hcs⟩ := h.touching hd (not_lt.1 hap)
    have hcs := hcs
    rw [hcs, if_neg (by linarith)]
    have hn' : n = (1 / d) • (c1 - c2) := by
      rw [← hn, smul_smul, one_div, inv_mul_cancel₀ hd.ne', one_smul]
    have hdn : c2 = c1 - d • n := by rw [hn]; abel
    unfold odeLoop
    rw [if_neg (by simp), if_neg (by simp only; linarith)]
    simp only [List.map_cons, List.map_nil]
    rw [← hn']
    unfold odeLoop
    have hne : decide (d = 0) = false := by simpa using hd.ne'
    rw [hp1, hp2, hne]
    congr 1
    have e1 : c1 + ((r2 + eps - (r1 + eps) - d) / 2) • n - c1 = (r1 - (r1 + r2 - d) / 2) • -n := by
      ext <;> simp <;> ring
    have e2 : c1 + ((r2 + eps - (r1 + eps) - d) / 2) • n - c2 = (r2 - (r1 + r2 - d) / 2) • n := by
      rw [hdn]; ext <;> simp <;> ring
    congr 1
    · ring

open Classical in
/-- C81: on circles whose own contact distance is the world's, and none of which are concentric, the differentiable
handler reports exactly those contacts of the ODE handler whose penetration is at least `-eps`: the same normal,
arms, penetration and bodies, in the same order. -/
theorem C81_circles_agree (fuel : ℕ) (nc : ℕ → List ℕ) (eps : ℝ) (heps : 0 ≤ eps) (bs : List Body)
    (collide : ℕ → ℕ → List OdeContact) (hcol : CollidesSpheres bs collide)
    (hb : ∀ k < bs.length, Alive (bodyAt bs k) ∧ (bodyAt bs k).isCircle = true ∧ (bodyAt bs k).eps = eps)
    (ps : List (ℕ × ℕ)) (f : Finder)
    (hps : ∀ p ∈ ps, p.1 < bs.length ∧ p.2 < bs.length ∧ 0 < Spec.dist (bodyAt bs p.1).pos (bodyAt bs p.2).pos) :
    handleAll fuel nc eps bs ps f =
      .done (f, (odeFind nc eps bs collide ps).filter fun c => -eps ≤ c.pen) := by
  rw [handleAll_circles (fun i hi => (hb i hi).2.1) ps f fun p hp => ⟨(hps p hp).1, (hps p hp).2.1⟩]
  congr 2
  unfold circleContacts odeFind
  rw [List.filter_flatMap]
  refine List.flatMap_congr fun p hp => ?_
  obtain ⟨h1, h2, h3⟩ := hps p hp
  unfold odeHandle
  split_ifs with hx
  · rfl
  · rw [odeLoop_circles hcol h1 h2 hb h3]
    unfold circleCircle
    simp only
    by_cases hq : (bodyAt bs p.1).rad + (bodyAt bs p.2).rad - nrm ((bodyAt bs p.1).pos - (bodyAt bs p.2).pos) < -eps
    · rw [if_pos hq]
      by_cases hq2 : (bodyAt bs p.1).rad + (bodyAt bs p.2).rad -
          nrm ((bodyAt bs p.1).pos - (bodyAt bs p.2).pos) < -(2 * eps)
      · rw [if_pos hq2]; rfl
      · rw [if_neg hq2]
        simp only [List.map_cons, List.map_nil]
        rw [List.filter_cons_of_neg (by simp only [decide_eq_true_eq]; linarith)]
        rfl
    · rw [if_neg hq, if_neg (by linarith)]
      simp only [List.map_cons, List.map_nil]
      rw [List.filter_cons_of_pos (by simpa using hq)]
      rfl

/-- C81: the ODE handler reports circles already at twice the contact distance. -/
theorem C81_ode_reports_earlier (nc : ℕ → List ℕ) (eps : ℝ) (bs : List Body)
    (collide : ℕ → ℕ → List OdeContact) (hcol : CollidesSpheres bs collide)
    (hb : ∀ k < bs.length, Alive (bodyAt bs k) ∧ (bodyAt bs k).isCircle = true ∧ (bodyAt bs k).eps = eps)
    (i j : ℕ) (hi : i < bs.length) (hj : j < bs.length) (hx : i ∉ nc j)
    (hd : 0 < Spec.dist (bodyAt bs i).pos (bodyAt bs j).pos) :
    odeHandle nc eps bs collide i j ≠ [] ↔ -(2 * eps) ≤ overlapDepth (bodyAt bs i) (bodyAt bs j) := by
  unfold odeHandle
  rw [if_neg hx, odeLoop_circles hcol hi hj hb hd]
  have hn : nrm ((bodyAt bs i).pos - (bodyAt bs j).pos) = Spec.dist (bodyAt bs i).pos (bodyAt bs j).pos := by
    unfold nrm Spec.dist Spec.len; congr 1; ring
  unfold circleCircle overlapDepth
  simp only [hn]
  split_ifs with h
  · simp only [List.map_nil, ne_eq, not_true_eq_false, false_iff, not_le]; linarith
  · simp only [List.map_cons, List.map_nil, ne_eq, List.cons_ne_nil, not_false_eq_true, true_iff]; linarith

/-- C81: on concentric circles the ODE handler reports a contact along the `x` axis, while the differentiable handler
divides zero by zero. -/
theorem C81_concentric (fuel : ℕ) (nc : ℕ → List ℕ) (eps : ℝ) (heps : 0 ≤ eps) (bs : List Body) (f : Finder)
    (collide : ℕ → ℕ → List OdeContact) (hcol : CollidesSpheres bs collide)
    (hb : ∀ k < bs.length, Alive (bodyAt bs k) ∧ (bodyAt bs k).isCircle = true ∧ (bodyAt bs k).eps = eps)
    (i j : ℕ) (hi : i < bs.length) (hj : j < bs.length) (hx : i ∉ nc j)
    (r1 : 0 ≤ (bodyAt bs i).rad) (r2 : 0 ≤ (bodyAt bs j).rad)
    (hd : Spec.dist (bodyAt bs i).pos (bodyAt bs j).pos = 0) :
    (∃ c, odeHandle nc eps bs collide i j = [c] ∧ c.normal = (1, 0) ∧ c.nan = false ∧
      c.pen = overlapDepth (bodyAt bs i) (bodyAt bs j)) ∧
    ∃ c, handle fuel nc eps bs f i j = .done (f, [c]) ∧ c.nan = true := by
  obtain ⟨hk1, hp1⟩ := circle_geom (hb i hi).1 (hb i hi).2.1
  obtain ⟨hk2, hp2⟩ := circle_geom (hb j hj).1 (hb j hj).2.1
  have h := hcol i hi j hj _ _ hk1 hk2
  rw [(hb i hi).2.2, (hb j hj).2.2, hp1, hp2] at h
  have hn : nrm ((bodyAt bs i).pos - (bodyAt bs j).pos) = Spec.dist (bodyAt bs i).pos (bodyAt bs j).pos := by
    unfold nrm Spec.dist Spec.len; congr 1; ring
  constructor
  · unfold odeHandle
    rw [if_neg hx, h.concentric hd (by linarith)]
    unfold odeLoop
    rw [if_neg (by simp), if_neg (by simp only; linarith)]
    unfold odeLoop
    refine ⟨_, rfl, rfl, rfl, ?_⟩
    unfold overlapDepth
    rw [hd]
    simp only
    ring
  · unfold handle handlePair circleCircle
    rw [if_neg hx]
    simp only
    rw [if_pos ⟨(hb i hi).2.1, (hb j hj).2.1⟩, hn, hd, if_neg (by linarith)]
    refine ⟨_, rfl, ?_⟩
    simp

open Classical in
/-- The documented collision of two spheres as a function. -/
def sphereCollide (bs : List Body) (i j : ℕ) : List OdeContact :=
  match (bodyAt bs i).geom.kind, (bodyAt bs j).geom.kind with
  | .sphere r1, .sphere r2 =>
    let c1 := (bodyAt bs i).geom.pos
    let c2 := (bodyAt bs j).geom.pos
    let d := Spec.dist c1 c2
    if r1 + r2 < d then []
    else if d = 0 then [{ point := (c1.1, c1.2, 0), normal := (1, 0, 0), depth := r1 + r2, i1 := i, i2 := j }]
    else
      let n : V2 := (1 / d) • (c1 - c2)
      let m : V2 := c1 + ((r2 - r1 - d) / 2) • n
      [{ point := (m.1, m.2, 0), normal := (n.1, n.2, 0), depth := r1 + r2 - d, i1 := i, i2 := j }]
  | _, _ => []

theorem sphereCollide_spec (bs : List Body) : CollidesSpheres bs (sphereCollide bs) := by
  intro i _ j _ r1 r2 h1 h2
  unfold sphereCollide
  rw [h1, h2]
  simp only
  refine ⟨fun h => if_pos h, fun h h' => ⟨(1 / Spec.dist (bodyAt bs i).geom.pos (bodyAt bs j).geom.pos) •
    ((bodyAt bs i).geom.pos - (bodyAt bs j).geom.pos), ?_, ?_⟩, fun h h' => ?_⟩
  · rw [smul_smul, mul_one_div_cancel h.ne', one_smul]
  · rw [if_neg (not_lt.2 h'), if_neg h.ne']
  · rw [if_neg (by rw [h]; linarith), if_pos h]

/-- Three circles in a row: the first two overlap, the third is within twice the contact distance of the second. -/
def rowCircles : List Body :=
  [mkCircle (.two (0, 0)) 1 { eps := 1 / 10 }, mkCircle (.two (3 / 2, 0)) 1 { eps := 1 / 10 },
    mkCircle (.two (3 / 2 + 43 / 20, 0)) 1 { eps := 1 / 10 }]

theorem rowCircles_ok : ∀ k < rowCircles.length, Alive (bodyAt rowCircles k) ∧
    (bodyAt rowCircles k).isCircle = true ∧ (bodyAt rowCircles k).eps = 1 / 10 := by
  intro k hk
  have hk : k < 3 := hk
  interval_cases k <;> exact ⟨⟨_, [], .circle _ _ _, rfl⟩, rfl, rfl⟩

theorem rowCircles_dist : Spec.dist (bodyAt rowCircles 0).pos (bodyAt rowCircles 1).pos = 3 / 2 ∧
    Spec.dist (bodyAt rowCircles 1).pos (bodyAt rowCircles 2).pos = 43 / 20 := by
  have h : ∀ x y : ℝ, Spec.dist ((x, 0) : ℝ × ℝ) (y, 0) = |x - y| := by
    intro x y
    unfold Spec.dist Spec.len
    simp [Real.sqrt_sq_eq_abs]
  constructor
  · change Spec.dist ((0, 0) : ℝ × ℝ) (3 / 2, 0) = _
    rw [h]; norm_num [abs_of_neg]
  · change Spec.dist ((3 / 2, 0) : ℝ × ℝ) (3 / 2 + 43 / 20, 0) = _
    rw [h]; norm_num [abs_of_neg]

/-- Example for C81: the hypotheses hold; the ODE handler reports the near pair, the differentiable one does not. -/
example (f : Finder) :
    (∃ cs, handleAll 5 (fun _ => []) (1 / 10) rowCircles [(0, 1), (1, 2)] f = .done (f, cs)) ∧
    odeHandle (fun _ => []) (1 / 10) rowCircles (sphereCollide rowCircles) 0 1 ≠ [] ∧
    odeHandle (fun _ => []) (1 / 10) rowCircles (sphereCollide rowCircles) 1 2 ≠ [] := by
  obtain ⟨h1, h2⟩ := rowCircles_dist
  have l0 : 0 < rowCircles.length := by decide
  have l1 : 1 < rowCircles.length := by decide
  have l2 : 2 < rowCircles.length := by decide
  refine ⟨⟨_, C81_circles_agree 5 _ _ (by norm_num) _ _ (sphereCollide_spec rowCircles) rowCircles_ok _ f ?_⟩, ?_, ?_⟩
  · intro p hp
    simp only [List.mem_cons, List.not_mem_nil, or_false] at hp
    rcases hp with rfl | rfl
    · exact ⟨l0, l1, by rw [h1]; norm_num⟩
    · exact ⟨l1, l2, by rw [h2]; norm_num⟩
  · rw [C81_ode_reports_earlier _ _ _ _ (sphereCollide_spec rowCircles) rowCircles_ok 0 1 l0 l1 (by simp)
      (by rw [h1]; norm_num)]
    unfold overlapDepth
    rw [h1]
    change _ ≤ (1 : ℝ) + 1 - 3 / 2
    norm_num
  · rw [C81_ode_reports_earlier _ _ _ _ (sphereCollide_spec rowCircles) rowCircles_ok 1 2 l1 l2 (by simp)
      (by rw [h2]; norm_num)]
    unfold overlapDepth
    rw [h2]
    change _ ≤ (1 : ℝ) + 1 - 43 / 20
    norm_num

/-- Example for `C81_loop`: a box resting on a box, each corner reported on both faces `z = ±1/2`. -/
example : (odeLoop (1 / 10) rowCircles
    [{ point := (0, 0, -1 / 2), normal := (0, 1, 0), depth := 1 / 5, i1 := 0, i2 := 1 },
      { point := (0, 0, 1 / 2), normal := (0, 1, 0), depth := 1 / 5, i1 := 0, i2 := 1 },
      { point := (1, 0, -1 / 2), normal := (0, 1, 0), depth := 1 / 5, i1 := 0, i2 := 1 }]).length = 2 := by
  rw [C81_loop _ _ _ (by intro c hc; simp at hc; rcases hc with rfl | rfl | rfl <;> norm_num)]
  norm_num

/-- Example for `C81_concentric`. -/
example (f : Finder) : ∃ c, handle 5 (fun _ => []) (1 / 10) rowCircles f 1 1 = .done (f, [c]) ∧ c.nan = true := by
  have l1 : 1 < rowCircles.length := by decide
  have hr : (bodyAt rowCircles 1).rad = 1 := rfl
  exact (C81_concentric 5 (fun _ => []) (1 / 10) (by norm_num) rowCircles f _ (sphereCollide_spec rowCircles) rowCircles_ok 1 1
    l1 l1 (by simp) (by rw [hr]; norm_num) (by rw [hr]; norm_num) (Spec.dist_self _)).2

/-- Example for `C81_negative_depth_hides`: a point of negative depth on the lower face hides the touching point after it. -/
example : odeLoop (1 / 10) rowCircles
    [{ point := (0, 0, -1 / 2), normal := (0, 1, 0), depth := -1 / 100, i1 := 0, i2 := 1 },
      { point := (1, 0, -1 / 2), normal := (0, 1, 0), depth := 1 / 5, i1 := 0, i2 := 1 }] =
    odeLoop (1 / 10) rowCircles
      [{ point := (0, 0, -1 / 2), normal := (0, 1, 0), depth := -1 / 100, i1 := 0, i2 := 1 }] :=
  C81_negative_depth_hides _ _ _ _ _ (by norm_num) (by norm_num)

end LcpPhysics
