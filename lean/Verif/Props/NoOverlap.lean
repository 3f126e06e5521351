import Verif.Spec.Overlap
import Verif.Spec.Play
import Verif.Props.CircleWorld
import Verif.Props.Deep
import Verif.Props.RectContact

/-!
# C86: what a contact search without deep contacts says about the bodies

Circles, rectangles and circles against convex hulls. Two hulls that are not both rectangles are left out:
for them the reported points need not measure the overlap, see C67.
-/

noncomputable section

namespace LcpPhysics
open Spec

/-! ## Convex polygons moved rigidly -/

theorem rot_sub_det (θ : ℝ) (c a b d e : V2) :
    Spec.det (rot θ (a - c) - rot θ (b - c)) (rot θ (d - c) - rot θ (e - c)) = Spec.det (a - b) (d - e) := by
  have h : ∀ x y : V2, rot θ (x - c) - rot θ (y - c) = rot θ (x - y) := by
    intro x y; ext <;> simp [rot] <;> ring
  rw [h, h, rot_det]

theorem moved_getD (θ : ℝ) (c : V2) (vs : List V2) (i : ℕ) (hi : i < vs.length) :
    ((vs.map fun v => v - c).map (rot θ)).getD i 0 = rot θ (vs.getD i 0 - c) := by
  simp [List.getD_eq_getElem?_getD, hi]

theorem inner_outward_det (e d : V2) : Spec.inner (outward e) d = -Spec.det e d := by
  simp [Spec.inner, outward, Spec.det]; ring

theorem convex_moved (θ : ℝ) (c : V2) {vs : List V2} (h : ConvexPolygon vs) :
    ConvexPolygon ((vs.map fun v => v - c).map (rot θ)) := by
  have hl : ((vs.map fun v => v - c).map (rot θ)).length = vs.length := by simp
  have h3 := h.three
  have hlt : ∀ i, (i + 1) % vs.length < vs.length := fun i => Nat.mod_lt _ (by omega)
  have he : ∀ i < vs.length, edgeVec ((vs.map fun v => v - c).map (rot θ)) i = rot θ (edgeVec vs i) := by
    intro i hi
    unfold edgeVec
    rw [hl, moved_getD _ _ _ _ (hlt i), moved_getD _ _ _ _ hi]
    ext <;> simp [rot] <;> ring
  refine ⟨by omega, fun i hi h0 => ?_, fun i hi w hw => ?_⟩
  · rw [hl] at hi
    rw [he i hi] at h0
    refine h.edge_ne i hi ?_
    have h1 : len (rot θ (edgeVec vs i)) = 0 := by rw [h0]; simp [len]
    rw [rot_len] at h1
    exact len_eq_zero.1 h1
  · rw [hl] at hi
    simp only [List.mem_map, exists_exists_and_eq_and] at hw
    obtain ⟨v, hv, rfl⟩ := hw
    have := h.inside i hi v hv
    rw [inner_outward_det] at this ⊢
    rw [moved_getD _ _ _ _ hi]
    unfold edgeVec at this ⊢
    rw [hl, moved_getD _ _ _ _ (hlt i), moved_getD _ _ _ _ hi, rot_sub_det]
    exact this

theorem noThree_moved (θ : ℝ) (c : V2) {vs : List V2} (h : NoThreeCollinear vs) :
    NoThreeCollinear ((vs.map fun v => v - c).map (rot θ)) := by
  intro i j k hi hj hk hij hjk hik
  simp only [List.length_map] at hi hj hk
  rw [moved_getD _ _ _ _ hi, moved_getD _ _ _ _ hj, moved_getD _ _ _ _ hk, rot_sub_det]
  exact h i j k hi hj hk hij hjk hik

/-! ## The kinds of bodies -/

theorem discBody_facts {t : ℝ} {b : Body} (h : DiscBody t b) : Alive b ∧ b.isCircle = true ∧ t < b.rad := by
  obtain ⟨pos, rad, a, ops, hr, rfl⟩ := h
  have hs : ((mkCircle pos rad a).run ops).shape = .circle rad := run_circle (mkCircle pos rad a) rfl ops
  exact ⟨⟨_, ops, .circle pos rad a, rfl⟩, by rw [Body.isCircle, hs], by rw [Body.rad, hs]; exact hr⟩

theorem convexBody_facts {b : Body} (h : ConvexBody b) :
    Alive b ∧ b.isCircle = false ∧ ConvexPolygon b.verts ∧ NoThreeCollinear b.verts := by
  obtain ⟨ref, vs, a, b0, ops, hb, h1, h2, rfl⟩ := h
  refine ⟨⟨_, ops, .hull ref vs a b0 hb, rfl⟩, ?_, ?_, ?_⟩
  · have hv := C05_hull_rigid ref vs a b0 hb ops
    have : (b0.run ops).verts ≠ [] := by
      rw [hv]
      have h3 := h1.three
      intro h0
      have h4 := congrArg List.length h0
      simp only [List.length_map, List.length_nil] at h4
      omega
    unfold Body.verts at this
    unfold Body.isCircle
    cases hs : (b0.run ops).shape with
    | circle r => rw [hs] at this; exact absurd rfl this
    | hull vs => rfl
    | rect d vs => rfl
  · rw [C05_hull_rigid ref vs a b0 hb ops]; exact convex_moved _ _ h1
  · rw [C05_hull_rigid ref vs a b0 hb ops]; exact noThree_moved _ _ h2

theorem boxBody_facts {b : Body} (h : BoxBody b) :
    Alive b ∧ b.isCircle = false ∧ ConvexPolygon b.verts ∧ NoThreeCollinear b.verts := by
  obtain ⟨pos, dims, a, b0, ops, hb, h1, h2, -, rfl⟩ := h
  have hf := rot_rectForm (mul_pos h1 h2) (b0.run ops).rot
  rw [← C05_rect_rigid pos dims a b0 hb ops] at hf
  refine ⟨⟨_, ops, .rect pos dims a b0 hb h1 h2, rfl⟩, ?_, rect_convex hf, rect_noThreeCollinear hf⟩
  have := rect_length hf
  unfold Body.verts at this
  unfold Body.isCircle
  cases hs : (b0.run ops).shape with
  | circle r => rw [hs] at this; simp at this
  | hull vs => rfl
  | rect d vs => rfl

theorem measured_comm {t : ℝ} {b1 b2 : Body} (h : Measured t b1 b2) : Measured t b2 b1 := by
  rcases h with ⟨a, b⟩ | ⟨a, b⟩ | ⟨a, b⟩
  · exact .inr (.inl ⟨b, a⟩)
  · exact .inl ⟨b, a⟩
  · exact .inr (.inr ⟨b, a⟩)

theorem measured_alive {t : ℝ} {b1 b2 : Body} (h : Measured t b1 b2) : Alive b1 ∧ Alive b2 := by
  have k : ∀ {b : Body}, (DiscBody t b ∨ ConvexBody b ∨ BoxBody b) → Alive b := by
    rintro b (h | h | h)
    · exact (discBody_facts h).1
    · exact (convexBody_facts h).1
    · exact (boxBody_facts h).1
  rcases h with ⟨a, b⟩ | ⟨a, b⟩ | ⟨a, b⟩
  · exact ⟨k (.inl a), k b⟩
  · exact ⟨k a, k (.inl b)⟩
  · exact ⟨k (.inr (.inr a)), k (.inr (.inr b))⟩

theorem measured_ops {t : ℝ} {b1 b2 : Body} (h : Measured t b1 b2) (o1 o2 : List BodyOp) :
    Measured t (b1.run o1) (b2.run o2) := by
  have kd : ∀ {b : Body} (o : List BodyOp), DiscBody t b → DiscBody t (b.run o) := by
    rintro b o ⟨pos, rad, a, ops, hr, rfl⟩
    exact ⟨pos, rad, a, ops ++ o, hr, by simp [Body.run, List.foldl_append]⟩
  have kc : ∀ {b : Body} (o : List BodyOp), ConvexBody b → ConvexBody (b.run o) := by
    rintro b o ⟨ref, vs, a, b0, ops, h1, h2, h3, rfl⟩
    exact ⟨ref, vs, a, b0, ops ++ o, h1, h2, h3, by simp [Body.run, List.foldl_append]⟩
  have kb : ∀ {b : Body} (o : List BodyOp), BoxBody b → BoxBody (b.run o) := by
    rintro b o ⟨pos, dims, a, b0, ops, h1, h2, h3, h4, rfl⟩
    exact ⟨pos, dims, a, b0, ops ++ o, h1, h2, h3, h4, by simp [Body.run, List.foldl_append]⟩
  have k : ∀ {b : Body} (o : List BodyOp), (DiscBody t b ∨ ConvexBody b ∨ BoxBody b) →
      (DiscBody t (b.run o) ∨ ConvexBody (b.run o) ∨ BoxBody (b.run o)) := by
    rintro b o (h | h | h)
    · exact .inl (kd o h)
    · exact .inr (.inl (kc o h))
    · exact .inr (.inr (kb o h))
  rcases h with ⟨a, b⟩ | ⟨a, b⟩ | ⟨a, b⟩
  · exact .inl ⟨kd _ a, k _ b⟩
  · exact .inr (.inl ⟨k _ a, kd _ b⟩)
  · exact .inr (.inr ⟨kb _ a, kb _ b⟩)

/-! ## Overlap of sets -/

theorem overlap_comm {t : ℝ} {A B : Set V2} (h : OverlapAtMost t A B) : OverlapAtMost t B A := by
  obtain ⟨u, hu, h⟩ := h
  refine ⟨-u, by rw [len_neg]; exact hu, fun x hx hy => h _ hy ?_⟩
  rwa [neg_add_cancel_right]

theorem interior_step {A : Set V2} {x : V2} (h : x ∈ interior A) (n : V2) : ∃ e : ℝ, 0 < e ∧ x + e • n ∈ A := by
  have hc : Filter.Tendsto (fun e : ℝ => x + e • n) (nhdsWithin 0 (Set.Ioi 0)) (nhds x) := by
    have : Continuous fun e : ℝ => x + e • n := by fun_prop
    have := this.tendsto 0
    simp only [zero_smul, add_zero] at this
    exact this.mono_left nhdsWithin_le_nhds
  have h1 := hc.eventually (mem_interior_iff_mem_nhds.1 h)
  obtain ⟨e, h2, h3⟩ := (h1.and self_mem_nhdsWithin).exists
  exact ⟨e, h3, h2⟩

/-- A point inside a disc is nearer to the centre than the radius. -/
theorem interior_disc {b : Body} (hc : b.isCircle = true) (hr : 0 < b.rad) {x : V2} (h : x ∈ interior (bodyRegion b)) :
    Spec.dist x b.pos < b.rad := by
  by_cases h0 : x - b.pos = 0
  · unfold Spec.dist; rw [h0]; simpa [len] using hr
  obtain ⟨e, he, hm⟩ := interior_step h (x - b.pos)
  rw [circle_region hc] at hm
  unfold Spec.dist at hm ⊢
  have : x + e • (x - b.pos) - b.pos = (1 + e) • (x - b.pos) := by rw [add_smul, one_smul]; abel
  rw [this, len_smul, abs_of_pos (by linarith)] at hm
  have hp : 0 < len (x - b.pos) := lt_of_le_of_ne (len_nonneg _) fun h => h0 (len_eq_zero.1 h.symm)
  nlinarith

/-- Two sets on different sides of a line after the displacement. -/
theorem overlap_of_line {t : ℝ} {A B : Set V2} {u n : V2} (hu : len u ≤ t) (hn : n ≠ 0)
    (h : ∀ x ∈ A, ∀ y ∈ B, 0 ≤ Spec.inner n (x + u - y)) : OverlapAtMost t A B := by
  refine ⟨u, hu, fun x hx hy => ?_⟩
  obtain ⟨e, he, hm⟩ := interior_step hy n
  have := h x (interior_subset hx) _ hm
  have e1 : x + u - (x + u + e • n) = -(e • n) := by abel
  rw [e1] at this
  have : 0 < e * (n.1 * n.1 + n.2 * n.2) := by
    refine mul_pos he ?_
    by_contra hc
    refine hn (Prod.ext ?_ ?_) <;> simp only [Prod.fst_zero, Prod.snd_zero] <;> nlinarith
  simp only [Spec.inner, Prod.fst_neg, Prod.snd_neg, Prod.smul_fst, Prod.smul_snd, smul_eq_mul] at *
  nlinarith

/-! ## Pairs -/

/-- A circle that touches a convex hull is reported. -/
theorem circleHull_touching {fuel : ℕ} {eps rad : ℝ} (heps : 0 ≤ eps) (hr : 0 < rad) {c p : V2} {verts : List V2}
    {seed last last' : ℕ} (hP : ConvexPolygon verts) (hc : NoThreeCollinear verts) {r : Option CHull}
    (h : circleHull fuel eps rad c p verts seed last = .done (r, last')) {x : V2} (hx : x ∈ solid verts)
    (hd : Spec.dist (c - p) x ≤ rad) : ∃ k, r = some k ∧ k.dist ≤ 0 ∧ (k.nan = true → k.dist = -rad) := by
  have hne : verts ≠ [] := by
    intro h0; have := hP.three; rw [h0] at this; simp at this
  by_cases hin : c - p ∈ solid verts
  · unfold circleHull at h
    cases hg : gjkLoop verts (c - p) fuel [seed % verts.length] with
    | running => rw [hg] at h; cases h
    | raised e => rw [hg] at h; cases h
    | done g =>
      obtain ⟨q, used⟩ := g
      rw [hg] at h
      simp only [Run.bind] at h
      by_cases hl : used.length < 3
      · rw [if_pos hl] at h
        injection h with h
        simp only [Prod.mk.injEq] at h
        obtain ⟨h, rfl⟩ := h
        have hpos : 0 < verts.length := List.length_pos_iff.2 hne
        obtain ⟨hnear, -, -, -, -⟩ := C15_gjk_correct verts (c - p) fuel _
          (by simpa using Nat.mod_lt seed hpos) q used hg
        have hq : q = c - p := by
          have := hnear.2 _ hin
          rw [Spec.dist_self] at this
          exact (Spec.dist_eq_zero.1 (le_antisymm this (len_nonneg _))).symm
        have hz : nrm (q + p - c) = 0 := by
          rw [hq, nrm_eq_len]; simp [len]
        unfold shallowContact at h
        simp only [hz] at h
        rw [if_neg (by linarith)] at h
        exact ⟨_, h.symm, by simp only; linarith, fun _ => by simp⟩
      · rw [if_neg hl] at h
        have inv := satCircle_inv eps rad verts c p last
        cases hs : satCircle eps rad c p verts last with
        | gap i =>
          rw [hs] at inv
          obtain ⟨hi, hne, hgt⟩ := inv
          have := (mem_solid_iff_edgeDist hP hc _).1 hin i (mem_satOrder.1 hi)
          linarith
        | go best bd l =>
          rw [hs] at h inv
          cases best with
          | none => cases h
          | some k =>
            simp only at h
            injection h with h
            simp only [Prod.mk.injEq] at h
            obtain ⟨rfl, rfl⟩ := h
            obtain ⟨hl', hgood, _, _⟩ := inv
            have hm := (mem_solid_iff_edgeDist hP hc _).1 hin l (mem_satOrder.1 hl')
            have hkd : k.dist = edgeDist verts l (c - p) - rad := hgood.dist
            exact ⟨k, rfl, by linarith, fun hn => absurd (hgood.nan.symm.trans hn) (by simp)⟩
  · obtain ⟨q, hq, _, _, h1, h2⟩ := C16_circle_hull_exact fuel eps rad c p verts seed last last' hne hin r h
    cases r with
    | none =>
      have := h1.1 rfl
      have := hq.2 x hx
      linarith
    | some k =>
      have := hq.2 x hx
      exact ⟨k, rfl, by rw [(h2 k rfl).1]; linarith, fun hn => absurd ((h2 k rfl).2.2.2.2.2.symm.trans hn) (by simp)⟩

/-- Circle against hull. -/
theorem overlap_circle_hull {fuel : ℕ} {eps tol : ℝ} (heps : 0 ≤ eps) (htol : 0 ≤ tol) {b1 b2 : Body}
    {seed last last' : ℕ} (h1 : DiscBody tol b1) (h2 : Alive b2 ∧ b2.isCircle = false ∧ ConvexPolygon b2.verts ∧
      NoThreeCollinear b2.verts) {r : Option CHull}
    (h : circleHull fuel eps b1.rad b1.pos b2.pos b2.verts seed last = .done (r, last'))
    (hpen : ∀ k, r = some k → -k.dist ≤ tol) : OverlapAtMost tol (bodyRegion b1) (bodyRegion b2) := by
  obtain ⟨-, hc1, hr1⟩ := discBody_facts h1
  obtain ⟨ha2, hc2, hP, hN⟩ := h2
  have hreg := (alive_verts ha2 hc2).2
  have hr0 : 0 < b1.rad := by linarith
  by_cases hz : ∃ z, z ∈ bodyRegion b1 ∧ z ∈ bodyRegion b2
  · obtain ⟨z, hz1, hz2⟩ := hz
    rw [circle_region hc1] at hz1
    rw [hreg] at hz2
    obtain ⟨k, rfl, hk0, hk⟩ := circleHull_touching heps hr0 hP hN h hz2 (by
      rw [Spec.dist_comm] at hz1
      unfold Spec.dist at hz1 ⊢
      rwa [sub_sub_sub_cancel_right])
    have hpk := hpen k rfl
    have hn : k.nan = false := by
      by_contra hn
      have := hk (by simpa using hn)
      rw [this] at hpk
      linarith
    obtain ⟨hu, hsep, hdeep⟩ := C65_penetration_depth fuel eps b1.rad hr0 b1.pos b2.pos b2.verts seed last last' hP hN k
      h hn
    have hd : 0 ≤ -k.dist := by linarith
    refine ⟨(-k.dist) • k.normal, by rw [len_smul, hu, mul_one, abs_of_nonneg hd]; exact hpk, fun x hx hy => ?_⟩
    have h3 := interior_disc hc1 hr0 hx
    have h4 := hsep _ ((hreg _).1 (interior_subset hy))
    unfold Spec.dist at h3 h4
    have e : b1.pos + (-k.dist) • k.normal - (x + (-k.dist) • k.normal - b2.pos + b2.pos) = -(x - b1.pos) := by abel
    rw [e, len_neg] at h4
    linarith
  · refine ⟨0, by simpa [len] using htol, fun x hx hy => hz ⟨x, interior_subset hx, ?_⟩⟩
    rw [add_zero] at hy; exact interior_subset hy

/-- Circle against circle. -/
theorem overlap_circles {eps tol : ℝ} (heps : 0 ≤ eps) (htol : 0 ≤ tol) {b1 b2 : Body} (h1 : DiscBody tol b1)
    (h2 : DiscBody tol b2) (hpen : ∀ q ∈ circleCircle eps b1.rad b2.rad b1.pos b2.pos, q.pen ≤ tol) :
    OverlapAtMost tol (bodyRegion b1) (bodyRegion b2) := by
  obtain ⟨-, hc1, hr1⟩ := discBody_facts h1
  obtain ⟨-, hc2, hr2⟩ := discBody_facts h2
  have hp : b1.rad + b2.rad - len (b1.pos - b2.pos) ≤ tol := by
    unfold circleCircle at hpen
    simp only [nrm_eq_len] at hpen
    by_cases h : b1.rad + b2.rad - len (b1.pos - b2.pos) < -eps
    · linarith
    · rw [if_neg h] at hpen
      exact hpen _ (List.mem_singleton.2 rfl)
  set d := len (b1.pos - b2.pos) with hd
  have hd0 : 0 < d := by linarith
  have hunit : len ((1 / d) • (b1.pos - b2.pos)) = 1 := by
    rw [len_smul, abs_of_pos (by positivity)]; exact one_div_mul_cancel hd0.ne'
  refine ⟨tol • ((1 / d) • (b1.pos - b2.pos)), by rw [len_smul, hunit, abs_of_nonneg htol, mul_one], fun x hx hy => ?_⟩
  have k1 := interior_disc hc1 (by linarith) hx
  have k2 := interior_disc hc2 (by linarith) hy
  unfold Spec.dist at k1 k2
  set n := (1 / d) • (b1.pos - b2.pos) with hn
  have e : (x + tol • n - b2.pos) - (x - b1.pos) = (tol + d) • n := by
    rw [add_smul, hn, smul_smul d, mul_one_div_cancel hd0.ne', one_smul]; abel
  have k3 : len ((x + tol • n - b2.pos) - (x - b1.pos)) ≤ len (x + tol • n - b2.pos) + len (x - b1.pos) := by
    have := len_add_le (x + tol • n - b2.pos) (-(x - b1.pos))
    rwa [len_neg, ← sub_eq_add_neg] at this
  rw [e, len_smul, hunit, mul_one, abs_of_pos (by linarith)] at k3
  linarith

/-- Rectangle against rectangle. -/
theorem overlap_boxes {eps tol : ℝ} (heps : 0 ≤ eps) (htol : 0 ≤ tol) {b1 b2 : Body} (h1 : BoxBody b1)
    (h2 : BoxBody b2) {i1 i2 : ℕ} {f f' : Finder} {pts : List Pt}
    (h : hullHull eps b1.pos b2.pos b1.verts b2.verts i1 i2 f = .ok (f', pts)) (hpen : ∀ q ∈ pts, q.pen ≤ tol) :
    OverlapAtMost tol (bodyRegion b1) (bodyRegion b2) := by
  have r1 := (alive_verts (boxBody_facts h1).1 (boxBody_facts h1).2.1).2
  have r2 := (alive_verts (boxBody_facts h2).1 (boxBody_facts h2).2.1).2
  obtain ⟨q1, dims1, a1, c1, ops1, hb1, -, -, hd1, rfl⟩ := h1
  obtain ⟨q2, dims2, a2, c2, ops2, hb2, -, -, hd2, rfl⟩ := h2
  by_cases hz : ∃ z, z ∈ bodyRegion (c1.run ops1) ∧ z ∈ bodyRegion (c2.run ops2)
  · obtain ⟨z, hz1, hz2⟩ := hz
    rw [r1] at hz1
    rw [r2] at hz2
    obtain ⟨f2, pts2, he, p, hp, hp0, hall, -, hsep⟩ := C66_rect_contact_depth q1 q2 dims1 dims2 a1 a2 c1 c2 hb1 hb2
      ops1 ops2 (by linarith) eps heps i1 i2 f ⟨_, hz1, _, hz2, by rw [sub_add_cancel, sub_add_cancel]⟩
    have hpts : p ∈ pts := by
      rw [h] at he
      injection he with he
      rw [(Prod.mk.inj he).2]; exact hp
    have hun : len p.normal = 1 := by
      obtain ⟨⟨_, ho, _⟩, hn⟩ := hullHull_ok h p hpts
      exact ho hn
    refine overlap_of_line (u := p.pen • p.normal) (n := p.normal)
      (by rw [len_smul, hun, mul_one, abs_of_nonneg hp0]; exact hpen p hpts)
      (fun h0 => by rw [h0] at hun; simp [len] at hun) fun x hx y hy => ?_
    have := hsep _ ((r1 x).1 hx) _ ((r2 y).1 hy)
    rwa [sub_add_cancel, sub_add_cancel] at this
  · refine ⟨0, by simpa [len] using htol, fun x hx hy => hz ⟨x, interior_subset hx, ?_⟩⟩
    rw [add_zero] at hy; exact interior_subset hy

/-- Whatever a pair is made of, contacts none of which is deeper than `tol` bound the overlap. -/
theorem overlap_pair {fuel : ℕ} {eps tol : ℝ} (heps : 0 ≤ eps) (htol : 0 ≤ tol) {bs : List Body} {f f' : Finder}
    {i1 i2 : ℕ} {cs : List Contact} (h : handlePair fuel eps bs f i1 i2 = .done (f', cs))
    (hpen : ∀ c ∈ cs, c.pen ≤ tol) (hm : Measured tol (bodyAt bs i1) (bodyAt bs i2)) :
    OverlapAtMost tol (bodyRegion (bodyAt bs i1)) (bodyRegion (bodyAt bs i2)) := by
  unfold handlePair at h
  generalize bodyAt bs i1 = b1 at *
  generalize bodyAt bs i2 = b2 at *
  simp only at h
  have cc : DiscBody tol b1 → DiscBody tol b2 → OverlapAtMost tol (bodyRegion b1) (bodyRegion b2) := by
    intro d1 d2
    rw [if_pos ⟨(discBody_facts d1).2.1, (discBody_facts d2).2.1⟩] at h
    injection h with h
    have h := (Prod.mk.inj h).2
    subst h
    exact overlap_circles heps htol d1 d2 fun q hq => hpen _ (List.mem_map.2 ⟨q, hq, rfl⟩)
  have flat : ∀ {b : Body}, ConvexBody b ∨ BoxBody b →
      Alive b ∧ b.isCircle = false ∧ ConvexPolygon b.verts ∧ NoThreeCollinear b.verts := by
    rintro b (hb | hb)
    · exact convexBody_facts hb
    · exact boxBody_facts hb
  have ch : DiscBody tol b1 → (ConvexBody b2 ∨ BoxBody b2) →
      OverlapAtMost tol (bodyRegion b1) (bodyRegion b2) := by
    intro d1 d2
    have c1 := (discBody_facts d1).2.1
    have k2 := flat d2
    simp only [c1, k2.2.1, Bool.false_eq_true, and_false, if_false, or_false, if_true] at h
    rw [Run.bind_eq_done] at h
    obtain ⟨⟨r, l⟩, hr, h⟩ := h
    injection h with h
    have h := (Prod.mk.inj h).2
    subst h
    refine overlap_circle_hull heps htol d1 k2 hr fun k hk => ?_
    subst hk
    exact hpen _ (List.mem_map.2 ⟨k.toPt false, by simp, rfl⟩)
  have hc : (ConvexBody b1 ∨ BoxBody b1) → DiscBody tol b2 →
      OverlapAtMost tol (bodyRegion b1) (bodyRegion b2) := by
    intro d1 d2
    have c2 := (discBody_facts d2).2.1
    have k1 := flat d1
    simp only [c2, k1.2.1, Bool.false_eq_true, false_and, if_false, false_or, if_true] at h
    rw [Run.bind_eq_done] at h
    obtain ⟨⟨r, l⟩, hr, h⟩ := h
    injection h with h
    have h := (Prod.mk.inj h).2
    subst h
    refine overlap_comm (overlap_circle_hull heps htol d2 k1 hr fun k hk => ?_)
    subst hk
    exact hpen _ (List.mem_map.2 ⟨k.toPt true, by simp, rfl⟩)
  rcases hm with ⟨d1, d2 | d2⟩ | ⟨d1 | d1, d2⟩ | ⟨d1, d2⟩
  · exact cc d1 d2
  · exact ch d1 d2
  · exact cc d1 d2
  · exact hc d1 d2
  · have k1 := (boxBody_facts d1).2.1
    have k2 := (boxBody_facts d2).2.1
    simp only [k1, k2, Bool.false_eq_true, and_self, or_self, if_false] at h
    cases hr : hullHull eps b1.pos b2.pos b1.verts b2.verts i1 i2 f with
    | error e => rw [hr] at h; cases h
    | ok r =>
      obtain ⟨f1, pts⟩ := r
      rw [hr] at h
      simp only [Except.map, Run.ofExcept] at h
      injection h with h
      have h := (Prod.mk.inj h).2
      subst h
      exact overlap_boxes heps htol d1 d2 hr fun q hq => hpen _ (List.mem_map.2 ⟨q, hq, rfl⟩)

theorem handleAll_handled {fuel : ℕ} {nc : ℕ → List ℕ} {eps : ℝ} {bs : List Body} :
    ∀ {ps : List (ℕ × ℕ)} {f f' : Finder} {cs : List Contact},
      handleAll fuel nc eps bs ps f = .done (f', cs) → ∀ p ∈ ps, p.1 ∉ nc p.2 → ∃ g g' cs',
        handlePair fuel eps bs g p.1 p.2 = .done (g', cs') ∧ ∀ c ∈ cs', c ∈ cs
  | [], f, f', cs, h, p, hp, _ => by simp at hp
  | p0 :: ps, f, f', cs, h, p, hp, hx => by
    unfold handleAll at h
    rw [Run.bind_eq_done] at h
    obtain ⟨r, hr, h⟩ := h
    rw [Run.bind_eq_done] at h
    obtain ⟨s, hs, h⟩ := h
    injection h with h
    have h := (Prod.mk.inj h).2
    subst h
    rcases List.mem_cons.1 hp with rfl | hp
    · unfold handle at hr
      rw [if_neg hx] at hr
      exact ⟨f, r.1, r.2, hr, fun c hc => List.mem_append_left _ hc⟩
    · obtain ⟨g, g', cs', k1, k2⟩ := handleAll_handled (f' := s.1) (cs := s.2) hs p hp hx
      exact ⟨g, g', cs', k1, fun c hc => List.mem_append_right _ (k2 c hc)⟩

/-! ## The contact search -/

/-- C86: if a contact search reports nothing deeper than `tol`, then no two bodies that may touch reach into
each other by more than `tol`, for circles (larger than `tol`), rectangles, and circles against strictly convex
hulls. -/
theorem C86_search_bounds_overlap (fuel : ℕ) (nc : ℕ → List ℕ) (hnc : ∀ i j, i ∈ nc j → j ∈ nc i)
    (pairs : List Body → List (ℕ × ℕ)) (hp : BroadPhase pairs) (eps tol : ℝ) (heps : 0 ≤ eps) (htol : 0 ≤ tol)
    (f f' : Finder) (bs : List Body) (cs : List Contact) (h : diffCollide fuel nc pairs eps f bs = .ok (f', cs))
    (hpen : ∀ c ∈ cs, c.pen ≤ tol) (i j : ℕ) (hi : i < bs.length) (hj : j < bs.length) (hij : i ≠ j) (hx : i ∉ nc j)
    (ei : 0 ≤ (bodyAt bs i).eps) (ej : 0 ≤ (bodyAt bs j).eps) (hm : Measured tol (bodyAt bs i) (bodyAt bs j)) :
    OverlapAtMost tol (bodyRegion (bodyAt bs i)) (bodyRegion (bodyAt bs j)) := by
  unfold diffCollide at h
  cases hr : handleAll fuel nc eps bs (pairs bs) f with
  | running => rw [hr] at h; cases h
  | raised e => rw [hr] at h; cases h
  | done r =>
    rw [hr] at h
    simp only [Run.toExcept] at h
    injection h with h
    subst h
    by_cases hz : ∃ z, z ∈ bodyRegion (bodyAt bs i) ∧ z ∈ bodyRegion (bodyAt bs j)
    · obtain ⟨z, hz1, hz2⟩ := hz
      obtain ⟨a1, a2⟩ := measured_alive hm
      have ho := (C09_near_bodies_overlap _ _ a1 a2 ei ej z hz1 z hz2 (by rw [Spec.dist_self]; linarith)).2
      rcases hp.complete bs i j hi hj hij ho with hin | hin
      · obtain ⟨g, g', cs', k1, k2⟩ := handleAll_handled hr _ hin hx
        exact overlap_pair heps htol k1 (fun c hc => hpen c (k2 c hc)) hm
      · obtain ⟨g, g', cs', k1, k2⟩ := handleAll_handled hr _ hin fun hx' => hx (hnc _ _ hx')
        exact overlap_comm (overlap_pair heps htol k1 (fun c hc => hpen c (k2 c hc)) (measured_comm hm))
    · refine ⟨0, by simpa [len] using htol, fun x hx hy => hz ⟨x, interior_subset hx, ?_⟩⟩
      rw [add_zero] at hy; exact interior_subset hy

/-! ## Worlds -/

/-- A strict world between steps, of bodies any two of which, if they may touch, are measured and do not reach into
each other by more than `tol`. -/
structure OverlapScene (nc : ℕ → List ℕ) (w : World (Option Mat) Finder) : Prop where
  good : w.Good
  strict : w.strict_no_pen = true
  nostab : w.post_stab = false
  eps : 0 ≤ w.eps
  tol : 0 ≤ w.tol
  margin : ∀ i < w.bodies.length, 0 ≤ (bodyAt w.bodies i).eps
  kinds : ∀ i < w.bodies.length, ∀ j < w.bodies.length, i ≠ j → i ∉ nc j →
    Measured w.tol (bodyAt w.bodies i) (bodyAt w.bodies j)
  bounded : ∀ i < w.bodies.length, ∀ j < w.bodies.length, i ≠ j → i ∉ nc j →
    OverlapAtMost w.tol (bodyRegion (bodyAt w.bodies i)) (bodyRegion (bodyAt w.bodies j))

/-- A contact search whose results are among those of the library's (it may fail more often, as when it rejects
NaN). -/
def LibrarySearch (fuel : ℕ) (nc : ℕ → List ℕ) (pairs : List Body → List (ℕ × ℕ))
    (collide : ℝ → Finder → List Body → Except Err (Finder × List Contact)) : Prop :=
  ∀ eps f bs r, collide eps f bs = .ok r → diffCollide fuel nc pairs eps f bs = .ok r

theorem rejectNan_library (fuel : ℕ) (nc : ℕ → List ℕ) (pairs : List Body → List (ℕ × ℕ)) :
    LibrarySearch fuel nc pairs (rejectNan (diffCollide fuel nc pairs)) := by
  intro eps f bs r h
  unfold rejectNan at h
  cases hd : diffCollide fuel nc pairs eps f bs with
  | error e => rw [hd] at h; cases h
  | ok r' =>
    rw [hd] at h
    simp only at h
    split_ifs at h
    exact h

/-- One returning step: each body is moved, and the bound holds again. -/
theorem overlapScene_step {fuel : ℕ} {nc : ℕ → List ℕ} (hnc : ∀ i j, i ∈ nc j → j ∈ nc i)
    {pairs : List Body → List (ℕ × ℕ)} (hp : BroadPhase pairs) {env : Env (Option Mat) Finder}
    (hl : LibrarySearch fuel nc pairs env.collide) {n : ℕ} {dt : ℝ} {w w' : World (Option Mat) Finder}
    (h : OverlapScene nc w) (hs : w.step_dt env n dt = .done w') :
    OverlapScene nc w' ∧ w'.bodies.length = w.bodies.length ∧ w'.tol = w.tol ∧
      ∀ i < w.bodies.length, ∃ ops, bodyAt w'.bodies i = (bodyAt w.bodies i).run ops := by
  obtain ⟨p1, p2, p3, p4, p5, p6, p7⟩ := step_dt_params h.good hs
  obtain ⟨⟨f, hc1⟩, hc2⟩ := C20_strict_step_no_penetration _ n w w' dt h.good h.strict h.nostab hs
  obtain ⟨e, v', k, w1, w2, _, _, hw1, hg1, ⟨fk, f', cs, hcs, ha, hw2⟩, _, hend⟩ := step_dt_done h.good hs
  have hbod : w'.bodies = (({ w with eng := e } : World (Option Mat) Finder).set_v v').bodies.map
      fun b => b.move (dt / 2 ^ k) := by
    rcases hend with ⟨_, rfl⟩ | ⟨hp', _⟩
    · subst hw2 hw1; rfl
    · rw [h.nostab] at hp'; cases hp'
  obtain ⟨_, ht⟩ := tried_bodies w e v' (dt / 2 ^ k)
  have hrun : ∀ i < w.bodies.length, bodyAt w'.bodies i =
      (bodyAt w.bodies i).run [.setV (slice3 v' i), .move (dt / 2 ^ k)] := by
    intro i hi
    rw [hbod, ht i hi]; rfl
  have hmar : ∀ i < w'.bodies.length, 0 ≤ (bodyAt w'.bodies i).eps := by
    intro i hi
    rw [p6] at hi
    rw [hrun i hi, run_eps]
    exact h.margin i hi
  have hkin : ∀ i < w'.bodies.length, ∀ j < w'.bodies.length, i ≠ j → i ∉ nc j →
      Measured w'.tol (bodyAt w'.bodies i) (bodyAt w'.bodies j) := by
    intro i hi j hj hij hx
    rw [p6] at hi hj
    rw [p3, hrun i hi, hrun j hj]
    exact measured_ops (h.kinds i hi j hj hij hx) _ _
  refine ⟨⟨step_dt_good h.good hs, p5.trans h.strict, p4.trans h.nostab, by rw [p2]; exact h.eps,
    by rw [p3]; exact h.tol, hmar, hkin, ?_⟩, p6, p3, fun i hi => ⟨_, hrun i hi⟩⟩
  intro i hi j hj hij hx
  exact C86_search_bounds_overlap fuel nc hnc pairs hp w.eps w'.tol h.eps (by rw [p3]; exact h.tol) f w'.fnd w'.bodies
    w'.contacts (hl _ _ _ _ hc1) (by rw [p3]; exact hc2) i j hi hj hij hx (hmar i hi) (hmar j hj) (hkin i hi j hj hij hx)

theorem region_setV (b : Body) (u : V3) : bodyRegion (b.run [.setV u]) = bodyRegion b := rfl

theorem set_v_bodyAt (w : World (Option Mat) Finder) (v : Vec) (i : ℕ) (hi : i < w.bodies.length) :
    bodyAt (w.set_v v).bodies i = (bodyAt w.bodies i).run [.setV (slice3 v i)] := by
  have hl : i < (w.set_v v).bodies.length := by rw [set_v_length]; exact hi
  have h1 : bodyAt (w.set_v v).bodies i = (w.set_v v).bodies[i] := by simp [bodyAt, List.getD_eq_getElem?_getD, hl]
  have h2 : bodyAt w.bodies i = w.bodies[i] := by simp [bodyAt, List.getD_eq_getElem?_getD, hi]
  rw [h1, set_v_getElem, h2]; rfl

/-- Setting velocities moves nothing. -/
theorem overlapScene_set_v {nc : ℕ → List ℕ} {w : World (Option Mat) Finder} (h : OverlapScene nc w) (v : Vec) :
    OverlapScene nc (w.set_v v) := by
  have hl : (w.set_v v).bodies.length = w.bodies.length := set_v_length w v
  refine ⟨good_set_v h.good v w.eng, h.strict, h.nostab, h.eps, h.tol, ?_, ?_, ?_⟩
  · intro i hi
    rw [hl] at hi
    rw [set_v_bodyAt w v i hi, run_eps]
    exact h.margin i hi
  · intro i hi j hj hij hx
    rw [hl] at hi hj
    rw [set_v_bodyAt w v i hi, set_v_bodyAt w v j hj]
    exact measured_ops (h.kinds i hi j hj hij hx) _ _
  · intro i hi j hj hij hx
    rw [hl] at hi hj
    rw [set_v_bodyAt w v i hi, set_v_bodyAt w v j hj, region_setV, region_setV]
    exact h.bounded i hi j hj hij hx

/-- C86: a strict world without post-stabilization never lets two bodies that may touch reach into each other by
more than `tol`, whatever the engine answers and whatever velocities a player sets in between: circles, rectangles, and
circles against strictly convex hulls. -/
theorem C86_run_bounds_overlap (fuel : ℕ) (nc : ℕ → List ℕ) (hnc : ∀ i j, i ∈ nc j → j ∈ nc i)
    (pairs : List Body → List (ℕ × ℕ)) (hp : BroadPhase pairs) (env : Env (Option Mat) Finder)
    (hl : LibrarySearch fuel nc pairs env.collide) (who : ℕ) (w w' : World (Option Mat) Finder)
    (h : OverlapScene nc w) (hr : Play env who (fun _ => True) w w') :
    OverlapScene nc w' ∧ w'.bodies.length = w.bodies.length ∧
    (∀ i < w.bodies.length, ∀ j < w.bodies.length, i ≠ j → i ∉ nc j →
      OverlapAtMost w.tol (bodyRegion (bodyAt w'.bodies i)) (bodyRegion (bodyAt w'.bodies j))) ∧
    ∀ i < w.bodies.length, ∃ ops, bodyAt w'.bodies i = (bodyAt w.bodies i).run ops := by
  have key : OverlapScene nc w' ∧ w'.bodies.length = w.bodies.length ∧ w'.tol = w.tol ∧
      ∀ i < w.bodies.length, ∃ ops, bodyAt w'.bodies i = (bodyAt w.bodies i).run ops := by
    induction hr with
    | refl => exact ⟨h, rfl, rfl, fun i _ => ⟨[], rfl⟩⟩
    | @tail wa wb _ hstep ih =>
      obtain ⟨h1, h2, h3, h4⟩ := ih
      have join : ∀ wb : World (Option Mat) Finder,
          (∀ i < wa.bodies.length, ∃ ops, bodyAt wb.bodies i = (bodyAt wa.bodies i).run ops) →
          ∀ i < w.bodies.length, ∃ ops, bodyAt wb.bodies i = (bodyAt w.bodies i).run ops := by
        intro wb k i hi
        obtain ⟨o1, e1⟩ := h4 i hi
        obtain ⟨o2, e2⟩ := k i (by omega)
        exact ⟨o1 ++ o2, by rw [e2, e1]; simp [Body.run, List.foldl_append]⟩
      rcases hstep with ⟨-, n, dt, hs⟩ | ⟨v, -, rfl⟩
      · obtain ⟨k1, k2, k3, k4⟩ := overlapScene_step hnc hp hl h1 hs
        exact ⟨k1, k2.trans h2, k3.trans h3, join _ k4⟩
      · exact ⟨overlapScene_set_v h1 v, (set_v_length wa v).trans h2, h3,
          join _ fun i hi => ⟨_, set_v_bodyAt wa v i hi⟩⟩
  obtain ⟨k1, k2, k3, k4⟩ := key
  refine ⟨k1, k2, fun i hi j hj hij hx => ?_, k4⟩
  rw [← k3]
  exact k1.bounded i (by omega) j (by omega) hij hx

theorem alive_rectForm {b : Body} (h : Alive b) : b.RectForm := by
  obtain ⟨b0, ops, hc, rfl⟩ := h
  refine run_rectForm b0 ops ?_
  cases hc with
  | circle pos rad a => unfold Body.RectForm mkCircle; trivial
  | hull ref vs a _ h => exact mkHull_rectForm h
  | rect pos dims a _ h h1 h2 => exact mkRect_rectForm h

theorem initWorld_bodies {σ φ : Type} (eng : σ) (fnd : φ) (bodies : List Body) (joints : List Joint) (dt eps tol : ℝ)
    (post strict : Bool) : (initWorld eng fnd bodies joints dt eps tol post strict).bodies = bodies := by
  apply List.ext_getElem
  · simp [initWorld, World.set_v]
  · intro i hi hi'
    unfold initWorld at hi ⊢
    rw [set_v_getElem]
    have : slice3 (cat3 (bodies.map Body.v)) i = bodies[i].v := by
      rw [cat3_slice _ _ (by simpa using hi'), List.getElem_map]
    simp only [this]

/-- C86: a strict world that the constructor accepts is such a world from the start. -/
theorem C86_constructed (fuel : ℕ) (nc : ℕ → List ℕ) (hnc : ∀ i j, i ∈ nc j → j ∈ nc i)
    (pairs : List Body → List (ℕ × ℕ)) (hp : BroadPhase pairs) (env : Env (Option Mat) Finder)
    (hl : LibrarySearch fuel nc pairs env.collide) (eng : Option Mat) (fnd : Finder)
    (bodies : List Body) (joints : List Joint) (dt eps tol : ℝ) (w : World (Option Mat) Finder) (heps : 0 ≤ eps)
    (htol : 0 ≤ tol) (hb : ∀ b ∈ bodies, Alive b ∧ 0 ≤ b.eps)
    (hk : ∀ i < bodies.length, ∀ j < bodies.length, i ≠ j → i ∉ nc j →
      Measured tol (bodyAt bodies i) (bodyAt bodies j))
    (hj : ∀ j ∈ joints, j.update_pos bodies = j)
    (h : mkWorld env eng fnd bodies joints dt eps tol false true = .done w) :
    OverlapScene nc w ∧ w.bodies = bodies ∧ w.tol = tol := by
  have hg := C30_mkWorld_good _ _ _ _ _ _ _ _ _ _ w (fun b hbb => alive_rectForm (hb b hbb).1) hj h
  unfold mkWorld at h
  by_cases h0 : bodies.length = 0
  · rw [if_pos h0] at h; cases h
  rw [if_neg h0] at h
  by_cases h1 : ∀ j ∈ joints, j.i1 < bodies.length ∧ ∀ k ∈ j.i2, k < bodies.length
  swap
  · rw [if_neg h1] at h; cases h
  rw [if_pos h1, Run.bind_eq_done] at h
  obtain ⟨w1, h3, h4⟩ := h
  rw [if_pos rfl] at h4
  by_cases h5 : w1.noPen
  swap
  · rw [if_neg h5] at h4; cases h4
  rw [if_pos h5] at h4
  have hw : w1 = w := Run.done.inj h4
  subst hw
  have hbod := initWorld_bodies eng fnd bodies joints dt eps tol false true
  unfold World.find_contacts at h3
  split at h3
  · cases h3
  · rename_i f cs hcol
    have h3 := Run.done.inj h3
    subst h3
    have key : ∀ w2 : World (Option Mat) Finder, w2.bodies = bodies → w2.strict_no_pen = true →
        w2.post_stab = false → w2.eps = eps → w2.tol = tol → w2.Good → w2.noPen →
        diffCollide fuel nc pairs eps fnd bodies = .ok (w2.fnd, w2.contacts) →
        OverlapScene nc w2 ∧ w2.bodies = bodies ∧ w2.tol = tol := by
      intro w2 e1 e2 e3 e4 e5 e6 e7 e8
      refine ⟨⟨e6, e2, e3, by rw [e4]; exact heps, by rw [e5]; exact htol, ?_, ?_, ?_⟩, e1, e5⟩
      · rw [e1]; exact fun i hi => (hb _ (bodyAt_mem hi)).2
      · rw [e1, e5]; exact hk
      · rw [e1, e5]
        intro i hi j hj hij hx
        exact C86_search_bounds_overlap fuel nc hnc pairs hp eps tol heps htol fnd w2.fnd bodies w2.contacts e8
          (by rw [← e5]; exact e7) i j hi hj hij hx (hb _ (bodyAt_mem hi)).2 (hb _ (bodyAt_mem hj)).2
          (hk i hi j hj hij hx)
    refine key _ hbod rfl rfl rfl rfl hg h5 ?_
    rw [← hbod]
    exact hl _ _ _ _ hcol

/-! ## A ball on a table -/

def tableBall : Body := mkCircle (.two (0, -2)) 1 {}

def tableTop : Body := rectBase (.two 0) (4, 2) {}

theorem tableTop_built : mkRect (.two 0) (4, 2) {} = .ok tableTop := by
  rw [mkRect_eq _ _ _ (by norm_num)]; rfl

theorem tableTop_verts : tableTop.verts = (rectCorners (4, 2)).map (rot 0) := by
  have := C05_rect_rigid (.two 0) (4, 2) {} tableTop tableTop_built []
  exact this

theorem table_search (fuel : ℕ) (hf : 66 ≤ fuel) (f : Finder) : ∃ f' c,
    diffCollide fuel (fun _ => []) allPairs (1 / 10) f [tableBall, tableTop] = .ok (f', [c]) ∧ c.pen = 0 := by
  have hform := rect_body_form tableTop_built []
  change RectForm tableTop.verts at hform
  have hP := rect_convex hform
  have hN := rect_noThreeCollinear hform
  have h4 := rect_length hform
  have hz : ∀ x ∈ solid tableTop.verts, |x.1| ≤ 2 ∧ |x.2| ≤ 1 := by
    intro x hx
    rw [tableTop_verts, corners_solid (4, 2) (by norm_num) (by norm_num)] at hx
    obtain ⟨w, hw, rfl⟩ := hx
    rw [rot_zero]
    simp only [boxRegion, Set.mem_ofPred_eq] at hw
    constructor <;> [have := hw.1; have := hw.2] <;> norm_num at this ⊢ <;> exact this
  have hmem : ((0, -1) : V2) ∈ solid tableTop.verts := by
    rw [tableTop_verts, corners_solid (4, 2) (by norm_num) (by norm_num)]
    exact ⟨(0, -1), by norm_num [boxRegion], rot_zero _⟩
  obtain ⟨r, hr⟩ := C65_total fuel (1 / 10) 1 (0, -2) 0 tableTop.verts (f.rnd 0) (f.sat 1) hP hN
    (rect_zero_mem hform) (by rw [h4]; omega) (by
      by_contra hc
      push Not at hc
      have : ((0, -2) - 0 : V2) ∈ solid tableTop.verts := by
        rw [mem_solid_iff_edgeDist hP hN]
        intro i hi
        have h := hc i hi
        change edgeDist tableTop.verts i ((0, -2) - 0) - 1 ≤ -10 ^ 10 at h
        linarith [(by norm_num : (1 : ℝ) ≤ 10 ^ 10)]
      have := (hz _ this).2
      norm_num at this)
  obtain ⟨r, l⟩ := r
  have hne : tableTop.verts ≠ [] := by intro h; rw [h] at h4; simp at h4
  obtain ⟨q, hq, hq0, hl, hnone, hsome⟩ := C16_circle_hull_exact fuel (1 / 10) 1 (0, -2) 0 tableTop.verts (f.rnd 0)
    (f.sat 1) l hne (by
      intro h
      have := (hz _ h).2
      norm_num at this) r hr
  have hd : Spec.dist ((0, -2) - 0) q = 1 := by
    refine le_antisymm ?_ ?_
    · have := hq.2 _ hmem
      have e : Spec.dist ((0, -2) - 0) ((0, -1) : V2) = 1 := by
        simp only [Spec.dist, len]
        norm_num
      rwa [e] at this
    · have h1 := abs_le.1 (hz _ hq.1).2
      unfold Spec.dist len
      rw [Real.one_le_sqrt]
      simp only [Prod.fst_sub, Prod.snd_sub, Prod.fst_zero, Prod.snd_zero]
      nlinarith [sq_nonneg (0 - 0 - q.1)]
  cases r with
  | none =>
    have := hnone.1 rfl
    rw [hd] at this
    norm_num at this
  | some k =>
    have hk := (hsome k rfl).1
    rw [hd] at hk
    have hp : handlePair fuel (1 / 10) [tableBall, tableTop] f 0 1 = .done
        (({ f with rnd := fun n => f.rnd (n + 1) } : Finder).setSat 1 l,
          [{ normal := k.normal, p1 := k.pt1, p2 := k.pt2, pen := -k.dist, i1 := 0, i2 := 1, nan := k.nan }]) := by
      have hr' : circleHull fuel (1 / 10) tableBall.rad tableBall.pos tableTop.pos tableTop.verts (f.rnd 0) (f.sat 1) =
        .done (some k, l) := hr
      unfold handlePair
      have e0 : bodyAt [tableBall, tableTop] 0 = tableBall := rfl
      have e1 : bodyAt [tableBall, tableTop] 1 = tableTop := rfl
      have c0 : tableBall.isCircle = true := rfl
      have c1 : tableTop.isCircle = false := rfl
      simp only [e0, e1, c0, c1, Bool.false_eq_true, and_false, if_false, or_false, if_true]
      rw [hr']
      rfl
    have hall : allPairs [tableBall, tableTop] = [(0, 1)] := rfl
    have hdc : diffCollide fuel (fun _ => []) allPairs (1 / 10) f [tableBall, tableTop] =
        .ok (({ f with rnd := fun n => f.rnd (n + 1) } : Finder).setSat 1 l,
          [{ normal := k.normal, p1 := k.pt1, p2 := k.pt2, pen := -k.dist, i1 := 0, i2 := 1, nan := k.nan }]) := by
      unfold diffCollide
      rw [hall]
      unfold handleAll handle
      rw [if_neg (by simp), hp]
      rfl
    exact ⟨_, _, hdc, by simp only [hk]; norm_num⟩

def tableWorld (env : Env (Option Mat) Finder) (fnd : Finder) : Run (World (Option Mat) Finder) :=
  mkWorld env none fnd [tableBall, tableTop] [] (1 / 30) (1 / 10) (1 / 1000) false true

theorem tableWorld_built (fuel : ℕ) (hf : 66 ≤ fuel) (env : Env (Option Mat) Finder)
    (he : env.collide = diffCollide fuel (fun _ => []) allPairs) (fnd : Finder) :
    ∃ w, tableWorld env fnd = .done w := by
  obtain ⟨f', c, h, hc⟩ := table_search fuel hf fnd
  unfold tableWorld mkWorld
  rw [if_neg (by simp), if_pos (by simp)]
  unfold World.find_contacts
  have hcol : env.collide (initWorld (none : Option Mat) fnd [tableBall, tableTop] [] (1 / 30) (1 / 10) (1 / 1000)
      false true).eps (initWorld (none : Option Mat) fnd [tableBall, tableTop] [] (1 / 30) (1 / 10) (1 / 1000)
      false true).fnd (initWorld (none : Option Mat) fnd [tableBall, tableTop] [] (1 / 30) (1 / 10) (1 / 1000)
      false true).bodies = .ok (f', [c]) := by
    rw [initWorld_bodies, he]; exact h
  rw [hcol]
  simp only [Run.bind, if_true]
  rw [if_pos]
  · exact ⟨_, rfl⟩
  · intro c' hc'
    have : c' = c := List.mem_singleton.1 hc'
    rw [this, hc]
    change (0 : ℝ) ≤ 1 / 1000
    norm_num

theorem table_measured : ∀ i < [tableBall, tableTop].length, ∀ j < [tableBall, tableTop].length, i ≠ j →
    Measured (1 / 1000) (bodyAt [tableBall, tableTop] i) (bodyAt [tableBall, tableTop] j) := by
  have hd : DiscBody (1 / 1000) tableBall := ⟨.two (0, -2), 1, {}, [], by norm_num, rfl⟩
  have hb : BoxBody tableTop := by
    refine ⟨.two 0, (4, 2), {}, tableTop, [], tableTop_built, by norm_num, by norm_num, ?_, rfl⟩
    have : len ((4, 2) : V2) ≤ 5 := by
      rw [len, show (5 : ℝ) = Real.sqrt (5 ^ 2) from (Real.sqrt_sq (by norm_num)).symm]
      exact Real.sqrt_le_sqrt (by norm_num)
    norm_num at this ⊢
    linarith
  intro i hi j hj hij
  simp only [List.length_cons, List.length_nil] at hi hj
  obtain rfl | rfl : i = 0 ∨ i = 1 := by omega
  · obtain rfl : j = 1 := by omega
    exact .inl ⟨hd, .inr (.inr hb)⟩
  · obtain rfl : j = 0 := by omega
    exact .inr (.inl ⟨.inr (.inr hb), hd⟩)

/-- A ball put on a table, under any forces, with any solver, and thrown again at any moment, never sinks into it by more than `tol`. -/
example (fuel : ℕ) (hf : 66 ≤ fuel) (H : ForceHeap) (lcp : LcpSolver) (mi : ℕ) (fnd : Finder) :
    ∃ w, tableWorld (pdipmEnv 2 H lcp mi (diffCollide fuel (fun _ => []) allPairs)) fnd = .done w ∧
      ∀ w', Play (pdipmEnv 2 H lcp mi (diffCollide fuel (fun _ => []) allPairs)) 0 (fun _ => True) w w' →
        OverlapAtMost (1 / 1000) (bodyRegion (bodyAt w'.bodies 0)) (bodyRegion (bodyAt w'.bodies 1)) := by
  have hl : LibrarySearch fuel (fun _ => []) allPairs (pdipmEnv 2 H lcp mi
    (diffCollide fuel (fun _ => []) allPairs)).collide := fun _ _ _ _ h => h
  obtain ⟨w, hw⟩ := tableWorld_built fuel hf (pdipmEnv 2 H lcp mi (diffCollide fuel (fun _ => []) allPairs)) rfl fnd
  refine ⟨w, hw, fun w' hr => ?_⟩
  obtain ⟨hs, hb, ht⟩ := C86_constructed fuel _ (by simp) allPairs allPairs_broad _ hl none fnd [tableBall, tableTop] [] _ (1 / 10) (1 / 1000) w
    (by norm_num) (by norm_num) (by
      intro b hb
      simp only [List.mem_cons, List.not_mem_nil, or_false] at hb
      rcases hb with rfl | rfl
      · exact ⟨⟨_, [], .circle _ _ _, rfl⟩, by norm_num [tableBall, mkCircle]⟩
      · exact ⟨⟨_, [], .rect _ _ _ _ tableTop_built (by norm_num) (by norm_num), rfl⟩,
          by norm_num [tableTop, rectBase]⟩)
    (fun i hi j hj hij _ => table_measured i hi j hj hij) (by simp) hw
  have := (C86_run_bounds_overlap fuel _ (by simp) allPairs allPairs_broad _ hl 0 w w' hs hr).2.2.1 0 (by rw [hb]; simp) 1
    (by rw [hb]; simp) (by simp) (by simp)
  rwa [ht] at this
