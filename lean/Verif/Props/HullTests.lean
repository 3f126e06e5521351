import Verif.Model.HullTests
import Verif.Props.ConvexSearch
import Verif.Props.DemoRun
import Verif.Props.InferenceRun
import Mathlib.Analysis.Real.Pi.Bounds

/-!
# C121: the scenes and assertions of `tests/test_hull.py`
-/

noncomputable section

namespace LcpPhysics
open Spec HullTests

/-! ## Pairs that are apart -/

/-- An edge of the first polygon keeps the other one off by more than `eps`. -/
def EdgeApart (eps : ℝ) (P Q : List V2) (p q : V2) : Prop :=
  ∃ i < P.length, ∀ v ∈ Q, eps * len (edgeVec P i) < inner (outward (edgeVec P i)) (v + q - (P.getD i 0 + p))

theorem test_apart {eps : ℝ} {P Q : List V2} {p q : V2} (hP : ConvexPolygon P) (h : EdgeApart eps P Q p q)
    {s : ℕ} {r : Sep} (ht : test_separations eps p q P Q s = .ok r) : eps < r.dist := by
  rcases test_sep_spec ht with ⟨d, i, rfl, -, -, hd, -⟩ | ⟨d, _, _, _, _, _, _, rfl, -, -, -, hall⟩
  · exact hd
  · obtain ⟨i, hi, hv⟩ := h
    obtain ⟨d', ⟨⟨y, hy, he⟩, -⟩, hle⟩ := hall i hi
    have hl := len_pos (hP.edge_ne i hi)
    obtain ⟨m, hm, hlt⟩ : ∃ m, (∀ v ∈ Q, m ≤ inner v (outward (edgeVec P i))) ∧
        eps * len (edgeVec P i) < m + inner (outward (edgeVec P i)) (q - (P.getD i 0 + p)) := by
      have hne : Q ≠ [] := by
        rintro rfl
        simp [solid] at hy
      have hfin : (Q.toFinset.image fun v => inner v (outward (edgeVec P i))).Nonempty := by
        obtain ⟨v, hv⟩ := List.exists_mem_of_ne_nil _ hne
        exact ⟨_, Finset.mem_image.2 ⟨v, List.mem_toFinset.2 hv, rfl⟩⟩
      obtain ⟨v, hvQ, hve⟩ := Finset.mem_image.1 (Finset.min'_mem _ hfin)
      refine ⟨(Q.toFinset.image fun v => inner v (outward (edgeVec P i))).min' hfin,
        fun u hu => Finset.min'_le _ _ (Finset.mem_image.2 ⟨u, List.mem_toFinset.2 hu, rfl⟩), ?_⟩
      rw [← hve]
      have := hv v (List.mem_toFinset.1 hvQ)
      rw [add_sub_assoc, inner_add_right] at this
      rw [inner_comm v]
      exact this
    have hyv := solid_le_inner hm y hy
    have e1 : inner (edgeNormal P i) (y + (q - p) - P.getD i 0) =
        (1 / len (edgeVec P i)) * (inner y (outward (edgeVec P i)) + inner (outward (edgeVec P i)) (q - (P.getD i 0 + p))) := by
      unfold edgeNormal
      rw [inner_smul_left, inner_comm y, ← inner_add_right]
      congr 2
      abel
    show eps < d
    refine lt_of_lt_of_le ?_ hle
    rw [← he]
    simp only
    rw [e1, one_div_mul_eq_div, lt_div_iff₀ hl]
    linarith

theorem hulls_apart {eps : ℝ} {P Q : List V2} {p q : V2} (hP : ConvexPolygon P) (hQ : ConvexPolygon Q)
    (h : EdgeApart eps P Q p q ∨ EdgeApart eps Q P q p) {i1 i2 : ℕ} {f f' : Finder} {pts : List Pt}
    (hh : hullHull eps p q P Q i1 i2 f = .ok (f', pts)) : pts = [] := by
  by_contra hne
  obtain ⟨s1, s2, r1, r2, h1, l1, h2, l2⟩ := hullHull_reported hh hne
  rcases h with h | h
  · exact absurd (test_apart hP h h1) (not_lt.2 l1)
  · exact absurd (test_apart hQ h h2) (not_lt.2 l2)

/-- Two bodies between which there is no contact: hulls kept apart by an edge, or a circle and a body further off than `eps`. -/
def KeptApart (eps : ℝ) (b1 b2 : Body) : Prop :=
  (b1.isCircle = false ∧ b2.isCircle = false ∧
    (EdgeApart eps b1.verts b2.verts b1.pos b2.pos ∨ EdgeApart eps b2.verts b1.verts b2.pos b1.pos)) ∨
  ((b1.isCircle = true ∨ b2.isCircle = true) ∧ 0 ≤ b1.rad ∧ 0 ≤ b2.rad ∧
    ∀ x ∈ bodyRegion b1, ∀ y ∈ bodyRegion b2, eps < Spec.dist x y)

theorem keptApart_comm {eps : ℝ} {b1 b2 : Body} (h : KeptApart eps b1 b2) : KeptApart eps b2 b1 := by
  rcases h with ⟨h1, h2, h3⟩ | ⟨h1, h2, h3, h4⟩
  · exact Or.inl ⟨h2, h1, h3.symm⟩
  · refine Or.inr ⟨h1.symm, h3, h2, fun x hx y hy => ?_⟩
    have := h4 y hy x hx
    unfold Spec.dist at this ⊢
    rwa [show x - y = -(y - x) by abel, len_neg]

/-- The first contact search of bodies that are kept apart finds nothing. -/
theorem kept_search (fuel : ℕ) (nc : ℕ → List ℕ) (pairs : List Body → List (ℕ × ℕ)) {eps : ℝ} (heps : 0 ≤ eps)
    (hp : ∀ bs, ∀ p ∈ pairs bs, p.1 < bs.length ∧ p.2 < bs.length ∧ p.1 ≠ p.2) (f : Finder) (bs : List Body)
    (hb : ∀ k < bs.length, SearchBody (bodyAt bs k) ∧ Alive (bodyAt bs k))
    (hfuel : ∀ k < bs.length, (bodyAt bs k).verts.length ^ 3 + 2 ≤ fuel)
    (hs : ∀ k < bs.length, ∀ l < bs.length, k < l → KeptApart eps (bodyAt bs k) (bodyAt bs l)) :
    ∃ f', rejectNan (diffCollide fuel nc pairs) eps f bs = .ok (f', []) := by
  have hat : ∀ b ∈ bs, ∃ k < bs.length, b = bodyAt bs k := by
    intro b hb
    obtain ⟨k, hk, rfl⟩ := List.getElem_of_mem hb
    exact ⟨k, hk, by simp [bodyAt, List.getD_eq_getElem?_getD, hk]⟩
  obtain ⟨⟨f', cs⟩, hr⟩ := C121_search_total fuel nc pairs eps f bs (fun p hm => ⟨(hp bs p hm).1, (hp bs p hm).2.1⟩)
    (by intro b hm; obtain ⟨k, hk, rfl⟩ := hat b hm; exact (hb k hk).1)
    (by intro b hm; obtain ⟨k, hk, rfl⟩ := hat b hm; exact hfuel k hk)
  have hcs : cs = [] := by
    by_contra hne
    obtain ⟨ct, hc⟩ := List.exists_mem_of_ne_nil _ hne
    unfold diffCollide at hr
    cases ha : handleAll fuel nc eps bs (pairs bs) f with
    | running => rw [ha] at hr; cases hr
    | raised e => rw [ha] at hr; cases hr
    | done r =>
      rw [ha] at hr
      injection hr with hr
      subst hr
      obtain ⟨p, hpm, g, g', cs', hx', hpair, hc'⟩ := handleAll_mem ha ct hc
      have hne' : cs' ≠ [] := List.ne_nil_of_mem hc'
      obtain ⟨h1, h2, h12⟩ := hp bs p hpm
      have hk : KeptApart eps (bodyAt bs p.1) (bodyAt bs p.2) := by
        rcases lt_or_gt_of_ne h12 with h | h
        · exact hs _ h1 _ h2 h
        · exact keptApart_comm (hs _ h2 _ h1 h)
      rcases hk with ⟨c1, c2, hk⟩ | ⟨hcirc, r1, r2, hk⟩
      · have v1 : ConvexPolygon (bodyAt bs p.1).verts := by
          rcases (hb _ h1).1.2 with ⟨h, -⟩ | ⟨-, h, -⟩
          · rw [c1] at h; cases h
          · exact h
        have v2 : ConvexPolygon (bodyAt bs p.2).verts := by
          rcases (hb _ h2).1.2 with ⟨h, -⟩ | ⟨-, h, -⟩
          · rw [c2] at h; cases h
          · exact h
        unfold handlePair at hpair
        simp only [c1, c2, Bool.false_eq_true, and_self, or_self, if_false] at hpair
        cases hh : hullHull eps (bodyAt bs p.1).pos (bodyAt bs p.2).pos (bodyAt bs p.1).verts (bodyAt bs p.2).verts
            p.1 p.2 g with
        | error e => rw [hh] at hpair; cases hpair
        | ok r =>
          rw [hh] at hpair
          injection hpair with hpair
          obtain ⟨-, hpair⟩ := Prod.ext_iff.1 hpair
          apply hne'
          exact (show _ = cs' from hpair).symm.trans (by simp [hulls_apart v1 v2 hk hh])
      · obtain ⟨x, hx, y, hy, hd⟩ := C09_circle_contact_near fuel eps heps bs g g' p.1 p.2 cs' hpair hne' (hb _ h1).2 (hb _ h2).2 r1 r2
          hcirc
        exact absurd (hk x hx y hy) (not_lt.2 hd)
  subst hcs
  refine ⟨f', ?_⟩
  unfold rejectNan
  rw [hr]
  rfl

/-! ## Hulls as they are made -/

theorem small_diam {vs : List V2} (h : ∀ v ∈ vs, |v.1| ≤ 1000 ∧ |v.2| ≤ 1000) : ∀ u ∈ vs, ∀ v ∈ vs, len (u - v) ≤ 10 ^ 9 := by
  intro u hu v hv
  obtain ⟨a1, a2⟩ := h u hu
  obtain ⟨b1, b2⟩ := h v hv
  apply len_le_of (by norm_num)
  rw [abs_le] at a1 a2 b1 b2
  simp only [Prod.fst_sub, Prod.snd_sub]
  nlinarith [a1.1, a1.2, a2.1, a2.2, b1.1, b1.2, b2.1, b2.2]

/-- What the constructor makes of a convex polygon. -/
theorem hull_made (ref : V2) (vs : List V2) (a : Params) (hm : 0 < a.mass) (h3 : 2 < vs.length) (hL : AllLeft vs)
    (hs : ∀ v ∈ vs, |v.1| ≤ 1000 ∧ |v.2| ≤ 1000) :
    ∃ b, mkHull ref vs a = .ok b ∧ SearchBody b ∧ Alive b ∧ b.isCircle = false ∧ b.verts.length = vs.length ∧
      (∀ i, edgeVec b.verts i = edgeVec vs i ∨ vs.length ≤ i) ∧ (∀ i < vs.length, b.verts.getD i 0 + b.pos = ref + vs.getD i 0) ∧
      (∀ v ∈ b.verts, ∃ u ∈ vs, v + b.pos = ref + u) ∧ b.rad = 0 ∧ b.p = ⟨0, (ref + get_centroid vs).1, (ref + get_centroid vs).2⟩ ∧
      0 < b.mass ∧ 0 < b.ang_inertia := by
  obtain ⟨h1, h2⟩ := allLeft_convex hL h3
  obtain ⟨b, hb, hsb⟩ := C121_hull_qualifies ref vs a h1 h2 (small_diam hs) []
  obtain ⟨-, -, hp, hsh, -, hmass, -⟩ := mkHull_ok hb
  have hv : b.verts = vs.map (fun v => v - get_centroid vs) := by unfold Body.verts; rw [hsh]
  have hpos : b.pos = ref + get_centroid vs := by unfold Body.pos; rw [hp]; rfl
  have hget : ∀ i < vs.length, b.verts.getD i 0 = vs.getD i 0 - get_centroid vs := by
    intro i hi
    rw [hv, getD_map_lt _ hi]
  refine ⟨b, hb, hsb, ⟨b, [], .hull ref vs a b hb, rfl⟩, by unfold Body.isCircle; rw [hsh], by rw [hv, List.length_map], ?_, ?_, ?_,
    by unfold Body.rad; rw [hsh], hp, by rw [hmass]; exact hm, (C07_hull_inertia_pos ref vs a b hm hb).1⟩
  · intro i
    by_cases hi : i < vs.length
    · left
      have hj : (i + 1) % vs.length < vs.length := Nat.mod_lt _ (by omega)
      unfold edgeVec
      rw [hv, List.length_map, ← hv, hget _ hj, hget i hi]
      abel
    · exact Or.inr (by omega)
  · intro i hi
    rw [hget i hi, hpos]; abel
  · intro v hvm
    rw [hv] at hvm
    obtain ⟨u, hu, rfl⟩ := List.mem_map.1 hvm
    exact ⟨u, hu, by rw [hpos]; abel⟩

/-! ## Starting a world of bodies that are apart -/

theorem apart_starts {bs : List Body} (hne : bs ≠ []) (js : List Joint) (H : ForceHeap) (lcp : LcpSolver) (mi cfuel : ℕ)
    (nc : ℕ → List ℕ) (pairs : List Body → List (ℕ × ℕ)) (hp : ∀ bs, ∀ p ∈ pairs bs, p.1 < bs.length ∧ p.2 < bs.length ∧ p.1 ≠ p.2)
    (fnd : Finder) (hb : ∀ k < bs.length, SearchBody (bodyAt bs k) ∧ Alive (bodyAt bs k))
    (hfuel : ∀ k < bs.length, (bodyAt bs k).verts.length ^ 3 + 2 ≤ cfuel)
    (hs : ∀ k < bs.length, ∀ l < bs.length, k < l → KeptApart (1 / 10) (bodyAt bs k) (bodyAt bs l))
    (hj : ∀ j ∈ js, j.i1 < bs.length ∧ (∀ k ∈ j.i2, k < bs.length ∧ j.i1 ≠ k) ∧ j.update_pos bs = j) :
    ∃ w, mkWorld (pdipmEnv 2 H lcp mi (rejectNan (diffCollide cfuel nc pairs))) none fnd bs js (1 / 30) (1 / 10) (1 / 1000000)
        false true = .done w ∧ w.bodies = bs ∧ w.joints = js ∧ w.contacts = [] ∧ w.t = 0 ∧ w.dt = 1 / 30 ∧ EngineInv w := by
  have hat : ∀ b ∈ bs, ∃ k < bs.length, b = bodyAt bs k := by
    intro b hb
    obtain ⟨k, hk, rfl⟩ := List.getElem_of_mem hb
    exact ⟨k, hk, by simp [bodyAt, List.getD_eq_getElem?_getD, hk]⟩
  obtain ⟨f', hcol⟩ := kept_search cfuel nc pairs (eps := 1 / 10) (by norm_num) hp fnd bs hb hfuel hs
  set env := pdipmEnv 2 H lcp mi (rejectNan (diffCollide cfuel nc pairs)) with henv
  set W := initWorld (none : Option Mat) fnd bs js (1 / 30) (1 / 10) (1 / 1000000) false true with hW
  have hvel : W.bodies = bs := by
    apply List.ext_getElem
    · simp [W, initWorld, World.set_v]
    · intro i h1 h2
      simp only [W, initWorld, World.set_v, List.getElem_map, List.getElem_zipIdx]
      rw [Nat.zero_add, cat3_slice _ i (by simpa using h2), List.getElem_map]
  have hmk : mkWorld env none fnd bs js (1 / 30) (1 / 10) (1 / 1000000) false true =
      .done { W with contacts := [], fnd := f' } := by
    unfold mkWorld
    rw [if_neg (fun h0 => hne (List.length_eq_zero_iff.1 h0)), if_pos (by
      intro j hj'
      obtain ⟨h1, h2, -⟩ := hj j hj'
      exact ⟨h1, fun k hk => (h2 k hk).1⟩)]
    unfold World.find_contacts
    have : env.collide W.eps W.fnd W.bodies = .ok (f', []) := by
      rw [hvel]; exact hcol
    rw [this]
    simp only [Run.bind, if_true]
    rw [if_pos]
    intro c hc
    cases hc
  refine ⟨{ W with contacts := [], fnd := f' }, hmk, hvel, rfl, rfl, rfl, rfl, ?_, ?_, ?_, ?_⟩
  · refine C30_mkWorld_good _ _ _ _ _ _ _ _ _ _ _ ?_ ?_ hmk
    · intro b hb'
      obtain ⟨k, hk, rfl⟩ := hat b hb'
      exact (hb k hk).1.1
    · intro j hj'
      exact (hj j hj').2.2
  · intro j hj'
    obtain ⟨h1, h2, -⟩ := hj j hj'
    show j.i1 < W.bodies.length ∧ ∀ k ∈ j.i2, k < W.bodies.length ∧ j.i1 ≠ k
    rw [hvel]
    exact ⟨h1, h2⟩
  · intro c hc
    cases hc
  · intro inv hi
    cases hi

/-! ## Turning the vertices of a fresh hull -/

theorem inertia_turned (t : ℝ) (vs : List V2) (m : ℝ) : hullInertia (vs.map (rot t)) m = hullInertia vs m := by
  have hc : ∀ u v : V2, cross_2d (rot t u) (rot t v) = cross_2d u v := by
    intro u v
    have := rot_det t u v
    simpa [cross_2d, det] using this
  have hd : ∀ u v : V2, dot (rot t u) (rot t v) = dot u v := by
    intro u v
    simp only [dot, rot]
    linear_combination (u.1 * v.1 + u.2 * v.2) * Real.sin_sq_add_cos_sq t
  have h0 : rot t 0 = 0 := by ext <;> simp [rot]
  have hg : ∀ i, vget (vs.map (rot t)) i = rot t (vget vs i) := by
    intro i
    unfold vget
    rw [List.getD_eq_getElem?_getD, List.getD_eq_getElem?_getD, List.getElem?_map]
    cases vs[i]? with
    | none => exact h0.symm
    | some v => rfl
  unfold hullInertia inertiaNum inertiaDen
  simp only [List.length_map, hg, hc, hd]

theorem maxRad_turned (t : ℝ) (vs : List V2) : maxRad (vs.map (rot t)) = maxRad vs := by
  have hd : ∀ u : V2, dot (rot t u) (rot t u) = dot u u := by
    intro u
    simp only [dot, rot]
    linear_combination (u.1 ^ 2 + u.2 ^ 2) * Real.sin_sq_add_cos_sq t
  unfold maxRad
  rw [List.map_map]
  simp only [Function.comp_def, hd]

/-- C121: calling `rotate_verts` on a hull that was just made gives the hull that the constructor makes of the turned polygon: the pose,
the inertia, the radius of the broad phase and everything else agree.  The test's slope is therefore an ordinary body. -/
theorem C121_rotate_verts (ref : V2) (vs : List V2) (a : Params) (b : Body) (t : ℝ) (h : mkHull ref vs a = .ok b) :
    mkHull (ref + get_centroid vs) (b.verts.map (rot t)) a = .ok (rotate_verts b t) := by
  obtain ⟨h3, harea, hp, hsh, -⟩ := mkHull_ok h
  have hv : b.verts = vs.map (fun v => v - get_centroid vs) := by unfold Body.verts; rw [hsh]
  have hcen : get_centroid (b.verts.map (rot t)) = 0 := by
    rw [C04_centroid_rotate, hv, get_centroid_translate _ _ harea.ne', sub_self, rot_map_zero]
  have hA : 0 < area2 (b.verts.map (rot t)) := by
    rw [area2_rot, hv, area2_translate]; exact harea
  have hl : (b.verts.map (rot t)).length > 2 := by rw [List.length_map, hv, List.length_map]; exact h3
  unfold mkHull at h ⊢
  rw [if_pos ⟨hl, (is_clockwise_iff _).2 hA⟩]
  split_ifs at h with hc
  injection h with h
  simp only [hcen, sub_zero, List.map_id', add_zero, inertia_turned, maxRad_turned]
  rw [hv]
  subst h
  simp only [rotate_verts, hullRotate_eq]

/-! ## The assertions of `testCentroid` and `testAngInertia` -/

theorem sqrt_two_bounds : 1.4 < Real.sqrt 2 ∧ Real.sqrt 2 < 1.5 := by
  constructor
  · rw [Real.lt_sqrt (by norm_num)]; norm_num
  · rw [Real.sqrt_lt' (by norm_num)]; norm_num

theorem tilted_left : AllLeft tilted := by
  have h2 : Real.sqrt 2 * Real.sqrt 2 = 2 := Real.mul_self_sqrt (by norm_num)
  obtain ⟨h3, h4⟩ := sqrt_two_bounds
  intro i j k hij hjk hk
  simp only [tilted, List.length_cons, List.length_nil] at hk
  interval_cases k <;> interval_cases j <;> interval_cases i <;> simp [tilted, det] <;> nlinarith

theorem tilted_centroid : get_centroid tilted = (10, 10) := by
  have h2 : Real.sqrt 2 * Real.sqrt 2 = 2 := Real.mul_self_sqrt (by norm_num)
  have hden : centroidDen tilted = -200 * (Real.sqrt 2 * Real.sqrt 2) := by
    simp [centroidDen, tilted, Finset.sum_range_succ, vget, cross_2d]
    linear_combination -200 * h2
  have hnum : centroidNum tilted = (-6 * 4000, -6 * 4000) := by
    simp [centroidNum, tilted, Finset.sum_range_succ, vget, cross_2d]
    constructor <;> nlinarith
  unfold get_centroid
  rw [hden, hnum, h2]
  ext <;> norm_num

theorem tilted_small : ∀ v ∈ tilted, |v.1| ≤ 1000 ∧ |v.2| ≤ 1000 := by
  obtain ⟨h3, h4⟩ := sqrt_two_bounds
  intro v hv
  simp only [tilted, List.mem_cons, List.not_mem_nil, or_false] at hv
  rcases hv with rfl | rfl | rfl | rfl <;> refine ⟨abs_le.2 ⟨?_, ?_⟩, abs_le.2 ⟨?_, ?_⟩⟩ <;> simp only <;> linarith

/-- C121: the hull of `testCentroid` is made, with its centre exactly ten to the right of and ten below its reference point, wherever that
is. -/
theorem C121_test_centroid (ref : V2) (a : Params) : ∃ b, mkHull ref tilted a = .ok b ∧ b.pos - ref = (10, 10) := by
  obtain ⟨h1, h2⟩ := allLeft_convex tilted_left (by simp [tilted])
  obtain ⟨b, hb, -⟩ := C121_hull_qualifies ref tilted a h1 h2 (small_diam tilted_small) []
  obtain ⟨-, -, hp, -⟩ := mkHull_ok hb
  refine ⟨b, hb, ?_⟩
  unfold Body.pos
  rw [hp, tilted_centroid]
  ext <;> simp [V3.xy]

/-- C121: the hull of `testAngInertia` has exactly the inertia of the square of side twenty, for every mass.  (The test subtracts without
taking the absolute value, so it would accept any smaller inertia as well.) -/
theorem C121_test_inertia (ref : V2) (pos : Arg) (a : Params) (p r : Body) (hp : mkHull ref tilted a = .ok p)
    (hr : mkRect pos (20, 20) a = .ok r) : p.ang_inertia - r.ang_inertia = 0 := by
  have h2 : Real.sqrt 2 * Real.sqrt 2 = 2 := Real.mul_self_sqrt (by norm_num)
  obtain ⟨-, -, -, -, hi, -⟩ := mkHull_ok hp
  have hv : tilted.map (fun v => v - get_centroid tilted) =
      [(Real.sqrt 2 * 10, 0), (0, Real.sqrt 2 * 10), (-(Real.sqrt 2 * 10), 0), (0, -(Real.sqrt 2 * 10))] := by
    rw [tilted_centroid]
    simp [tilted]
  have hr' : r.ang_inertia = a.mass * (20 ^ 2 + 20 ^ 2) / 12 := by
    rw [mkRect_eq pos (20, 20) a (by norm_num)] at hr
    cases pos with
    | two q => simp only [Except.ok.injEq] at hr; subst hr; rfl
    | three q =>
      simp only [Except.ok.injEq] at hr; subst hr
      rw [set_p_inertia]
      rfl
  have e : (Real.sqrt 2 * 10) * (Real.sqrt 2 * 10) = 200 := by linear_combination 100 * h2
  have hn : inertiaNum [(Real.sqrt 2 * 10, 0), (0, Real.sqrt 2 * 10), (-(Real.sqrt 2 * 10), 0), (0, -(Real.sqrt 2 * 10))] = 320000 := by
    simp [inertiaNum, Finset.sum_range_succ, vget, cross_2d, dot, e]
    norm_num
  have hd : inertiaDen [(Real.sqrt 2 * 10, 0), (0, Real.sqrt 2 * 10), (-(Real.sqrt 2 * 10), 0), (0, -(Real.sqrt 2 * 10))] = 800 := by
    simp [inertiaDen, Finset.sum_range_succ, vget, cross_2d, e]
    norm_num
  rw [hi, hv, hr']
  unfold hullInertia
  rw [hn, hd]
  ring

/-! ## `testRender` -/

theorem len_le_abs (v : V2) : len v ≤ |v.1| + |v.2| := by
  apply len_le_of (by positivity)
  nlinarith [sq_abs v.1, sq_abs v.2, mul_nonneg (abs_nonneg v.1) (abs_nonneg v.2)]

/-- What is known of a hull once made. -/
structure HullAt (b : Body) (ref : V2) (vs : List V2) : Prop where
  search : SearchBody b
  alive : Alive b
  notCircle : b.isCircle = false
  length : b.verts.length = vs.length
  edges : ∀ i < vs.length, edgeVec b.verts i = edgeVec vs i
  corner : ∀ i < vs.length, b.verts.getD i 0 + b.pos = ref + vs.getD i 0
  corners : ∀ v ∈ b.verts, ∃ u ∈ vs, v + b.pos = ref + u
  rad : b.rad = 0
  pose : b.p = ⟨0, (ref + get_centroid vs).1, (ref + get_centroid vs).2⟩
  mass : 0 < b.mass
  inertia : 0 < b.ang_inertia

theorem hull_at (ref : V2) (vs : List V2) (a : Params) (hm : 0 < a.mass) (h3 : 2 < vs.length) (hL : AllLeft vs)
    (hs : ∀ v ∈ vs, |v.1| ≤ 1000 ∧ |v.2| ≤ 1000) : ∃ b, mkHull ref vs a = .ok b ∧ HullAt b ref vs := by
  obtain ⟨b, hb, h1, h2, h3, h4, h5, h6, h7, h8, h9, h10, h11⟩ := hull_made ref vs a hm h3 hL hs
  exact ⟨b, hb, h1, h2, h3, h4, fun i hi => (h5 i).resolve_right (by omega), h6, h7, h8, h9, h10, h11⟩

/-- Edge `i` of the first polygon keeps the second one off. -/
theorem apart_of {b1 b2 : Body} {r1 r2 : V2} {vs1 vs2 : List V2} (h1 : HullAt b1 r1 vs1) (h2 : HullAt b2 r2 vs2) (i : ℕ)
    (hi : i < vs1.length) (h : ∀ u ∈ vs2, (1 / 10) * (|(edgeVec vs1 i).1| + |(edgeVec vs1 i).2|) <
      inner (outward (edgeVec vs1 i)) (r2 + u - (r1 + vs1.getD i 0))) : EdgeApart (1 / 10) b1.verts b2.verts b1.pos b2.pos := by
  refine ⟨i, by rw [h1.length]; exact hi, fun v hv => ?_⟩
  obtain ⟨u, hu, he⟩ := h2.corners v hv
  rw [h1.edges i hi, h1.corner i hi, he]
  refine lt_of_le_of_lt ?_ (h u hu)
  exact mul_le_mul_of_nonneg_left (len_le_abs _) (by norm_num)

theorem kept_left {b1 b2 : Body} {r1 r2 : V2} {vs1 vs2 : List V2} (h1 : HullAt b1 r1 vs1) (h2 : HullAt b2 r2 vs2) (i : ℕ)
    (hi : i < vs1.length) (h : ∀ u ∈ vs2, (1 / 10) * (|(edgeVec vs1 i).1| + |(edgeVec vs1 i).2|) <
      inner (outward (edgeVec vs1 i)) (r2 + u - (r1 + vs1.getD i 0))) : KeptApart (1 / 10) b1 b2 :=
  Or.inl ⟨h1.notCircle, h2.notCircle, Or.inl (apart_of h1 h2 i hi h)⟩

theorem kept_right {b1 b2 : Body} {r1 r2 : V2} {vs1 vs2 : List V2} (h1 : HullAt b1 r1 vs1) (h2 : HullAt b2 r2 vs2) (i : ℕ)
    (hi : i < vs2.length) (h : ∀ u ∈ vs1, (1 / 10) * (|(edgeVec vs2 i).1| + |(edgeVec vs2 i).2|) <
      inner (outward (edgeVec vs2 i)) (r1 + u - (r2 + vs2.getD i 0))) : KeptApart (1 / 10) b1 b2 :=
  Or.inl ⟨h1.notCircle, h2.notCircle, Or.inr (apart_of h2 h1 i hi h)⟩

/-- The five bodies of `testRender`. -/
structure RenderAt (b1 b2 b3 b4 b5 : Body) : Prop where
  h1 : HullAt b1 (700, 200) tilted
  h2 : HullAt b2 (300, 200) [(60, 0), (60, 60), (0, 60)]
  h3 : HullAt b3 (700, 400) [(60, 0), (60, 60), (0, 0)]
  h4 : HullAt b4 (300, 420) [(60, 0), (0, 60), (0, 0)]
  h5 : HullAt b5 (500, 300) [(50, 0), (30, 60), (-30, 30), (-60, -30), (0, -60)]

theorem render_made : ∃ b1 b2 b3 b4 b5, makeHulls renderHulls = .ok [b1, b2, b3, b4, b5] ∧ RenderAt b1 b2 b3 b4 b5 := by
  have hm : (0 : ℝ) < ({} : Params).mass := by norm_num
  have tri : ∀ vs : List V2, vs = [(60, 0), (60, 60), (0, 60)] ∨ vs = [(60, 0), (60, 60), (0, 0)] ∨ vs = [(60, 0), (0, 60), (0, 0)] ∨
      vs = [(50, 0), (30, 60), (-30, 30), (-60, -30), (0, -60)] →
      2 < vs.length ∧ AllLeft vs ∧ ∀ v ∈ vs, |v.1| ≤ 1000 ∧ |v.2| ≤ 1000 := by
    rintro vs (rfl | rfl | rfl | rfl)
    all_goals
      refine ⟨by simp, ?_, ?_⟩
      · intro i j k hij hjk hk
        simp only [List.length_cons, List.length_nil] at hk
        interval_cases k <;> interval_cases j <;> interval_cases i <;> norm_num [det]
      · intro v hv
        simp only [List.mem_cons, List.not_mem_nil, or_false] at hv
        rcases hv with rfl | rfl | rfl | rfl | rfl <;> norm_num [abs_le]
  obtain ⟨b1, m1, e1⟩ := hull_at (700, 200) tilted {} hm (by simp [tilted]) tilted_left tilted_small
  obtain ⟨t1, t2, t3⟩ := tri _ (Or.inl rfl)
  obtain ⟨b2, m2, e2⟩ := hull_at (300, 200) _ {} hm t1 t2 t3
  obtain ⟨t1, t2, t3⟩ := tri _ (Or.inr (Or.inl rfl))
  obtain ⟨b3, m3, e3⟩ := hull_at (700, 400) _ {} hm t1 t2 t3
  obtain ⟨t1, t2, t3⟩ := tri _ (Or.inr (Or.inr (Or.inl rfl)))
  obtain ⟨b4, m4, e4⟩ := hull_at (300, 420) _ {} hm t1 t2 t3
  obtain ⟨t1, t2, t3⟩ := tri _ (Or.inr (Or.inr (Or.inr rfl)))
  obtain ⟨b5, m5, e5⟩ := hull_at (500, 300) _ {} hm t1 t2 t3
  refine ⟨b1, b2, b3, b4, b5, ?_, e1, e2, e3, e4, e5⟩
  simp only [renderHulls, makeHulls, m1, m2, m3, m4, m5, Except.bind]

theorem render_apart {b1 b2 b3 b4 b5 : Body} (h : RenderAt b1 b2 b3 b4 b5) : ∀ k < 5, ∀ l < 5, k < l →
    KeptApart (1 / 10) (bodyAt [b1, b2, b3, b4, b5] k) (bodyAt [b1, b2, b3, b4, b5] l) := by
  obtain ⟨q1, q2⟩ := sqrt_two_bounds
  intro k hk l hl hkl
  interval_cases l <;> interval_cases k
  · refine kept_right h.h1 h.h2 0 (by simp) ?_
    simp only [tilted, List.mem_cons, List.not_mem_nil, or_false, forall_eq_or_imp, forall_eq]
    norm_num [edgeVec, outward, Spec.inner]
    (try constructorm* _ ∧ _) <;> linarith
  · refine kept_right h.h1 h.h3 2 (by simp) ?_
    simp only [tilted, List.mem_cons, List.not_mem_nil, or_false, forall_eq_or_imp, forall_eq]
    norm_num [edgeVec, outward, Spec.inner]
    (try constructorm* _ ∧ _) <;> linarith
  · refine kept_left h.h2 h.h3 0 (by simp) ?_
    simp only [List.mem_cons, List.not_mem_nil, or_false, forall_eq_or_imp, forall_eq]
    norm_num [edgeVec, outward, Spec.inner]
  · refine kept_right h.h1 h.h4 2 (by simp) ?_
    simp only [tilted, List.mem_cons, List.not_mem_nil, or_false, forall_eq_or_imp, forall_eq]
    norm_num [edgeVec, outward, Spec.inner]
    (try constructorm* _ ∧ _) <;> linarith
  · refine kept_right h.h2 h.h4 2 (by simp) ?_
    simp only [List.mem_cons, List.not_mem_nil, or_false, forall_eq_or_imp, forall_eq]
    norm_num [edgeVec, outward, Spec.inner]
  · refine kept_right h.h3 h.h4 0 (by simp) ?_
    simp only [List.mem_cons, List.not_mem_nil, or_false, forall_eq_or_imp, forall_eq]
    norm_num [edgeVec, outward, Spec.inner]
  · refine kept_right h.h1 h.h5 4 (by simp) ?_
    simp only [tilted, List.mem_cons, List.not_mem_nil, or_false, forall_eq_or_imp, forall_eq]
    norm_num [edgeVec, outward, Spec.inner]
    (try constructorm* _ ∧ _) <;> linarith
  · refine kept_left h.h2 h.h5 0 (by simp) ?_
    simp only [List.mem_cons, List.not_mem_nil, or_false, forall_eq_or_imp, forall_eq]
    norm_num [edgeVec, outward, Spec.inner]
  · refine kept_left h.h3 h.h5 2 (by simp) ?_
    simp only [List.mem_cons, List.not_mem_nil, or_false, forall_eq_or_imp, forall_eq]
    norm_num [edgeVec, outward, Spec.inner]
  · refine kept_left h.h4 h.h5 2 (by simp) ?_
    simp only [List.mem_cons, List.not_mem_nil, or_false, forall_eq_or_imp, forall_eq]
    norm_num [edgeVec, outward, Spec.inner]

/-- C121: `testRender` starts: the five hulls are accepted, no two of them touch, the first search finds nothing (whatever pairs the broad
phase presents), the world is made, and its first call of the engine answers. -/
theorem C121_render_starts (lcp : LcpSolver) (mi cfuel : ℕ) (hcf : 127 ≤ cfuel) (nc : ℕ → List ℕ)
    (pairs : List Body → List (ℕ × ℕ)) (hp : ∀ bs, ∀ p ∈ pairs bs, p.1 < bs.length ∧ p.2 < bs.length ∧ p.1 ≠ p.2) (fnd : Finder) :
    ∃ w, testRender lcp mi (rejectNan (diffCollide cfuel nc pairs)) fnd = .done w ∧ w.contacts = [] ∧ w.t = 0 ∧ w.dt = 1 / 30 ∧
      EngineInv w ∧ w.bodies.length = 5 ∧ w.joints = [] ∧
      (∀ b ∈ w.bodies, SearchBody b ∧ b.isCircle = false ∧ b.verts.length ≤ 5 ∧ 0 < b.mass ∧ 0 < b.ang_inertia) ∧
      ∀ dt, ∃ r, pdipmSolve 2 renderForces lcp mi w dt = .ok r := by
  obtain ⟨b1, b2, b3, b4, b5, hmk, hr⟩ := render_made
  have hall : ∀ b ∈ [b1, b2, b3, b4, b5], SearchBody b ∧ Alive b ∧ b.isCircle = false ∧ b.verts.length ≤ 5 ∧ 0 < b.mass ∧
      0 < b.ang_inertia := by
    have key : ∀ {b ref vs}, HullAt b ref vs → vs.length ≤ 5 → SearchBody b ∧ Alive b ∧ b.isCircle = false ∧ b.verts.length ≤ 5 ∧
        0 < b.mass ∧ 0 < b.ang_inertia := by
      intro b ref vs h hl
      exact ⟨h.search, h.alive, h.notCircle, by rw [h.length]; exact hl, h.mass, h.inertia⟩
    intro b hb
    simp only [List.mem_cons, List.not_mem_nil, or_false] at hb
    rcases hb with rfl | rfl | rfl | rfl | rfl
    · exact key hr.h1 (by simp [tilted])
    · exact key hr.h2 (by simp)
    · exact key hr.h3 (by simp)
    · exact key hr.h4 (by simp)
    · exact key hr.h5 (by simp)
  have hat : ∀ k < [b1, b2, b3, b4, b5].length, bodyAt [b1, b2, b3, b4, b5] k ∈ [b1, b2, b3, b4, b5] := fun k hk => bodyAt_mem hk
  obtain ⟨w, hw, hb, hj, hc, ht, hdt, hi⟩ := apart_starts (bs := [b1, b2, b3, b4, b5]) (by simp) [] renderForces lcp mi cfuel nc pairs hp
    fnd (fun k hk => ⟨(hall _ (hat k hk)).1, (hall _ (hat k hk)).2.1⟩)
    (fun k hk => by
      have := (hall _ (hat k hk)).2.2.2.1
      have : (bodyAt [b1, b2, b3, b4, b5] k).verts.length ^ 3 ≤ 5 ^ 3 := Nat.pow_le_pow_left this 3
      omega)
    (fun k hk l hl hkl => render_apart hr k (by simpa using hk) l (by simpa using hl) hkl) (by simp)
  refine ⟨w, ?_, hc, ht, hdt, hi, by rw [hb]; rfl, hj, ?_, ?_⟩
  · unfold testRender
    rw [hmk]
    exact hw
  · rw [hb]
    intro b hb'
    obtain ⟨q1, -, q2, q3, q4, q5⟩ := hall b hb'
    exact ⟨q1, q2, q3, q4, q5⟩
  · intro dt
    obtain ⟨fl, hf⟩ := withForces_ok _ _ w.bodies.length w.t
    refine C35_no_contact_succeeds 2 _ lcp mi w dt hi.joints ?_ (C71_tree_independent w hi.joints (by rw [hj]; intro k hk; simp at hk)) hc fl hf
    rw [hb]
    exact fun b hb' => (hall b hb').2.2.2.2

/-- C121: the pushes of `testRender`: while nothing touches, the second, the fourth and the fifth hull are pushed to the right with 1000 and
turned with 1000 during the first tenth of a second, and nothing else changes any velocity. -/
theorem C121_render_pushed {φ : Type} (lcp : LcpSolver) (mi : ℕ) (w : World (Option Mat) φ) (dt : ℝ) (hjs : w.joints = [])
    (hnc : w.contacts = []) (hcache : CacheOk w) (h5 : w.bodies.length = 5) (hpos : ∀ b ∈ w.bodies, 0 < b.mass ∧ 0 < b.ang_inertia) :
    ∃ e v', pdipmSolve 2 renderForces lcp mi w dt = .ok (e, v') ∧ ∀ i < 5, ∀ k : ℝ,
      (w.t < 1 / 10 ∧ (i = 1 ∨ i = 3 ∨ i = 4) → k = 1000) → (¬ (w.t < 1 / 10 ∧ (i = 1 ∨ i = 3 ∨ i = 4)) → k = 0) →
      twist v' i = twist w.v i + ⟨dt * k / (bodyAt w.bodies i).ang_inertia, dt * k / (bodyAt w.bodies i).mass, 0⟩ := by
  obtain ⟨fl, hf⟩ := withForces_ok [.external hor_impulse 1000, .external rot_impulse 1000, .external hor_impulse 1000,
    .external rot_impulse 1000, .external hor_impulse 1000, .external rot_impulse 1000]
    [(1, 0), (1, 1), (3, 2), (3, 3), (4, 4), (4, 5)] w.bodies.length w.t
  change forceCat renderForces w.t w.bodies.length = .ok fl at hf
  obtain ⟨e, v', hs, hv⟩ := C36_free_flight 2 renderForces lcp mi w dt hjs hnc hcache hpos fl hf
  refine ⟨e, v', hs, fun i hi k hk1 hk0 => ?_⟩
  obtain ⟨l1, l2⟩ := forceCat_length hf
  have hi1 : i < w.bodies.length := by omega
  have hi2 : i < fl.length := by omega
  obtain ⟨a1, a2, a3⟩ := hv i hi1 hi2
  have hb : bodyAt w.bodies i = w.bodies[i] := by simp [bodyAt, List.getD_eq_getElem?_getD, hi1]
  have ha := l2 i hi1 hi2
  have key : fl[i] = ⟨k, k, 0⟩ := by
    have : renderForces.apply_forces i w.t = some ⟨k, k, 0⟩ := by
      by_cases ht : w.t < 1 / 10
      · have h1 : hor_impulse w.t = RIGHT := by unfold hor_impulse; rw [if_pos (by norm_num; linarith)]
        have h2 : rot_impulse w.t = ROT := by unfold rot_impulse; rw [if_pos (by norm_num; linarith)]
        interval_cases i
        · rw [hk0 (by simp)]; simp [renderForces, Demos.withForces, ForceHeap.add_force, ForceHeap.apply_forces]; rfl
        · rw [hk1 ⟨ht, by simp⟩]
          simp [renderForces, Demos.withForces, ForceHeap.add_force, ForceHeap.apply_forces, sumForces, Force.force, Force.set_body, h1, h2, RIGHT, ROT]
          try (apply V3.ext <;> simp)
        · rw [hk0 (by simp)]; simp [renderForces, Demos.withForces, ForceHeap.add_force, ForceHeap.apply_forces]; rfl
        · rw [hk1 ⟨ht, by simp⟩]
          simp [renderForces, Demos.withForces, ForceHeap.add_force, ForceHeap.apply_forces, sumForces, Force.force, Force.set_body, h1, h2, RIGHT, ROT]
          try (apply V3.ext <;> simp)
        · rw [hk1 ⟨ht, by simp⟩]
          simp [renderForces, Demos.withForces, ForceHeap.add_force, ForceHeap.apply_forces, sumForces, Force.force, Force.set_body, h1, h2, RIGHT, ROT]
          try (apply V3.ext <;> simp)
      · have h1 : hor_impulse w.t = ZEROS := by unfold hor_impulse; rw [if_neg (by norm_num; linarith)]
        have h2 : rot_impulse w.t = ZEROS := by unfold rot_impulse; rw [if_neg (by norm_num; linarith)]
        rw [hk0 (fun h => ht h.1)]
        interval_cases i <;>
          simp [renderForces, Demos.withForces, ForceHeap.add_force, ForceHeap.apply_forces, sumForces, Force.force, Force.set_body, h1, h2, ZEROS] <;>
          (try rfl) <;> (try (apply V3.ext <;> simp))
    rw [ha] at this
    exact Option.some.inj this
  rw [key] at a1 a2 a3
  rw [hb]
  apply V3.ext
  · simpa [twist] using a1
  · simpa [twist] using a2
  · simpa [twist] using a3

/-- C121: and whatever happens later in `testRender`, no contact search of it fails: in every pose of its five bodies, with any history, the
search returns contacts with finite numbers. -/
theorem C121_render_search (cfuel : ℕ) (hcf : 127 ≤ cfuel) (nc : ℕ → List ℕ) (pairs : List Body → List (ℕ × ℕ))
    (hp : ∀ bs, ∀ p ∈ pairs bs, p.1 < bs.length ∧ p.2 < bs.length ∧ p.1 ≠ p.2) (bs0 bs : List Body)
    (hmk : makeHulls renderHulls = .ok bs0) (hpos : Posed bs0 bs) (eps : ℝ) (fnd : Finder) :
    ∃ r, rejectNan (diffCollide cfuel nc pairs) eps fnd bs = .ok r := by
  obtain ⟨b1, b2, b3, b4, b5, hmk', hr⟩ := render_made
  rw [hmk'] at hmk
  injection hmk with hmk
  subst hmk
  have key : ∀ {b ref vs}, HullAt b ref vs → vs.length ≤ 5 → SearchBody b ∧ b.isCircle = false ∧ b.verts.length ^ 3 + 2 ≤ cfuel := by
    intro b ref vs h hl
    refine ⟨h.search, h.notCircle, ?_⟩
    have : b.verts.length ^ 3 ≤ 5 ^ 3 := Nat.pow_le_pow_left (by rw [h.length]; exact hl) 3
    omega
  have hall : ∀ b ∈ [b1, b2, b3, b4, b5], SearchBody b ∧ b.isCircle = false ∧ b.verts.length ^ 3 + 2 ≤ cfuel := by
    intro b hb
    simp only [List.mem_cons, List.not_mem_nil, or_false] at hb
    rcases hb with rfl | rfl | rfl | rfl | rfl
    · exact key hr.h1 (by simp [tilted])
    · exact key hr.h2 (by simp)
    · exact key hr.h3 (by simp)
    · exact key hr.h4 (by simp)
    · exact key hr.h5 (by simp)
  exact C121_hulls_search cfuel nc pairs hp _ bs (fun b hb => ⟨(hall b hb).1, (hall b hb).2.1⟩) (fun b hb => (hall b hb).2.2) hpos eps fnd

/-! ## `testSlide` -/

theorem plank_left : AllLeft plank := by
  intro i j k hij hjk hk
  simp only [plank, List.length_cons, List.length_nil] at hk
  interval_cases k <;> interval_cases j <;> interval_cases i <;> norm_num [plank, det]

theorem plank_centroid : get_centroid plank = 0 := by
  norm_num [get_centroid, centroidDen, centroidNum, plank, Finset.sum_range_succ, vget, cross_2d]

theorem hexagon_left : AllLeft hexagon := by
  intro i j k hij hjk hk
  simp only [hexagon, List.length_cons, List.length_nil] at hk
  interval_cases k <;> interval_cases j <;> interval_cases i <;> norm_num [hexagon, det]

theorem turn_bounds : 0 < Real.sin (Real.pi / 32) ∧ Real.sin (Real.pi / 32) < 0.1 ∧ 0.99 < Real.cos (Real.pi / 32) ∧
    Real.cos (Real.pi / 32) ≤ 1 := by
  have h1 := Real.pi_gt_three
  have h2 := Real.pi_lt_d2
  have hs : Real.sin (Real.pi / 32) < Real.pi / 32 := Real.sin_lt (by linarith)
  have hp : 0 < Real.sin (Real.pi / 32) := Real.sin_pos_of_pos_of_lt_pi (by linarith) (by linarith)
  have hc := Real.one_sub_sq_div_two_le_cos (x := Real.pi / 32)
  exact ⟨hp, by linarith, by nlinarith, Real.cos_le_one _⟩

theorem rot_small (t : ℝ) {vs : List V2} (h : ∀ v ∈ vs, |v.1| + |v.2| ≤ 1000) : ∀ v ∈ vs.map (rot t), |v.1| ≤ 1000 ∧ |v.2| ≤ 1000 := by
  intro v hv
  obtain ⟨u, hu, rfl⟩ := List.mem_map.1 hv
  have hl : len (rot t u) ≤ 1000 := by rw [rot_len]; exact (len_le_abs u).trans (h u hu)
  exact ⟨(abs_fst_le_len _).trans hl, (abs_snd_le_len _).trans hl⟩

/-- The bodies of `testSlide`. -/
theorem slideHulls_made : ∃ b1 b2, slideBodies = .ok [mkCircle (.two (975, 575)) 20 { vel := .three ⟨1, 0, 0⟩ }, b1, b2] ∧
    HullAt b1 (500, 300) (plank.map (rot (Real.pi / 32))) ∧ HullAt b2 (100, 100) hexagon ∧
    (∀ b ∈ [b1, b2], b.restitution = 1 / 2 ∧ b.fric_coeff = 1 / 5 ∧ b.mass = 1 ∧ b.v = 0) := by
  have kept : ∀ {ref vs b}, mkHull ref vs slideParams = .ok b → b.restitution = 1 / 2 ∧ b.fric_coeff = 1 / 5 ∧ b.mass = 1 ∧ b.v = 0 := by
    intro ref vs b h
    unfold mkHull at h
    split_ifs at h
    injection h with h
    rw [← h]
    refine ⟨by norm_num [slideParams], by norm_num [slideParams], by norm_num [slideParams], ?_⟩
    apply V3.ext <;> simp [slideParams, Arg.toV3]
  have hm : (0 : ℝ) < slideParams.mass := by norm_num [slideParams]
  have ps : ∀ v ∈ plank, |v.1| + |v.2| ≤ 1000 := by
    simp only [plank, List.mem_cons, List.not_mem_nil, or_false, forall_eq_or_imp, forall_eq]
    norm_num
  have ps' : ∀ v ∈ plank, |v.1| ≤ 1000 ∧ |v.2| ≤ 1000 := fun v hv => by
    have := ps v hv
    have := abs_nonneg v.1
    have := abs_nonneg v.2
    constructor <;> linarith
  obtain ⟨c1, c2⟩ := allLeft_convex plank_left (by simp [plank])
  obtain ⟨b1, m1, -⟩ := hull_at (500, 300) plank slideParams hm (by simp [plank]) plank_left ps'
  have hrot := C121_rotate_verts _ _ _ _ (Real.pi / 32) m1
  obtain ⟨-, -, -, hsh, -⟩ := mkHull_ok m1
  have hv : b1.verts = plank := by
    unfold Body.verts
    rw [hsh, plank_centroid]
    simp
  rw [hv, plank_centroid, add_zero] at hrot
  obtain ⟨b1', m1', e1⟩ := hull_at (500, 300) (plank.map (rot (Real.pi / 32))) slideParams hm (by simp [plank])
    (allLeft_of_convex (convex_turned _ c1) (noThree_turned _ c2)) (rot_small _ ps)
  rw [hrot] at m1'
  injection m1' with m1'
  subst m1'
  obtain ⟨b2, m2, e2⟩ := hull_at (100, 100) hexagon slideParams hm (by simp [hexagon]) hexagon_left (by
    simp only [hexagon, List.mem_cons, List.not_mem_nil, or_false, forall_eq_or_imp, forall_eq]
    norm_num [abs_le])
  obtain ⟨b3, m3, -⟩ := hull_at (100, 100) [(50, 0), (30, 50), (-30, 30), (-50, -30), (0, -50)] slideParams hm (by simp) (by
    intro i j k hij hjk hk
    simp only [List.length_cons, List.length_nil] at hk
    interval_cases k <;> interval_cases j <;> interval_cases i <;> norm_num [det]) (by
    simp only [List.mem_cons, List.not_mem_nil, or_false, forall_eq_or_imp, forall_eq]
    norm_num [abs_le])
  refine ⟨_, b2, ?_, e1, e2, ?_⟩
  swap
  · intro b hb
    simp only [List.mem_cons, List.not_mem_nil, or_false] at hb
    rcases hb with rfl | rfl
    · have := kept m1
      unfold rotate_verts
      split <;> exact this
    · exact kept m2
  simp only [slideBodies, Demos.clock, Demos.Item.build, m1, m2, m3, Except.bind]

theorem region_below {b : Body} {ref : V2} {vs : List V2} (h : HullAt b ref vs) {M : ℝ} (hM : ∀ u ∈ vs, (ref + u).2 ≤ M) :
    ∀ y ∈ bodyRegion b, y.2 ≤ M := by
  have key : ∀ ws : List V2, b.verts = ws → ∀ y : V2, y - b.pos ∈ solid ws → y.2 ≤ M := by
    intro ws hw y hy
    have := solid_le_inner (vs := ws) (d := (0, -1)) (m := -(M - b.pos.2)) (fun v hv => by
      obtain ⟨u, hu, he⟩ := h.corners v (by rw [hw]; exact hv)
      have h1 := hM u hu
      rw [← he] at h1
      simp only [Spec.inner, Prod.snd_add] at h1 ⊢
      linarith) _ hy
    simp only [Spec.inner, Prod.snd_sub] at this
    linarith
  intro y hy
  have hc := h.notCircle
  unfold bodyRegion at hy
  unfold Body.isCircle at hc
  cases hs : b.shape with
  | circle r => rw [hs] at hc; simp at hc
  | hull ws => rw [hs] at hy; exact key ws (by unfold Body.verts; rw [hs]) y hy
  | rect d ws => rw [hs] at hy; exact key ws (by unfold Body.verts; rw [hs]) y hy

theorem slideHulls_apart {b1 b2 : Body} (h1 : HullAt b1 (500, 300) (plank.map (rot (Real.pi / 32)))) (h2 : HullAt b2 (100, 100) hexagon) :
    ∀ k < 3, ∀ l < 3, k < l → KeptApart (1 / 10)
      (bodyAt [mkCircle (.two (975, 575)) 20 { vel := .three ⟨1, 0, 0⟩ }, b1, b2] k)
      (bodyAt [mkCircle (.two (975, 575)) 20 { vel := .three ⟨1, 0, 0⟩ }, b1, b2] l) := by
  obtain ⟨q1, q2, q3, q4⟩ := turn_bounds
  have circ : ∀ b : Body, b.rad = 0 → (∀ y ∈ bodyRegion b, y.2 ≤ 400) →
      KeptApart (1 / 10) (mkCircle (.two (975, 575)) 20 { vel := .three ⟨1, 0, 0⟩ }) b := by
    intro b hr hy
    refine Or.inr ⟨Or.inl rfl, by simp [mkCircle, Body.rad], by rw [hr], ?_⟩
    intro x hx y hyb
    have hx' : Spec.dist x (975, 575) ≤ 20 := by simpa [bodyRegion, mkCircle, Body.pos, Arg.toV3, V3.xy] using hx
    have e1 := (abs_snd_le_len (x - (975, 575))).trans hx'
    have e2 := abs_snd_le_len (x - y)
    have e3 := hy y hyb
    simp only [Prod.snd_sub] at e1 e2
    have e4 := (abs_le.1 e1).1
    have e5 := (abs_le.1 e2).2
    show 1 / 10 < len (x - y)
    linarith
  intro k hk l hl hkl
  interval_cases l <;> interval_cases k
  · refine circ b1 h1.rad (region_below h1 ?_)
    simp only [plank, List.map_cons, List.map_nil, List.mem_cons, List.not_mem_nil, or_false, forall_eq_or_imp, forall_eq, rot,
      Prod.snd_add]
    refine ⟨?_, ?_, ?_, ?_⟩ <;> linarith
  · refine circ b2 h2.rad (region_below h2 ?_)
    simp only [hexagon, List.mem_cons, List.not_mem_nil, or_false, forall_eq_or_imp, forall_eq, Prod.snd_add]
    norm_num
  · refine kept_left h1 h2 2 (by simp [plank]) ?_
    have e : edgeVec (plank.map (rot (Real.pi / 32))) 2 = (900 * Real.cos (Real.pi / 32), 900 * Real.sin (Real.pi / 32)) := by
      simp [edgeVec, plank, rot]
      constructor <;> ring
    rw [e, abs_of_pos (by linarith : (0 : ℝ) < 900 * Real.cos (Real.pi / 32)), abs_of_pos (by linarith : (0 : ℝ) < 900 * Real.sin (Real.pi / 32))]
    intro u hu
    have hu' : -50 ≤ u.1 ∧ u.1 ≤ 50 ∧ u.2 ≤ 50 := by
      revert u
      simp only [hexagon, List.mem_cons, List.not_mem_nil, or_false, forall_eq_or_imp, forall_eq]
      norm_num
    have e2 : Spec.inner (outward (900 * Real.cos (Real.pi / 32), 900 * Real.sin (Real.pi / 32)))
        ((100, 100) + u - ((500, 300) + (plank.map (rot (Real.pi / 32))).getD 2 0)) =
        900 * (Real.sin (Real.pi / 32) * (u.1 - 400) - Real.cos (Real.pi / 32) * (u.2 - 200) - 5) := by
      generalize Real.pi / 32 = t
      simp [plank, rot, Spec.inner, outward]
      linear_combination (-4500) * Real.sin_sq_add_cos_sq t
    show _ < Spec.inner _ _
    rw [e2]
    obtain ⟨u1, u2, u3⟩ := hu'
    nlinarith [mul_nonneg q1.le (by linarith : (0 : ℝ) ≤ u.1 + 50), mul_nonneg (by linarith : (0 : ℝ) ≤ Real.cos (Real.pi / 32) - 0.99) (by linarith : (0 : ℝ) ≤ 50 - u.2)]

/-- C121: `testSlide` of the hull tests starts: all hulls (also the one thrown away) are accepted, neither the turned slope nor the hexagon
nor the clock touch, the world is made without contacts, and its first call of the engine answers. -/
theorem C121_slide_starts (lcp : LcpSolver) (mi cfuel : ℕ) (hcf : 218 ≤ cfuel) (nc : ℕ → List ℕ)
    (pairs : List Body → List (ℕ × ℕ)) (hp : ∀ bs, ∀ p ∈ pairs bs, p.1 < bs.length ∧ p.2 < bs.length ∧ p.1 ≠ p.2) (fnd : Finder) :
    ∃ w, testSlideHull lcp mi (rejectNan (diffCollide cfuel nc pairs)) fnd = .done w ∧ w.contacts = [] ∧ w.t = 0 ∧ w.dt = 1 / 30 ∧
      EngineInv w ∧ w.bodies.length = 3 ∧ (∃ bs, w.joints = [mkTotal bs 1]) ∧ (bodyAt w.bodies 1).p = ⟨0, 500, 300⟩ ∧
      (∀ k, k = 1 ∨ k = 2 → (bodyAt w.bodies k).restitution = 1 / 2 ∧ (bodyAt w.bodies k).fric_coeff = 1 / 5 ∧
        (bodyAt w.bodies k).mass = 1 ∧ (bodyAt w.bodies k).v = 0) ∧
      (∀ b ∈ w.bodies, SearchBody b ∧ b.verts.length ≤ 6 ∧ 0 < b.mass ∧ 0 < b.ang_inertia) ∧
      ∀ dt, ∃ r, pdipmSolve 2 hullForces lcp mi w dt = .ok r := by
  obtain ⟨b1, b2, hmk, e1, e2, e3⟩ := slideHulls_made
  set c := mkCircle (.two (975, 575)) 20 { vel := .three ⟨1, 0, 0⟩ } with hc0
  have hall : ∀ b ∈ [c, b1, b2], SearchBody b ∧ Alive b ∧ b.verts.length ≤ 6 ∧ 0 < b.mass ∧ 0 < b.ang_inertia := by
    intro b hb
    simp only [List.mem_cons, List.not_mem_nil, or_false] at hb
    rcases hb with rfl | rfl | rfl
    · refine ⟨⟨trivial, Or.inl ⟨rfl, ?_⟩⟩, ⟨_, [], .circle _ _ _, rfl⟩, by simp [hc0, mkCircle, Body.verts], by norm_num [hc0, mkCircle],
        C07_circle_inertia_pos _ _ _ (by norm_num) (by norm_num)⟩
      norm_num [hc0, mkCircle, Body.rad]
    · exact ⟨e1.search, e1.alive, by rw [e1.length]; simp [plank], e1.mass, e1.inertia⟩
    · exact ⟨e2.search, e2.alive, by rw [e2.length]; simp [hexagon], e2.mass, e2.inertia⟩
  have hat : ∀ k < [c, b1, b2].length, bodyAt [c, b1, b2] k ∈ [c, b1, b2] := fun k hk => bodyAt_mem hk
  obtain ⟨w, hw, hb, hj, hc, ht, hdt, hi⟩ := apart_starts (bs := [c, b1, b2]) (by simp) [mkTotal [c, b1, b2] 1] hullForces lcp mi cfuel nc
    pairs hp fnd (fun k hk => ⟨(hall _ (hat k hk)).1, (hall _ (hat k hk)).2.1⟩)
    (fun k hk => by
      have := (hall _ (hat k hk)).2.2.1
      have : (bodyAt [c, b1, b2] k).verts.length ^ 3 ≤ 6 ^ 3 := Nat.pow_le_pow_left this 3
      omega)
    (fun k hk l hl hkl => slideHulls_apart e1 e2 k (by simpa using hk) l (by simpa using hl) hkl) (by
      intro j hj
      simp only [List.mem_singleton] at hj
      subst hj
      exact ⟨by simp [mkTotal], by simp [mkTotal], mkTotal_fix _ _ _ rfl⟩)
  refine ⟨w, ?_, hc, ht, hdt, hi, by rw [hb]; rfl, ⟨_, hj⟩, ?_, ?_, ?_, ?_⟩
  · unfold testSlideHull
    rw [hmk]
    exact hw
  · rw [hb]
    show b1.p = _
    rw [e1.pose, C04_centroid_rotate, plank_centroid, rot_map_zero]
    apply V3.ext <;> simp
  · rw [hb]
    rintro k (rfl | rfl)
    · exact e3 b1 (by simp)
    · exact e3 b2 (by simp)
  · rw [hb]
    intro b hb'
    obtain ⟨q1, -, q3, q4, q5⟩ := hall b hb'
    exact ⟨q1, q3, q4, q5⟩
  · intro dt
    obtain ⟨fl, hf⟩ := withForces_ok [.external down_force 100] [(2, 0)] w.bodies.length w.t
    refine C35_no_contact_succeeds 2 _ lcp mi w dt hi.joints ?_ (C71_tree_independent w hi.joints (by rw [hj]; exact tree_one _)) hc fl hf
    rw [hb]
    exact fun b hb' => (hall b hb').2.2.2

/-- C121: the slope of that test, whose vertices were turned but not its pose, stays where it is with the angle zero in every state the
program reaches with an exact solver. -/
theorem C121_slope_stays (lcp : LcpSolver) (hx : Exact lcp) (mi cfuel : ℕ) (hcf : 218 ≤ cfuel) (nc : ℕ → List ℕ)
    (pairs : List Body → List (ℕ × ℕ)) (hp : ∀ bs, ∀ p ∈ pairs bs, p.1 < bs.length ∧ p.2 < bs.length ∧ p.1 ≠ p.2) (fnd : Finder)
    (w0 w : World (Option Mat) Finder) (hw0 : testSlideHull lcp mi (rejectNan (diffCollide cfuel nc pairs)) fnd = .done w0)
    (hr : Reaches (pdipmEnv 2 hullForces lcp mi (rejectNan (diffCollide cfuel nc pairs))) w0 w) :
    (bodyAt w.bodies 1).p = ⟨0, 500, 300⟩ := by
  obtain ⟨w1, h1, -, -, -, h4, -, ⟨bs, h5⟩, h6, -⟩ := C121_slide_starts lcp mi cfuel hcf nc pairs hp fnd
  rw [h1] at hw0
  injection hw0 with hw0
  subst hw0
  rw [← h6]
  exact (C29_static_constraints_hold hullForces lcp mi _ (C12_finder_ok cfuel nc pairs hp) hx w1 w h4 hr (mkTotal bs 1)
    (by rw [h5]; simp)).2.2.2 rfl

/-! ## Concrete cases -/

/-- Both tests start with every pair tested. -/
example (fnd : Finder) : ∃ w, testRender exactLcp 10 (rejectNan (diffCollide 127 (fun _ => []) allPairs)) fnd = .done w ∧
    w.contacts = [] := by
  obtain ⟨w, h1, h2, -⟩ := C121_render_starts exactLcp 10 127 le_rfl (fun _ => []) allPairs allPairs_ok fnd
  exact ⟨w, h1, h2⟩

/-- At the start the five hulls fly freely, as the pushes say: after a first call of the engine the second one moves and turns, the first
one does not. -/
example (fnd : Finder) : ∃ w, testRender exactLcp 10 (rejectNan (diffCollide 127 (fun _ => []) allPairs)) fnd = .done w ∧
    ∃ e v', pdipmSolve 2 renderForces exactLcp 10 w (1 / 30) = .ok (e, v') ∧ twist v' 0 = twist w.v 0 ∧
      twist v' 1 = twist w.v 1 +
        ⟨1 / 30 * 1000 / (bodyAt w.bodies 1).ang_inertia, 1 / 30 * 1000 / (bodyAt w.bodies 1).mass, 0⟩ := by
  obtain ⟨w, h1, h2, h3, -, h4, h5, hj, h6, -⟩ := C121_render_starts exactLcp 10 127 le_rfl (fun _ => []) allPairs allPairs_ok fnd
  obtain ⟨e, v', hs, hv⟩ := C121_render_pushed exactLcp 10 w (1 / 30) hj h2 h4.cache.ok h5
    (fun b hb => (h6 b hb).2.2.2)
  refine ⟨w, h1, e, v', hs, ?_, hv 1 (by norm_num) 1000 (fun _ => rfl) (fun h => absurd ⟨by rw [h3]; norm_num, Or.inl rfl⟩ h)⟩
  rw [hv 0 (by norm_num) 0 (fun h => by simp at h) (fun _ => rfl)]
  apply V3.ext <;> simp

/-- The slope at the start. -/
example (fnd : Finder) : ∃ w, testSlideHull exactLcp 10 (rejectNan (diffCollide 218 (fun _ => []) allPairs)) fnd = .done w ∧
    (bodyAt w.bodies 1).p = ⟨0, 500, 300⟩ := by
  obtain ⟨w, h1, -⟩ := C121_slide_starts exactLcp 10 218 le_rfl (fun _ => []) allPairs allPairs_ok fnd
  exact ⟨w, h1, C121_slope_stays exactLcp exactLcp_exact 10 218 le_rfl (fun _ => []) allPairs allPairs_ok fnd w w h1 .refl⟩

/-- The five hulls of `testRender` piled up at one point: the search still returns. -/
example (fnd : Finder) : ∃ bs0 bs, makeHulls renderHulls = .ok bs0 ∧ Posed bs0 bs ∧
    (∀ k < bs.length, (bodyAt bs k).pos = (0, 0)) ∧ bs.length = 5 ∧
    ∃ r, rejectNan (diffCollide 127 (fun _ => []) allPairs) (1 / 10) fnd bs = .ok r := by
  obtain ⟨b1, b2, b3, b4, b5, hmk, -⟩ := render_made
  have hpos : Posed [b1, b2, b3, b4, b5] ([b1, b2, b3, b4, b5].map fun b => b.run [.setP 0]) := by
    refine ⟨by simp, fun k hk => ⟨[.setP 0], ?_⟩⟩
    simp only [List.length_cons, List.length_nil] at hk
    interval_cases k <;> rfl
  refine ⟨_, _, hmk, hpos, ?_, by simp, C121_render_search 127 le_rfl (fun _ => []) allPairs allPairs_ok _ _ hmk hpos (1 / 10) fnd⟩
  intro k hk
  simp only [List.map_cons, List.map_nil, List.length_cons, List.length_nil] at hk
  interval_cases k <;> simp [bodyAt, Body.run, Body.op, Body.pos, set_p_p] <;> rfl

/-- Two frictionless hexagons heading for each other. -/
theorem hexagons_regular (fnd : Finder) : ∃ w : World (Option Mat) Finder, Regular w ∧ w.strict_no_pen = false ∧ w.dt = 1 / 30 ∧
    w.t = 0 ∧ w.bodies.length = 2 ∧ (∀ b ∈ w.bodies, SearchBody b ∧ b.isCircle = false ∧ b.verts.length = 6) ∧
    (bodyAt w.bodies 0).v = ⟨0, 10, 0⟩ ∧ (bodyAt w.bodies 1).v = 0 ∧ (bodyAt w.bodies 0).p.x < (bodyAt w.bodies 1).p.x := by
  have fric : ∀ {ref vs a b}, mkHull ref vs a = .ok b → b.fric_coeff = a.fric_coeff := by
    intro ref vs a b h
    unfold mkHull at h
    split_ifs at h
    injection h with h
    rw [← h]
  have hs : ∀ v ∈ hexagon, |v.1| ≤ 1000 ∧ |v.2| ≤ 1000 := by
    simp only [hexagon, List.mem_cons, List.not_mem_nil, or_false, forall_eq_or_imp, forall_eq]
    norm_num [abs_le]
  obtain ⟨b1, m1, e1⟩ := hull_at (0, 0) hexagon { vel := .three ⟨0, 10, 0⟩, fric_coeff := 0 } (by norm_num) (by simp [hexagon]) hexagon_left hs
  obtain ⟨b2, m2, e2⟩ := hull_at (200, 0) hexagon { fric_coeff := 0 } (by norm_num) (by simp [hexagon]) hexagon_left hs
  have hall : ∀ b ∈ [b1, b2], SearchBody b ∧ Alive b ∧ b.isCircle = false ∧ b.verts.length = 6 ∧ (0 < b.mass ∧ 0 < b.ang_inertia) ∧
      b.fric_coeff = 0 := by
    intro b hb
    simp only [List.mem_cons, List.not_mem_nil, or_false] at hb
    rcases hb with rfl | rfl
    · exact ⟨e1.search, e1.alive, e1.notCircle, by rw [e1.length]; rfl, ⟨e1.mass, e1.inertia⟩, fric m1⟩
    · exact ⟨e2.search, e2.alive, e2.notCircle, by rw [e2.length]; rfl, ⟨e2.mass, e2.inertia⟩, fric m2⟩
  have hat : ∀ k < [b1, b2].length, bodyAt [b1, b2] k ∈ [b1, b2] := fun k hk => bodyAt_mem hk
  obtain ⟨w, hw, hb, hj, hc, ht, hdt, hi⟩ := apart_starts (bs := [b1, b2]) (by simp) [] hullForces exactLcp 10 218 (fun _ => []) allPairs
    allPairs_ok fnd (fun k hk => ⟨(hall _ (hat k hk)).1, (hall _ (hat k hk)).2.1⟩)
    (fun k hk => by rw [(hall _ (hat k hk)).2.2.2.1]; norm_num)
    (fun k hk l hl hkl => by
      simp only [List.length_cons, List.length_nil] at hk hl
      have h0 : k = 0 := by omega
      have h1 : l = 1 := by omega
      subst h0; subst h1
      refine kept_left e1 e2 0 (by simp [hexagon]) ?_
      simp only [hexagon, List.mem_cons, List.not_mem_nil, or_false, forall_eq_or_imp, forall_eq]
      norm_num [edgeVec, outward, Spec.inner, abs_le]) (by simp)
  refine ⟨{ w with strict_no_pen := false }, ⟨⟨⟨hi.good.rect, hi.good.valid, hi.good.fix, hi.good.vel⟩, hi.joints, hi.contacts, hi.cache⟩,
    ?_, ?_, ?_⟩, rfl, hdt, ht, ?_, ?_, ?_, ?_, ?_⟩
  · show JointTree w.joints
    rw [hj]; intro k hk; simp at hk
  · show ∀ b ∈ w.bodies, _
    rw [hb]; exact fun b hb' => (hall b hb').2.2.2.2.1
  · show ∀ b ∈ w.bodies, _
    rw [hb]; exact fun b hb' => (hall b hb').2.2.2.2.2
  · show w.bodies.length = 2
    rw [hb]; rfl
  · show ∀ b ∈ w.bodies, _
    rw [hb]; exact fun b hb' => ⟨(hall b hb').1, (hall b hb').2.2.1, (hall b hb').2.2.2.1⟩
  · show (bodyAt w.bodies 0).v = _
    rw [hb]
    obtain ⟨-, -, -, -, -, -, hv, -⟩ := mkHull_ok m1
    exact hv
  · show (bodyAt w.bodies 1).v = _
    rw [hb]
    obtain ⟨-, -, -, -, -, -, hv, -⟩ := mkHull_ok m2
    exact hv
  · show (bodyAt w.bodies 0).p.x < (bodyAt w.bodies 1).p.x
    rw [hb]
    show b1.p.x < b2.p.x
    rw [e1.pose, e2.pose]
    simp

/-- Their run returns. -/
example (fnd : Finder) : ∃ w w' : World (Option Mat) Finder, (bodyAt w.bodies 0).v = ⟨0, 10, 0⟩ ∧
    runWorld (pdipmEnv 2 ⟨fun _ => .gravity 10 none, fun _ => []⟩ (libraryLcp someBtrifact (1 / 10 ^ 12) 3) 20
      (rejectNan (diffCollide 218 (fun _ => []) allPairs))) 4 20 4800 w = .done w' ∧ 20 ≤ w'.t := by
  obtain ⟨w, h1, h2, h3, h4, h5, h6, h7, -⟩ := hexagons_regular fnd
  obtain ⟨w', r1, r2, -⟩ := C121_hulls_run someBtrifact someBtrifact_ok (1 / 10 ^ 12) 3 20 (by norm_num) ⟨fun _ => .gravity 10 none, fun _ => []⟩
    218 (fun _ => []) allPairs allPairs_ok w h1 (fun b hb => ⟨(h6 b hb).1, (h6 b hb).2.1⟩) (fun b hb => by rw [(h6 b hb).2.2]; norm_num)
    (fun t => forces_ok_of _ (by simp) _ t) h2 (by rw [h3]; norm_num) 20 (by rw [h4]; norm_num) 4800 (by rw [h3, h4]; norm_num) 4 le_rfl
  exact ⟨w, w', h7, r1, r2⟩

/-- None of their steps raises. -/
example (fnd : Finder) : ∃ w : World (Option Mat) Finder, w.bodies.length = 2 ∧ ∀ fuel dt e,
    w.step_dt (pdipmEnv 2 ⟨fun _ => .gravity 10 none, fun _ => []⟩ (libraryLcp someBtrifact (1 / 10 ^ 12) 3) 20
      (rejectNan (diffCollide 218 (fun _ => []) allPairs))) fuel dt ≠ .raised e := by
  obtain ⟨w, h1, h2, h3, h4, h5, h6, h7, -⟩ := hexagons_regular fnd
  exact ⟨w, h5, fun fuel dt e => C121_hulls_never_raise someBtrifact someBtrifact_ok (1 / 10 ^ 12) 3 20 (by norm_num)
    ⟨fun _ => .gravity 10 none, fun _ => []⟩ 218 (fun _ => []) allPairs allPairs_ok w h1 (fun b hb => ⟨(h6 b hb).1, (h6 b hb).2.1⟩)
    (fun b hb => by rw [(h6 b hb).2.2]; norm_num) (fun t => forces_ok_of _ (by simp) _ t) fuel dt e⟩

/-- A disc and a hexagon: the search returns wherever they are, and fails only in a degenerate pose. -/
example (p q : V3) (eps : ℝ) (fnd : Finder) : ∃ b, mkHull (0, 0) hexagon {} = .ok b ∧
    (∃ r, diffCollide 218 (fun _ => []) allPairs eps fnd [(mkCircle (.two (0, 0)) 5 {}).run [.setP p], b.run [.setP q]] = .ok r) ∧
    ∀ e, rejectNan (diffCollide 218 (fun _ => []) allPairs) eps fnd
      [(mkCircle (.two (0, 0)) 5 {}).run [.setP p], b.run [.setP q]] = .error e → e = .raised "nonfinite" := by
  obtain ⟨h1, h2⟩ := allLeft_convex hexagon_left (by simp [hexagon])
  obtain ⟨b, hb, hs⟩ := C121_hull_qualifies (0, 0) hexagon {} h1 h2 (small_diam (by
    simp only [hexagon, List.mem_cons, List.not_mem_nil, or_false, forall_eq_or_imp, forall_eq]
    norm_num [abs_le])) [.setP q]
  have hall : ∀ x ∈ [(mkCircle (.two (0, 0)) 5 {}).run [.setP p], b.run [.setP q]], SearchBody x ∧ x.verts.length ^ 3 + 2 ≤ 218 := by
    intro x hx
    simp only [List.mem_cons, List.not_mem_nil, or_false] at hx
    rcases hx with rfl | rfl
    · refine ⟨C121_plain_qualifies _ (Or.inl ⟨_, _, _, _, rfl, by norm_num⟩), ?_⟩
      rw [run_verts _ _ (by trivial)]
      simp [mkCircle, Body.verts]
    · refine ⟨hs, ?_⟩
      obtain ⟨-, -, -, hsh, -⟩ := mkHull_ok hb
      rw [run_verts _ _ (mkHull_rectForm hb)]
      simp [Body.verts, hsh, hexagon]
  refine ⟨b, hb, C121_search_total 218 (fun _ => []) allPairs eps fnd _ (fun p hp => ⟨(allPairs_ok _ p hp).1, (allPairs_ok _ p hp).2.1⟩)
    (fun x hx => (hall x hx).1) (fun x hx => (hall x hx).2), fun e he => ?_⟩
  exact (C121_search_fails 218 (fun _ => []) allPairs eps fnd _ (fun p hp => ⟨(allPairs_ok _ p hp).1, (allPairs_ok _ p hp).2.1⟩)
    (fun x hx => (hall x hx).1) (fun x hx => (hall x hx).2) e he).1

/-- The assertions of the two unit tests. -/
example : ∃ p r, mkHull (700, 300) tilted {} = .ok p ∧ mkRect (.two (300, 300)) (20, 20) {} = .ok r ∧ p.pos = (710, 310) ∧
    p.ang_inertia = r.ang_inertia := by
  obtain ⟨p, hp, hc⟩ := C121_test_centroid (700, 300) {}
  obtain ⟨r, hr⟩ := (C06_rect_accepts_iff (.two (300, 300)) (20, 20) {}).2 (by norm_num)
  refine ⟨p, r, hp, hr, ?_, sub_eq_zero.1 (C121_test_inertia _ _ _ p r hp hr)⟩
  rw [eq_add_of_sub_eq hc]
  norm_num

/-- Example for `C64_disjoint_no_contact`: two triangles ten apart; the search returns and reports nothing. -/
example (i1 i2 : ℕ) (f : Finder) : ∃ f', hullHull 0 (0, 0) (10, 0) triangle triangle i1 i2 f = .ok (f', []) := by
  have hl : ∀ v ∈ triangle, len v ≤ 2 := by
    intro v hv
    simp only [triangle, List.mem_cons, List.not_mem_nil, or_false] at hv
    rcases hv with rfl | rfl | rfl <;> rw [len] <;> exact Real.sqrt_le_iff.2 (by norm_num)
  obtain ⟨⟨f', pts⟩, h⟩ := convex_hullHull_total triangle_convex triangle_noThreeCollinear triangle_convex triangle_noThreeCollinear
    triangle_zero triangle_zero hl hl (by norm_num) 0 (0, 0) (10, 0) i1 i2 f
  have hx : ∀ x ∈ solid triangle, len x ≤ 2 := solid_len_le hl
  have h0 := C64_disjoint_no_contact triangle triangle triangle_convex triangle_noThreeCollinear triangle_convex triangle_noThreeCollinear
    (0, 0) (10, 0) (fun x hxm y hym e => by
      have q1 := (Real.sqrt_le_iff.1 (hx x hxm)).2
      have q2 := (Real.sqrt_le_iff.1 (hx y hym)).2
      have e1 := congrArg Prod.fst e
      simp only [Prod.fst_add] at e1
      have a1 : x.1 ≤ 2 := by nlinarith [sq_nonneg x.2, sq_nonneg (x.1 - 2)]
      have a2 : -2 ≤ y.1 := by nlinarith [sq_nonneg y.2, sq_nonneg (y.1 + 2)]
      linarith) i1 i2 f f' pts h
  exact ⟨f', by rw [h, h0]⟩

/-- Example for `C121_rotate_verts`: the hexagon turned by a seventh of a half turn is a hull that the constructor accepts. -/
example : ∃ b c, mkHull (200, 100) hexagon {} = .ok b ∧ mkHull ((200, 100) + get_centroid hexagon) (b.verts.map (rot (Real.pi / 7))) {} = .ok c ∧
    c.p = b.p ∧ c.verts = b.verts.map (rot (Real.pi / 7)) := by
  obtain ⟨b, hb, -⟩ := hull_at (200, 100) hexagon {} (by norm_num) (by simp [hexagon]) hexagon_left (by
    simp only [hexagon, List.mem_cons, List.not_mem_nil, or_false, forall_eq_or_imp, forall_eq]
    norm_num [abs_le])
  refine ⟨b, _, hb, C121_rotate_verts _ _ _ b _ hb, ?_, ?_⟩
  · unfold rotate_verts
    split <;> rfl
  · obtain ⟨-, -, -, hsh, -⟩ := mkHull_ok hb
    simp only [rotate_verts, Body.verts, hsh, hullRotate, List.map_map]
    exact List.map_congr_left fun v _ => by simp [rotation_matrix, M22.matmul, rot, sub_eq_add_neg]

end LcpPhysics
