import Verif.Props.Units
import Verif.Props.Bodies
import Verif.Props.Pivot
import Verif.Props.RectContact

/-! # C108: whole simulations in other units, from the constructors to the end of a run -/

noncomputable section

namespace LcpPhysics
open Spec

/-! ## Contacts -/

/-- C108: collision detection in other units. The finder run on bodies measured in other units of length returns the
same contacts measured in those units (or raises the same error), for circles of any size, and for other bodies if
the measures are small against the constant `1e10` of contacts.py:223 and the reference points lie within the
outlines. -/
theorem C108_contacts (U : Units) (R : ℝ) (gas : ℕ) (nc : ℕ → List ℕ) (pairs : List Body → List (ℕ × ℕ)) (eps : ℝ)
    (f : Finder) (bs : List Body) (hp : pairs (bs.map U.body) = pairs bs)
    (hi : ∀ p ∈ pairs bs, p.1 < bs.length ∧ p.2 < bs.length)
    (hfit : ∀ p ∈ pairs bs, PairFits U.len R (bodyAt bs p.1) (bodyAt bs p.2)) :
    diffCollide gas nc pairs (U.len * eps) f (bs.map U.body) =
      (diffCollide gas nc pairs eps f bs).map fun r => (r.1, r.2.map U.contact) := by
  unfold diffCollide
  rw [hp, handleAll_units U gas nc eps bs (pairs bs) f hi hfit]
  cases handleAll gas nc eps bs (pairs bs) f <;> rfl

theorem rejectNan_units {U : Units} (R : ℝ) (gas : ℕ) (nc : ℕ → List ℕ) (pairs : List Body → List (ℕ × ℕ))
    (Q : Body → Prop) (hp : ∀ bs, (∀ b ∈ bs, Q b) → pairs (bs.map U.body) = pairs bs)
    (hi : ∀ bs, ∀ p ∈ pairs bs, p.1 < bs.length ∧ p.2 < bs.length ∧ p.1 ≠ p.2)
    (hfit : ∀ bs, (∀ b ∈ bs, Q b) → ∀ p ∈ pairs bs, PairFits U.len R (bodyAt bs p.1) (bodyAt bs p.2)) :
    ScalesContacts U Q (rejectNan (diffCollide gas nc pairs)) := by
  intro eps f bs hQ
  unfold rejectNan
  rw [C108_contacts U R gas nc pairs eps f bs (hp bs hQ) (fun p hpm => ⟨(hi bs p hpm).1, (hi bs p hpm).2.1⟩) (hfit bs hQ)]
  cases diffCollide gas nc pairs eps f bs with
  | error e => rfl
  | ok r =>
    simp only [ok_map]
    have e : (r.2.map U.contact).all (fun c => !c.nan) = r.2.all fun c => !c.nan := by
      rw [List.all_map]; rfl
    rw [e]
    split <;> rfl

/-! ## Kinds of bodies -/

theorem circles_lasting : Lasting fun b => b.isCircle = true := by
  constructor
  · intro b d h
    unfold Body.isCircle at *
    unfold Body.move Body.set_p
    cases hs : b.shape with
    | circle r => simp [Body.baseSetP, hs]
    | hull vs => rw [hs] at h; simp at h
    | rect d vs => rw [hs] at h; simp at h
  · intro b u h
    exact h

theorem rad_move (b : Body) (d : ℝ) : (b.move d).rad = b.rad := by
  unfold Body.rad Body.move Body.set_p
  cases hs : b.shape <;> simp [Body.baseSetP, hs]

/-- A body that fits and, if it is a `Rect`, has opposite vertices. -/
def Sized (R : ℝ) (b : Body) : Prop := Fits R b ∧ b.RectForm

theorem len_rot (t : ℝ) (v : V2) : len (rot t v) = len v := by
  unfold len
  congr 1
  have := rot_inner t v v
  simp only [Spec.inner] at this
  nlinarith

theorem centred_rot (t : ℝ) {vs : List V2} (h : Centred vs) : Centred (vs.map (rot t)) := by
  intro d
  obtain ⟨v, hv, hd⟩ := h (rot (-t) d)
  refine ⟨rot t v, List.mem_map.2 ⟨v, hv, rfl⟩, ?_⟩
  rw [← rot_inner (-t), rot_add, add_neg_cancel, rot_zero]
  exact hd

theorem sized_lasting (R : ℝ) : Lasting (Sized R) := by
  constructor
  · rintro b d ⟨⟨h1, h2, h3⟩, h4⟩
    have hv : (b.move d).verts = b.verts.map (rot ((b.p + d • b.v).r - b.p.r)) := set_p_verts b _ h4
    refine ⟨⟨?_, ?_, ?_⟩, ?_⟩
    · intro v hvm
      rw [hv] at hvm
      obtain ⟨x, hx, rfl⟩ := List.mem_map.1 hvm
      rw [len_rot]
      exact h1 x hx
    · rw [rad_move]; exact h2
    · intro hc
      rw [isCircle_move] at hc
      rw [hv]
      exact centred_rot _ (h3 hc)
    · exact set_p_rectForm b _ h4
  · rintro b u ⟨⟨h1, h2, h3⟩, h4⟩
    exact ⟨⟨h1, h2, h3⟩, h4⟩

/-! ## Constructors -/

theorem toV3_pose (U : Units) (p : Arg) : (U.poseArg p).toV3 = U.pose p.toV3 := by
  cases p <;> simp [Units.poseArg, Arg.toV3, Units.pose]

theorem toV3_vel (U : Units) (p : Arg) : (U.velArg p).toV3 = U.vel p.toV3 := by
  cases p with
  | two p => apply V3.ext <;> simp [Units.velArg, Arg.toV3, Units.vel] <;> ring
  | three q => rfl

/-- C108: a circle built from rescaled arguments is the rescaled circle (mass and material constants unchanged). -/
theorem C108_circle (U : Units) (pos : Arg) (rad : ℝ) (a : Params) :
    mkCircle (U.poseArg pos) (U.len * rad) (U.params a) = U.body (mkCircle pos rad a) := by
  unfold mkCircle
  simp only [Units.body, Units.params, toV3_pose, toV3_vel, Units.shape, Units.geom, circleInertia, Body.mk.injEq,
    true_and, and_true]
  refine ⟨by ring, ?_⟩
  congr 1
  · congr 1
    ring

theorem area2_scale (k : ℝ) (vs : List V2) : area2 (vs.map fun v => k • v) = k ^ 2 * area2 vs := by
  unfold area2
  rw [edgeSum_map]
  have : (fun a b : V2 => det (k • a) (k • b)) = fun a b => k ^ 2 • det a b := by
    funext a b
    simp [det]
    ring
  rw [this, edgeSum_smul, smul_eq_mul]

theorem get_centroid_scale {k : ℝ} (hk : k ≠ 0) (vs : List V2) :
    get_centroid (vs.map fun v => k • v) = k • get_centroid vs := by
  unfold get_centroid
  rw [centroidDen_eq, centroidDen_eq, area2_scale, centroidNum_eq, centroidNum_eq, edgeSum_map]
  have : ∀ f : V2 → V2 → V2, (∀ a b, f (k • a) (k • b) = k ^ 3 • f a b) →
      (edgeSum vs fun a b => f (k • a) (k • b)) = k ^ 3 • edgeSum vs fun a b => f a b := by
    intro f hf
    have : (fun a b => f (k • a) (k • b)) = fun a b => k ^ 3 • f a b := by
      funext a b
      exact hf a b
    rw [this, edgeSum_smul]
  rw [this (fun a b => (-det a b) • (a + b)) (by
    intro a b
    ext <;> simp [det] <;> ring)]
  simp only [smul_smul]
  congr 1
  by_cases h : area2 vs = 0
  · simp [h]
  · field_simp

theorem maxRad_scale {k : ℝ} (hk : 0 < k) (vs : List V2) : maxRad (vs.map fun v => k • v) = k * maxRad vs := by
  have h : ((vs.map fun v => k • v).map fun v => dot v v).foldr max 0 =
      k ^ 2 * (vs.map fun v => dot v v).foldr max 0 := by
    induction vs with
    | nil => simp
    | cons v vs ih =>
      simp only [List.map_cons, List.foldr_cons, ih]
      rw [mul_max_of_nonneg _ _ (sq_nonneg k)]
      congr 1
      simp [dot]
      ring
  unfold maxRad
  rw [h, Real.sqrt_mul (sq_nonneg k), Real.sqrt_sq hk.le]

/-- C108: the same for hulls: a hull built from rescaled vertices is the rescaled hull (or both are rejected). -/
theorem C108_hull (U : Units) (ref : V2) (vs : List V2) (a : Params) :
    mkHull (U.len • ref) (vs.map fun v => U.len • v) (U.params a) = (mkHull ref vs a).map U.body := by
  have hk := U.len_pos
  have hc : (is_clockwise (vs.map fun v => U.len • v)) ↔ is_clockwise vs := by
    rw [is_clockwise_iff, is_clockwise_iff, area2_scale]
    exact mul_pos_iff_of_pos_left (by positivity)
  have hv : ((vs.map fun v => U.len • v).map fun v => v - get_centroid (vs.map fun v => U.len • v)) =
      (vs.map fun v => v - get_centroid vs).map fun v => U.len • v := by
    rw [get_centroid_scale hk.ne', List.map_map, List.map_map]
    apply List.map_congr_left
    intro v _
    simp [smul_sub]
  unfold mkHull
  by_cases h : vs.length > 2 ∧ is_clockwise vs
  · rw [if_pos h, if_pos (by rw [List.length_map, hc]; exact h)]
    simp only [Except.map, Except.ok.injEq]
    rw [hv, C07_hull_inertia_scale _ _ _ hk.ne', maxRad_scale hk, get_centroid_scale hk.ne']
    simp only [Units.body, Units.params, toV3_vel, Units.shape, Units.geom, Units.pose, Body.mk.injEq, true_and,
      Geom.mk.injEq, and_true]
    refine ⟨?_, ?_, ?_⟩
    · apply V3.ext <;> simp <;> ring
    · congr 1
      ring
    · rw [smul_add]
  · rw [if_neg h, if_neg (by rw [List.length_map, hc]; exact h)]
    rfl

/-- C108: the same for rectangles. -/
theorem C108_rect (U : Units) (pos : Arg) (dims : V2) (a : Params) :
    mkRect (U.poseArg pos) (U.len • dims) (U.params a) = (mkRect pos dims a).map U.body := by
  have hk := U.len_pos
  by_cases h : 0 < dims.1 * dims.2
  · have h' : 0 < (U.len • dims).1 * (U.len • dims).2 := by
      have : (U.len • dims).1 * (U.len • dims).2 = U.len ^ 2 * (dims.1 * dims.2) := by simp; ring
      rw [this]
      positivity
    have hb : rectBase (U.poseArg pos) (U.len • dims) (U.params a) = U.body (rectBase pos dims a) := by
      unfold rectBase
      simp only [toV3_pose, Units.body, Units.params, toV3_vel, Units.shape, Units.geom, Units.pose, rectInertia,
        Body.mk.injEq, true_and, and_true]
      refine ⟨?_, ?_, ?_⟩
      · simp; ring
      · simp [rectCorners]
        constructor <;> ring
      · simp only [Geom.mk.injEq, and_true]
        refine ⟨?_, ?_⟩
        · congr 1
          ext <;> simp <;> ring
        · ext <;> simp [V3.xy]
    rw [mkRect_eq _ _ _ h, mkRect_eq _ _ _ h', hb]
    cases pos with
    | two p => rfl
    | three q =>
      simp only [Units.poseArg, Except.map]
      rw [set_p_units]
  · have h' : ¬ 0 < (U.len • dims).1 * (U.len • dims).2 := by
      have : (U.len • dims).1 * (U.len • dims).2 = U.len ^ 2 * (dims.1 * dims.2) := by simp; ring
      rw [this]
      intro hh
      exact h ((mul_pos_iff_of_pos_left (by positivity)).1 hh)
    rw [mkRect_err _ _ _ h, mkRect_err _ _ _ h']
    rfl

theorem cart_to_polar_scale {k : ℝ} (hk : 0 < k) (v : V2) :
    cart_to_polar (k • v) = (k * (cart_to_polar v).1, (cart_to_polar v).2) := by
  have h : atan2 (k • v).2 (k • v).1 = atan2 v.2 v.1 := by
    unfold atan2
    have : (⟨(k • v).1, (k • v).2⟩ : ℂ) = (k : ℂ) * ⟨v.1, v.2⟩ := by
      apply Complex.ext <;> simp
    rw [this, Complex.arg_real_mul _ hk]
  unfold cart_to_polar
  simp only [h, nrm_scale hk]

theorem pos_units (U : Units) (b : Body) : (U.body b).pos = U.len • b.pos := by
  ext <;> rfl

/-- C108: constraints built on rescaled bodies are the rescaled constraints. -/
theorem C108_joints (U : Units) (bs : List Body) (i k : ℕ) (hi : i < bs.length) (hk : k < bs.length) (pos : V2)
    (kd : JKind) :
    mkJoint (bs.map U.body) i (some k) (U.len • pos) = U.joint (mkJoint bs i (some k) pos) ∧
    mkJoint (bs.map U.body) i none (U.len • pos) = U.joint (mkJoint bs i none pos) ∧
    mkFixedJoint (bs.map U.body) i k = U.joint (mkFixedJoint bs i k) ∧
    mkAxis kd (bs.map U.body) i = U.joint (mkAxis kd bs i) ∧
    mkTotal (bs.map U.body) i = U.joint (mkTotal bs i) := by
  have e1 := bodyAt_units U bs hi
  have e2 := bodyAt_units U bs hk
  have h := U.len_pos
  refine ⟨?_, ?_, ?_, ?_, ?_⟩
  · unfold mkJoint
    simp only [e1, e2, pos_units, ← smul_sub, cart_to_polar_scale h, Units.joint]
  · unfold mkJoint
    simp only [e1, pos_units, ← smul_sub, cart_to_polar_scale h, Units.joint, smul_zero]
  · unfold mkFixedJoint
    simp only [e1, e2, pos_units, ← smul_sub, Units.joint, mul_zero]
    rfl
  · unfold mkAxis
    simp only [e1, pos_units, Units.joint, smul_zero, mul_zero]
    rfl
  · unfold mkTotal
    simp only [e1, pos_units, ← smul_sub, cart_to_polar_scale h, Units.joint, smul_zero]

/-! ## Whole simulations -/

theorem rectForm_units (U : Units) {b : Body} (h : b.RectForm) : (U.body b).RectForm := by
  obtain ⟨p, v, m, I, r, mu, e, shape, geom⟩ := b
  cases shape with
  | circle r => trivial
  | hull vs => trivial
  | rect d vs =>
    obtain ⟨v0, v1, rfl⟩ := h
    exact ⟨U.len • v0, U.len • v1, by simp [Units.shape]⟩

/-- The worlds built from the two descriptions. -/
theorem units_mkWorld {U : Units} {Q : Body → Prop} {H H' : ForceHeap} {lcp lcp' : LcpSolver} {mi mi' : ℕ}
    {collide : ℝ → Finder → List Body → Except Err (Finder × List Contact)} (hcol : ScalesContacts U Q collide)
    {fnd : Finder} {bodies : List Body} (hQ : ∀ b ∈ bodies, Q b) {joints : List Joint} {dt eps tol : ℝ}
    {ps strict : Bool} {w : World (Option Mat) Finder}
    (h : mkWorld (pdipmEnv 2 H lcp mi collide) none fnd bodies joints dt eps tol ps strict = .done w) :
    ∃ w', mkWorld (pdipmEnv 2 H' lcp' mi' collide) none fnd (bodies.map U.body) (joints.map U.joint) (U.time * dt)
      (U.len * eps) (U.len * tol) ps strict = .done w' ∧ SameIn U w w' := by
  unfold mkWorld at h ⊢
  by_cases h0 : bodies.length = 0
  · rw [if_pos h0] at h; cases h
  rw [if_neg h0] at h
  rw [if_neg (by rwa [List.length_map])]
  by_cases h1 : ∀ j ∈ joints, j.i1 < bodies.length ∧ ∀ k ∈ j.i2, k < bodies.length
  swap
  · rw [if_neg h1] at h; cases h
  rw [if_pos h1] at h
  rw [if_pos (by
    intro j hj
    obtain ⟨j0, hj0, rfl⟩ := List.mem_map.1 hj
    rw [List.length_map]
    exact h1 j0 hj0)]
  have i1 := initWorld_bodies (none : Option Mat) fnd bodies joints dt eps tol ps strict
  have i2 := initWorld_bodies (none : Option Mat) fnd (bodies.map U.body) (joints.map U.joint) (U.time * dt) (U.len * eps) (U.len * tol) ps
    strict
  unfold World.find_contacts at h ⊢
  have c1 : (pdipmEnv 2 H lcp mi collide).collide
      (initWorld (none : Option Mat) fnd bodies joints dt eps tol ps strict).eps
      (initWorld (none : Option Mat) fnd bodies joints dt eps tol ps strict).fnd
      (initWorld (none : Option Mat) fnd bodies joints dt eps tol ps strict).bodies = collide eps fnd bodies := by
    rw [i1]; rfl
  have c2 : (pdipmEnv 2 H' lcp' mi' collide).collide
      (initWorld (none : Option Mat) fnd (bodies.map U.body) (joints.map U.joint) (U.time * dt) (U.len * eps)
        (U.len * tol) ps strict).eps
      (initWorld (none : Option Mat) fnd (bodies.map U.body) (joints.map U.joint) (U.time * dt) (U.len * eps)
        (U.len * tol) ps strict).fnd
      (initWorld (none : Option Mat) fnd (bodies.map U.body) (joints.map U.joint) (U.time * dt) (U.len * eps)
        (U.len * tol) ps strict).bodies = (collide eps fnd bodies).map fun r => (r.1, r.2.map U.contact) := by
    rw [i2, ← hcol _ _ _ hQ]; rfl
  rw [c1] at h
  rw [c2]
  cases hc : collide eps fnd bodies with
  | error e => rw [hc] at h; cases h
  | ok r =>
    rw [hc] at h
    simp only [ok_map, Run.bind_done] at h ⊢
    have same : SameIn U
        { initWorld (none : Option Mat) fnd bodies joints dt eps tol ps strict with contacts := r.2, fnd := r.1 }
        { initWorld (none : Option Mat) fnd (bodies.map U.body) (joints.map U.joint) (U.time * dt) (U.len * eps)
          (U.len * tol) ps strict with contacts := r.2.map U.contact, fnd := r.1 } := by
      refine ⟨?_, rfl, rfl, rfl, rfl, rfl, ?_, rfl, rfl, ?_, rfl⟩
      · change (0 : ℝ) = U.time * 0
        rw [mul_zero]
      · change (initWorld (none : Option Mat) fnd (bodies.map U.body) _ _ _ _ _ _).bodies =
          (initWorld (none : Option Mat) fnd bodies joints dt eps tol ps strict).bodies.map U.body
        rw [i1, i2]
      · intro i hi
        change i < (initWorld (none : Option Mat) fnd bodies joints dt eps tol ps strict).bodies.length at hi
        rw [i1] at hi
        change twist (cat3 ((bodies.map U.body).map Body.v)) i = U.vel (twist (cat3 (bodies.map Body.v)) i)
        rw [← slice3_twist, ← slice3_twist, cat3_slice _ i (by simpa using hi), cat3_slice _ i (by simpa using hi)]
        simp [Units.body]
    generalize ({ initWorld (none : Option Mat) fnd bodies joints dt eps tol ps strict with contacts := r.2, fnd := r.1 } :
      World (Option Mat) Finder) = z at *
    generalize ({ initWorld (none : Option Mat) fnd (bodies.map U.body) (joints.map U.joint) (U.time * dt) (U.len * eps)
          (U.len * tol) ps strict with contacts := r.2.map U.contact, fnd := r.1 } : World (Option Mat) Finder) = z' at *
    cases strict with
    | false =>
      simp only [Bool.false_eq_true, if_false] at h ⊢
      injection h with h
      subst h
      exact ⟨_, rfl, same⟩
    | true =>
      simp only [if_true] at h ⊢
      by_cases hn : z.noPen
      · rw [if_pos hn] at h
        injection h with h
        subst h
        rw [if_pos (by
          unfold World.noPen at hn ⊢
          rw [same.tol, same.contacts, units_pen]
          exact hn)]
        exact ⟨_, rfl, same⟩
      · rw [if_neg hn] at h; cases h

/-- What the two descriptions of a scene have to satisfy. -/
structure Described (bodies : List Body) (joints : List Joint) : Prop where
  form : ∀ b ∈ bodies, b.RectForm
  fixed : ∀ j ∈ joints, j.update_pos bodies = j
  two : ∀ j ∈ joints, ∀ k ∈ j.i2, j.i1 ≠ k
  heavy : ∀ b ∈ bodies, 0 < b.mass ∧ 0 < b.ang_inertia
  slick : ∀ b ∈ bodies, b.fric_coeff = 0

theorem units_simulation (U : Units) (Q : Body → Prop) (hl : Lasting Q) (H H' : ForceHeap) (lcp lcp' : LcpSolver)
    (hx : Exact lcp) (hx' : Exact lcp') (mi mi' : ℕ)
    (collide : ℝ → Finder → List Body → Except Err (Finder × List Contact)) (hfo : FinderOk collide)
    (hcol : ScalesContacts U Q collide) (fnd : Finder) (bodies : List Body) (joints : List Joint)
    (hd : Described bodies joints) (hQ : ∀ b ∈ bodies, Q b) (dt eps tol : ℝ) (ps strict : Bool)
    (hH : ∀ i < bodies.length, ∀ t, H'.apply_forces i (U.time * t) = (H.apply_forces i t).map U.force)
    (fuel n : ℕ) (T : ℝ) (w u : World (Option Mat) Finder)
    (h0 : mkWorld (pdipmEnv 2 H lcp mi collide) none fnd bodies joints dt eps tol ps strict = .done w)
    (h1 : runWorld (pdipmEnv 2 H lcp mi collide) fuel T n w = .done u) :
    ∃ w', mkWorld (pdipmEnv 2 H' lcp' mi' collide) none fnd (bodies.map U.body) (joints.map U.joint) (U.time * dt)
        (U.len * eps) (U.len * tol) ps strict = .done w' ∧ SameIn U w w' ∧
      (∀ u', runWorld (pdipmEnv 2 H' lcp' mi' collide) fuel (U.time * T) n w' = .done u' → SameIn U u u') ∧
      ∃ u', runWorld (pdipmEnv 2 H' exactLcp mi' collide) fuel (U.time * T) n w' = .done u' ∧ SameIn U u u' := by
  obtain ⟨w', hw', sn⟩ := units_mkWorld (H' := H') (lcp' := lcp') (mi' := mi') hcol hQ h0
  obtain ⟨inv, b1, -⟩ := mkWorld_done hfo hd.form hd.fixed hd.two h0
  have hin : ∀ j ∈ joints, j.Valid bodies.length := by
    unfold mkWorld at h0
    by_cases a : bodies.length = 0
    · rw [if_pos a] at h0; cases h0
    rw [if_neg a] at h0
    by_cases b : ∀ j ∈ joints, j.i1 < bodies.length ∧ ∀ k ∈ j.i2, k < bodies.length
    · exact b
    · rw [if_neg b] at h0; cases h0
  obtain ⟨inv', -⟩ := mkWorld_done hfo (fun b hb => by
      obtain ⟨b0, hb0, rfl⟩ := List.mem_map.1 hb
      exact rectForm_units U (hd.form b0 hb0)) (fun j hj => by
      obtain ⟨j0, hj0, rfl⟩ := List.mem_map.1 hj
      rw [units_update_pos U bodies j0 (hin j0 hj0), hd.fixed j0 hj0]) (fun j hj => by
      obtain ⟨j0, hj0, rfl⟩ := List.mem_map.1 hj
      exact hd.two j0 hj0) hw'
  have r := units_same_run U Q hl H H' lcp lcp' hx hx' mi mi' collide hfo hcol w w'
    ⟨sn, inv, inv', by rw [b1]; exact hd.heavy, by rw [b1]; exact hd.slick, by rw [b1]; exact hQ⟩ (by rw [b1]; exact hH)
    fuel n T u h1
  exact ⟨w', hw', sn, r.1, r.2⟩

/-- C108: simulations of circles in other units. A frictionless scene of circles with any joints is described twice, the
second time in other units of length and time. If the simulation of the first description returns, the second world is
built and shows the same scene, every result of its simulation shows the same scene, and with an exact solver that
answers every solvable problem it does return. -/
theorem C108_circles_simulation (U : Units) (H H' : ForceHeap) (lcp lcp' : LcpSolver)
    (hx : Exact lcp) (hx' : Exact lcp') (mi mi' gas : ℕ) (nc : ℕ → List ℕ) (pairs : List Body → List (ℕ × ℕ))
    (hp : ∀ bs, (∀ b ∈ bs, b.isCircle = true) → pairs (bs.map U.body) = pairs bs)
    (hi : ∀ bs, ∀ p ∈ pairs bs, p.1 < bs.length ∧ p.2 < bs.length ∧ p.1 ≠ p.2)
    (fnd : Finder) (bodies : List Body) (joints : List Joint)
    (hd : Described bodies joints) (hc : ∀ b ∈ bodies, b.isCircle = true) (dt eps tol : ℝ) (ps strict : Bool)
    (hH : ∀ i < bodies.length, ∀ t, H'.apply_forces i (U.time * t) = (H.apply_forces i t).map U.force)
    (fuel n : ℕ) (T : ℝ) (w u : World (Option Mat) Finder)
    (h0 : mkWorld (pdipmEnv 2 H lcp mi (rejectNan (diffCollide gas nc pairs))) none fnd bodies joints dt eps tol ps
      strict = .done w)
    (h1 : runWorld (pdipmEnv 2 H lcp mi (rejectNan (diffCollide gas nc pairs))) fuel T n w = .done u) :
    ∃ w', mkWorld (pdipmEnv 2 H' lcp' mi' (rejectNan (diffCollide gas nc pairs))) none fnd (bodies.map U.body)
        (joints.map U.joint) (U.time * dt) (U.len * eps) (U.len * tol) ps strict = .done w' ∧ SameIn U w w' ∧
      (∀ u', runWorld (pdipmEnv 2 H' lcp' mi' (rejectNan (diffCollide gas nc pairs))) fuel (U.time * T) n w' = .done u' →
        SameIn U u u') ∧
      ∃ u', runWorld (pdipmEnv 2 H' exactLcp mi' (rejectNan (diffCollide gas nc pairs))) fuel (U.time * T) n w' =
        .done u' ∧ SameIn U u u' :=
  units_simulation U _ circles_lasting H H' lcp lcp' hx hx' mi mi' _ (C12_finder_ok gas nc pairs hi)
    (rejectNan_units 0 gas nc pairs _ hp hi fun bs hb p hpm =>
      Or.inl ⟨hb _ (bodyAt_mem' (hi bs p hpm).1), hb _ (bodyAt_mem' (hi bs p hpm).2.1)⟩)
    fnd bodies joints hd hc dt eps tol ps strict hH fuel n T w u h0 h1

/-- C108: the same for bodies of any shapes whose points are within `R` of their reference points (with `6 R`, in both
units, below the constant `1e10`), when the broad phase reports pairs of bodies no further apart than `4 R`. -/
theorem C108_simulation (U : Units) (R : ℝ) (hR : Small U.len R) (H H' : ForceHeap) (lcp lcp' : LcpSolver)
    (hx : Exact lcp) (hx' : Exact lcp') (mi mi' gas : ℕ) (nc : ℕ → List ℕ) (pairs : List Body → List (ℕ × ℕ))
    (hp : ∀ bs, (∀ b ∈ bs, Sized R b) → pairs (bs.map U.body) = pairs bs)
    (hi : ∀ bs, ∀ p ∈ pairs bs, p.1 < bs.length ∧ p.2 < bs.length ∧ p.1 ≠ p.2)
    (hnear : ∀ bs, (∀ b ∈ bs, Sized R b) → ∀ p ∈ pairs bs,
      nrm ((bodyAt bs p.1).pos - (bodyAt bs p.2).pos) ≤ 4 * R)
    (fnd : Finder) (bodies : List Body) (joints : List Joint)
    (hd : Described bodies joints) (hc : ∀ b ∈ bodies, Fits R b) (dt eps tol : ℝ) (ps strict : Bool)
    (hH : ∀ i < bodies.length, ∀ t, H'.apply_forces i (U.time * t) = (H.apply_forces i t).map U.force)
    (fuel n : ℕ) (T : ℝ) (w u : World (Option Mat) Finder)
    (h0 : mkWorld (pdipmEnv 2 H lcp mi (rejectNan (diffCollide gas nc pairs))) none fnd bodies joints dt eps tol ps
      strict = .done w)
    (h1 : runWorld (pdipmEnv 2 H lcp mi (rejectNan (diffCollide gas nc pairs))) fuel T n w = .done u) :
    ∃ w', mkWorld (pdipmEnv 2 H' lcp' mi' (rejectNan (diffCollide gas nc pairs))) none fnd (bodies.map U.body)
        (joints.map U.joint) (U.time * dt) (U.len * eps) (U.len * tol) ps strict = .done w' ∧ SameIn U w w' ∧
      (∀ u', runWorld (pdipmEnv 2 H' lcp' mi' (rejectNan (diffCollide gas nc pairs))) fuel (U.time * T) n w' = .done u' →
        SameIn U u u') ∧
      ∃ u', runWorld (pdipmEnv 2 H' exactLcp mi' (rejectNan (diffCollide gas nc pairs))) fuel (U.time * T) n w' =
        .done u' ∧ SameIn U u u' :=
  units_simulation U _ (sized_lasting R) H H' lcp lcp' hx hx' mi mi' _ (C12_finder_ok gas nc pairs hi)
    (rejectNan_units R gas nc pairs _ hp hi fun bs hb p hpm =>
      Or.inr ⟨hR, (hb _ (bodyAt_mem' (hi bs p hpm).1)).1, (hb _ (bodyAt_mem' (hi bs p hpm).2.1)).1, hnear bs hb p hpm⟩)
    fnd bodies joints hd (fun b hb => ⟨hc b hb, hd.form b hb⟩) dt eps tol ps strict hH fuel n T w u h0 h1

/-! ## The constant 1e10 -/

/-- The test of the separating edges raises when every separation is at most `-1e10`. -/
theorem test_separations_raises (eps : ℝ) (P Q : List V2) (pos1 pos2 : V2) (start : ℕ)
    (hne : ∀ i < P.length, edgeVec P i ≠ 0) (h0 : (0 : V2) ∈ solid Q)
    (hdeep : ∀ i < P.length, ∃ d, EdgeGap P Q (pos2 - pos1) i d ∧ d ≤ -10 ^ 10) :
    test_separations eps pos1 pos2 P Q start = .error (.raised "UnboundLocalError") := by
  have keep : ∀ l : List ℕ, (∀ i ∈ l, i < P.length) →
      l.foldl (sepStep eps pos1 pos2 P Q) (.go none (-10 ^ 10)) = .go none (-10 ^ 10) := by
    intro l
    induction l with
    | nil => intro _; rfl
    | cons i l ih =>
      intro hl
      have hi := hl i (by simp)
      rw [List.foldl_cons]
      have : sepStep eps pos1 pos2 P Q (.go none (-10 ^ 10)) i = .go none (-10 ^ 10) := by
        unfold sepStep
        simp only
        have h1 : nrm (vget P ((i + 1) % P.length) - vget P i) ≠ 0 := by
          rw [nrm_eq_len]
          intro hz
          exact hne i hi (len_eq_zero.1 hz)
        rw [if_neg h1]
        set nn := (1 / nrm (vget P ((i + 1) % P.length) - vget P i)) •
          left_orthogonal (vget P ((i + 1) % P.length) - vget P i) with hnn
        obtain ⟨s, k, hs⟩ := get_support_total Q (-nn) h0
        rw [hs]
        simp only
        rw [if_neg]
        obtain ⟨d, ⟨⟨y, hy, hyd⟩, -⟩, hd⟩ := hdeep i hi
        obtain ⟨-, -, hmax, -⟩ := get_support_argmax Q (-nn) s k hs
        have hm := hmax y hy
        have en : edgeNormal P i = nn := by
          rw [hnn, nrm_eq_len]
          rfl
        simp only at hyd
        rw [en] at hyd
        rw [not_lt]
        refine le_trans ?_ hd
        rw [← hyd]
        simp only [Spec.inner, dot, vget, Prod.fst_neg, Prod.snd_neg, Prod.fst_add, Prod.snd_add, Prod.fst_sub,
          Prod.snd_sub] at hm ⊢
        nlinarith
      rw [this]
      exact ih fun j hj => hl j (by simp [hj])
  unfold test_separations
  rw [keep _ fun i hi => mem_satOrder.1 hi]

theorem bigSquare_gap {k : ℝ} (hk : 0 < k) (i : ℕ) (hi : i < 4) :
    edgeVec ((rectCorners (1, 1)).map fun v => k • v) i ≠ 0 ∧ ∃ y ∈ (rectCorners (1, 1)).map fun v => k • v,
      Spec.inner (edgeNormal ((rectCorners (1, 1)).map fun v => k • v) i)
        (y + 0 - ((rectCorners (1, 1)).map fun v => k • v).getD i 0) = -k ∧
      ∀ z ∈ (rectCorners (1, 1)).map fun v => k • v,
        -k ≤ Spec.inner (edgeNormal ((rectCorners (1, 1)).map fun v => k • v) i)
          (z + 0 - ((rectCorners (1, 1)).map fun v => k • v).getD i 0) := by
  have hP : ((rectCorners (1, 1)).map fun v => k • v) = [(k / 2, k / 2), (-(k / 2), k / 2), (-(k / 2), -(k / 2)),
      (k / 2, -(k / 2))] := by
    simp [rectCorners]
    ring_nf
  rw [hP]
  have l1 : len (-k, 0) = k := by simp [len, Real.sqrt_sq hk.le]
  have l2 : len (0, -k) = k := by simp [len, Real.sqrt_sq hk.le]
  have l3 : len (k, 0) = k := by simp [len, Real.sqrt_sq hk.le]
  have l4 : len (0, k) = k := by simp [len, Real.sqrt_sq hk.le]
  have e1 : edgeVec [(k / 2, k / 2), (-(k / 2), k / 2), (-(k / 2), -(k / 2)), (k / 2, -(k / 2))] 0 = (-k, 0) := by
    ext <;> simp [edgeVec] <;> ring
  have e2 : edgeVec [(k / 2, k / 2), (-(k / 2), k / 2), (-(k / 2), -(k / 2)), (k / 2, -(k / 2))] 1 = (0, -k) := by
    ext <;> simp [edgeVec] <;> ring
  have e3 : edgeVec [(k / 2, k / 2), (-(k / 2), k / 2), (-(k / 2), -(k / 2)), (k / 2, -(k / 2))] 2 = (k, 0) := by
    ext <;> simp [edgeVec] <;> ring
  have e4 : edgeVec [(k / 2, k / 2), (-(k / 2), k / 2), (-(k / 2), -(k / 2)), (k / 2, -(k / 2))] 3 = (0, k) := by
    ext <;> simp [edgeVec] <;> ring
  have hk0 := hk.ne'
  interval_cases i
  · refine ⟨by rw [e1]; simp [hk0], (-(k / 2), -(k / 2)), by simp, ?_, ?_⟩
    · simp [edgeNormal, e1, l1, outward, Spec.inner, hk0] <;> ring
    · intro z hz
      simp only [List.mem_cons, List.not_mem_nil, or_false] at hz
      rcases hz with rfl | rfl | rfl | rfl <;> simp [edgeNormal, e1, l1, outward, Spec.inner, hk0] <;> linarith
  · refine ⟨by rw [e2]; simp [hk0], (k / 2, -(k / 2)), by simp, ?_, ?_⟩
    · simp [edgeNormal, e2, l2, outward, Spec.inner, hk0] <;> ring
    · intro z hz
      simp only [List.mem_cons, List.not_mem_nil, or_false] at hz
      rcases hz with rfl | rfl | rfl | rfl <;> simp [edgeNormal, e2, l2, outward, Spec.inner, hk0] <;> linarith
  · refine ⟨by rw [e3]; simp [hk0], (k / 2, k / 2), by simp, ?_, ?_⟩
    · simp [edgeNormal, e3, l3, outward, Spec.inner, hk0] <;> ring
    · intro z hz
      simp only [List.mem_cons, List.not_mem_nil, or_false] at hz
      rcases hz with rfl | rfl | rfl | rfl <;> simp [edgeNormal, e3, l3, outward, Spec.inner, hk0] <;> linarith
  · refine ⟨by rw [e4]; simp [hk0], (-(k / 2), k / 2), by simp, ?_, ?_⟩
    · simp [edgeNormal, e4, l4, outward, Spec.inner, hk0] <;> ring
    · intro z hz
      simp only [List.mem_cons, List.not_mem_nil, or_false] at hz
      rcases hz with rfl | rfl | rfl | rfl <;> simp [edgeNormal, e4, l4, outward, Spec.inner, hk0] <;> linarith

/-- C108: the restriction on size is needed: the code's constants have a dimension. Two unit squares at the same place
collide; measured in a unit ten thousand million times smaller, the same squares make the search raise
`UnboundLocalError`. -/
theorem C108_sizes_matter (U : Units) (hU : 10 ^ 10 ≤ U.len) (f : Finder) : ∃ b, mkRect (.two 0) (1, 1) {} = .ok b ∧
    (∃ f' c cs, diffCollide 66 (fun _ => []) allPairs 0 f [b, b] = .ok (f', c :: cs)) ∧
    diffCollide 66 (fun _ => []) allPairs (U.len * 0) f ([b, b].map U.body) = .error (.raised "UnboundLocalError") := by
  have hk : 0 < U.len := U.len_pos
  obtain ⟨b, hb⟩ := (C06_rect_accepts_iff (.two 0) (1, 1) {}).2 (by norm_num)
  have hz := rect_zero_mem (rect_body_form hb [])
  have hl : len ((1 : ℝ), (1 : ℝ)) ≤ 2 := by
    rw [len, show (2 : ℝ) = Real.sqrt (2 ^ 2) from (Real.sqrt_sq (by norm_num)).symm]
    exact Real.sqrt_le_sqrt (by norm_num)
  obtain ⟨f', pts, h, p, hp, -, -⟩ := C66_rect_contact_depth _ _ _ _ _ _ b b hb hb [] []
    (by linarith [(by norm_num : (4 : ℝ) < 10 ^ 10)]) 0 le_rfl 0 1 f ⟨0, hz, 0, hz, rfl⟩
  have hbb : b = rectBase (.two 0) (1, 1) {} := by
    rw [mkRect_eq _ _ _ (by norm_num)] at hb
    injection hb with hb
    exact hb.symm
  have hpairs : ∀ x y : Body, allPairs [x, y] = [(0, 1)] := fun x y => rfl
  have hcirc : b.isCircle = false := by rw [hbb]; rfl
  have hcirc' : (U.body b).isCircle = false := by rw [hbb]; rfl
  refine ⟨b, hb, ?_, ?_⟩
  · have e : handlePair 66 0 [b, b] f 0 1 = .done (f', pts.map fun p =>
        { normal := p.normal, p1 := p.p1, p2 := p.p2, pen := p.pen, i1 := 0, i2 := 1, nan := p.nan }) := by
      unfold handlePair
      simp only [bodyAt, List.getD_cons_zero, List.getD_cons_succ, hcirc]
      change hullHull 0 b.pos b.pos b.verts b.verts 0 1 f = _ at h
      simp [h, Except.map, Run.ofExcept]
    cases pts with
    | nil => simp at hp
    | cons q qs =>
      refine ⟨f', { normal := q.normal, p1 := q.p1, p2 := q.p2, pen := q.pen, i1 := 0, i2 := 1, nan := q.nan },
        qs.map fun p =>
          { normal := p.normal, p1 := p.p1, p2 := p.p2, pen := p.pen, i1 := 0, i2 := 1, nan := p.nan }, ?_⟩
      simp [diffCollide, hpairs, handleAll, handle, e, Run.toExcept]
  · have hv : (U.body b).verts = (rectCorners (1, 1)).map fun v => U.len • v := by rw [hbb]; rfl
    have hpos : (U.body b).pos = 0 := by rw [hbb]; ext <;> simp [Units.body, Units.pose, rectBase, Body.pos, V3.xy, Arg.toV3]
    have raise : test_separations (U.len * 0) 0 0 (U.body b).verts (U.body b).verts (f.sat 0) =
        .error (.raised "UnboundLocalError") := by
      rw [hv]
      have hzs : (0 : V2) ∈ solid ((rectCorners (1, 1)).map fun v => U.len • v) := by
        have h' : mkRect (U.poseArg (.two 0)) (U.len • (1, 1)) (U.params {}) = .ok (U.body b) := by
          rw [C108_rect, hb]; rfl
        have := rect_zero_mem (rect_body_form h' [])
        rw [← hv]
        exact this
      apply test_separations_raises _ _ _ _ _ _ ?_ hzs
      · intro i hi
        have hi : i < 4 := by simpa [rectCorners] using hi
        obtain ⟨-, y, hy, hy1, hy2⟩ := bigSquare_gap hk i hi
        rw [sub_zero]
        exact ⟨-U.len, edgeGap_intro hy hy1 hy2, by linarith⟩
      · intro i hi
        have hi : i < 4 := by simpa [rectCorners] using hi
        exact (bigSquare_gap hk i hi).1
    have e : handlePair 66 (U.len * 0) [U.body b, U.body b] f 0 1 = .raised (.raised "UnboundLocalError") := by
      unfold handlePair
      simp only [bodyAt, List.getD_cons_zero, List.getD_cons_succ, hcirc']
      simp only [Bool.false_eq_true, and_self, or_self, if_false]
      unfold hullHull
      rw [hpos, raise]
      rfl
    rw [mul_zero] at e ⊢
    simp [diffCollide, hpairs, handleAll, handle, e, Run.toExcept, Run.bind]

/-! ## Examples -/

/-- Millimetres and milliseconds instead of metres and seconds. -/
def milli : Units := ⟨1000, 1000, by norm_num, by norm_num⟩

/-- The two circles of `bounceWorld` as a world built by the program. -/
theorem bounce_built (fnd : Finder) (mi cfuel : ℕ) :
    mkWorld (pdipmEnv 2 noForces exactLcp mi (rejectNan (diffCollide cfuel (fun _ => []) (bouncePairs false)))) none fnd
      (bounceWorld 1 false fnd).bodies [] 1 0 2 false false = .done (bounceWorld 1 false fnd) := by
  have hb : (initWorld (none : Option Mat) fnd (bounceWorld 1 false fnd).bodies [] 1 0 2 false false).bodies =
      (bounceWorld 1 false fnd).bodies := initWorld_bodies _ _ _ _ _ _ _ _ _
  have hcol : rejectNan (diffCollide cfuel (fun _ => []) (bouncePairs false)) 0 fnd (bounceWorld 1 false fnd).bodies =
      .ok (fnd, [spinContact]) := by
    have hcirc : ∀ i < (bounceWorld 1 false fnd).bodies.length, (bodyAt (bounceWorld 1 false fnd).bodies i).isCircle = true := by
      intro i hi
      have hi : i < 2 := hi
      interval_cases i <;> rfl
    have hcc : circleContacts (fun _ => []) 0 (bounceWorld 1 false fnd).bodies
        (bouncePairs false (bounceWorld 1 false fnd).bodies) = [spinContact] := by
      have hn : nrm ((-2 : ℝ), (0 : ℝ)) = 2 := by
        unfold nrm
        rw [show (-2 : ℝ) * -2 + 0 * 0 = 2 ^ 2 by norm_num, Real.sqrt_sq (by norm_num)]
      have h1 : (bodyAt (bounceWorld 1 false fnd).bodies 0).pos - (bodyAt (bounceWorld 1 false fnd).bodies 1).pos = (-2, 0) := by
        ext <;> simp [bounceWorld, bodyAt, scaleMass, unitCircle, Body.pos, V3.xy]
        norm_num
      have h2 : (bodyAt (bounceWorld 1 false fnd).bodies 0).rad = 1 ∧ (bodyAt (bounceWorld 1 false fnd).bodies 1).rad = 1 := ⟨rfl, rfl⟩
      have h3 : bouncePairs false (bounceWorld 1 false fnd).bodies = [(0, 1)] := rfl
      rw [h3]
      simp [circleContacts, circleCircle, h1, h2.1, h2.2, hn, spinContact]
      norm_num
    unfold rejectNan diffCollide
    rw [handleAll_circles hcirc _ _ fun p hp => ⟨(bouncePairs_valid false _ p hp).1, (bouncePairs_valid false _ p hp).2.1⟩, hcc]
    simp [Run.toExcept, spinContact]
  unfold mkWorld
  rw [if_neg (by simp [bounceWorld]), if_pos (by simp)]
  unfold World.find_contacts
  have hcol' : (pdipmEnv 2 noForces exactLcp mi (rejectNan (diffCollide cfuel (fun _ => []) (bouncePairs false)))).collide
      (initWorld (none : Option Mat) fnd (bounceWorld 1 false fnd).bodies [] 1 0 2 false false).eps
      (initWorld (none : Option Mat) fnd (bounceWorld 1 false fnd).bodies [] 1 0 2 false false).fnd
      (bounceWorld 1 false fnd).bodies = .ok (fnd, [spinContact]) := hcol
  have hv : (initWorld (none : Option Mat) fnd (bounceWorld 1 false fnd).bodies [] 1 0 2 false false).v =
      cat3 [⟨0, 1, 0⟩, 0] := rfl
  rw [hb, hcol']
  simp only [hv]
  rfl

/-- Example for `C108_circles_simulation`: the circle that hits the other, in millimetres and milliseconds. -/
example (fnd : Finder) (U : Units) : ∃ w u w' u', w.contacts ≠ [] ∧
    mkWorld (pdipmEnv 2 noForces exactLcp 10 (rejectNan (diffCollide 5 (fun _ => []) (bouncePairs false)))) none fnd
      (bounceWorld 1 false fnd).bodies [] 1 0 2 false false = .done w ∧
    runWorld (pdipmEnv 2 noForces exactLcp 10 (rejectNan (diffCollide 5 (fun _ => []) (bouncePairs false)))) 1 1 1 w = .done u ∧
    mkWorld (pdipmEnv 2 noForces exactLcp 7 (rejectNan (diffCollide 5 (fun _ => []) (bouncePairs false)))) none fnd
      ((bounceWorld 1 false fnd).bodies.map U.body) [] (U.time * 1) (U.len * 0) (U.len * 2) false false = .done w' ∧
    runWorld (pdipmEnv 2 noForces exactLcp 7 (rejectNan (diffCollide 5 (fun _ => []) (bouncePairs false)))) 1 (U.time * 1) 1 w' =
      .done u' ∧ SameIn U u u' := by
  obtain ⟨u, hu⟩ := bounce_runs 1 one_pos false fnd 10 5
  have hb := bounceWorld_bodies 1 one_pos false fnd
  have hinv := bounceWorld_inv 1 false fnd
  obtain ⟨w', h1, -, -, u', h2, h3⟩ := C108_circles_simulation U noForces noForces exactLcp exactLcp exactLcp_exact exactLcp_exact 10 7 5
    (fun _ => []) (bouncePairs false) (by intro bs _; simp [bouncePairs]) (bouncePairs_valid false) fnd
    (bounceWorld 1 false fnd).bodies []
    ⟨hinv.good.rect, by simp, by simp, fun b h => (hb b h).1, fun b h => (hb b h).2.1⟩ (fun b h => (hb b h).2.2.2) 1 0 2 false false
    (by
      intro i _ t
      have e : ∀ t, noForces.apply_forces i t = some 0 := fun _ => rfl
      rw [e, e]
      simp [Units.force]
      rfl) 1 1 1 _ u (bounce_built fnd 10 5) hu
  exact ⟨_, u, w', u', by simp [bounceWorld], bounce_built fnd 10 5, hu, h1, h2, h3⟩

/-- Distance of the farthest point of a body from its reference point. -/
def extent (b : Body) : ℝ := b.verts.foldr (fun v m => max (len v) m) b.rad

theorem extent_units (U : Units) (b : Body) : extent (U.body b) = U.len * extent b := by
  have hk := U.len_pos
  have hl : ∀ v : V2, len (U.len • v) = U.len * len v := fun v => by
    rw [len_smul, abs_of_pos hk]
  have e1 : (U.body b).rad = U.len * b.rad := by
    rcases b with ⟨_, _, _, _, _, _, _, sh, _⟩
    cases sh <;> simp [Units.body, Units.shape, Body.rad]
  have e2 : (U.body b).verts = b.verts.map fun v => U.len • v := by
    rcases b with ⟨_, _, _, _, _, _, _, sh, _⟩
    cases sh <;> simp [Units.body, Units.shape, Body.verts]
  unfold extent
  rw [e1, e2]
  generalize b.verts = vs
  induction vs with
  | nil => rfl
  | cons v vs ih => simp only [List.map_cons, List.foldr_cons, ih, hl, mul_max_of_nonneg _ _ hk.le]

theorem extent_le {R : ℝ} {b : Body} (h : Fits R b) : extent b ≤ R := by
  have h1 := h.verts
  have h2 := h.rad
  unfold extent
  generalize b.verts = vs at h1
  induction vs with
  | nil => exact h2
  | cons v vs ih => exact max_le (h1 v (by simp)) (ih fun w hw => h1 w (by simp [hw]))

open Classical in
/-- A broad phase without units: all pairs no further apart than twice the sum of their extents. -/
def nearPairs (bs : List Body) : List (ℕ × ℕ) :=
  (allPairs bs).filter fun p =>
    nrm ((bodyAt bs p.1).pos - (bodyAt bs p.2).pos) ≤ 2 * (extent (bodyAt bs p.1) + extent (bodyAt bs p.2))

theorem nearPairs_valid (bs : List Body) : ∀ p ∈ nearPairs bs, p.1 < bs.length ∧ p.2 < bs.length ∧ p.1 ≠ p.2 := by
  intro p hp
  have := (List.mem_filter.1 hp).1
  rw [show p = (p.1, p.2) from rfl, allPairs_mem] at this
  omega

theorem nearPairs_units (U : Units) (bs : List Body) : nearPairs (bs.map U.body) = nearPairs bs := by
  have hk := U.len_pos
  have e : allPairs (bs.map U.body) = allPairs bs := by simp [allPairs]
  unfold nearPairs
  rw [e]
  apply List.filter_congr
  intro p hp
  rw [show p = (p.1, p.2) from rfl, allPairs_mem] at hp
  rw [bodyAt_units U bs (by omega : p.1 < bs.length), bodyAt_units U bs hp.2, pos_units, pos_units, extent_units, extent_units,
    ← smul_sub, nrm_eq_len, nrm_eq_len, len_smul, abs_of_pos hk, decide_eq_decide]
  constructor
  · intro h
    nlinarith
  · intro h
    nlinarith

theorem nearPairs_near {R : ℝ} {bs : List Body} (h : ∀ b ∈ bs, Sized R b) : ∀ p ∈ nearPairs bs,
    nrm ((bodyAt bs p.1).pos - (bodyAt bs p.2).pos) ≤ 4 * R := by
  intro p hp
  obtain ⟨h1, h2, -⟩ := nearPairs_valid bs p hp
  have h3 := (List.mem_filter.1 hp).2
  have := extent_le (h _ (bodyAt_mem' h1)).1
  have := extent_le (h _ (bodyAt_mem' h2)).1
  have h3 := of_decide_eq_true h3
  linarith

/-- A smooth square plate of side two. -/
def smoothPlate (x y : ℝ) : Body := rectBase (.two (x, y)) (2, 2) { vel := .three ⟨1, 3, 4⟩, fric_coeff := 0 }

theorem smoothPlate_made (x y : ℝ) :
    mkRect (.two (x, y)) (2, 2) { vel := .three ⟨1, 3, 4⟩, fric_coeff := 0 } = .ok (smoothPlate x y) := by
  rw [mkRect_eq _ _ _ (by norm_num)]
  rfl

theorem smoothPlate_fits (x y : ℝ) : Fits 2 (smoothPlate x y) := by
  have hv : (smoothPlate x y).verts = [(1, 1), (-1, 1), (-1, -1), (1, -1)] := by
    simp [smoothPlate, rectBase, Body.verts, rectCorners]
  refine ⟨?_, ?_, ?_⟩
  · intro v hv'
    rw [hv] at hv'
    have : v.1 ^ 2 = 1 ∧ v.2 ^ 2 = 1 := by
      simp only [List.mem_cons, List.not_mem_nil, or_false] at hv'
      rcases hv' with rfl | rfl | rfl | rfl <;> norm_num
    unfold len
    rw [show (2 : ℝ) = Real.sqrt (2 ^ 2) from (Real.sqrt_sq (by norm_num)).symm]
    exact Real.sqrt_le_sqrt (by rw [this.1, this.2]; norm_num)
  · norm_num [smoothPlate, rectBase, Body.rad]
  · intro _ d
    rw [hv]
    simp only [List.mem_cons, List.not_mem_nil, or_false, Spec.inner]
    rcases le_total 0 d.1 with h1 | h1 <;> rcases le_total 0 d.2 with h2 | h2
    · exact ⟨_, Or.inl rfl, by simp; linarith⟩
    · exact ⟨_, Or.inr (Or.inr (Or.inr rfl)), by simp; linarith⟩
    · exact ⟨_, Or.inr (Or.inl rfl), by simp; linarith⟩
    · exact ⟨_, Or.inr (Or.inr (Or.inl rfl)), by simp; linarith⟩

theorem milli_small : Small milli.len 2 := by
  constructor <;> norm_num [milli]

theorem mkWorld_clock {σ φ : Type} {env : Env σ φ} {eng : σ} {fnd : φ} {bodies : List Body} {joints : List Joint} {dt eps tol : ℝ}
    {ps strict : Bool} {w : World σ φ} (h : mkWorld env eng fnd bodies joints dt eps tol ps strict = .done w) :
    w.t = 0 ∧ w.dt = dt := by
  unfold mkWorld World.find_contacts at h
  by_cases h1 : bodies.length = 0
  · rw [if_pos h1] at h; cases h
  rw [if_neg h1] at h
  by_cases h2 : ∀ j ∈ joints, j.i1 < bodies.length ∧ ∀ k ∈ j.i2, k < bodies.length
  · rw [if_pos h2] at h
    cases hc : env.collide (initWorld eng fnd bodies joints dt eps tol ps strict).eps
      (initWorld eng fnd bodies joints dt eps tol ps strict).fnd (initWorld eng fnd bodies joints dt eps tol ps strict).bodies with
    | error e => rw [hc] at h; cases h
    | ok r =>
      rw [hc] at h
      simp only [Run.bind] at h
      split_ifs at h
      all_goals first
        | (injection h with h; rw [← h]; exact ⟨rfl, rfl⟩)
        | cases h
  · rw [if_neg h2] at h; cases h

/-- Example for `C108_simulation`: a plate that turns about a pivot, simulated in metres and seconds and in millimetres
and milliseconds. -/
example (fnd : Finder) : ∃ w u w' u', u.t = 1 / 30 ∧ w.joints ≠ [] ∧
    mkWorld (pdipmEnv 2 noForces exactLcp 10 (rejectNan (diffCollide 66 (fun _ => []) nearPairs))) none fnd
      [smoothPlate 0 0] (pivotJoints (smoothPlate 0 0) (3, 4)) (1 / 30) (1 / 10) (1 / 1000) false true = .done w ∧
    runWorld (pdipmEnv 2 noForces exactLcp 10 (rejectNan (diffCollide 66 (fun _ => []) nearPairs))) 1 (1 / 30) 1 w = .done u ∧
    mkWorld (pdipmEnv 2 noForces exactLcp 7 (rejectNan (diffCollide 66 (fun _ => []) nearPairs))) none fnd
      ([smoothPlate 0 0].map milli.body) ((pivotJoints (smoothPlate 0 0) (3, 4)).map milli.joint) (milli.time * (1 / 30))
      (milli.len * (1 / 10)) (milli.len * (1 / 1000)) false true = .done w' ∧
    runWorld (pdipmEnv 2 noForces exactLcp 7 (rejectNan (diffCollide 66 (fun _ => []) nearPairs))) 1 (milli.time * (1 / 30)) 1 w' =
      .done u' ∧ SameIn milli u u' := by
  have hform : (smoothPlate 0 0).RectForm := rectBase_rectForm _ _ _
  have hheavy : 0 < (smoothPlate 0 0).mass ∧ 0 < (smoothPlate 0 0).ang_inertia := by
    constructor <;> norm_num [smoothPlate, rectBase, rectInertia]
  obtain ⟨w, hw, hon, hbw, hjw, -⟩ := pivot_initial (H := noForces) (lcp := exactLcp) (mi := 10) (cfuel := 66) (nc := fun _ => [])
    nearPairs_valid fnd (smoothPlate 0 0) hform hheavy (3, 4) (1 / 30) (1 / 10) (1 / 1000) true
  obtain ⟨u, hu, hon', htu⟩ := pivot_step (H := noForces) (fun t => ⟨_, noForces_cat t 1⟩) (lcp := exactLcp) (mi := 10)
    (cfuel := 66) (nc := fun _ => []) nearPairs_valid hon (1 / 30)
  have hwt : w.t = 0 ∧ w.dt = 1 / 30 := mkWorld_clock hw
  have hrun : runWorld (pdipmEnv 2 noForces exactLcp 10 (rejectNan (diffCollide 66 (fun _ => []) nearPairs))) 1 (1 / 30) 1 w =
      .done u := by
    unfold runWorld
    rw [if_pos (by rw [hwt.1]; norm_num)]
    simp only [World.step, Bool.false_eq_true, if_false, hwt.2]
    have hu' : w.step_dt (pdipmEnv 2 noForces exactLcp 10 (rejectNan (diffCollide 66 (fun _ => []) nearPairs))) 1 (1 / 30) =
      .done u := hu
    rw [hu']
    simp only [Run.bind]
    unfold runWorld
    rw [if_neg (by rw [htu, hwt.1]; norm_num)]
  obtain ⟨w', h1, -, -, u', h2, h3⟩ := C108_simulation milli 2 milli_small noForces noForces exactLcp exactLcp exactLcp_exact
    exactLcp_exact 10 7 66 (fun _ => []) nearPairs (fun bs _ => nearPairs_units milli bs) nearPairs_valid
    (fun bs h => nearPairs_near h) fnd [smoothPlate 0 0] (pivotJoints (smoothPlate 0 0) (3, 4))
    ⟨by simpa using hform, by simpa [pivotJoints] using mkJoint_fix _ _ _ _, by simp [pivotJoints, mkJoint], by simpa using hheavy,
      by simp [smoothPlate, rectBase]⟩
    (by simpa using smoothPlate_fits 0 0) (1 / 30) (1 / 10) (1 / 1000) false true
    (by
      intro i _ t
      have e : ∀ t, noForces.apply_forces i t = some 0 := fun _ => rfl
      rw [e, e]
      simp [Units.force]
      rfl) 1 1 (1 / 30) w u hw hrun
  exact ⟨w, u, w', u', by rw [htu, hwt.1]; norm_num, by rw [hjw]; simp [pivotJoints], hw, hrun, h1, h2, h3⟩

/-- Example for `C108_contacts`: two plates that overlap have contacts, and the same ones in other units. -/
example (f : Finder) : ∃ f' c cs,
    diffCollide 66 (fun _ => []) nearPairs (1 / 10) f [smoothPlate 0 0, smoothPlate 1 1] = .ok (f', c :: cs) ∧
    diffCollide 66 (fun _ => []) nearPairs (milli.len * (1 / 10)) f ([smoothPlate 0 0, smoothPlate 1 1].map milli.body) =
      .ok (f', milli.contact c :: cs.map milli.contact) := by
  have hz := rect_zero_mem (rect_body_form (smoothPlate_made 1 1) [])
  have hc : ((1, 1) : V2) ∈ solid ((smoothPlate 0 0).run []).verts :=
    subset_convexHull ℝ _ (by simp [Body.run, smoothPlate, rectBase, Body.verts, rectCorners])
  have hl : len ((2 : ℝ), (2 : ℝ)) ≤ 3 := by
    rw [len, show (3 : ℝ) = Real.sqrt (3 ^ 2) from (Real.sqrt_sq (by norm_num)).symm]
    exact Real.sqrt_le_sqrt (by norm_num)
  obtain ⟨f', pts, h, p, hp, -, -⟩ := C66_rect_contact_depth _ _ _ _ _ _ _ _ (smoothPlate_made 0 0) (smoothPlate_made 1 1) [] []
    (by linarith [(by norm_num : (6 : ℝ) < 10 ^ 10)]) (1 / 10) (by norm_num) 0 1 f ⟨_, hc, 0, hz, by
      ext <;> simp [Body.run, smoothPlate, rectBase, Body.pos, V3.xy, Arg.toV3]⟩
  have hv : ∀ x y, (smoothPlate x y).verts = [(1, 1), (-1, 1), (-1, -1), (1, -1)] := fun x y => by
    simp [smoothPlate, rectBase, Body.verts, rectCorners]
  have hx : ∀ x y, len ((1 : ℝ), (1 : ℝ)) ≤ extent (smoothPlate x y) := fun x y => by
    unfold extent
    rw [hv]
    exact le_max_left _ _
  have hpairs : nearPairs [smoothPlate 0 0, smoothPlate 1 1] = [(0, 1)] := by
    have ha : allPairs [smoothPlate 0 0, smoothPlate 1 1] = [(0, 1)] := rfl
    unfold nearPairs
    rw [ha, List.filter_cons_of_pos, List.filter_nil]
    rw [decide_eq_true_eq]
    have e : (bodyAt [smoothPlate 0 0, smoothPlate 1 1] 0).pos - (bodyAt [smoothPlate 0 0, smoothPlate 1 1] 1).pos = (-1, -1) := by
      ext <;> simp [bodyAt, smoothPlate, rectBase, Body.pos, V3.xy, Arg.toV3]
    change nrm ((bodyAt [smoothPlate 0 0, smoothPlate 1 1] 0).pos - (bodyAt [smoothPlate 0 0, smoothPlate 1 1] 1).pos) ≤
      2 * (extent (smoothPlate 0 0) + extent (smoothPlate 1 1))
    have e2 : nrm ((-1 : ℝ), (-1 : ℝ)) = len ((1 : ℝ), (1 : ℝ)) := by rw [nrm_eq_len]; simp [len]
    have e3 : 0 ≤ len ((1 : ℝ), (1 : ℝ)) := Real.sqrt_nonneg _
    rw [e, e2]
    linarith [hx 0 0, hx 1 1]
  have eh : handlePair 66 (1 / 10) [smoothPlate 0 0, smoothPlate 1 1] f 0 1 = .done (f', pts.map fun p =>
      { normal := p.normal, p1 := p.p1, p2 := p.p2, pen := p.pen, i1 := 0, i2 := 1, nan := p.nan }) := by
    have c1 : ∀ x y, (smoothPlate x y).isCircle = false := fun _ _ => rfl
    unfold handlePair
    simp only [bodyAt, List.getD_cons_zero, List.getD_cons_succ, c1]
    change hullHull (1 / 10) (smoothPlate 0 0).pos (smoothPlate 1 1).pos (smoothPlate 0 0).verts (smoothPlate 1 1).verts 0 1 f = _ at h
    simp only [Bool.false_eq_true, and_self, or_self, if_false]
    rw [h]
    rfl
  have hmain := C108_contacts milli 2 66 (fun _ => []) nearPairs (1 / 10) f [smoothPlate 0 0, smoothPlate 1 1]
    (nearPairs_units milli _) (fun p hp => ⟨(nearPairs_valid _ p hp).1, (nearPairs_valid _ p hp).2.1⟩) (by
      intro p hp
      have hs : ∀ b ∈ [smoothPlate 0 0, smoothPlate 1 1], Sized 2 b := by
        intro b hb
        simp only [List.mem_cons, List.not_mem_nil, or_false] at hb
        rcases hb with rfl | rfl
        · exact ⟨smoothPlate_fits 0 0, rectBase_rectForm _ _ _⟩
        · exact ⟨smoothPlate_fits 1 1, rectBase_rectForm _ _ _⟩
      exact Or.inr ⟨milli_small, (hs _ (bodyAt_mem' (nearPairs_valid _ p hp).1)).1, (hs _ (bodyAt_mem' (nearPairs_valid _ p hp).2.1)).1,
        nearPairs_near hs p hp⟩)
  cases pts with
  | nil => simp at hp
  | cons q qs =>
    have hfind : diffCollide 66 (fun _ => []) nearPairs (1 / 10) f [smoothPlate 0 0, smoothPlate 1 1] = .ok (f',
        { normal := q.normal, p1 := q.p1, p2 := q.p2, pen := q.pen, i1 := 0, i2 := 1, nan := q.nan } ::
        qs.map fun p =>
          { normal := p.normal, p1 := p.p1, p2 := p.p2, pen := p.pen, i1 := 0, i2 := 1, nan := p.nan }) := by
      unfold diffCollide
      rw [hpairs]
      simp only [handleAll, handle, eh, Run.bind, List.not_mem_nil, if_false, Run.toExcept, List.append_nil, List.map_cons]
    rw [hfind] at hmain
    exact ⟨_, _, _, hfind, hmain⟩

/-- Example for `C108_law`: the impact of the circles, in any units. -/
example (U : Units) (fnd : Finder) : ∃ v' V' l l' pn a b g,
    ContactLaw (bounceWorld 1 false fnd).bodies [] (bounceWorld 1 false fnd).contacts (fun _ => 0)
      (bounceWorld 1 false fnd).v v' l pn a b g ∧
    ContactLaw ((bounceWorld 1 false fnd).bodies.map U.body) [] ((bounceWorld 1 false fnd).contacts.map U.contact)
      (fun _ => U.impulse 0) (stack fun i => U.vel (twist (bounceWorld 1 false fnd).v i)) V' l' (fun i => U.len / U.time * pn i)
      (fun i => U.len / U.time * a i) (fun i => U.len / U.time * b i) (fun i => U.len / U.time * g i) := by
  have hinv := bounceWorld_inv 1 false fnd
  have hb := bounceWorld_bodies 1 one_pos false fnd
  obtain ⟨v', l, pn, a, b, g, h⟩ := C74_inelastic (bounceWorld 1 false fnd) hinv.joints hinv.contacts
    (fun b hbm => (hb b hbm).1) (by
      intro c hc
      obtain ⟨q1, q2, -⟩ := hinv.contacts c hc
      unfold meanFriction
      rw [(hb _ (bodyAt_mem' q1)).2.1, (hb _ (bodyAt_mem' q2)).2.1]
      norm_num) (by
      intro c hc
      obtain ⟨q1, q2, -⟩ := hinv.contacts c hc
      unfold meanRestitution
      rw [(hb _ (bodyAt_mem' q1)).2.2.1, (hb _ (bodyAt_mem' q2)).2.2.1]
      norm_num) (fun _ => 0)
  exact ⟨v', stack fun i => U.vel (twist v' i), l, _, pn, a, b, g, h, C108_law U _ [] _ _ _ _ _ _ _ _ _ _ _ h (by simp)
    (fun c hc => ⟨(hinv.contacts c hc).1, (hinv.contacts c hc).2.1⟩) (fun i _ => twist_stack _ i) (fun i _ => twist_stack _ i)⟩

/-- Example for `C108_post_law`: the idle correction of bodies at rest, in any units. -/
example (U : Units) (fnd : Finder) :
    PostStabLaw ((bounceWorld 1 false fnd).bodies.map U.body) [] ((bounceWorld 1 false fnd).contacts.map U.contact)
      (stack fun _ => U.vel 0) (stack fun _ => U.vel 0)
      (fun r => (U.len / U.time) ^ 2 * (0 : Vec) r / (jointScales U []).getD r 1) (fun _ => U.len / U.time * 0) := by
  have hinv := bounceWorld_inv 1 false fnd
  have h : PostStabLaw (bounceWorld 1 false fnd).bodies [] (bounceWorld 1 false fnd).contacts 0 0 0 fun _ => 0 := by
    refine ⟨?_, by simp [jointVels], fun _ _ => le_refl _, ?_⟩
    · intro u
      have : contactPower (bounceWorld 1 false fnd).contacts (fun _ => 0) (fun _ => 0) u = 0 := by
        unfold contactPower
        refine Finset.sum_eq_zero fun i _ => ?_
        cases (bounceWorld 1 false fnd).contacts[i]? <;> simp
      rw [this]
      simp [momentumPower, twist, jointPower, jointVels]
    · intro i hi
      simp [normalVel, contactVel, pointVel, twist, Spec.inner]
  exact C108_post_law U _ [] _ 0 0 _ _ 0 _ h (by simp) (fun c hc => ⟨(hinv.contacts c hc).1, (hinv.contacts c hc).2.1⟩)
    (fun i _ => by rw [twist_stack]; congr 1) (fun i _ => by rw [twist_stack]; congr 1)

/-- The constructors and joints: a disc on a pivot in millimetres. -/
example : mkCircle (.two (1000 * 1, 1000 * 2)) (1000 * 3) { eps := 1000 * (1 / 10) } =
      milli.body (mkCircle (.two (1, 2)) 3 { eps := 1 / 10 }) ∧
    mkJoint [milli.body (mkCircle (.two (1, 2)) 3 {})] 0 none (1000, 0) =
      milli.joint (mkJoint [mkCircle (.two (1, 2)) 3 {}] 0 none (1, 0)) := by
  constructor
  · rw [← C108_circle]
    simp [milli, Units.poseArg, Units.params, Units.velArg, Units.vel]
    rfl
  · have := (C108_joints milli [mkCircle (.two (1, 2)) 3 {}] 0 0 (by simp) (by simp) (1, 0) .xc).2.1
    rw [← this]
    simp [milli]

end LcpPhysics
