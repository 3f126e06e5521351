import Verif.Lemmas.Rounded
import Verif.Props.BroadPhase

/-! # C122: bodies in double precision -/

noncomputable section

namespace LcpPhysics
open Spec Rounded

variable {A : Arith}

/-! ## Without rounding the model is the one in exact arithmetic -/

theorem turn_exact (a : ℝ) (v : V2) : turn .exact a v = rot a v := by
  ext <;> simp [turn, Arith.exact, rot]
  ring

theorem setP_exact (b : Body) (q : V3) : setP .exact b q = b.set_p q := by
  have hr : ∀ x, Arith.exact.rnd x = x := fun _ => rfl
  have ht : ∀ a, turn .exact a = rot a := fun a => funext fun v => turn_exact a v
  unfold setP Body.set_p
  simp only [hr]
  cases b.shape with
  | circle r => rfl
  | hull vs => simp only [hullTurn, hullRotate_eq, ht]
  | rect d vs =>
    have : ∀ a, rectTurn .exact a vs = rectRotate a vs := by
      intro a
      unfold rectTurn rectRotate
      split <;> simp only [ht, matmul_eq_rot]
    simp only [this]

/-- C122: without rounding the model is the model of the other theorems. -/
theorem C122_exact (b : Body) (ops : List BodyOp) : run .exact b ops = b.run ops := by
  have : op .exact = Body.op := by
    funext b o
    cases o with
    | setP q => exact setP_exact b q
    | move dt =>
      change setP _ _ _ = Body.set_p _ _
      rw [setP_exact]
      congr 1
      apply V3.ext <;> simp [moved, Arith.exact] <;> ring
    | setV v => rfl
  rw [run, this]; rfl

/-! ## The vertices -/

/-- C122: after any number of calls every vertex is near the place to which the angle of the body turns the vertex it started from. -/
theorem C122_drift (h : DoubleArith A) (b : Body) (hb : Constructed b) (hp : RepPose b.p) (ops : List BodyOp) (ho : RepOps ops) :
    List.Forall₂ (fun v w => len (w - rot ((run A b ops).p.r - b.p.r) v) ≤ driftBound (len v) ops.length (turning A b ops))
      b.verts (run A b ops).verts := by
  refine run_drift h b ops ho ?_ hp
  cases hb with
  | circle => trivial
  | hull ref vs a b h => exact mkHull_rectForm h
  | rect pos dims a b h => exact mkRect_rectForm h

theorem driftBound_mono {R R' T T' : ℝ} {n n' : ℕ} (hR : 0 ≤ R) (h1 : R ≤ R') (h2 : n ≤ n') (h3 : T ≤ T') (hT : 0 ≤ T) :
    driftBound R n T ≤ driftBound R' n' T' := by
  unfold driftBound
  have hn : (n : ℝ) ≤ n' := by exact_mod_cast h2
  have hη : (0 : ℝ) < 1 / 2 ^ 1071 := by positivity
  generalize (1 : ℝ) / 2 ^ 1071 = η at *
  have e1 : Real.exp (n * (11 / 2 ^ 53) + T / 2 ^ 53) ≤ Real.exp (n' * (11 / 2 ^ 53) + T' / 2 ^ 53) := by
    apply Real.exp_le_exp.mpr
    gcongr
  have e2 : 1 ≤ Real.exp (n * (11 / 2 ^ 53) + T / 2 ^ 53) := Real.one_le_exp (by positivity)
  have e3 : n * η ≤ n' * η := by gcongr
  have e4 : 0 ≤ n * η := by positivity
  generalize Real.exp (n * (11 / 2 ^ 53) + T / 2 ^ 53) = X at *
  generalize Real.exp (n' * (11 / 2 ^ 53) + T' / 2 ^ 53) = Y at *
  nlinarith

theorem driftBound_million : driftBound 1000 1000000 1000000 ≤ 2 / 1000000 := by
  unfold driftBound
  have hη : (1 : ℝ) / 2 ^ 1071 ≤ 1 / 10 ^ 21 := by
    apply one_div_le_one_div_of_le (by positivity)
    calc (10 : ℝ) ^ 21 ≤ 2 ^ 71 := by norm_num
      _ ≤ 2 ^ 1071 := pow_le_pow_right₀ (by norm_num) (by norm_num)
  have hη0 : (0 : ℝ) < 1 / 2 ^ 1071 := by positivity
  generalize (1 : ℝ) / 2 ^ 1071 = η at *
  have hx : ((1000000 : ℕ) : ℝ) * (11 / 2 ^ 53) + 1000000 / 2 ^ 53 ≤ 1.4 / 10 ^ 9 := by norm_num
  have hx0 : 0 ≤ ((1000000 : ℕ) : ℝ) * (11 / 2 ^ 53) + 1000000 / 2 ^ 53 := by positivity
  generalize ((1000000 : ℕ) : ℝ) * (11 / 2 ^ 53) + 1000000 / 2 ^ 53 = x at *
  have he : Real.exp x ≤ 1 + x + x ^ 2 := by
    have := Real.abs_exp_sub_one_sub_id_le (x := x) (by rw [abs_of_nonneg hx0]; linarith)
    linarith [(abs_le.mp this).2]
  have he0 := Real.exp_pos x
  have h2 : x ^ 2 ≤ 1 / 10 ^ 17 := by nlinarith
  have h3 : Real.exp x ≤ 1 + 1.5 / 10 ^ 9 := by linarith
  push_cast
  nlinarith

/-- C122: a million calls that turn a body by a million radians altogether move no vertex within 1000 of the centre by more than
two millionths. -/
theorem C122_million (h : DoubleArith A) (b : Body) (hb : Constructed b) (hp : RepPose b.p) (hR : ∀ v ∈ b.verts, len v ≤ 1000)
    (ops : List BodyOp) (ho : RepOps ops) (hn : ops.length ≤ 1000000) (hT : turning A b ops ≤ 1000000) :
    List.Forall₂ (fun v w => len (w - rot ((run A b ops).p.r - b.p.r) v) ≤ 2 / 1000000) b.verts (run A b ops).verts := by
  have := C122_drift h b hb hp ops ho
  rw [List.forall₂_iff_get] at this ⊢
  refine ⟨this.1, fun i hi hj => (this.2 i hi hj).trans (le_trans ?_ driftBound_million)⟩
  exact driftBound_mono (len_nonneg _) (hR _ (List.get_mem _ _)) hn hT (turning_nonneg _ _)

/-- C122: the distance of two vertices changes by no more than their drifts. -/
theorem C122_shape (h : DoubleArith A) (b : Body) (hb : Constructed b) (hp : RepPose b.p) (ops : List BodyOp) (ho : RepOps ops)
    (i j : ℕ) (hi : i < b.verts.length) (hj : j < b.verts.length) (hi' : i < (run A b ops).verts.length) (hj' : j < (run A b ops).verts.length) :
    |Spec.dist (run A b ops).verts[i] (run A b ops).verts[j] - Spec.dist b.verts[i] b.verts[j]| ≤
      driftBound (len b.verts[i]) ops.length (turning A b ops) + driftBound (len b.verts[j]) ops.length (turning A b ops) := by
  have := (List.forall₂_iff_get.mp (C122_drift h b hb hp ops ho)).2
  have k1 := this i hi hi'
  have k2 := this j hj hj'
  simp only [List.get_eq_getElem] at k1 k2
  set t := (run A b ops).p.r - b.p.r
  set w1 := (run A b ops).verts[i]
  set w2 := (run A b ops).verts[j]
  rw [← rot_dist t b.verts[i]]
  have a1 := Spec.dist_triangle w1 (rot t b.verts[i]) w2
  have a2 := Spec.dist_triangle (rot t b.verts[i]) (rot t b.verts[j]) w2
  have a3 := Spec.dist_triangle (rot t b.verts[i]) w1 (rot t b.verts[j])
  have a4 := Spec.dist_triangle w1 w2 (rot t b.verts[j])
  rw [Spec.dist_comm (rot t b.verts[i]) w1] at a3
  rw [Spec.dist_comm (rot t b.verts[j]) w2] at a2
  change Spec.dist w1 (rot t b.verts[i]) ≤ _ at k1
  change Spec.dist w2 (rot t b.verts[j]) ≤ _ at k2
  rw [abs_le]
  constructor <;> linarith

/-- C122: the corners of a rectangle stay opposite to one another, without any error. -/
theorem C122_rect_symmetric (pos : Arg) (dims : V2) (a : Params) (b : Body) (h : mkRect pos dims a = .ok b) (ops : List BodyOp) :
    ∃ v0 v1 : V2, (run A b ops).verts = [v0, v1, -v0, -v1] := by
  have key : ∀ (b : Body), (∃ d v0 v1, b.shape = .rect d [v0, v1, -v0, -v1]) → ∀ ops, ∃ d v0 v1, (run A b ops).shape = .rect d [v0, v1, -v0, -v1] := by
    intro b hb ops
    induction ops generalizing b with
    | nil => exact hb
    | cons o os ih =>
      refine ih (op A b o) ?_
      have hset : ∀ q, ∃ d v0 v1, (setP A b q).shape = .rect d [v0, v1, -v0, -v1] := by
        intro q
        obtain ⟨d, v0, v1, hs⟩ := hb
        unfold setP
        rw [hs]
        simp only [Body.baseSetP]
        split_ifs
        · exact ⟨d, _, _, rfl⟩
        · exact ⟨d, v0, v1, rfl⟩
      cases o with
      | setP q => exact hset q
      | move dt => exact hset _
      | setV v => exact hb
  have hs : ∃ d v0 v1, b.shape = .rect d [v0, v1, -v0, -v1] := by
    have hf := mkRect_rectForm h
    have : ∃ d vs, b.shape = .rect d vs := by
      by_cases hd : 0 < dims.1 * dims.2
      · rw [mkRect_eq pos dims a hd] at h
        cases pos <;> simp only [Except.ok.injEq] at h <;> subst h <;> exact ⟨_, _, rfl⟩
      · rw [mkRect_err pos dims a hd] at h; cases h
    obtain ⟨d, vs, hd⟩ := this
    unfold Body.RectForm at hf
    rw [hd] at hf
    obtain ⟨v0, v1, hv⟩ := hf
    exact ⟨d, v0, v1, by rw [hd, hv]⟩
  obtain ⟨d, v0, v1, e⟩ := key b hs ops
  exact ⟨v0, v1, by unfold Body.verts; rw [e]⟩

/-! ## The broad phase -/

/-- The calls of a rounded run, with the poses it has: their exact run has the same poses and geometry. -/
def shadow (A : Arith) : Body → List BodyOp → List BodyOp
  | _, [] => []
  | b, o :: ops => (match o with | .setV v => .setV v | _ => .setP (op A b o).p) :: shadow A (op A b o) ops

/-- Two bodies that differ in their vertices only. -/
def SameGeom (b c : Body) : Prop :=
  b.p = c.p ∧ b.v = c.v ∧ b.geom = c.geom ∧ b.eps = c.eps ∧
    match b.shape, c.shape with
    | .circle r, .circle s => r = s
    | .hull _, .hull _ => True
    | .rect _ _, .rect _ _ => True
    | _, _ => False

theorem sameGeom_set (b c : Body) (h : SameGeom b c) (q : V3) : SameGeom (setP A b q) (c.set_p q) := by
  obtain ⟨h1, h2, h3, h4, h5⟩ := h
  unfold SameGeom setP Body.set_p
  cases hb : b.shape <;> cases hc : c.shape <;> rw [hb, hc] at h5 <;>
    first
    | exact absurd h5 id
    | (simp only [Body.baseSetP, h2, h3, h4, hb, hc, true_and, and_true]; try exact h5)

theorem shadow_same (b c : Body) (h : SameGeom b c) (ops : List BodyOp) : SameGeom (run A b ops) (c.run (shadow A b ops)) := by
  induction ops generalizing b c with
  | nil => exact h
  | cons o os ih =>
    have : SameGeom (op A b o) (c.op (match o with | .setV v => .setV v | _ => .setP (op A b o).p)) := by
      cases o with
      | setP q => simp only [op, Body.op, setP_p]; exact sameGeom_set b c h q
      | move dt => simp only [op, Body.op, move, setP_p]; exact sameGeom_set b c h _
      | setV v => exact ⟨h.1, rfl, h.2.2⟩
    exact ih _ _ this

theorem solid_near {vs ws : List V2} {D : ℝ} (h : List.Forall₂ (fun v w => len (w - v) ≤ D) vs ws) (x : V2) (hx : x ∈ solid ws) :
    ∃ y ∈ solid vs, len (x - y) ≤ D := by
  have hc : Convex ℝ {x : V2 | ∃ y ∈ solid vs, len (x - y) ≤ D} := by
    rintro x ⟨y, hy, h1⟩ x' ⟨y', hy', h2⟩ a b ha hb hab
    refine ⟨a • y + b • y', convex_convexHull ℝ _ hy hy' ha hb hab, ?_⟩
    have : a • x + b • x' - (a • y + b • y') = a • (x - y) + b • (x' - y') := by
      rw [smul_sub, smul_sub]; abel
    rw [this]
    refine (len_add_le _ _).trans ?_
    rw [len_smul, len_smul, abs_of_nonneg ha, abs_of_nonneg hb]
    calc a * len (x - y) + b * len (x' - y') ≤ a * D + b * D := by gcongr
      _ = D := by rw [← add_mul, hab, one_mul]
  refine convexHull_min ?_ hc hx
  intro w hw
  obtain ⟨i, hi, rfl⟩ := List.mem_iff_getElem.mp hw
  rw [List.forall₂_iff_get] at h
  have hi' : i < vs.length := h.1 ▸ hi
  exact ⟨vs[i], subset_convexHull ℝ _ (List.getElem_mem hi'), h.2 i hi' hi⟩

/-- C122: as long as no vertex has drifted by more than `D`, the geometry of the broad phase contains every point within `eps - D` of
the body. -/
theorem C122_broad_phase (h : DoubleArith A) (b : Body) (hb : Constructed b) (hp : RepPose b.p) (ops : List BodyOp) (ho : RepOps ops)
    (D : ℝ) (hD : ∀ v ∈ b.verts, driftBound (len v) ops.length (turning A b ops) ≤ D) (hD0 : 0 ≤ D)
    (x : V2) (hx : x ∈ bodyRegion (run A b ops)) (y : V2) (hy : Spec.dist y x ≤ (run A b ops).eps - D) :
    y ∈ geomRegion (run A b ops).geom := by
  have hs : SameGeom (run A b ops) (b.run (shadow A b ops)) :=
    shadow_same b b ⟨rfl, rfl, rfl, rfl, by cases b.shape <;> trivial⟩ ops
  have hf : b.RectForm := by
    cases hb with
    | circle => trivial
    | hull ref vs a b h => exact mkHull_rectForm h
    | rect pos dims a b h => exact mkRect_rectForm h
  have hd := C122_drift h b hb hp ops ho
  have hv := run_verts b (shadow A b ops) hf
  set c := b.run (shadow A b ops) with hc
  set r := run A b ops
  obtain ⟨h1, -, h3, h4, h5⟩ := hs
  have hpos : r.pos = c.pos := by unfold Body.pos; rw [h1]
  have hnear : List.Forall₂ (fun v w => len (w - v) ≤ D) c.verts r.verts := by
    rw [hv, List.forall₂_map_left_iff]
    rw [h1] at hd
    rw [List.forall₂_iff_get] at hd ⊢
    exact ⟨hd.1, fun i hi hj => (hd.2 i hi hj).trans (hD _ (List.get_mem _ _))⟩
  have hz : ∃ z ∈ bodyRegion c, Spec.dist x z ≤ D := by
    unfold bodyRegion at hx ⊢
    have sol : ∀ vs ws, c.verts = vs → r.verts = ws → x - r.pos ∈ solid ws → ∃ z, z - c.pos ∈ solid vs ∧ Spec.dist x z ≤ D := by
      rintro vs ws rfl rfl hx
      obtain ⟨w, hw, hl⟩ := solid_near hnear _ hx
      refine ⟨w + c.pos, by rwa [add_sub_cancel_right], ?_⟩
      unfold Spec.dist
      rw [← hpos]
      convert hl using 2
      abel
    cases hr : r.shape with
    | circle s =>
      cases hcs : c.shape with
      | circle s' =>
        rw [hr, hcs] at h5
        rw [hr] at hx
        refine ⟨x, ?_, by rwa [Spec.dist_self]⟩
        change Spec.dist x c.pos ≤ s'
        rw [← hpos, ← h5]
        exact hx
      | hull vs => rw [hr, hcs] at h5; exact absurd h5 id
      | rect d vs => rw [hr, hcs] at h5; exact absurd h5 id
    | hull ws =>
      cases hcs : c.shape with
      | circle s' => rw [hr, hcs] at h5; exact absurd h5 id
      | hull vs =>
        rw [hr] at hx
        exact sol vs ws (by unfold Body.verts; rw [hcs]) (by unfold Body.verts; rw [hr]) hx
      | rect d vs => rw [hr, hcs] at h5; exact absurd h5 id
    | rect d ws =>
      cases hcs : c.shape with
      | circle s' => rw [hr, hcs] at h5; exact absurd h5 id
      | hull vs => rw [hr, hcs] at h5; exact absurd h5 id
      | rect d vs =>
        rw [hr] at hx
        exact sol vs ws (by unfold Body.verts; rw [hcs]) (by unfold Body.verts; rw [hr]) hx
  obtain ⟨z, hz, hxz⟩ := hz
  rw [h3]
  refine C09_geometry_covers c ⟨b, _, hb, hc⟩ z hz y ?_
  have := Spec.dist_triangle y x z
  rw [← h4]
  linarith

/-! ## The position -/

theorem moved_error (h : DoubleArith A) {p v dt B : ℝ} (hp : Rep p) (hB : |A.rnd (p + A.rnd (v * dt))| ≤ B) :
    |A.rnd (p + A.rnd (v * dt)) - (p + v * dt)| ≤ 1 / 2 ^ 52 * B + 1 / 2 ^ 53 * |v * dt| + 1 / 2 ^ 1074 := by
  have h1 := any_error h.nearest (v * dt)
  have h2 := add_error h.nearest hp (h.nearest (v * dt)).1
  set m := A.rnd (v * dt)
  set q := A.rnd (p + m)
  have h3 : |p + m| ≤ 2 * B := by
    have := abs_sub_abs_le_abs_sub (p + m) q
    rw [abs_sub_comm] at this
    have hu : (1 : ℝ) / 2 ^ 53 ≤ 1 / 2 := by norm_num
    have : (1 : ℝ) / 2 ^ 53 * |p + m| ≤ 1 / 2 * |p + m| := mul_le_mul_of_nonneg_right hu (abs_nonneg _)
    linarith
  have h4 : q - (p + v * dt) = (q - (p + m)) + (m - v * dt) := by ring
  rw [h4]
  refine (abs_add_le _ _).trans ?_
  have h5 : (1 : ℝ) / 2 ^ 53 * |p + m| ≤ 1 / 2 ^ 53 * (2 * B) := mul_le_mul_of_nonneg_left h3 (by positivity)
  have h6 : (1 : ℝ) / 2 ^ 53 * (2 * B) = 1 / 2 ^ 52 * B := by ring
  linarith

theorem position_drift (h : DoubleArith A) (c : V3 → ℝ) (hc : ∀ p v dt, c (moved A p v dt) = A.rnd (c p + A.rnd (c v * dt)))
    (he : ∀ p v : V3, ∀ dt : ℝ, c (p + dt • v) = c p + c v * dt) (hcr : ∀ p, RepPose p → Rep (c p)) (B : ℝ) (hB0 : 0 ≤ B)
    (b b' : Body) (hv : b.v = b'.v) (e : ℝ) (h0 : |c b.p - c b'.p| ≤ e)
    (ops : List BodyOp) (ho : RepOps ops) (hp : RepPose b.p) (hB : StaysBelow A c B b ops) :
    |c (run A b ops).p - c (b'.run ops).p| ≤ e + ops.length * (1 / 2 ^ 52 * B + 1 / 2 ^ 1074) + 1 / 2 ^ 53 * travel c b.v ops := by
  induction ops generalizing b b' e with
  | nil => simpa [run, Body.run, travel] using h0
  | cons o os ih =>
    have hs : ∀ q, o = .setP q → RepPose q := fun q e => ho q (by simp [e])
    have hB' : StaysBelow A c B (op A b o) os := fun k hk => by
      have := hB (k + 1) (by simp; omega)
      simpa [run] using this
    have hos : RepOps os := fun q hq => ho q (List.mem_cons_of_mem _ hq)
    change |c (run A (op A b o) os).p - c ((b'.op o).run os).p| ≤ _
    have he0 : 0 ≤ e := (abs_nonneg _).trans h0
    have hη : (0 : ℝ) ≤ 1 / 2 ^ 52 * B + 1 / 2 ^ 1074 := by positivity
    rw [List.length_cons]
    push_cast
    cases o with
    | setP q =>
      have := ih (op A b (.setP q)) (b'.op (.setP q)) (by simp only [op, Body.op, setP_v, set_p_v, hv]) 0
        (by simp [op, Body.op, setP_p, set_p_p]) hos (op_rep h b _ hs hp) hB'
      simp only [op, setP_v, travel] at this ⊢
      linarith
    | setV w =>
      have := ih (op A b (.setV w)) (b'.op (.setV w)) rfl e h0 hos (op_rep h b _ hs hp) hB'
      simp only [op, travel] at this ⊢
      linarith
    | move dt =>
      have hb1 := hB 1 (by simp)
      simp only [List.take_succ_cons, List.take_zero, run, List.foldl, op, move, setP_p, hc] at hb1
      have := ih (op A b (.move dt)) (b'.op (.move dt)) (by simp only [op, move, Body.op, Body.move, setP_v, set_p_v, hv])
        (e + (1 / 2 ^ 52 * B + 1 / 2 ^ 53 * |c b.v * dt| + 1 / 2 ^ 1074)) (by
          simp only [op, move, Body.op, Body.move, setP_p, set_p_p, hc, he]
          have k := moved_error h (v := c b.v) (dt := dt) (hcr _ hp) hb1
          rw [← hv]
          have : A.rnd (c b.p + A.rnd (c b.v * dt)) - (c b'.p + c b.v * dt) =
              (A.rnd (c b.p + A.rnd (c b.v * dt)) - (c b.p + c b.v * dt)) + (c b.p - c b'.p) := by ring
          rw [this]
          refine (abs_add_le _ _).trans ?_
          linarith) hos (op_rep h b _ hs hp) hB'
      simp only [op, move, setP_v, travel] at this ⊢
      linarith

/-- C122: in every coordinate the pose of a run in double precision differs from that in exact arithmetic by at most `B · 2^-52` for each
call, with `B` a bound for the coordinate, and `2^-53` of the way. -/
theorem C122_position (h : DoubleArith A) (b : Body) (hp : RepPose b.p) (ops : List BodyOp) (ho : RepOps ops) (B : ℝ) (hB0 : 0 ≤ B) :
    (StaysBelow A V3.r B b ops → |(run A b ops).p.r - (b.run ops).p.r| ≤
      ops.length * (1 / 2 ^ 52 * B + 1 / 2 ^ 1074) + 1 / 2 ^ 53 * travel V3.r b.v ops) ∧
    (StaysBelow A V3.x B b ops → |(run A b ops).p.x - (b.run ops).p.x| ≤
      ops.length * (1 / 2 ^ 52 * B + 1 / 2 ^ 1074) + 1 / 2 ^ 53 * travel V3.x b.v ops) ∧
    (StaysBelow A V3.y B b ops → |(run A b ops).p.y - (b.run ops).p.y| ≤
      ops.length * (1 / 2 ^ 52 * B + 1 / 2 ^ 1074) + 1 / 2 ^ 53 * travel V3.y b.v ops) := by
  refine ⟨fun hB => ?_, fun hB => ?_, fun hB => ?_⟩
  · have := position_drift h V3.r (fun _ _ _ => rfl) (fun p v dt => by simp [mul_comm]) (fun p hp => hp.1) B hB0 b b rfl 0 (by simp) ops ho hp hB
    linarith
  · have := position_drift h V3.x (fun _ _ _ => rfl) (fun p v dt => by simp [mul_comm]) (fun p hp => hp.2.1) B hB0 b b rfl 0 (by simp) ops ho hp hB
    linarith
  · have := position_drift h V3.y (fun _ _ _ => rfl) (fun p v dt => by simp [mul_comm]) (fun p hp => hp.2.2) B hB0 b b rfl 0 (by simp) ops ho hp hB
    linarith

/-! ## Undoing a step -/

theorem tau_small : (1 : ℝ) / 2 ^ 1074 ≤ 1 / 2 ^ 100 :=
  one_div_le_one_div_of_le (by positivity) (pow_le_pow_right₀ (by norm_num) (by norm_num))

/-- Correctly rounded sines and cosines will do. -/
theorem rounded_arith {rnd : ℝ → ℝ} (hr : Nearest rnd) : DoubleArith (doubleOf rnd) := by
  have ht := tau_small
  have key : ∀ x : ℝ, |x| ≤ 1 → |rnd x - x| ≤ 1 / 2 ^ 52 := by
    intro x hx
    have h := any_error hr x
    have h1 : (1 : ℝ) / 2 ^ 53 * |x| ≤ 1 / 2 ^ 53 := by
      have : (0 : ℝ) ≤ 1 / 2 ^ 53 := by positivity
      nlinarith
    have h2 : (1 : ℝ) / 2 ^ 53 + 1 / 2 ^ 100 ≤ 1 / 2 ^ 52 := by norm_num
    linarith
  exact ⟨hr, fun a => key _ (Real.abs_cos_le_one a), fun a => key _ (Real.abs_sin_le_one a)⟩

theorem round_to_one {rnd : ℝ → ℝ} (hr : Nearest rnd) {x : ℝ} (h : |x - 1| < 1 / 2 ^ 54) : rnd x = 1 := by
  have r1 : Rep 1 := by simpa using rep_nat 1 (by norm_num) 0 (by norm_num)
  have h1 := (hr x).2 1 r1
  have hy := (hr x).1
  rw [abs_sub_comm] at h
  have h2 : |rnd x - 1| < 1 / 2 ^ 53 := by
    have := abs_sub_le (rnd x) x 1
    have e : (1 : ℝ) / 2 ^ 53 = 1 / 2 ^ 54 + 1 / 2 ^ 54 := by norm_num
    rw [abs_sub_comm x 1] at this
    linarith
  have h3 : (1 : ℝ) / 2 ≤ |rnd x| := by
    have := abs_lt.mp h2
    have e : (1 : ℝ) / 2 ^ 53 ≤ 1 / 2 := by norm_num
    rw [abs_of_nonneg (by linarith)]
    linarith
  obtain ⟨k, hk⟩ := rep_multiple hy (-53) (by norm_num at h3 ⊢; exact h3)
  have e53 : (2 : ℝ) ^ (-53 : ℤ) = 1 / 2 ^ 53 := by norm_num
  rw [e53] at hk
  have : k = 2 ^ 53 := by
    have e : rnd x - 1 = (k - 2 ^ 53) * (1 / 2 ^ 53) := by rw [hk]; ring
    rw [e, abs_mul, abs_of_pos (by positivity : (0 : ℝ) < 1 / 2 ^ 53)] at h2
    have h4 : |(k : ℝ) - 2 ^ 53| < 1 := by
      by_contra hc
      push Not at hc
      have := mul_le_mul_of_nonneg_right hc (by positivity : (0 : ℝ) ≤ 1 / 2 ^ 53)
      rw [one_mul] at this
      exact absurd h2 (not_lt.mpr this)
    have h5 : |k - 2 ^ 53| < 1 := by exact_mod_cast h4
    have := Int.abs_lt_one_iff.mp h5
    omega
  rw [hk, this]
  norm_num

/-- The sine of a small number, rounded. -/
theorem round_sin {rnd : ℝ → ℝ} (hr : Nearest rnd) : 99 / 100 * (5 / 2 ^ 29) ≤ rnd (Real.sin (5 / 2 ^ 29)) ∧
    99 / 100 * (5 / 2 ^ 29) ≤ -rnd (Real.sin (-(5 / 2 ^ 29))) := by
  have h1 := Real.sin_gt_sub_cube (x := 5 / 2 ^ 29) (by positivity)
  have h2 := Real.sin_lt (x := 5 / 2 ^ 29) (by positivity)
  have ht := tau_small
  have e1 := any_error hr (Real.sin (5 / 2 ^ 29))
  have e2 := any_error hr (Real.sin (-(5 / 2 ^ 29)))
  rw [Real.sin_neg] at e2 ⊢
  have hs : 0 < Real.sin (5 / 2 ^ 29) := by
    refine lt_trans ?_ h1
    norm_num
  rw [abs_neg] at e2
  rw [abs_of_pos hs] at e1 e2
  have b1 := abs_le.mp e1
  have b2 := abs_le.mp e2
  have hc : (995 / 1000 * (5 / 2 ^ 29) : ℝ) ≤ 5 / 2 ^ 29 - (5 / 2 ^ 29) ^ 3 / 6 := by norm_num
  have hu : (1 : ℝ) / 2 ^ 53 * Real.sin (5 / 2 ^ 29) ≤ 1 / 1000 * (5 / 2 ^ 29) := by
    have : (1 : ℝ) / 2 ^ 53 ≤ 1 / 1000 := by norm_num
    nlinarith
  have ht2 : (1 : ℝ) / 2 ^ 100 ≤ 1 / 1000 * (5 / 2 ^ 29) := by norm_num
  constructor <;> linarith

/-- C122: `World.step` undoes a step by setting the poses it started from (world.py:104).  The pose is restored, but not always the
vertices: however ties are broken, with correctly rounded sine and cosine, the vertex `(2 - 2^-52, 0)` is not where it was after the body
has been turned by `5 · 2^-29` and back. -/
theorem C122_undo {rnd : ℝ → ℝ} (hr : Nearest rnd) (b : Body) (vs : List V2) (hs : b.shape = .hull vs) (hp : b.p.r = 0)
    (hv : ((2 - 1 / 2 ^ 52, 0) : V2) ∈ vs) (x y : ℝ) :
    (run (doubleOf rnd) b [.setP ⟨5 / 2 ^ 29, x, y⟩, .setP b.p]).p = b.p ∧
    (run (doubleOf rnd) b [.setP ⟨5 / 2 ^ 29, x, y⟩, .setP b.p]).verts ≠ b.verts := by
  set A := doubleOf rnd with hA
  have hrnd : ∀ x, A.rnd x = rnd x := fun _ => rfl
  have ra : Rep (5 / 2 ^ 29) := by
    have := rep_nat 5 (by norm_num) (-29) (by norm_num)
    norm_num at this ⊢
    exact this
  have rX : Rep (2 - 1 / 2 ^ 52) := by
    have := rep_nat (2 ^ 53 - 1) (by norm_num) (-52) (by norm_num)
    norm_num at this ⊢
    exact this
  have r2 : Rep 2 := by simpa using rep_nat 2 (by norm_num) 0 (by norm_num)
  set a : ℝ := 5 / 2 ^ 29 with ha
  have ha0 : a ≠ 0 := by rw [ha]; positivity
  refine ⟨by simp [run, op, setP_p], ?_⟩
  have e1 : A.rnd (a - b.p.r) = a := by rw [hp, sub_zero, hrnd, nearest_id hr ra]
  have e2 : A.rnd (b.p.r - a) = -a := by rw [hp, zero_sub, hrnd, nearest_id hr (rep_neg ra)]
  have hverts : (run A b [.setP ⟨a, x, y⟩, .setP b.p]).verts = (vs.map (turn A a)).map (turn A (-a)) := by
    simp [run, op, setP, hs, Body.baseSetP, e1, ha0, e2, Body.verts, hullTurn]
  have hb : b.verts = vs := by unfold Body.verts; rw [hs]
  rw [hverts, hb]
  intro hcontra
  have hfix : turn A (-a) (turn A a (2 - 1 / 2 ^ 52, 0)) = (2 - 1 / 2 ^ 52, 0) := by
    obtain ⟨i, hi, he⟩ := List.mem_iff_getElem.mp hv
    have := congrArg (fun l => l[i]?) hcontra
    simp only [List.map_map, List.getElem?_map, List.getElem?_eq_getElem hi, Option.map_some, Option.some.injEq, he, Function.comp] at this
    exact this
  -- the cosine is one
  have hcos : rnd (Real.cos a) = 1 := by
    apply round_to_one hr
    have h1 := Real.one_sub_sq_div_two_le_cos (x := a)
    have h2 := Real.cos_le_one a
    have h3 : a ^ 2 / 2 < 1 / 2 ^ 54 := by rw [ha]; norm_num
    have h4 : (0 : ℝ) < 1 / 2 ^ 54 := by positivity
    rw [abs_lt]
    exact ⟨by linarith, lt_of_le_of_lt (sub_nonpos.mpr h2) h4⟩
  have hcos' : rnd (Real.cos (-a)) = 1 := by rw [Real.cos_neg, hcos]
  obtain ⟨s1, s2⟩ := round_sin hr
  rw [← ha] at s1 s2
  set X : ℝ := 2 - 1 / 2 ^ 52 with hX
  have hx := congrArg Prod.fst hfix
  have z : rnd 0 = 0 := nearest_zero hr
  have id2 : ∀ t, rnd (rnd t) = rnd t := fun t => nearest_id hr (hr t).1
  simp only [turn, hA, doubleOf, hcos, hcos', one_mul, mul_zero, z, add_zero, nearest_id hr rX, id2] at hx
  set s := rnd (Real.sin a)
  set s' := rnd (Real.sin (-a))
  -- the product is large enough
  have ht := tau_small
  have hapos : 0 < a := by rw [ha]; positivity
  have hXb : 199 / 100 ≤ X := by rw [hX]; norm_num
  have hu : (1 : ℝ) / 2 ^ 53 ≤ 1 / 1000 := by norm_num
  have hta : (1 : ℝ) / 2 ^ 100 ≤ 1 / 1000 * a ^ 2 := by rw [ha]; norm_num
  have ha1 : a ≤ 1 := by rw [ha]; norm_num
  have lower : ∀ t : ℝ, 0 ≤ t → 999 / 1000 * t - 1 / 1000 * a ^ 2 ≤ rnd t := by
    intro t ht0
    have := any_error hr t
    rw [abs_of_nonneg ht0] at this
    have h3 : (1 : ℝ) / 2 ^ 53 * t ≤ 1 / 1000 * t := mul_le_mul_of_nonneg_right hu ht0
    have := (abs_le.mp this).1
    linarith
  have hs0 : 0 ≤ s := le_trans (by positivity) s1
  have p1 : 99 / 100 * a * (199 / 100) ≤ s * X := mul_le_mul s1 hXb (by norm_num) hs0
  have w1 := lower (s * X) (by positivity)
  have w2 : 19 / 10 * a ≤ rnd (s * X) := by nlinarith
  have p2 : 99 / 100 * a * (19 / 10 * a) ≤ -s' * rnd (s * X) := mul_le_mul s2 w2 (by positivity) (le_trans (by positivity) s2)
  have w3 := lower (-s' * rnd (s * X)) (le_trans (by positivity) p2)
  set P := rnd (-s' * rnd (s * X))
  have hP : 1 / 2 ^ 53 < P := by
    have : (1 : ℝ) / 2 ^ 53 < 18 / 10 * a ^ 2 := by rw [ha]; norm_num
    nlinarith
  have hn := (hr (X + P)).2 2 r2
  rw [hx] at hn
  have e3 : X - (X + P) = -P := by ring
  have e4 : 2 - (X + P) = 1 / 2 ^ 52 - P := by rw [hX]; ring
  have hP0 : 0 < P := lt_trans (by positivity) hP
  rw [e3, e4, abs_neg, abs_of_pos hP0, le_abs] at hn
  have e5 : (1 : ℝ) / 2 ^ 52 = 2 * (1 / 2 ^ 53) := by norm_num
  rcases hn with hn | hn <;> linarith [(by positivity : (0 : ℝ) < 1 / 2 ^ 53)]

/-! ## Concrete cases -/

theorem halfRep (n : ℕ) (h : n ≤ 2 ^ 53) : Rep ((n : ℝ) / 2) := by
  have := rep_nat n h (-1) (by norm_num)
  rwa [zpow_neg_one, ← div_eq_mul_inv] at this

/-- A triangle whose centroid is the origin. -/
def farTriangle (X : ℝ) : List V2 := [(X, 0), (-X / 2, 1), (-X / 2, -1)]

theorem farTriangle_made (X : ℝ) (hX : 0 < X) : ∃ b, mkHull (0, 0) (farTriangle X) {} = .ok b ∧ b.shape = .hull (farTriangle X) ∧ b.p = 0 := by
  have hc : get_centroid (farTriangle X) = 0 := by
    have : centroidNum (farTriangle X) = 0 := by
      ext <;> simp [farTriangle, centroidNum, vget, Finset.sum_range_succ, cross_2d] <;> ring
    rw [get_centroid, this, smul_zero, smul_zero]
  have hw : is_clockwise (farTriangle X) := by
    rw [is_clockwise_iff]
    simp [farTriangle, area2, edgeSum, Finset.sum_range_succ, Spec.det]
    linarith
  refine ⟨_, by unfold mkHull; rw [if_pos ⟨by simp [farTriangle], hw⟩], ?_, ?_⟩
  · simp [hc]
  · simp [hc]; rfl

/-- The triangle with the vertex of `C122_undo` is built, and a step forth and back does not restore it. -/
example : ∃ b, mkHull (0, 0) (farTriangle (2 - 1 / 2 ^ 52)) {} = .ok b ∧
    (run (doubleOf rne) b [.setP ⟨5 / 2 ^ 29, 0, 0⟩, .setP b.p]).p = b.p ∧
    (run (doubleOf rne) b [.setP ⟨5 / 2 ^ 29, 0, 0⟩, .setP b.p]).verts ≠ b.verts := by
  obtain ⟨b, h1, h2, h3⟩ := farTriangle_made (2 - 1 / 2 ^ 52) (by norm_num)
  exact ⟨b, h1, C122_undo rne_nearest b _ h2 (by rw [h3]; rfl) (by simp [farTriangle]) 0 0⟩

/-- A body swung forth and back. -/
def swing (n : ℕ) : List BodyOp := (List.replicate n [BodyOp.setP ⟨1, 0, 0⟩, .setP 0]).flatten

theorem swing_length (n : ℕ) : (swing n).length = 2 * n := by simp [swing]; ring

theorem swing_succ (n : ℕ) : swing (n + 1) = .setP ⟨1, 0, 0⟩ :: .setP 0 :: swing n := by
  simp [swing, List.replicate_succ]

theorem swing_rep (n : ℕ) : RepOps (swing n) := by
  have r1 : Rep 1 := by simpa using rep_nat 1 (by norm_num) 0 (by norm_num)
  intro q hq
  simp only [swing, List.mem_flatten, List.mem_replicate] at hq
  obtain ⟨l, ⟨-, rfl⟩, hl⟩ := hq
  simp only [List.mem_cons, BodyOp.setP.injEq, List.not_mem_nil, or_false] at hl
  rcases hl with rfl | rfl
  · exact ⟨r1, rep_zero, rep_zero⟩
  · exact ⟨rep_zero, rep_zero, rep_zero⟩

theorem swing_turning (n : ℕ) : ∀ b : Body, b.p = 0 → turning A b (swing n) = 2 * n := by
  induction n with
  | zero => intro b _; simp [swing, turning]
  | succ n ih =>
    intro b hb
    rw [swing_succ, turning, turning, ih _ (by simp [op, setP_p])]
    simp [op, setP_p, hb]
    ring

theorem swing_rect : ∃ b, mkRect (.two (0, 0)) (20, 10) {} = .ok b ∧ Constructed b ∧ RepPose b.p ∧ b.p = 0 ∧ b.eps = 0.1 ∧
    ∀ v ∈ b.verts, len v ≤ 1000 := by
  refine ⟨_, mkRect_eq _ _ _ (by norm_num), ?_, ?_, rfl, rfl, ?_⟩
  · exact .rect (.two (0, 0)) (20, 10) {} _ (mkRect_eq _ _ _ (by norm_num)) (by norm_num) (by norm_num)
  · exact ⟨rep_zero, rep_zero, rep_zero⟩
  · intro v hv
    refine (len_le_sum v).trans ?_
    change v ∈ rectCorners (20, 10) at hv
    simp only [rectCorners, List.mem_cons, List.not_mem_nil, or_false] at hv
    rcases hv with rfl | rfl | rfl | rfl <;> norm_num [abs_of_pos, abs_of_neg]

/-- A rectangle swung up to half a million times forth and back. -/
example (n : ℕ) (hn' : n ≤ 500000) : ∃ b, mkRect (.two (0, 0)) (20, 10) {} = .ok b ∧
    List.Forall₂ (fun v w => len (w - rot ((run (doubleOf rne) b (swing n)).p.r - b.p.r) v) ≤ 2 / 1000000) b.verts
      (run (doubleOf rne) b (swing n)).verts ∧
    (∃ v0 v1 : V2, (run (doubleOf rne) b (swing n)).verts = [v0, v1, -v0, -v1]) ∧
    (∀ x ∈ bodyRegion (run (doubleOf rne) b (swing n)), ∀ y, Spec.dist y x ≤ (run (doubleOf rne) b (swing n)).eps - 2 / 1000000 →
      y ∈ geomRegion (run (doubleOf rne) b (swing n)).geom) ∧
    ∀ (i j : ℕ) (hi : i < b.verts.length) (hj : j < b.verts.length) (hi' : i < (run (doubleOf rne) b (swing n)).verts.length)
      (hj' : j < (run (doubleOf rne) b (swing n)).verts.length),
      |Spec.dist (run (doubleOf rne) b (swing n)).verts[i] (run (doubleOf rne) b (swing n)).verts[j] -
        Spec.dist b.verts[i] b.verts[j]| ≤ 4 / 1000000 := by
  obtain ⟨b, h1, h2, h3, h4, h5, h6⟩ := swing_rect
  have hA := rounded_arith rne_nearest
  have hn : (swing n).length ≤ 1000000 := by rw [swing_length]; omega
  have hT : turning (doubleOf rne) b (swing n) ≤ 1000000 := by
    rw [swing_turning _ b h4]
    have : (n : ℝ) ≤ 500000 := by exact_mod_cast hn'
    linarith
  have hD : ∀ v ∈ b.verts, driftBound (len v) (swing n).length (turning (doubleOf rne) b (swing n)) ≤ 2 / 1000000 :=
    fun v hv => (driftBound_mono (len_nonneg _) (h6 v hv) hn hT (turning_nonneg _ _)).trans driftBound_million
  refine ⟨b, h1, C122_million hA b h2 h3 h6 _ (swing_rep _) hn hT, C122_rect_symmetric _ _ _ b h1 _,
    fun x hx y hy => C122_broad_phase hA b h2 h3 _ (swing_rep _) _ hD (by norm_num) x hx y hy, fun i j hi hj hi' hj' => ?_⟩
  refine (C122_shape hA b h2 h3 _ (swing_rep _) i j hi hj hi' hj').trans ?_
  have := hD _ (List.getElem_mem hi)
  have := hD _ (List.getElem_mem hj)
  linarith

/-- A circle that moves twice by a tenth. -/
example : |(run (doubleOf rne) (mkCircle (.two (0, 0)) 1 { vel := .three ⟨0, 1, 0⟩ }) [.move 0.1, .move 0.1]).p.x - 0.2| ≤ 1 / 2 ^ 49 := by
  have hA := rounded_arith rne_nearest
  set b := mkCircle (.two (0, 0)) 1 { vel := .three ⟨0, 1, 0⟩ } with hb
  have r1 : Rep 1 := by simpa using rep_nat 1 (by norm_num) 0 (by norm_num)
  have r2 : Rep 2 := by simpa using rep_nat 2 (by norm_num) 0 (by norm_num)
  have k1 : rne 0.1 ≤ 1 := by
    rw [← nearest_id rne_nearest r1]; exact nearest_mono rne_nearest (by norm_num)
  have k0 : 0 ≤ rne 0.1 := by
    rw [← nearest_zero rne_nearest]; exact nearest_mono rne_nearest (by norm_num)
  have m1 : (run (doubleOf rne) b [.move 0.1]).p.x = rne 0.1 := by
    simp only [run, List.foldl, op, move, setP_p, moved, doubleOf]
    rw [show b.p.x = 0 from rfl, show b.v.x = 1 from rfl, one_mul, zero_add, nearest_id rne_nearest (rne_nearest _).1]
  have m2 : (run (doubleOf rne) b [.move 0.1, .move 0.1]).p.x = rne (rne 0.1 + rne 0.1) := by
    have : (run (doubleOf rne) b [.move 0.1, .move 0.1]).p.x =
        rne ((run (doubleOf rne) b [.move 0.1]).p.x + rne ((run (doubleOf rne) b [.move 0.1]).v.x * 0.1)) := by
      simp only [run, List.foldl, op, move, setP_p, moved, doubleOf]
    rw [this, m1]
    have : (run (doubleOf rne) b [.move 0.1]).v.x = 1 := by simp only [run, List.foldl, op, move, setP_v]; rfl
    rw [this, one_mul]
  have k2 : rne (rne 0.1 + rne 0.1) ≤ 2 := by
    rw [← nearest_id rne_nearest r2]; exact nearest_mono rne_nearest (by linarith)
  have k20 : 0 ≤ rne (rne 0.1 + rne 0.1) := by
    rw [← nearest_zero rne_nearest]; exact nearest_mono rne_nearest (by linarith)
  have hB : StaysBelow (doubleOf rne) V3.x 2 b [.move 0.1, .move 0.1] := by
    intro k hk
    simp only [List.length_cons, List.length_nil] at hk
    interval_cases k
    · simp [run, hb, mkCircle, Arg.toV3]
    · simp only [List.take_succ_cons, List.take_zero]
      rw [m1, abs_of_nonneg k0]
      linarith
    · simp only [List.take_succ_cons, List.take_zero]
      rw [m2, abs_of_nonneg k20]
      exact k2
  have := (C122_position hA b ⟨rep_zero, rep_zero, rep_zero⟩ [.move 0.1, .move 0.1] (by intro q hq; simp at hq) 2 (by norm_num)).2.1 hB
  have e : (b.run [.move 0.1, .move 0.1]).p.x = 0.2 := by
    simp [Body.run, Body.op, Body.move, set_p_p, set_p_v, hb, mkCircle, Arg.toV3]
    norm_num
  have ht : travel V3.x b.v [.move 0.1, .move 0.1] = 0.2 := by
    simp only [travel, show b.v.x = 1 from rfl]
    norm_num
  rw [e, ht] at this
  refine this.trans ?_
  have h := tau_small
  simp only [List.length_cons, List.length_nil]
  have : (1 : ℝ) / 2 ^ 100 ≤ 1 / 2 ^ 54 := by norm_num
  generalize (1 : ℝ) / 2 ^ 1074 = t at *
  norm_num at *
  linarith

/-- Without rounding a turned rectangle is where the exact model puts it. -/
example : run .exact (rectBase (.two (0, 0)) (2, 2) {}) [.setP ⟨1, 2, 3⟩, .move 0.1] = (rectBase (.two (0, 0)) (2, 2) {}).run [.setP ⟨1, 2, 3⟩, .move 0.1] ∧
    (rectBase (.two (0, 0)) (2, 2) {}).verts ≠ [] :=
  ⟨C122_exact _ _, by simp [rectBase, Body.verts, rectCorners]⟩

end LcpPhysics
