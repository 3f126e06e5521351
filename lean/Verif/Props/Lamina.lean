import Verif.Lemmas.Lamina
import Verif.Props.Bodies
import Verif.Props.RectContact
import Mathlib.Analysis.SpecialFunctions.PolarCoord

/-!
# C83: bodies are uniform laminae

The position of a body is the centre of mass of its shape, its moment of inertia the integral of the squared
distance from there.
-/

noncomputable section

open MeasureTheory Set

namespace LcpPhysics

open Spec

/-! ## Convex polygons -/

theorem areaOf_integral {S : Set V2} : areaOf S = ∫ _ in S, (1 : ℝ) := by
  rw [setIntegral_const, smul_eq_mul, mul_one]; rfl

theorem area_poly {vs : List V2} (h3 : 2 < vs.length) (h : AllLeft vs) : areaOf (solid vs) = area2 vs / 2 := by
  rw [areaOf_integral]
  have := poly_integral 1 0 0 0 vs h3 h
  have e : quadFn 1 0 0 0 = fun _ => 1 := by funext x; simp [quadFn]
  rw [e] at this
  rw [this]
  have e2 : edgeInt 1 0 0 0 = fun a b => (1 / 2 : ℝ) • Spec.det a b := by
    funext a b; simp [edgeInt]; ring
  rw [e2, edgeSum_smul, smul_eq_mul]
  unfold area2; ring

theorem area2_pos {vs : List V2} (h3 : 2 < vs.length) (h : AllLeft vs) : 0 < area2 vs := by
  have hfan := area2_fan (vs.getD 0 0) vs
  rw [← hfan]
  unfold edgeSum
  apply Finset.sum_pos'
  · intro i hi
    rw [Finset.mem_range] at hi
    rcases Nat.lt_or_ge (i + 1) vs.length with h1 | h1
    · rw [Nat.mod_eq_of_lt h1]
      rcases Nat.eq_zero_or_pos i with rfl | hp
      · simp [Spec.det]
      · exact (h 0 i (i + 1) hp (by omega) h1).le
    · rw [show i + 1 = vs.length by omega, Nat.mod_self]
      simp [Spec.det]
  · refine ⟨1, by simp; omega, ?_⟩
    rw [Nat.mod_eq_of_lt h3]
    exact h 0 1 2 (by omega) (by omega) h3

theorem edgeSum_fst (vs : List V2) (f : V2 → V2 → V2) : (edgeSum vs f).1 = edgeSum vs fun a b => (f a b).1 := by
  unfold edgeSum; rw [Prod.fst_sum]

theorem edgeSum_snd (vs : List V2) (f : V2 → V2 → V2) : (edgeSum vs f).2 = edgeSum vs fun a b => (f a b).2 := by
  unfold edgeSum; rw [Prod.snd_sum]

theorem centre_poly {vs : List V2} (h3 : 2 < vs.length) (h : AllLeft vs) :
    get_centroid vs = centreOfMass (solid vs) := by
  have hA := area2_pos h3 h
  unfold get_centroid centreOfMass meanOver
  rw [area_poly h3 h, centroidDen_eq, centroidNum_eq]
  have e1 := poly_integral 0 1 0 0 vs h3 h
  have e2 := poly_integral 0 0 1 0 vs h3 h
  have f1 : quadFn 0 1 0 0 = Prod.fst := by funext x; simp [quadFn]
  have f2 : quadFn 0 0 1 0 = Prod.snd := by funext x; simp [quadFn]
  rw [f1] at e1
  rw [f2] at e2
  rw [e1, e2]
  have g1 : edgeInt 0 1 0 0 = fun a b => (-(1 / 6 : ℝ)) • (-Spec.det a b * (a.1 + b.1)) := by
    funext a b; simp [edgeInt]; ring
  have g2 : edgeInt 0 0 1 0 = fun a b => (-(1 / 6 : ℝ)) • (-Spec.det a b * (a.2 + b.2)) := by
    funext a b; simp [edgeInt]; ring
  rw [g1, g2, edgeSum_smul, edgeSum_smul]
  ext
  · simp only [Prod.smul_fst, edgeSum_fst, Prod.fst_add, smul_eq_mul]
    field_simp
  · simp only [Prod.smul_snd, edgeSum_snd, Prod.snd_add, smul_eq_mul]
    field_simp

theorem allLeft_map {vs : List V2} (φ : V2 → V2)
    (hφ : ∀ a b c, Spec.det (φ b - φ a) (φ c - φ a) = Spec.det (b - a) (c - a)) (h : AllLeft vs) :
    AllLeft (vs.map φ) := by
  intro i j k hij hjk hk
  rw [List.length_map] at hk
  rw [getD_map_lt φ hk, getD_map_lt φ (show j < vs.length by omega), getD_map_lt φ (show i < vs.length by omega), hφ]
  exact h i j k hij hjk hk

/-- The mean squared distance from the origin, if the origin lies inside. -/
theorem moment_poly {vs : List V2} (h3 : 2 < vs.length) (h : AllLeft vs) (h0 : (0 : V2) ∈ solid vs) (m : ℝ) :
    hullInertia vs m = polarMoment (solid vs) m 0 := by
  have hc := allLeft_convex h h3
  have hA := area2_pos h3 h
  have hpos : ∀ i < vs.length, 0 ≤ Spec.det (vs.getD i 0) (vs.getD ((i + 1) % vs.length) 0) := by
    intro i hi
    have := (mem_solid_iff hc.1 hc.2 0).1 h0 i hi
    rw [inner_outward] at this
    simp only [edgeVec, Spec.det, Prod.fst_sub, Prod.snd_sub, Prod.fst_zero, Prod.snd_zero] at this ⊢
    linarith
  unfold hullInertia polarMoment meanOver
  rw [area_poly h3 h, inertiaNum_eq, inertiaDen_eq]
  have e1 := poly_integral 0 0 0 1 vs h3 h
  have f1 : quadFn 0 0 0 1 = fun x : V2 => Spec.inner (x - 0) (x - 0) := by
    funext x; simp [quadFn, Spec.inner]; ring
  rw [f1] at e1
  rw [e1]
  have d1 : edgeSum vs (fun a b => |Spec.det a b|) = area2 vs := by
    unfold edgeSum area2 edgeSum
    apply Finset.sum_congr rfl
    intro i hi
    exact abs_of_nonneg (hpos i (Finset.mem_range.1 hi))
  have d2 : edgeSum vs (fun a b => |Spec.det a b| * (Spec.inner a a + Spec.inner a b + Spec.inner b b)) =
      12 * edgeSum vs (edgeInt 0 0 0 1) := by
    unfold edgeSum
    rw [Finset.mul_sum]
    apply Finset.sum_congr rfl
    intro i hi
    simp only [edgeInt]
    rw [abs_of_nonneg (hpos i (Finset.mem_range.1 hi))]
    ring
  rw [d1, d2]
  field_simp
  ring

/-! ## Moving a lamina -/

theorem translate_integral (S : Set V2) (q : V2) (f : V2 → ℝ) :
    ∫ x in (fun y => q + y) '' S, f x = ∫ y in S, f (q + y) := by
  have hmp : MeasurePreserving (fun y : V2 => q + y) volume volume := measurePreserving_add_left volume q
  exact hmp.setIntegral_image_emb (MeasurableEquiv.addLeft q).measurableEmbedding f S

theorem translate_area (S : Set V2) (q : V2) : areaOf ((fun y => q + y) '' S) = areaOf S := by
  rw [areaOf_integral, areaOf_integral, translate_integral]

theorem translate_moment (S : Set V2) (q c : V2) (m : ℝ) :
    polarMoment ((fun y => q + y) '' S) m (q + c) = polarMoment S m c := by
  unfold polarMoment meanOver
  rw [translate_integral, translate_area]
  simp only [add_sub_add_left_eq_sub]

theorem solid_translate (vs : List V2) (q : V2) : solid (vs.map fun v => q + v) = (fun y => q + y) '' solid vs := by
  unfold solid
  have e : {p | p ∈ vs.map fun v => q + v} = (fun y => q + y) '' {p | p ∈ vs} := by
    ext x
    simp only [List.mem_map, mem_ofPred_eq, mem_image]
  rw [e]
  have : (fun y : V2 => q + y) = (AffineEquiv.constVAdd ℝ V2 q).toAffineMap := by
    funext y; simp
  rw [this, AffineMap.image_convexHull]

/-- The shape of a hull or rectangle in world coordinates. -/
def Body.region (b : Body) : Set V2 := solid (b.verts.map fun v => b.pos + v)

/-- A body whose vertices form a convex polygon about their centroid. -/
theorem lamina_of {b : Body} {m : ℝ} (h3 : 2 < b.verts.length) (h : AllLeft b.verts) (h0 : get_centroid b.verts = 0)
    (hI : b.ang_inertia = hullInertia b.verts m) :
    centreOfMass b.region = b.pos ∧ b.ang_inertia = polarMoment b.region m b.pos := by
  have hin : (0 : V2) ∈ solid b.verts := by
    rw [← h0]
    refine C04_centroid_in_hull (b.verts.getD 0 0) _ (mem_solid (getD_mem (by omega))) ?_ (area2_pos h3 h)
    intro i hi
    rcases Nat.lt_or_ge (i + 1) b.verts.length with h1 | h1
    · rw [Nat.mod_eq_of_lt h1]
      rcases Nat.eq_zero_or_pos i with rfl | hp
      · simp [Spec.det]
      · exact (h 0 i (i + 1) hp (by omega) h1).le
    · rw [show i + 1 = b.verts.length by omega, Nat.mod_self]
      simp [Spec.det]
  constructor
  · unfold Body.region
    rw [← centre_poly (by simpa using h3) (allLeft_map _ (by intro a b c; simp) h)]
    have e : (b.verts.map fun v => b.pos + v) = b.verts.map fun v => v + b.pos := by
      simp only [add_comm]
    rw [e, C04_centroid_translate _ _ (area2_pos h3 h).ne', h0, zero_add]
  · unfold Body.region
    rw [solid_translate, hI, moment_poly h3 h hin]
    have := translate_moment (solid b.verts) b.pos 0 m
    rw [add_zero] at this
    exact this.symm

theorem run_mass (b : Body) (ops : List BodyOp) : (b.run ops).mass = b.mass := by
  induction ops generalizing b with
  | nil => rfl
  | cons o ops ih =>
    change (Body.run (b.op o) ops).mass = _
    rw [ih]
    cases o with
    | setP q => exact set_p_mass _ _
    | move dt => exact set_p_mass _ _
    | setV v => rfl

theorem run_inertia (b : Body) (ops : List BodyOp) : (b.run ops).ang_inertia = b.ang_inertia := by
  induction ops generalizing b with
  | nil => rfl
  | cons o ops ih =>
    change (Body.run (b.op o) ops).ang_inertia = _
    rw [ih]
    cases o with
    | setP q => exact set_p_inertia _ _
    | move dt => exact set_p_inertia _ _
    | setV v => rfl

/-- C83: a convex `Hull` is placed at the centre of mass of its shape and has its moment of inertia, wherever
it has been moved. -/
theorem C83_hull_lamina (ref : V2) (vs : List V2) (a : Params) (b : Body) (h : mkHull ref vs a = .ok b)
    (hc : ConvexPolygon vs) (hn : NoThreeCollinear vs) (ops : List BodyOp) :
    centreOfMass (b.run ops).region = (b.run ops).pos ∧
    (b.run ops).ang_inertia = polarMoment (b.run ops).region a.mass (b.run ops).pos := by
  have hv := C05_hull_rigid ref vs a b h ops
  have hL := allLeft_of_convex hc hn
  have hI := C07_hull_inertia_invariant ref vs a b h ops
  refine lamina_of ?_ ?_ (C04_centroid_zero_in_body_frame ref vs a b h ops) ?_
  · rw [hv]; simpa using hc.three
  · rw [hv, List.map_map]
    refine allLeft_map _ ?_ hL
    intro a b c
    simp only [Function.comp, ← rot_map_sub, rot_det, sub_sub_sub_cancel_right]
  · rw [hI.2]
    rw [← hI.1, run_mass]
    obtain ⟨_, _, _, _, _, hm, _⟩ := mkHull_ok h
    rw [hm]

/-- C83: the area and centre of mass of a convex polygon as computed by the constructor. -/
theorem C83_polygon (vs : List V2) (hc : ConvexPolygon vs) (hn : NoThreeCollinear vs) :
    -centroidDen vs = areaOf (solid vs) ∧ get_centroid vs = centreOfMass (solid vs) := by
  have hL := allLeft_of_convex hc hn
  refine ⟨?_, centre_poly hc.three hL⟩
  rw [area_poly hc.three hL, centroidDen_eq, neg_neg]

/-- C83: the same for a `Rect`. -/
theorem C83_rect_lamina (pos : Arg) (dims : V2) (a : Params) (b : Body) (h : mkRect pos dims a = .ok b)
    (ops : List BodyOp) :
    centreOfMass (b.run ops).region = (b.run ops).pos ∧
    (b.run ops).ang_inertia = polarMoment (b.run ops).region a.mass (b.run ops).pos := by
  have hd := (C06_rect_accepts_iff pos dims a).1 ⟨b, h⟩
  obtain ⟨-, hb, hhb, heq⟩ := C06_rect_is_hull pos dims a b h
  obtain ⟨hp, -, hv, hI, -⟩ := heq ops
  have hL : AllLeft [((dims.1 / 2, dims.2 / 2) : V2), (-(dims.1 / 2), dims.2 / 2),
      (-(dims.1 / 2), -(dims.2 / 2)), (dims.1 / 2, -(dims.2 / 2))] := by
    intro i j k hij hjk hk
    simp at hk
    have : (i = 0 ∧ j = 1 ∧ k = 2) ∨ (i = 0 ∧ j = 1 ∧ k = 3) ∨ (i = 0 ∧ j = 2 ∧ k = 3) ∨ (i = 1 ∧ j = 2 ∧ k = 3) := by
      omega
    rcases this with ⟨rfl, rfl, rfl⟩ | ⟨rfl, rfl, rfl⟩ | ⟨rfl, rfl, rfl⟩ | ⟨rfl, rfl, rfl⟩ <;>
      simp [Spec.det] <;> nlinarith
  have hc := allLeft_convex hL (by simp)
  have := C83_hull_lamina _ _ a hb hhb hc.1 hc.2 (.setP pos.toV3 :: ops)
  change centreOfMass (Body.run (hb.set_p pos.toV3) ops).region = (Body.run (hb.set_p pos.toV3) ops).pos ∧
    (Body.run (hb.set_p pos.toV3) ops).ang_inertia = polarMoment (Body.run (hb.set_p pos.toV3) ops).region a.mass
      (Body.run (hb.set_p pos.toV3) ops).pos at this
  have e1 : (b.run ops).pos = (Body.run (hb.set_p pos.toV3) ops).pos := by unfold Body.pos; rw [hp]
  have e2 : (b.run ops).region = (Body.run (hb.set_p pos.toV3) ops).region := by unfold Body.region; rw [hv, e1]
  rw [e1, e2, hI]
  exact this

/-! ## Discs -/

theorem disc_integral (r : ℝ) (hr : 0 < r) (F G : ℝ → ℝ) (f : V2 → ℝ)
    (hf : ∀ ρ θ : ℝ, 0 < ρ → ρ ≤ r → ρ * f (ρ * Real.cos θ, ρ * Real.sin θ) = F ρ * G θ) :
    ∫ x in disc 0 r, f x = (∫ ρ in (0 : ℝ)..r, F ρ) * ∫ θ in (-Real.pi)..Real.pi, G θ := by
  have hm : MeasurableSet (disc 0 r) := by
    apply IsClosed.measurableSet
    unfold disc
    exact isClosed_le (by unfold Spec.inner; fun_prop) continuous_const
  have hpi : -Real.pi ≤ Real.pi := by linarith [Real.pi_pos]
  rw [← integral_indicator hm, ← integral_comp_polarCoord_symm, intervalIntegral.integral_of_le hr.le,
    intervalIntegral.integral_of_le hpi, ← setIntegral_prod_mul]
  have hs : Ioc 0 r ×ˢ Ioo (-Real.pi) Real.pi ⊆ polarCoord.target := by
    rintro ⟨ρ, θ⟩ ⟨h1, h2⟩
    exact ⟨h1.1, h2⟩
  have e : ∫ p in polarCoord.target, p.1 • (disc 0 r).indicator f (polarCoord.symm p) =
      ∫ p in Ioc 0 r ×ˢ Ioo (-Real.pi) Real.pi, F p.1 * G p.2 := by
    rw [← integral_indicator polarCoord.open_target.measurableSet, ← integral_indicator
      (measurableSet_Ioc.prod measurableSet_Ioo)]
    congr 1
    ext ⟨ρ, θ⟩
    by_cases ht : (ρ, θ) ∈ polarCoord.target
    · rw [indicator_of_mem ht]
      have h1 : 0 < ρ := ht.1
      have hd : (polarCoord.symm (ρ, θ)) ∈ disc 0 r ↔ ρ ≤ r := by
        simp only [disc, polarCoord_symm_apply, Spec.inner, mem_ofPred_eq, sub_zero]
        have : ρ * Real.cos θ * (ρ * Real.cos θ) + ρ * Real.sin θ * (ρ * Real.sin θ) = ρ ^ 2 := by
          have := Real.cos_sq_add_sin_sq θ
          nlinarith
        rw [this]
        constructor
        · intro h; nlinarith
        · intro h; nlinarith
      by_cases hle : ρ ≤ r
      · rw [indicator_of_mem (hd.2 hle), indicator_of_mem (show (ρ, θ) ∈ Ioc 0 r ×ˢ Ioo (-Real.pi) Real.pi from ⟨⟨h1, hle⟩, ht.2⟩)]
        simp only [polarCoord_symm_apply, smul_eq_mul]
        exact hf ρ θ h1 hle
      · rw [indicator_of_notMem (fun h => hle (hd.1 h)), indicator_of_notMem (fun h => hle h.1.2), smul_zero]
    · rw [indicator_of_notMem ht, indicator_of_notMem (fun h => ht (hs h))]
  rw [e]
  apply setIntegral_congr_set
  exact Measure.set_prod_ae_eq (Filter.EventuallyEq.refl _ _) Ioo_ae_eq_Ioc

/-- C83: the same for a `Circle`. -/
theorem C83_circle_lamina (pos : Arg) (rad : ℝ) (a : Params) (hr : 0 < rad) (ops : List BodyOp) :
    centreOfMass (disc ((mkCircle pos rad a).run ops).pos rad) = ((mkCircle pos rad a).run ops).pos ∧
    ((mkCircle pos rad a).run ops).ang_inertia =
      polarMoment (disc ((mkCircle pos rad a).run ops).pos rad) a.mass ((mkCircle pos rad a).run ops).pos := by
  rw [run_inertia]
  generalize ((mkCircle pos rad a).run ops).pos = q
  have hdisc : disc q rad = (fun y => q + y) '' disc 0 rad := by
    ext x
    constructor
    · intro hx
      exact ⟨x - q, by simpa [disc] using hx, by simp⟩
    · rintro ⟨y, hy, rfl⟩
      simpa [disc] using hy
  have harea : areaOf (disc 0 rad) = Real.pi * rad ^ 2 := by
    rw [areaOf_integral, disc_integral rad hr (fun ρ => ρ ^ 1) (fun _ => 1) _ (by intro ρ θ _ _; ring)]
    rw [integral_pow]
    simp
    ring
  have hA : Real.pi * rad ^ 2 ≠ 0 := by positivity
  have hx : ∫ x in disc 0 rad, x.1 = 0 := by
    rw [disc_integral rad hr (fun ρ => ρ ^ 2) Real.cos _ (by intro ρ θ _ _; ring)]
    simp
  have hy : ∫ x in disc 0 rad, x.2 = 0 := by
    rw [disc_integral rad hr (fun ρ => ρ ^ 2) Real.sin _ (by intro ρ θ _ _; ring)]
    simp
  have hm : ∫ x in disc 0 rad, Spec.inner x x = Real.pi * rad ^ 4 / 2 := by
    rw [disc_integral rad hr (fun ρ => ρ ^ 3) (fun _ => 1) _ (by
      intro ρ θ _ _
      have := Real.cos_sq_add_sin_sq θ
      simp only [Spec.inner]
      linear_combination ρ ^ 3 * this)]
    rw [integral_pow]
    simp
    ring
  have hcomp : Continuous (fun x : V2 => Spec.inner (x - 0) (x - 0)) := by unfold Spec.inner; fun_prop
  have hbd : disc 0 rad ⊆ Icc (-rad) rad ×ˢ Icc (-rad) rad := by
    rintro ⟨x, y⟩ h
    simp only [disc, Spec.inner, mem_ofPred_eq, sub_zero] at h
    refine ⟨abs_le.1 (abs_le_of_sq_le_sq ?_ hr.le), abs_le.1 (abs_le_of_sq_le_sq ?_ hr.le)⟩ <;> simp only <;>
      nlinarith [mul_self_nonneg x, mul_self_nonneg y]
  have hK : IsCompact (disc 0 rad) := by
    refine (isCompact_Icc.prod isCompact_Icc).of_isClosed_subset ?_ hbd
    exact isClosed_le hcomp continuous_const
  rw [hdisc]
  constructor
  · unfold centreOfMass meanOver
    rw [translate_area, translate_integral, translate_integral, harea]
    have i1 : ∫ y in disc 0 rad, (q + y).1 = q.1 * (Real.pi * rad ^ 2) := by
      simp only [Prod.fst_add]
      rw [integral_add (by
          have : IntegrableOn (fun _ : V2 => q.1) (disc 0 rad) :=
            continuous_const.continuousOn.integrableOn_compact hK
          exact this) (by
          have : IntegrableOn (fun y : V2 => y.1) (disc 0 rad) :=
            continuous_fst.continuousOn.integrableOn_compact hK
          exact this), hx, add_zero, setIntegral_const, smul_eq_mul, mul_comm]
      congr 1
    have i2 : ∫ y in disc 0 rad, (q + y).2 = q.2 * (Real.pi * rad ^ 2) := by
      simp only [Prod.snd_add]
      rw [integral_add (by
          have : IntegrableOn (fun _ : V2 => q.2) (disc 0 rad) :=
            continuous_const.continuousOn.integrableOn_compact hK
          exact this) (by
          have : IntegrableOn (fun y : V2 => y.2) (disc 0 rad) :=
            continuous_snd.continuousOn.integrableOn_compact hK
          exact this), hy, add_zero, setIntegral_const, smul_eq_mul, mul_comm]
      congr 1
    rw [i1, i2]
    ext <;> simp only <;> field_simp
  · have := translate_moment (disc 0 rad) q 0 a.mass
    rw [add_zero] at this
    rw [this]
    unfold polarMoment meanOver
    simp only [sub_zero]
    rw [hm, harea]
    change a.mass * rad * rad / 2 = _
    field_simp

/-- Example for `C83_hull_lamina` and `C83_polygon`: a triangle, moved and turned. -/
example : ∃ b, mkHull (5, 7) [(0, 0), (3, 0), (0, 3)] {} = .ok b ∧
    centreOfMass (b.run [.setP ⟨1, 2, 3⟩]).region = (2, 3) ∧
    b.ang_inertia = polarMoment (b.run [.setP ⟨1, 2, 3⟩]).region 1 (2, 3) ∧ b.ang_inertia = 1 := by
  obtain ⟨b, hb⟩ := (C03_hull_accepts_iff (5, 7) [(0, 0), (3, 0), (0, 3)] {}).2
    ⟨by simp, by simp [area2, edgeSum, Finset.sum_range_succ, Spec.det]⟩
  have hL : AllLeft [((0, 0) : V2), (3, 0), (0, 3)] := by
    intro i j k hij hjk hk
    simp at hk
    obtain ⟨rfl, rfl, rfl⟩ : i = 0 ∧ j = 1 ∧ k = 2 := by omega
    simp [Spec.det]
  have hc := allLeft_convex hL (by simp)
  have h := C83_hull_lamina _ _ _ b hb hc.1 hc.2 [.setP ⟨1, 2, 3⟩]
  have hp : (b.run [.setP ⟨1, 2, 3⟩]).pos = (2, 3) := by
    change (b.set_p _).pos = _
    unfold Body.pos
    rw [set_p_p]
    rfl
  rw [hp, run_inertia] at h
  refine ⟨b, hb, h.1, h.2, ?_⟩
  obtain ⟨_, _, _, _, hi, _⟩ := mkHull_ok hb
  rw [hi]
  simp [hullInertia, inertiaNum, inertiaDen, get_centroid, centroidNum, centroidDen, Finset.sum_range_succ, vget,
    cross_2d, dot]
  norm_num [abs_of_nonneg, abs_of_nonpos]

/-- Examples for `C83_rect_lamina` and `C83_circle_lamina`. -/
example : ∃ b, mkRect (.two (1, 2)) (4, 2) {} = .ok b ∧ b.ang_inertia = polarMoment b.region 1 b.pos := by
  obtain ⟨b, hb⟩ := (C06_rect_accepts_iff (.two (1, 2)) (4, 2) {}).2 (by norm_num)
  exact ⟨b, hb, (C83_rect_lamina _ _ _ b hb []).2⟩

example : polarMoment (disc (1, 2) 3) 4 (1, 2) = 18 := by
  have h := (C83_circle_lamina (.two (1, 2)) 3 { mass := 4 } (by norm_num) []).2
  change (4 : ℝ) * 3 * 3 / 2 = polarMoment (disc (1, 2) 3) 4 (1, 2) at h
  rw [← h]
  norm_num

/-! ## The constructor also accepts polygons that are not convex -/

/-- An L. -/
def lShape : List V2 := [(0, 0), (4, 0), (4, 1), (1, 1), (1, 4), (0, 4)]

/-- Its region: two bars. -/
def lRegion : Set V2 := solid [(0, 0), (4, 0), (4, 1), (0, 1)] ∪ solid [(0, 1), (1, 1), (1, 4), (0, 4)]

theorem lRegion_integral (k0 k1 k2 k3 : ℝ) : ∫ x in lRegion, quadFn k0 k1 k2 k3 x =
    edgeSum [(0, 0), (4, 0), (4, 1), (0, 1)] (edgeInt k0 k1 k2 k3) +
    edgeSum [(0, 1), (1, 1), (1, 4), (0, 4)] (edgeInt k0 k1 k2 k3) := by
  have hL1 : AllLeft [((0, 0) : V2), (4, 0), (4, 1), (0, 1)] := by
    intro i j k hij hjk hk
    simp at hk
    have : (i = 0 ∧ j = 1 ∧ k = 2) ∨ (i = 0 ∧ j = 1 ∧ k = 3) ∨ (i = 0 ∧ j = 2 ∧ k = 3) ∨ (i = 1 ∧ j = 2 ∧ k = 3) := by
      omega
    rcases this with ⟨rfl, rfl, rfl⟩ | ⟨rfl, rfl, rfl⟩ | ⟨rfl, rfl, rfl⟩ | ⟨rfl, rfl, rfl⟩ <;>
      simp [Spec.det]
  have hL2 : AllLeft [((0, 1) : V2), (1, 1), (1, 4), (0, 4)] := by
    intro i j k hij hjk hk
    simp at hk
    have : (i = 0 ∧ j = 1 ∧ k = 2) ∨ (i = 0 ∧ j = 1 ∧ k = 3) ∨ (i = 0 ∧ j = 2 ∧ k = 3) ∨ (i = 1 ∧ j = 2 ∧ k = 3) := by
      omega
    rcases this with ⟨rfl, rfl, rfl⟩ | ⟨rfl, rfl, rfl⟩ | ⟨rfl, rfl, rfl⟩ | ⟨rfl, rfl, rfl⟩ <;>
      simp [Spec.det]
  have c1 := allLeft_convex hL1 (by simp)
  have c2 := allLeft_convex hL2 (by simp)
  unfold lRegion
  rw [setIntegral_union₀ _ (solid_compact _).measurableSet.nullMeasurableSet
    ((quadFn_continuous _ _ _ _).continuousOn.integrableOn_compact (solid_compact _))
    ((quadFn_continuous _ _ _ _).continuousOn.integrableOn_compact (solid_compact _)),
    poly_integral _ _ _ _ _ (by simp) hL1, poly_integral _ _ _ _ _ (by simp) hL2]
  refine measure_mono_null (fun x hx => ?_) (line_null ((0, 1) : V2) ((1, 1) : V2) (by simp))
  have h1 := (mem_solid_iff c1.1 c1.2 x).1 hx.1 2 (by simp)
  have h2 := (mem_solid_iff c2.1 c2.2 x).1 hx.2 0 (by simp)
  simp [edgeVec, outward, Spec.inner] at h1 h2
  change Spec.det ((1, 1) - (0, 1)) (x - (0, 1)) = 0
  simp [Spec.det]
  linarith

/-- C83, limits: the constructor accepts an L, finds its centre of mass (outside the shape), but gives it too
small a moment of inertia, because it adds the triangles about the centroid without their signs. -/
theorem C83_nonconvex_inertia_wrong (a : Params) (hm : 0 < a.mass) : ∃ b, mkHull 0 lShape a = .ok b ∧
    centreOfMass lRegion = b.pos ∧ b.pos ∉ lRegion ∧ b.ang_inertia < polarMoment lRegion a.mass b.pos := by
  obtain ⟨b, hb⟩ := (C03_hull_accepts_iff 0 lShape a).2
    ⟨by simp [lShape], by simp [lShape, area2, edgeSum, Finset.sum_range_succ, Spec.det]; norm_num⟩
  have hcen : get_centroid lShape = (19 / 14, 19 / 14) := by
    ext <;> simp [lShape, get_centroid, centroidNum, centroidDen, Finset.sum_range_succ, vget, cross_2d] <;> norm_num
  have hpos : b.pos = (19 / 14, 19 / 14) := by
    have := (C03_hull_vertices_stay 0 lShape a b hb).2.2.1
    rw [this, hcen, zero_add]
  have harea : areaOf lRegion = 7 := by
    rw [areaOf_integral]
    have := lRegion_integral 1 0 0 0
    have e : quadFn 1 0 0 0 = fun _ => 1 := by funext x; simp [quadFn]
    rw [e] at this
    rw [this]
    simp [edgeSum, Finset.sum_range_succ, edgeInt, Spec.det]
    norm_num
  refine ⟨b, hb, ?_, ?_, ?_⟩
  · rw [hpos]
    unfold centreOfMass meanOver
    rw [harea]
    have e1 := lRegion_integral 0 1 0 0
    have e2 := lRegion_integral 0 0 1 0
    have f1 : quadFn 0 1 0 0 = Prod.fst := by funext x; simp [quadFn]
    have f2 : quadFn 0 0 1 0 = Prod.snd := by funext x; simp [quadFn]
    rw [f1] at e1
    rw [f2] at e2
    rw [e1, e2]
    ext <;> simp [edgeSum, Finset.sum_range_succ, edgeInt, Spec.det, Spec.inner] <;> norm_num
  · rw [hpos]
    rintro (h | h)
    · have := solid_inner_le (vs := [((0, 0) : V2), (4, 0), (4, 1), (0, 1)]) (d := (0, 1)) (m := 1)
        (by intro w hw; simp at hw; rcases hw with rfl | rfl | rfl | rfl <;> simp [Spec.inner]) _ h
      simp [Spec.inner] at this
      norm_num at this
    · have := solid_inner_le (vs := [((0, 1) : V2), (1, 1), (1, 4), (0, 4)]) (d := (1, 0)) (m := 1)
        (by intro w hw; simp at hw; rcases hw with rfl | rfl | rfl | rfl <;> simp [Spec.inner]) _ h
      simp [Spec.inner] at this
      norm_num at this
  · obtain ⟨_, _, _, _, hi, _⟩ := mkHull_ok hb
    rw [hi, hcen, hpos]
    unfold polarMoment meanOver
    rw [harea]
    have e1 := lRegion_integral ((19 / 14) ^ 2 + (19 / 14) ^ 2) (-2 * (19 / 14)) (-2 * (19 / 14)) 1
    have f1 : quadFn ((19 / 14) ^ 2 + (19 / 14) ^ 2) (-2 * (19 / 14)) (-2 * (19 / 14)) 1 =
        fun x : V2 => Spec.inner (x - (19 / 14, 19 / 14)) (x - (19 / 14, 19 / 14)) := by
      funext x; simp [quadFn, Spec.inner]; ring
    rw [f1] at e1
    rw [e1]
    have g1 : hullInertia (lShape.map fun v => v - (19 / 14, 19 / 14)) a.mass = a.mass * (5459 / 2352) := by
      simp [lShape, hullInertia, inertiaNum, inertiaDen, Finset.sum_range_succ, vget, cross_2d, dot]
      norm_num [abs_of_nonneg, abs_of_nonpos]
      ring
    rw [g1]
    have g2 : (edgeSum [((0, 0) : V2), (4, 0), (4, 1), (0, 1)]
        (edgeInt ((19 / 14) ^ 2 + (19 / 14) ^ 2) (-2 * (19 / 14)) (-2 * (19 / 14)) 1) +
      edgeSum [((0, 1) : V2), (1, 1), (1, 4), (0, 4)]
        (edgeInt ((19 / 14) ^ 2 + (19 / 14) ^ 2) (-2 * (19 / 14)) (-2 * (19 / 14)) 1)) / 7 = 793 / 294 := by
      simp [edgeSum, Finset.sum_range_succ, edgeInt, Spec.det, Spec.inner]
      norm_num
    rw [g2]
    nlinarith

end LcpPhysics
