import Verif.Props.Depth
import Verif.Props.Frame
import Mathlib.Analysis.SpecialFunctions.Trigonometric.Bounds
import Mathlib.Analysis.LocallyConvex.Separation

/-!
# C102: a strict step cannot be halved for ever

Circles, rectangles and circles against convex hulls, whose contacts measure real overlaps.
-/

noncomputable section

namespace LcpPhysics
open Spec

/-! ## Solid regions -/

theorem triangle_interior {vs : List V2} {a b c : V2} (ha : a ∈ vs) (hb : b ∈ vs) (hc : c ∈ vs)
    (hd : Spec.det (b - a) (c - a) ≠ 0) : (interior (solid vs)).Nonempty := by
  set D := Spec.det (b - a) (c - a) with hD
  let l1 : V2 → ℝ := fun x => Spec.det (x - a) (c - a) / D
  let l2 : V2 → ℝ := fun x => Spec.det (b - a) (x - a) / D
  have hl1 : Continuous l1 := by unfold l1 Spec.det; fun_prop
  have hl2 : Continuous l2 := by unfold l2 Spec.det; fun_prop
  have hop : IsOpen {x : V2 | 0 < l1 x ∧ 0 < l2 x ∧ l1 x + l2 x < 1} :=
    (isOpen_lt continuous_const hl1).inter ((isOpen_lt continuous_const hl2).inter
      (isOpen_lt (hl1.add hl2) continuous_const))
  refine ⟨(1 / 3 : ℝ) • (a + b + c), mem_interior.2 ⟨_, ?_, hop, ?_⟩⟩
  · rintro x ⟨h1, h2, h3⟩
    have hx : x = (1 - l1 x - l2 x) • a + (l1 x) • b + (l2 x) • c := by
      have e1 : l1 x * D = Spec.det (x - a) (c - a) := by unfold l1; field_simp
      have e2 : l2 x * D = Spec.det (b - a) (x - a) := by unfold l2; field_simp
      ext
      · apply mul_left_cancel₀ hd
        simp only [Prod.fst_add, Prod.smul_fst, smul_eq_mul]
        have : D * ((1 - l1 x - l2 x) * a.1 + l1 x * b.1 + l2 x * c.1) =
          D * a.1 + (l1 x * D) * (b.1 - a.1) + (l2 x * D) * (c.1 - a.1) := by ring
        rw [this, e1, e2, hD]; simp [Spec.det]; ring
      · apply mul_left_cancel₀ hd
        simp only [Prod.snd_add, Prod.smul_snd, smul_eq_mul]
        have : D * ((1 - l1 x - l2 x) * a.2 + l1 x * b.2 + l2 x * c.2) =
          D * a.2 + (l1 x * D) * (b.2 - a.2) + (l2 x * D) * (c.2 - a.2) := by ring
        rw [this, e1, e2, hD]; simp [Spec.det]; ring
    rw [hx]
    have hcv := solid_convex vs
    have := hcv.sum_mem (t := Finset.univ) (w := ![1 - l1 x - l2 x, l1 x, l2 x]) (z := ![a, b, c])
      (by intro i _; fin_cases i <;> simp <;> linarith) (by simp [Fin.sum_univ_three]; ring)
      (by intro i _; fin_cases i <;> simp [mem_solid, ha, hb, hc])
    simpa [Fin.sum_univ_three] using this
  · have e1 : l1 ((1 / 3 : ℝ) • (a + b + c)) = 1 / 3 := by
      unfold l1; rw [div_eq_iff hd, hD]; simp [Spec.det]; ring
    have e2 : l2 ((1 / 3 : ℝ) • (a + b + c)) = 1 / 3 := by
      unfold l2; rw [div_eq_iff hd, hD]; simp [Spec.det]; ring
    refine ⟨?_, ?_, ?_⟩ <;> simp only [e1, e2] <;> norm_num

theorem dist_convex (c : V2) (r : ℝ) : Convex ℝ {x : V2 | Spec.dist x c ≤ r} := by
  intro x hx y hy s t hs ht hst
  simp only [Set.mem_ofPred_eq] at *
  have : s • x + t • y - c = s • (x - c) + t • (y - c) := by
    have : c = (s + t) • c := by rw [hst, one_smul]
    conv_lhs => rw [this]
    module
  unfold Spec.dist at *
  rw [this]
  calc len (s • (x - c) + t • (y - c)) ≤ len (s • (x - c)) + len (t • (y - c)) := len_add_le _ _
    _ = s * len (x - c) + t * len (y - c) := by rw [len_smul, len_smul, abs_of_nonneg hs, abs_of_nonneg ht]
    _ ≤ s * r + t * r := by gcongr
    _ = r := by rw [← add_mul, hst, one_mul]

/-- What is used of the bodies. -/
def Solid (b : Body) : Prop := Convex ℝ (bodyRegion b) ∧ (interior (bodyRegion b)).Nonempty

theorem solid_disc {b : Body} (h : DiscBody 0 b) : Solid b := by
  obtain ⟨-, hc, hr⟩ := discBody_facts h
  have hset : bodyRegion b = {x | Spec.dist x b.pos ≤ b.rad} := by
    ext x; exact circle_region hc x
  constructor
  · rw [hset]; exact dist_convex _ _
  · refine ⟨b.pos, mem_interior.2 ⟨{x | Spec.dist x b.pos < b.rad}, fun x hx => ?_, ?_, ?_⟩⟩
    · rw [hset]; exact le_of_lt (show Spec.dist x b.pos < b.rad from hx)
    · refine isOpen_lt ?_ continuous_const
      unfold Spec.dist len; fun_prop
    · simp [Spec.dist, len]; exact hr

theorem solid_poly {b : Body} (ha : Alive b) (hc : b.isCircle = false) (hp : ConvexPolygon b.verts)
    (h3 : NoThreeCollinear b.verts) : Solid b := by
  obtain ⟨-, hr⟩ := alive_verts ha hc
  have hset : bodyRegion b = (fun x => x - b.pos) ⁻¹' solid b.verts := by ext x; exact hr x
  have hl := hp.three
  constructor
  · rw [hset]
    intro x hx y hy s t hs ht hst
    have := solid_convex b.verts hx hy hs ht hst
    simp only [Set.mem_preimage] at *
    convert this using 1
    have : b.pos = (s + t) • b.pos := by rw [hst, one_smul]
    conv_lhs => rw [this]
    module
  · obtain ⟨x, hx⟩ := triangle_interior (getD_mem (i := 0) (by omega)) (getD_mem (i := 1) (by omega))
      (getD_mem (i := 2) (by omega)) (h3 0 1 2 (by omega) (by omega) (by omega) (by omega) (by omega) (by omega))
    refine ⟨x + b.pos, ?_⟩
    rw [hset]
    refine preimage_interior_subset_interior_preimage (by fun_prop) ?_
    simpa using hx

theorem solid_measured {b1 b2 : Body} (h : Measured 0 b1 b2) : Solid b1 ∧ Solid b2 := by
  have k : ∀ {b : Body}, (DiscBody 0 b ∨ ConvexBody b ∨ BoxBody b) → Solid b := by
    rintro b (h | h | h)
    · exact solid_disc h
    · obtain ⟨a, b, c, d⟩ := convexBody_facts h; exact solid_poly a b c d
    · obtain ⟨a, b, c, d⟩ := boxBody_facts h; exact solid_poly a b c d
  rcases h with ⟨a, b⟩ | ⟨a, b⟩ | ⟨a, b⟩
  · exact ⟨k (.inl a), k b⟩
  · exact ⟨k a, k (.inl b)⟩
  · exact ⟨k (.inr (.inr a)), k (.inr (.inr b))⟩

theorem measured_mono {s t : ℝ} (hst : s ≤ t) {b1 b2 : Body} (h : Measured t b1 b2) : Measured s b1 b2 := by
  have kd : ∀ {b : Body}, DiscBody t b → DiscBody s b := by
    rintro b ⟨pos, rad, a, ops, hr, rfl⟩
    exact ⟨pos, rad, a, ops, by linarith, rfl⟩
  have k : ∀ {b : Body}, (DiscBody t b ∨ ConvexBody b ∨ BoxBody b) → (DiscBody s b ∨ ConvexBody b ∨ BoxBody b) := by
    rintro b (h | h)
    · exact .inl (kd h)
    · exact .inr h
  rcases h with ⟨a, b⟩ | ⟨a, b⟩ | ⟨a, b⟩
  · exact .inl ⟨kd a, k b⟩
  · exact .inr (.inl ⟨k a, kd b⟩)
  · exact .inr (.inr ⟨a, b⟩)

/-! ## Separation -/

/-- Convex bodies that reach into each other by at most `t` lie on two sides of a line after a displacement not
longer than `t`. -/
theorem overlap_line {t : ℝ} {A B : Set V2} (hA : Convex ℝ A) (hB : Convex ℝ B) (iA : (interior A).Nonempty)
    (iB : (interior B).Nonempty) (h : OverlapAtMost t A B) :
    ∃ u n, len u ≤ t ∧ len n = 1 ∧ ∀ a ∈ A, ∀ b ∈ B, 0 ≤ Spec.inner n (b - a - u) := by
  obtain ⟨u, hu, hd⟩ := h
  have hdis : Disjoint ((fun x : V2 => x - u) ⁻¹' interior A) (interior B) := by
    rw [Set.disjoint_left]
    intro x hx hx'
    have := hd _ hx
    simp only [sub_add_cancel] at this
    exact this hx'
  have hcv : Convex ℝ ((fun x : V2 => x - u) ⁻¹' interior A) := by
    have := hA.interior.translate_preimage_left (-u)
    simpa [sub_eq_add_neg] using this
  obtain ⟨f, s, f1, f2⟩ := geometric_hahn_banach_open_open hcv (isOpen_interior.preimage (by fun_prop)) hB.interior
    isOpen_interior hdis
  let m : V2 := (f (1, 0), f (0, 1))
  have hf : ∀ x : V2, f x = Spec.inner m x := by
    intro x
    have : x = x.1 • ((1, 0) : V2) + x.2 • ((0, 1) : V2) := by ext <;> simp
    conv_lhs => rw [this]
    rw [map_add, map_smul, map_smul]
    simp [Spec.inner, m]; ring
  obtain ⟨a0, ha0⟩ := iA
  obtain ⟨b0, hb0⟩ := iB
  have hm : m ≠ 0 := by
    intro h0
    have e1 := f1 (a0 + u) (by simpa using ha0)
    have e2 := f2 b0 hb0
    rw [hf, h0] at e1 e2
    simp [Spec.inner] at e1 e2
    linarith
  have hlm : 0 < len m := lt_of_le_of_ne (len_nonneg _) fun h => hm (len_eq_zero.1 h.symm)
  refine ⟨u, (1 / len m) • m, hu, ?_, ?_⟩
  · rw [len_smul, abs_of_pos (by positivity)]; field_simp
  · intro a ha b hb
    have c1 : f (a + u) ≤ s := by
      have hcl : a ∈ closure (interior A) := by
        rw [hA.closure_interior_eq_closure_of_nonempty_interior ⟨a0, ha0⟩]; exact subset_closure ha
      have hclo : IsClosed {x : V2 | f (x + u) ≤ s} := isClosed_le (by fun_prop) continuous_const
      refine hclo.closure_subset_iff.2 ?_ hcl
      intro x hx
      exact (f1 (x + u) (by simpa using hx)).le
    have c2 : s ≤ f b := by
      have hcl : b ∈ closure (interior B) := by
        rw [hB.closure_interior_eq_closure_of_nonempty_interior ⟨b0, hb0⟩]; exact subset_closure hb
      have hclo : IsClosed {x : V2 | s ≤ f x} := isClosed_le continuous_const (by fun_prop)
      refine hclo.closure_subset_iff.2 ?_ hcl
      intro x hx
      exact (f2 x hx).le
    have : 0 ≤ f (b - a - u) := by
      have : f (b - a - u) = f b - f (a + u) := by simp [sub_sub]
      rw [this]; linarith
    rw [hf] at this
    have e : Spec.inner ((1 / len m) • m) (b - a - u) = (1 / len m) * Spec.inner m (b - a - u) := by
      simp [Spec.inner]; ring
    rw [e]; positivity

/-- A depth grows no faster than the bodies move. -/
theorem depth_growth {t s r : ℝ} {A B A' B' : Set V2} (hA : Convex ℝ A) (hB : Convex ℝ B) (iA : (interior A).Nonempty)
    (iB : (interior B).Nonempty) (h : OverlapAtMost t A B) (hr : 0 ≤ r) (mA : ∀ x ∈ A', ∃ y ∈ A, Spec.dist x y ≤ r)
    (mB : ∀ x ∈ B', ∃ y ∈ B, Spec.dist x y ≤ r) (h' : OverlapAtLeast s A' B') : s ≤ t + 2 * r := by
  by_contra hlt
  push Not at hlt
  obtain ⟨u, n, hu, hn, hs⟩ := overlap_line hA hB iA iB h
  set q := (s - t + 2 * r) / 2 with hq
  obtain ⟨x, hx, hy⟩ := h' (u - q • n) (by
    have : u - q • n = u + (-q) • n := by module
    rw [this]
    have hq0 : 0 ≤ q := by rw [hq]; linarith
    calc len (u + (-q) • n) ≤ len u + len ((-q) • n) := len_add_le _ _
      _ = len u + q := by rw [len_smul, hn, abs_neg, abs_of_nonneg hq0, mul_one]
      _ < s := by rw [hq]; linarith)
  obtain ⟨a, ha, da⟩ := mA x hx
  obtain ⟨b, hb, db⟩ := mB _ hy
  have h0 := hs a ha b hb
  have e : Spec.inner n (b - a - u) = Spec.inner n (x - a) - Spec.inner n (x + (u - q • n) - b) - q * (len n) ^ 2 := by
    rw [len_sq]; simp [Spec.inner]; ring
  rw [e, hn] at h0
  have b1 : Spec.inner n (x - a) ≤ r := by
    exact (inner_le_len n (x - a) hn).trans da
  have b2 : -r ≤ Spec.inner n (x + (u - q • n) - b) := by
    have h1 := inner_le_len n (-(x + (u - q • n) - b)) hn
    have h2 : len (-(x + (u - q • n) - b)) = len (x + (u - q • n) - b) := by
      unfold len; congr 1; simp only [Prod.fst_neg, Prod.snd_neg]; ring
    have h3 : Spec.inner n (-(x + (u - q • n) - b)) = -Spec.inner n (x + (u - q • n) - b) := by
      simp only [Spec.inner, Prod.fst_neg, Prod.snd_neg]; ring
    unfold Spec.dist at db
    linarith
  rw [hq] at h0
  linarith

/-- C102: what a strict world asks for. For circles, rectangles and circles against convex hulls, all contacts found
are at most `tol` deep exactly if no two bodies that may touch reach into each other by more than `tol`. -/
theorem C102_accepted_iff (fuel : ℕ) (nc : ℕ → List ℕ) (hnc : ∀ i j, i ∈ nc j → j ∈ nc i)
    (pairs : List Body → List (ℕ × ℕ)) (hp : BroadPhase pairs) (eps tol : ℝ) (heps : 0 ≤ eps) (htol : 0 ≤ tol)
    (f f' : Finder) (bs : List Body) (cs : List Contact) (h : diffCollide fuel nc pairs eps f bs = .ok (f', cs))
    (he : ∀ i < bs.length, 0 ≤ (bodyAt bs i).eps)
    (hm : ∀ i < bs.length, ∀ j < bs.length, i ≠ j → i ∉ nc j → Measured tol (bodyAt bs i) (bodyAt bs j)) :
    (∀ c ∈ cs, c.pen ≤ tol) ↔ ∀ i < bs.length, ∀ j < bs.length, i ≠ j → i ∉ nc j →
      OverlapAtMost tol (bodyRegion (bodyAt bs i)) (bodyRegion (bodyAt bs j)) := by
  constructor
  · intro hpen i hi j hj hij hx
    exact C86_search_bounds_overlap fuel nc hnc pairs hp eps tol heps htol f f' bs cs h hpen i j hi hj hij hx (he i hi)
      (he j hj) (hm i hi j hj hij hx)
  · intro hb c hc
    by_contra hlt
    push Not at hlt
    have hm0 : ∀ i < bs.length, ∀ j < bs.length, i ≠ j → i ∉ nc j → Measured 0 (bodyAt bs i) (bodyAt bs j) :=
      fun i hi j hj hij hx => measured_mono htol (hm i hi j hj hij hx)
    obtain ⟨c1, c2, c3, c4, c5⟩ := C102_contact_is_overlap fuel nc pairs hp.valid eps heps f f' bs cs h hm0 c hc
      (lt_of_le_of_lt htol hlt)
    obtain ⟨s1, s2⟩ := solid_measured (hm0 _ c1 _ c2 c3 c4)
    have := depth_growth s1.1 s2.1 s1.2 s2.2 (hb _ c1 _ c2 c3 c4) le_rfl (fun x hx => ⟨x, hx, by simp [Spec.dist, len]⟩)
      (fun x hx => ⟨x, hx, by simp [Spec.dist, len]⟩) c5
    linarith

/-- Two discs of radius 1 with centres 3/2 apart. -/
def lens : List Body := [mkCircle (.two 0) 1 {}, mkCircle (.two (3 / 2, 0)) 1 {}]

theorem lens_search (fuel : ℕ) (f : Finder) : ∃ c, diffCollide fuel (fun _ => []) allPairs (1 / 10) f lens = .ok (f, [c]) ∧
    c.pen = 1 / 2 ∧ c.i1 = 0 ∧ c.i2 = 1 := by
  have hn : nrm ((0 : V2) - (3 / 2, 0)) = 3 / 2 := by
    rw [nrm_eq_len]
    have : ((0 : V2) - (3 / 2, 0)) = (-(3 / 2), 0) := by ext <;> simp
    rw [this, len, show (-(3 / 2) : ℝ) ^ 2 + (0 : ℝ) ^ 2 = (3 / 2) ^ 2 by norm_num]
    exact Real.sqrt_sq (by norm_num)
  obtain ⟨q, hcc, hq⟩ : ∃ q, circleCircle (1 / 10) 1 1 0 (3 / 2, 0) = [q] ∧ q.pen = 1 / 2 := by
    unfold circleCircle
    simp only [hn]
    rw [if_neg (by norm_num)]
    exact ⟨_, rfl, by norm_num⟩
  have hall : allPairs lens = [(0, 1)] := rfl
  refine ⟨⟨q.normal, q.p1, q.p2, q.pen, 0, 1, q.nan⟩, ?_, hq, rfl, rfl⟩
  · unfold diffCollide
    rw [hall]
    unfold handleAll handle
    rw [if_neg (by simp)]
    unfold handlePair
    have e0 : bodyAt lens 0 = mkCircle (.two 0) 1 {} := rfl
    have e1 : bodyAt lens 1 = mkCircle (.two (3 / 2, 0)) 1 {} := rfl
    have q0 : (mkCircle (.two 0) 1 {}).pos = 0 := rfl
    have q1 : (mkCircle (.two (3 / 2, 0)) 1 {}).pos = (3 / 2, 0) := rfl
    have r0 : (mkCircle (.two 0) 1 {}).rad = 1 := rfl
    have r1 : (mkCircle (.two (3 / 2, 0)) 1 {}).rad = 1 := rfl
    have c0 : (mkCircle (.two 0) 1 {}).isCircle = true := rfl
    have c1 : (mkCircle (.two (3 / 2, 0)) 1 {}).isCircle = true := rfl
    simp only [e0, e1, q0, q1, r0, r1, c0, c1, and_self, if_true, hcc]
    rfl

theorem lens_measured : ∀ i < lens.length, ∀ j < lens.length, i ≠ j → Measured (1 / 4) (bodyAt lens i) (bodyAt lens j) := by
  have hd : ∀ i < 2, DiscBody (1 / 4) (bodyAt lens i) := by
    intro i hi
    rcases (by omega : i = 0 ∨ i = 1) with rfl | rfl
    · exact ⟨_, 1, {}, [], by norm_num, rfl⟩
    · exact ⟨_, 1, {}, [], by norm_num, rfl⟩
  exact fun i hi j hj _ => .inl ⟨hd i hi, .inl (hd j hj)⟩

/-- Examples: the discs still meet after every displacement shorter than 1/2, so they reach into each other by more
than 1/4. -/
example : OverlapAtLeast (1 / 2) (bodyRegion (bodyAt lens 0)) (bodyRegion (bodyAt lens 1)) := by
  obtain ⟨c, h, hp, h1, h2⟩ := lens_search 0 ⟨fun _ => 0, fun _ => 0⟩
  have := (C102_contact_is_overlap 0 (fun _ => []) allPairs allPairs_broad.valid (1 / 10) (by norm_num) _ _ _ _ h
    (fun i hi j hj hij _ => measured_mono (by norm_num) (lens_measured i hi j hj hij)) c (by simp) (by rw [hp]; norm_num)).2.2.2.2
  rwa [hp, h1, h2] at this

example : ¬ ∀ i < lens.length, ∀ j < lens.length, i ≠ j → i ∉ ([] : List ℕ) →
    OverlapAtMost (1 / 4) (bodyRegion (bodyAt lens i)) (bodyRegion (bodyAt lens j)) := by
  obtain ⟨c, h, hp, -⟩ := lens_search 0 ⟨fun _ => 0, fun _ => 0⟩
  rw [← C102_accepted_iff 0 (fun _ => []) (by simp) allPairs allPairs_broad (1 / 10) (1 / 4) (by norm_num) (by norm_num)
    _ _ lens [c] h (by
      intro i hi
      rcases (by simp [lens] at hi; omega : i = 0 ∨ i = 1) with rfl | rfl <;> norm_num [lens, bodyAt, mkCircle])
    (fun i hi j hj hij _ => lens_measured i hi j hj hij)]
  intro hc
  have := hc c (by simp)
  rw [hp] at this
  norm_num at this

/-! ## Moved bodies -/

theorem rot_near (t : ℝ) (x : V2) : len (rot t x - x) ≤ |t| * len x := by
  have h1 : len (rot t x - x) ^ 2 ≤ (|t| * len x) ^ 2 := by
    rw [mul_pow, len_sq, len_sq, sq_abs]
    have h2 : Spec.inner (rot t x - x) (rot t x - x) = 2 * (1 - Real.cos t) * Spec.inner x x := by
      have := Real.sin_sq_add_cos_sq t
      simp only [Spec.inner, rot, Prod.fst_sub, Prod.snd_sub]
      linear_combination (x.1 ^ 2 + x.2 ^ 2) * this
    rw [h2]
    have h3 := Real.one_sub_sq_div_two_le_cos (x := t)
    have h4 : 0 ≤ Spec.inner x x := inner_self_nonneg x
    nlinarith
  exact abs_le_of_sq_le_sq' h1 (mul_nonneg (abs_nonneg _) (len_nonneg _)) |>.2

/-- Every point of the moved body was, before, within the way a point of the body can travel. -/
theorem moved_near {b : Body} (ha : Alive b) (u : V3) (d V : ℝ)
    (hV : ∀ x ∈ bodyRegion b, len u.xy + |u.r| * Spec.dist x b.pos ≤ V) :
    ∀ x ∈ bodyRegion ((b.op (.setV u)).op (.move d)), ∃ y ∈ bodyRegion b, Spec.dist x y ≤ |d| * V := by
  intro x hx
  have ha' : Alive ((b.op (.setV u)).op (.move d)) := by
    obtain ⟨b0, ops, h0, rfl⟩ := ha
    exact ⟨b0, ops ++ [.setV u, .move d], h0, by simp [Body.run, List.foldl_append]⟩
  have hp : ((b.op (.setV u)).op (.move d)).p = b.p + d • u := C05_pose_after_op (b.op (.setV u)) (.move d)
  have hpos : ((b.op (.setV u)).op (.move d)).pos = b.pos + d • u.xy := by
    unfold Body.pos; rw [hp]; ext <;> simp [V3.xy]
  cases hc : b.isCircle with
  | true =>
    have hs : ∃ r, b.shape = .circle r := by
      unfold Body.isCircle at hc
      cases hs : b.shape with
      | circle r => exact ⟨r, rfl⟩
      | hull vs => rw [hs] at hc; cases hc
      | rect d vs => rw [hs] at hc; cases hc
    obtain ⟨r, hs⟩ := hs
    have hs' := run_circle b hs [.setV u, .move d]
    change ((b.op (.setV u)).op (.move d)).shape = .circle r at hs'
    unfold bodyRegion at hx
    rw [hs', hpos] at hx
    have hy : x - d • u.xy ∈ bodyRegion b := by
      unfold bodyRegion; rw [hs]
      change Spec.dist _ _ ≤ r
      change Spec.dist _ _ ≤ r at hx
      unfold Spec.dist at hx ⊢
      convert hx using 2
      module
    refine ⟨_, hy, ?_⟩
    have h1 := hV _ hy
    have h2 : 0 ≤ |u.r| * Spec.dist (x - d • u.xy) b.pos := mul_nonneg (abs_nonneg _) (len_nonneg _)
    unfold Spec.dist
    rw [sub_sub_cancel, len_smul]
    exact mul_le_mul_of_nonneg_left (by linarith) (abs_nonneg _)
  | false =>
    have hc' : ((b.op (.setV u)).op (.move d)).isCircle = false := by
      unfold Body.isCircle at hc ⊢
      have hop : (b.op (.setV u)).op (.move d) = (b.op (.setV u)).set_p ((b.op (.setV u)).p + d • (b.op (.setV u)).v) := rfl
      have hsh : (b.op (.setV u)).shape = b.shape := rfl
      rw [hop]
      unfold Body.set_p
      rw [hsh]
      cases hs : b.shape with
      | circle r => rw [hs] at hc; cases hc
      | hull vs => rfl
      | rect d vs => rfl
    have hv : ((b.op (.setV u)).op (.move d)).verts = b.verts.map (rot (d * u.r)) := by
      have h1 := set_p_verts (b.op (.setV u)) ((b.op (.setV u)).p + d • (b.op (.setV u)).v)
        (by have := alive_rectForm ha; unfold Body.RectForm at this ⊢; exact this)
      have h2 : ((b.op (.setV u)).p + d • (b.op (.setV u)).v).r - (b.op (.setV u)).p.r = d * u.r := by
        simp [Body.op]
      rw [h2] at h1
      exact h1
    rw [(alive_verts ha' hc').2, hv, solid_rot, hpos] at hx
    obtain ⟨w, hw, hw'⟩ := hx
    have hy : b.pos + w ∈ bodyRegion b := by
      rw [(alive_verts ha hc).2]; simpa using hw
    refine ⟨_, hy, ?_⟩
    have h1 := hV _ hy
    have h2 : x - (b.pos + w) = d • u.xy + (rot (d * u.r) w - w) := by rw [hw']; module
    have h3 : Spec.dist (b.pos + w) b.pos = len w := by unfold Spec.dist; rw [add_sub_cancel_left]
    rw [h3] at h1
    unfold Spec.dist
    rw [h2]
    calc len (d • u.xy + (rot (d * u.r) w - w)) ≤ len (d • u.xy) + len (rot (d * u.r) w - w) := len_add_le _ _
      _ ≤ |d| * len u.xy + |d * u.r| * len w := add_le_add (len_smul _ _).le (rot_near _ _)
      _ = |d| * (len u.xy + |u.r| * len w) := by rw [abs_mul]; ring
      _ ≤ |d| * V := mul_le_mul_of_nonneg_left h1 (abs_nonneg _)

theorem specLoop_running {σ φ : Type} {env : Env σ φ} {w : World σ φ} : ∀ {n : ℕ} {f : φ} {d s : ℝ},
    specLoop env w n f d s = .running → ∀ j < n, ∃ fj fj' cs,
      env.collide w.eps fj (w.bodies.map fun b => b.move (d / 2 ^ j)) = .ok (fj', cs) ∧ ¬ w.accepts (d / 2 ^ j) cs := by
  intro n
  induction n with
  | zero => intro f d s _ j hj; omega
  | succ n ih =>
    intro f d s h j hj
    unfold specLoop at h
    cases hc : env.collide w.eps f (w.bodies.map fun b => b.move d) with
    | error e => rw [hc] at h; cases h
    | ok r =>
      obtain ⟨f', cs⟩ := r
      rw [hc] at h
      simp only at h
      by_cases ha : w.accepts d cs
      · rw [if_pos ha] at h; cases h
      · rw [if_neg ha] at h
        rcases j with - | j
        · exact ⟨f, f', cs, by simpa using hc, by simpa using ha⟩
        · have := ih h j (by omega)
          have e : d / 2 / 2 ^ j = d / 2 ^ (j + 1) := by rw [pow_succ]; field_simp
          rwa [e] at this

/-- An attempt is only rejected if the bodies can have moved by what is missing to the tolerance. -/
theorem rejected_far {fuel : ℕ} {nc : ℕ → List ℕ} {pairs : List Body → List (ℕ × ℕ)} (hp : BroadPhase pairs)
    {env : Env (Option Mat) Finder} (hl : LibrarySearch fuel nc pairs env.collide) {w : World (Option Mat) Finder}
    (h : OverlapScene nc w) {t V d : ℝ} (hd : 0 ≤ d) (hV : 0 ≤ V)
    (hb : ∀ i < w.bodies.length, ∀ j < w.bodies.length, i ≠ j → i ∉ nc j →
      OverlapAtMost t (bodyRegion (bodyAt w.bodies i)) (bodyRegion (bodyAt w.bodies j)))
    {e : Option Mat} {v : Vec}
    (hv : ∀ i < w.bodies.length, ∀ x ∈ bodyRegion (bodyAt w.bodies i),
      len (slice3 v i).xy + |(slice3 v i).r| * Spec.dist x (bodyAt w.bodies i).pos ≤ V)
    {f f' : Finder} {cs : List Contact}
    (hc : env.collide w.eps f ((({ w with eng := e } : World (Option Mat) Finder).set_v v).bodies.map
      fun b => b.move d) = .ok (f', cs))
    (hr : ¬ (({ w with eng := e } : World (Option Mat) Finder).set_v v).accepts d cs) : w.tol - t < 2 * V * d := by
  obtain ⟨c, hcs, hpen⟩ : ∃ c ∈ cs, w.tol < c.pen := by
    by_contra hn
    push Not at hn
    exact hr (.inl hn)
  obtain ⟨hlen, ht⟩ := tried_bodies w e v d
  have hop : ∀ i < w.bodies.length,
      bodyAt ((({ w with eng := e } : World (Option Mat) Finder).set_v v).bodies.map fun b => b.move d) i =
        (bodyAt w.bodies i).run [.setV (slice3 v i), .move d] := fun i hi => ht i hi
  have hm0 : ∀ i < w.bodies.length, ∀ j < w.bodies.length, i ≠ j → i ∉ nc j →
      Measured 0 (bodyAt w.bodies i) (bodyAt w.bodies j) :=
    fun i hi j hj hij hx => measured_mono h.tol (h.kinds i hi j hj hij hx)
  obtain ⟨c1, c2, c3, c4, c5⟩ := C102_contact_is_overlap fuel nc pairs hp.valid w.eps h.eps f f' _ cs (hl _ _ _ _ hc)
    (by
      intro i hi j hj hij hx
      rw [hlen] at hi hj
      rw [hop i hi, hop j hj]
      exact measured_ops (hm0 i hi j hj hij hx) _ _) c hcs (lt_of_le_of_lt h.tol hpen)
  rw [hlen] at c1 c2
  have hm := hm0 _ c1 _ c2 c3 c4
  obtain ⟨s1, s2⟩ := solid_measured hm
  obtain ⟨a1, a2⟩ := measured_alive hm
  rw [ht _ c1, ht _ c2] at c5
  have := depth_growth s1.1 s2.1 s1.2 s2.2 (hb _ c1 _ c2 c3 c4) (mul_nonneg (abs_nonneg d) hV)
    (moved_near a1 _ d V (hv _ c1)) (moved_near a2 _ d V (hv _ c2)) c5
  rw [abs_of_nonneg hd] at this
  linarith

/-- C102: in a strict world of circles, rectangles and circles against convex hulls, which reach into each other by at
most `t < tol` and of which no point moves faster than `V`, a step is only shortened if `2 * V * dt` exceeds
`tol - t`, and never below `(tol - t) / (4 * V)`: so many halvings as bring the length there suffice for the search
to end. -/
theorem C102_strict_step (fuel : ℕ) (nc : ℕ → List ℕ) (pairs : List Body → List (ℕ × ℕ)) (hp : BroadPhase pairs)
    (env : Env (Option Mat) Finder) (hl : LibrarySearch fuel nc pairs env.collide) (w : World (Option Mat) Finder)
    (h : OverlapScene nc w) (t V dt : ℝ) (hdt : 0 < dt) (hV : 0 < V)
    (hb : ∀ i < w.bodies.length, ∀ j < w.bodies.length, i ≠ j → i ∉ nc j →
      OverlapAtMost t (bodyRegion (bodyAt w.bodies i)) (bodyRegion (bodyAt w.bodies j)))
    (e : Option Mat) (v : Vec) (hs : env.solve_dynamics w dt = .ok (e, v))
    (hv : ∀ i < w.bodies.length, ∀ x ∈ bodyRegion (bodyAt w.bodies i),
      len (slice3 v i).xy + |(slice3 v i).r| * Spec.dist x (bodyAt w.bodies i).pos ≤ V) :
    (∀ n w', w.step_dt env n dt = .done w' →
      w'.t = w.t + dt ∨ (w.tol - t < 2 * V * dt ∧ (w.tol - t) / (4 * V) < w'.t - w.t)) ∧
    ∀ n, 2 * V * dt / 2 ^ n ≤ w.tol - t → w.step_dt env (n + 1) dt ≠ .running := by
  have hd : ∀ j : ℕ, 0 < dt / 2 ^ j := fun j => by positivity
  constructor
  · intro n w' hw
    obtain ⟨e', v', k, w1, w2, hs', _, hw1, hg1, ⟨fk, f', cs, hcs, ha, hw2⟩, hrej, hend⟩ := step_dt_done h.good hw
    rw [hs] at hs'
    injection hs' with hs'
    injection hs' with he' hv'
    subst he' hv'
    have ht : w'.t = w.t + dt / 2 ^ k := by
      rcases hend with ⟨_, rfl⟩ | ⟨hp', _⟩
      · rfl
      · rw [h.nostab] at hp'; cases hp'
    rcases k with - | k
    · left; rw [ht]; simp
    · right
      obtain ⟨f0, f0', cs0, hc0, hr0⟩ := hrej 0 (by omega)
      obtain ⟨f1, f1', cs1, hc1, hr1⟩ := hrej k (by omega)
      rw [hw1] at hc0 hr0 hc1 hr1
      have k0 := rejected_far hp hl h (hd 0).le hV.le hb hv hc0 hr0
      have k1 := rejected_far hp hl h (hd k).le hV.le hb hv hc1 hr1
      refine ⟨by simpa using k0, ?_⟩
      rw [ht, div_lt_iff₀ (by positivity)]
      have : dt / 2 ^ k = 2 * (dt / 2 ^ (k + 1)) := by rw [pow_succ]; field_simp
      rw [this] at k1
      linarith
  · intro n hn hrun
    have hstep : w.step_dt env (n + 1) dt =
        (specLoop env (({ w with eng := e } : World (Option Mat) Finder).set_v v) (n + 1) w.fnd dt 0).bind fun r =>
          (if r.1.post_stab then postStab env r.1 r.2 else .done r.1).bind fun w =>
            .done { w with t := w.t + r.2 } := by
      rw [step_dt_eq env (n + 1) w h.good, hs]; rfl
    rw [hstep] at hrun
    cases hsl : specLoop env (({ w with eng := e } : World (Option Mat) Finder).set_v v) (n + 1) w.fnd dt 0 with
    | raised e' => rw [hsl] at hrun; cases hrun
    | done r =>
      rw [hsl] at hrun
      obtain ⟨k, _, _, ⟨_, _, _, _, _, h3⟩, _⟩ := specLoop_done hsl
      have hps : r.1.post_stab = false := by rw [h3]; exact h.nostab
      simp only [Run.bind_done, hps, Bool.false_eq_true, ↓reduceIte] at hrun
      cases hrun
    | running =>
      obtain ⟨f1, f1', cs1, hc1, hr1⟩ := specLoop_running hsl n (by omega)
      have k1 := rejected_far hp hl h (hd n).le hV.le hb hv hc1 hr1
      rw [mul_div_assoc] at hn
      linarith

theorem body_reach (b : Body) : ∃ R, 0 ≤ R ∧ ∀ x ∈ bodyRegion b, Spec.dist x b.pos ≤ R := by
  have key : ∀ vs : List V2, ∃ R, 0 ≤ R ∧ ∀ x : V2, x - b.pos ∈ solid vs → Spec.dist x b.pos ≤ R := by
    intro vs
    have hl : ∃ R, 0 ≤ R ∧ ∀ v ∈ vs, len v ≤ R := by
      induction vs with
      | nil => exact ⟨0, le_rfl, by simp⟩
      | cons a l ih =>
        obtain ⟨R, h0, hR⟩ := ih
        refine ⟨R + len a, add_nonneg h0 (len_nonneg a), fun v hv => ?_⟩
        rcases List.mem_cons.1 hv with rfl | hv
        · linarith
        · linarith [hR v hv, len_nonneg a]
    obtain ⟨R, h0, hR⟩ := hl
    refine ⟨R, h0, fun x hx => ?_⟩
    have hsub : solid vs ⊆ {y : V2 | Spec.dist y 0 ≤ R} :=
      convexHull_min (fun v hv => by simpa [Spec.dist] using hR v hv) (dist_convex 0 R)
    have := hsub hx
    simpa [Spec.dist] using this
  unfold bodyRegion
  cases hs : b.shape with
  | circle r => exact ⟨|r|, abs_nonneg _, fun x hx => le_trans hx (le_abs_self r)⟩
  | hull vs => exact key vs
  | rect d vs => exact key vs

theorem speed_bound (bs : List Body) (v : Vec) : ∃ V, 0 < V ∧ ∀ i < bs.length, ∀ x ∈ bodyRegion (bodyAt bs i),
    len (slice3 v i).xy + |(slice3 v i).r| * Spec.dist x (bodyAt bs i).pos ≤ V := by
  have key : ∀ n, ∃ V, 0 < V ∧ ∀ i < n, ∀ x ∈ bodyRegion (bodyAt bs i),
      len (slice3 v i).xy + |(slice3 v i).r| * Spec.dist x (bodyAt bs i).pos ≤ V := by
    intro n
    induction n with
    | zero => exact ⟨1, one_pos, fun i hi => by omega⟩
    | succ n ih =>
      obtain ⟨V, h0, hV⟩ := ih
      obtain ⟨R, r0, hR⟩ := body_reach (bodyAt bs n)
      have p1 := len_nonneg (slice3 v n).xy
      have p2 : 0 ≤ |(slice3 v n).r| * R := mul_nonneg (abs_nonneg _) r0
      refine ⟨V + (len (slice3 v n).xy + |(slice3 v n).r| * R), by linarith, fun i hi x hx => ?_⟩
      rcases Nat.lt_succ_iff_lt_or_eq.1 hi with hi | rfl
      · linarith [hV i hi x hx]
      · have := mul_le_mul_of_nonneg_left (hR x hx) (abs_nonneg (slice3 v i).r)
        linarith
  exact key bs.length

/-- C102: in a strict world of circles, rectangles and circles against convex hulls, if the contacts in force are all
less deep than `tol`, the next step, whatever velocities the solver returns, does not go on halving for ever. -/
theorem C102_strict_ends (fuel : ℕ) (nc : ℕ → List ℕ) (hnc : ∀ i j, i ∈ nc j → j ∈ nc i)
    (pairs : List Body → List (ℕ × ℕ)) (hp : BroadPhase pairs) (env : Env (Option Mat) Finder)
    (hl : LibrarySearch fuel nc pairs env.collide) (w : World (Option Mat) Finder) (h : OverlapScene nc w)
    (f : Finder) (hw : env.collide w.eps f w.bodies = .ok (w.fnd, w.contacts)) (htol : 0 < w.tol)
    (hpen : ∀ c ∈ w.contacts, c.pen < w.tol) (dt : ℝ) (hdt : 0 < dt) :
    ∃ n, ∀ m ≥ n, w.step_dt env m dt ≠ .running := by
  cases hs : env.solve_dynamics w dt with
  | error e =>
    refine ⟨0, fun m _ hrun => ?_⟩
    rw [step_dt_eq env m w h.good, hs] at hrun
    cases hrun
  | ok r =>
    obtain ⟨e, v⟩ := r
    have key : ∀ cs : List Contact, (∀ c ∈ cs, c.pen < w.tol) → ∃ t, 0 ≤ t ∧ t < w.tol ∧ ∀ c ∈ cs, c.pen ≤ t := by
      intro cs
      induction cs with
      | nil => exact fun _ => ⟨0, le_rfl, htol, by simp⟩
      | cons a l ih =>
        intro hc
        obtain ⟨t, h0, h1, h2⟩ := ih fun c hcl => hc c (List.mem_cons_of_mem _ hcl)
        refine ⟨max t a.pen, le_max_of_le_left h0, max_lt h1 (hc a List.mem_cons_self), fun c hcl => ?_⟩
        rcases List.mem_cons.1 hcl with rfl | hcl
        · exact le_max_right _ _
        · exact (h2 c hcl).trans (le_max_left _ _)
    obtain ⟨t, t0, t1, t2⟩ := key w.contacts hpen
    have hb : ∀ i < w.bodies.length, ∀ j < w.bodies.length, i ≠ j → i ∉ nc j →
        OverlapAtMost t (bodyRegion (bodyAt w.bodies i)) (bodyRegion (bodyAt w.bodies j)) :=
      fun i hi j hj hij hx => C86_search_bounds_overlap fuel nc hnc pairs hp w.eps t h.eps t0 f w.fnd w.bodies w.contacts
        (hl _ _ _ _ hw) t2 i j hi hj hij hx (h.margin i hi) (h.margin j hj)
        (measured_mono t1.le (h.kinds i hi j hj hij hx))
    obtain ⟨V, v0, hV⟩ := speed_bound w.bodies v
    have hends := (C102_strict_step fuel nc pairs hp env hl w h t V dt hdt v0 hb e v hs hV).2
    obtain ⟨n, hn⟩ : ∃ n : ℕ, 2 * V * dt / (w.tol - t) < 2 ^ n := pow_unbounded_of_one_lt _ (by norm_num)
    refine ⟨n + 1, fun m hm => ?_⟩
    obtain ⟨m, rfl⟩ : ∃ k, m = k + 1 := ⟨m - 1, by omega⟩
    refine hends m ?_
    have h1 : (2 : ℝ) ^ n ≤ 2 ^ m := pow_le_pow_right₀ (by norm_num) (by omega)
    rw [div_lt_iff₀ (by linarith)] at hn
    rw [div_le_iff₀ (by positivity)]
    nlinarith

/-- The ball on the table: no step, of any length, under any forces and with any solver, goes on for ever. -/
example (fuel : ℕ) (hf : 66 ≤ fuel) (H : ForceHeap) (lcp : LcpSolver) (mi : ℕ) (fnd : Finder) (dt : ℝ) (hdt : 0 < dt) :
    ∃ w, tableWorld (pdipmEnv 2 H lcp mi (diffCollide fuel (fun _ => []) allPairs)) fnd = .done w ∧
      ∃ n, ∀ m ≥ n, w.step_dt (pdipmEnv 2 H lcp mi (diffCollide fuel (fun _ => []) allPairs)) m dt ≠ .running := by
  set env := pdipmEnv 2 H lcp mi (diffCollide fuel (fun _ => []) allPairs) with henv
  have hl : LibrarySearch fuel (fun _ => []) allPairs env.collide := fun _ _ _ _ h => h
  obtain ⟨w, hw⟩ := tableWorld_built fuel hf env rfl fnd
  obtain ⟨hs, hb, ht⟩ := C86_constructed fuel _ (by simp) allPairs allPairs_broad _ hl none fnd [tableBall, tableTop] [] _ (1 / 10) (1 / 1000) w
    (by norm_num) (by norm_num) (by
      intro b hb
      simp only [List.mem_cons, List.not_mem_nil, or_false] at hb
      rcases hb with rfl | rfl
      · exact ⟨⟨_, [], .circle _ _ _, rfl⟩, by norm_num [tableBall, mkCircle]⟩
      · exact ⟨⟨_, [], .rect _ _ _ _ tableTop_built (by norm_num) (by norm_num), rfl⟩,
          by norm_num [tableTop, rectBase]⟩)
    (fun i hi j hj hij _ => table_measured i hi j hj hij) (by simp) hw
  refine ⟨w, hw, ?_⟩
  obtain ⟨f', c, hsearch, hc⟩ := table_search fuel hf fnd
  have hcol : env.collide (initWorld (none : Option Mat) fnd [tableBall, tableTop] [] (1 / 30) (1 / 10) (1 / 1000)
      false true).eps (initWorld (none : Option Mat) fnd [tableBall, tableTop] [] (1 / 30) (1 / 10) (1 / 1000)
      false true).fnd (initWorld (none : Option Mat) fnd [tableBall, tableTop] [] (1 / 30) (1 / 10) (1 / 1000)
      false true).bodies = .ok (f', [c]) := by
    rw [initWorld_bodies]; exact hsearch
  have hfacts : w.eps = 1 / 10 ∧ w.fnd = f' ∧ w.contacts = [c] := by
    unfold tableWorld mkWorld at hw
    rw [if_neg (by simp), if_pos (by simp)] at hw
    unfold World.find_contacts at hw
    rw [hcol] at hw
    simp only [Run.bind, if_true] at hw
    split_ifs at hw
    cases hw
    exact ⟨rfl, rfl, rfl⟩
  obtain ⟨h1, h2, h3⟩ := hfacts
  refine C102_strict_ends fuel _ (by simp) allPairs allPairs_broad env hl w hs fnd ?_ (by rw [ht]; norm_num) ?_ dt hdt
  · rw [h1, h2, h3, hb]; exact hsearch
  · rw [h3, ht]
    intro c' hc'
    rw [List.mem_singleton.1 hc', hc]; norm_num

end LcpPhysics
