import Verif.Spec.Units
import Verif.Spec.Frame
import Verif.Lemmas.Frame
import Verif.Lemmas.Support
import Verif.Lemmas.Sat

/-! # Lemmas: the contact search and a change of the unit of length -/

noncomputable section

namespace LcpPhysics
open Spec

theorem dot_scale (a b : ℝ) (x y : V2) : dot (a • x) (b • y) = a * b * dot x y := by
  simp [dot]; ring

theorem dot_scale_right (b : ℝ) (x y : V2) : dot x (b • y) = b * dot x y := by
  simp [dot]; ring

theorem dot_scale_left (b : ℝ) (x y : V2) : dot (b • x) y = b * dot x y := by
  simp [dot]; ring

theorem nrm_scale {k : ℝ} (hk : 0 < k) (x : V2) : nrm (k • x) = k * nrm x := by
  rw [nrm_eq_len, nrm_eq_len, len_smul, abs_of_pos hk]

theorem left_scale (k : ℝ) (x : V2) : left_orthogonal (k • x) = k • left_orthogonal x := by
  ext <;> simp [left_orthogonal]

theorem unit_scale {k : ℝ} (hk : 0 < k) (n : ℝ) (x : V2) : (1 / (k * n)) • k • x = (1 / n) • x := by
  rw [smul_smul]
  congr 1
  by_cases h : n = 0
  · subst h; simp
  · field_simp

theorem vget_scale (k : ℝ) (vs : List V2) (i : ℕ) : vget (vs.map fun v => k • v) i = k • vget vs i := by
  unfold vget
  simp only [List.getD_eq_getElem?_getD, List.getElem?_map]
  cases vs[i]? with
  | none => exact (smul_zero k).symm
  | some x => rfl

theorem neg_iff_scale {k x : ℝ} (hk : 0 < k) : (k * x < 0) = (x < 0) := by
  apply propext
  constructor
  · intro h; by_contra h'; push Not at h'; nlinarith
  · intro h; nlinarith

/-! ## Support points -/

theorem supportLoop_scale {k c : ℝ} (hc : 0 < c) (d d' : V2) (hd : ∀ p, dot (k • p) d' = c * dot p d) (ps : List V2)
    (i : ℕ) (best : Option (V2 × ℕ)) (bn : ℝ) :
    supportLoop d' (ps.map fun v => k • v) i (best.map fun r => (k • r.1, r.2)) (c * bn) =
      (supportLoop d ps i best bn).map fun r => (k • r.1, r.2) := by
  induction ps generalizing i best bn with
  | nil => rfl
  | cons p ps ih =>
    simp only [List.map_cons, supportLoop, hd, ge_iff_le, mul_le_mul_iff_right₀ hc]
    split
    · exact ih (i + 1) (some (p, i)) _
    · exact ih (i + 1) best bn

theorem supportLoop_lockstep {k c : ℝ} (hc : 0 < c) (d d' : V2) (hd : ∀ p, dot (k • p) d' = c * dot p d)
    (ps : List V2) (h : ∃ p ∈ ps, 0 ≤ dot p d) : ∀ (i : ℕ) (best best' : Option (V2 × ℕ)) (bn bn' : ℝ), bn < 0 → bn' < 0 →
    supportLoop d' (ps.map fun v => k • v) i best' bn' =
      (supportLoop d ps i best bn).map fun r => (k • r.1, r.2) := by
  induction ps with
  | nil => obtain ⟨p, hp, _⟩ := h; simp at hp
  | cons p ps ih =>
    intro i best best' bn bn' hb hb'
    simp only [List.map_cons, supportLoop, hd]
    by_cases hp : 0 ≤ dot p d
    · rw [if_pos (show c * dot p d ≥ bn' by nlinarith), if_pos (show dot p d ≥ bn by linarith)]
      exact supportLoop_scale hc d d' hd ps (i + 1) (some (p, i)) _
    · have h' : ∃ q ∈ ps, 0 ≤ dot q d := by
        obtain ⟨q, hq, h0⟩ := h
        rcases List.mem_cons.mp hq with rfl | hq
        · exact absurd h0 hp
        · exact ⟨q, hq, h0⟩
      push Not at hp
      have hcp : c * dot p d < 0 := by nlinarith
      split <;> split <;> exact ih h' _ _ _ _ _ (by assumption) (by assumption)

theorem get_support_scale {k c : ℝ} (hc : 0 < c) (d d' : V2) (hd : ∀ p, dot (k • p) d' = c * dot p d) (ps : List V2)
    (h : ∃ p ∈ ps, 0 ≤ dot p d) :
    get_support (ps.map fun v => k • v) d' = (get_support ps d).map fun r => (k • r.1, r.2) := by
  unfold get_support
  rw [supportLoop_lockstep hc d d' hd ps h 0 none none (-1) (-1) (by norm_num) (by norm_num)]
  cases supportLoop d ps 0 none (-1) <;> rfl

/-! ## The closest point of a hull -/

theorem bary2_scale {k : ℝ} (hk : 0 < k) (p a b : V2) : bary2 (k • p) (k • a) (k • b) = bary2 p a b := by
  simp only [bary2, ← smul_sub, nrm_scale hk, unit_scale hk, dot_scale_left]
  have e : ∀ x n : ℝ, k * x / (k * n) = x / n := fun x n => mul_div_mul_left x n hk.ne'
  rw [e, e]

theorem bary3_scale {k : ℝ} (hk : 0 < k) (p a b c : V2) : bary3 (k • p) (k • a) (k • b) (k • c) = bary3 p a b c := by
  set T : Matrix (Fin 3) (Fin 3) ℝ := !![k, 0, 0; 0, k, 0; 0, 0, 1] with hT
  have hdet : T.det = k ^ 2 := by
    rw [hT, Matrix.det_fin_three]
    simp [pow_two]
  have hM : baryMat (k • a) (k • b) (k • c) = T * baryMat a b c := by
    rw [hT]
    ext i j
    fin_cases i <;> fin_cases j <;> simp [baryMat, Matrix.mul_apply, Fin.sum_univ_three]
  have hp : (![(k • p).1, (k • p).2, 1] : Fin 3 → ℝ) = T.mulVec ![p.1, p.2, 1] := by
    rw [hT]
    ext i
    fin_cases i <;> simp [Matrix.mulVec, dotProduct, Fin.sum_univ_three]
  unfold bary3
  have hk2 : k ^ 2 ≠ 0 := (pow_pos hk 2).ne'
  have hd : ((baryMat (k • a) (k • b) (k • c)).det = 0) = ((baryMat a b c).det = 0) := by
    rw [hM, Matrix.det_mul, hdet]
    simp [hk2, hk.ne']
  have hU : IsUnit T.det := by rw [hdet]; exact isUnit_iff_ne_zero.mpr hk2
  have : (baryMat (k • a) (k • b) (k • c))⁻¹.mulVec ![(k • p).1, (k • p).2, 1] =
      (baryMat a b c)⁻¹.mulVec ![p.1, p.2, 1] := by
    rw [hM, hp, Matrix.mul_inv_rev, Matrix.mulVec_mulVec, Matrix.mul_assoc, Matrix.nonsing_inv_mul T hU,
      Matrix.mul_one]
  simp only [hd, this]

theorem scale_inj {k : ℝ} (hk : 0 < k) {a b : V2} : k • a = k • b ↔ a = b :=
  (smul_right_injective V2 hk.ne').eq_iff

theorem get_closest_scale {k : ℝ} (hk : 0 < k) (p : V2) (s : List V2) :
    get_closest (k • p) (s.map fun v => k • v) = (get_closest p s).map fun r => (k • r.1, r.2) := by
  have hsm : ∀ (u : ℝ) (a : V2), u • k • a = k • u • a := fun u a => smul_comm u k a
  match s with
  | [] => rfl
  | [a] => rfl
  | [a, b] =>
    simp only [get_closest, List.map_cons, List.map_nil, scale_inj hk, bary2_scale hk]
    split
    · rfl
    · split
      · rfl
      · split
        · rfl
        · simp only [ok_map, smul_add, hsm]
  | [a, b, c] =>
    simp only [get_closest, List.map_cons, List.map_nil, bary2_scale hk, bary3_scale hk]
    cases bary3 p a b c with
    | error e => rfl
    | ok r =>
      obtain ⟨u, v, w⟩ := r
      simp only
      split_ifs <;> simp only [ok_map, error_map, smul_add, hsm]
  | a :: b :: c :: d :: l => rfl

theorem gjkDir_scale {k : ℝ} (hk : 0 < k) (tp : V2) (s : List V2) (cl : V2) (ids : List ℕ) :
    gjkDir (k • tp) (s.map fun v => k • v) (k • cl) ids = k • gjkDir tp s cl ids := by
  unfold gjkDir
  split
  · simp only [vget_scale, ← smul_sub, left_scale, dot_scale]
    have e : ∀ x : ℝ, (k * k * x < 0) = (x < 0) := fun x => by
      have : 0 < k * k := by positivity
      rw [neg_iff_scale this]
    simp only [e]
    split
    · rw [smul_neg]
    · rfl
  · rw [smul_sub]

theorem map_vget_scale (k : ℝ) (vs : List V2) (s : List ℕ) :
    s.map (vget (vs.map fun v => k • v)) = (s.map (vget vs)).map fun v => k • v := by
  rw [List.map_map]
  exact List.map_congr_left fun i _ => vget_scale k vs i

theorem scale_eq_zero {k : ℝ} (hk : 0 < k) {a : V2} : ((k • a).1 = 0 ∧ (k • a).2 = 0) ↔ (a.1 = 0 ∧ a.2 = 0) := by
  simp [hk.ne']

theorem gjkLoop_scale {k : ℝ} (hk : 0 < k) (vs : List V2) (hc : Centred vs) (tp : V2) : ∀ (fuel : ℕ) (s : List ℕ),
    gjkLoop (vs.map fun v => k • v) (k • tp) fuel s =
      Outcome.map (fun r => (k • r.1, r.2)) (gjkLoop vs tp fuel s)
  | 0, _ => rfl
  | fuel + 1, s => by
    simp only [gjkLoop, map_vget_scale, get_closest_scale hk]
    cases get_closest tp (s.map (vget vs)) with
    | error e => rfl
    | ok r =>
      obtain ⟨cl, ids⟩ := r
      simp only [ok_map, gjkDir_scale hk, scale_eq_zero hk]
      rw [get_support_scale (mul_pos hk hk) (gjkDir tp (s.map (vget vs)) cl ids) _ (fun p => dot_scale k k p _) vs
        (hc _)]
      split
      · rfl
      · split
        · rfl
        · cases get_support vs (gjkDir tp (s.map (vget vs)) cl ids) with
          | error e => rfl
          | ok q =>
            obtain ⟨q1, q2⟩ := q
            simp only [ok_map]
            split
            · rfl
            · exact gjkLoop_scale hk vs hc tp fuel _

/-! ## Circle against hull -/

/-- A circle-hull result in the other unit of length. -/
def CHull.scaled (k : ℝ) (c : CHull) : CHull :=
  { c with pt1 := k • c.pt1, pt2 := k • c.pt2, dist := k * c.dist }

theorem lt_scale {k : ℝ} (hk : 0 < k) (x y : ℝ) : (k * x < k * y) = (x < y) := by
  rw [mul_lt_mul_iff_right₀ hk]

theorem le_scale {k : ℝ} (hk : 0 < k) (x y : ℝ) : (k * x ≤ k * y) = (x ≤ y) := by
  rw [mul_le_mul_iff_right₀ hk]

theorem offset_scale (k : ℝ) (x a b : V2) : k • x + k • a - k • b = k • (x + a - b) := by
  rw [smul_sub, smul_add]

theorem shallow_scale {k : ℝ} (hk : 0 < k) (eps rad : ℝ) (p1 p2 cl : V2) :
    shallowContact (k * eps) (k * rad) (k • p1) (k • p2) (k • cl) =
      (shallowContact eps rad p1 p2 cl).map (CHull.scaled k) := by
  unfold shallowContact
  simp only [offset_scale, nrm_scale hk, ← mul_sub, gt_iff_lt, lt_scale hk]
  split
  · rfl
  · have e : (k * nrm (cl + p2 - p1) = 0) = (nrm (cl + p2 - p1) = 0) := by simp [hk.ne']
    simp only [Option.map_some, CHull.scaled, ← smul_neg, unit_scale hk, e]

/-- The state of the SAT loop in the other unit; the initial best is an absolute number. -/
def SatRun.scaled (k : ℝ) : SatRun → SatRun
  | .gap i => .gap i
  | .go none d l => .go none d l
  | .go (some b) d l => .go (some (b.scaled k)) (k * d) l

/-- The loop has its absolute initial best only as long as nothing was found. -/
def SatRun.Fresh : SatRun → Prop
  | .go none d _ => d = -10 ^ 10
  | _ => True

theorem unit_dot_ge {e x : V2} (he : nrm e ≠ 0) : -nrm x ≤ dot ((1 / nrm e) • left_orthogonal e) x := by
  have h1 : len ((1 / nrm e) • left_orthogonal e) = 1 := by
    rw [len_smul]
    have : len (left_orthogonal e) = nrm e := by
      rw [nrm_eq_len]; simp [len, left_orthogonal, add_comm]
    have hp : 0 ≤ nrm e := Real.sqrt_nonneg _
    rw [this, abs_of_nonneg (by positivity)]
    field_simp
  have h2 := inner_le_len _ (-x) h1
  rw [len_neg] at h2
  rw [nrm_eq_len, dot_eq_inner]
  have h3 : Spec.inner ((1 / nrm e) • left_orthogonal e) (-x) =
      -Spec.inner ((1 / nrm e) • left_orthogonal e) x := by
    simp [Spec.inner]; ring
  linarith

theorem nrm_vget {vs : List V2} {R : ℝ} (hR : 0 ≤ R) (h : ∀ v ∈ vs, len v ≤ R) (i : ℕ) : nrm (vget vs i) ≤ R := by
  unfold vget
  by_cases hi : i < vs.length
  · rw [nrm_eq_len]
    apply h
    simp [List.getD_eq_getElem?_getD, hi]
  · simp [List.getD_eq_getElem?_getD, hi, nrm, hR]

theorem nrm_sub_le' (a b : V2) : nrm (a - b) ≤ nrm a + nrm b := by
  simp only [nrm_eq_len]
  have := len_add_le a (-b)
  rwa [len_neg, ← sub_eq_add_neg] at this

theorem nrm_add_le' (a b : V2) : nrm (a + b) ≤ nrm a + nrm b := by
  simp only [nrm_eq_len]
  exact len_add_le a b

/-- The bounds under which the absolute number `1e10` is never reached. -/
structure Small (k R : ℝ) : Prop where
  pos : 0 ≤ R
  one : 6 * R < 10 ^ 10
  len : k * (6 * R) < 10 ^ 10

theorem satStep_scale {k R : ℝ} (hk : 0 < k) (hS : Small k R) (eps rad : ℝ) (hrad : rad ≤ R) (p1 p2 : V2)
    (hp : nrm (p1 - p2) ≤ 4 * R) (vs : List V2) (hvs : ∀ v ∈ vs, len v ≤ R) (st : SatRun) (hst : st.Fresh) (i : ℕ) :
    satCircleStep (k * eps) (k * rad) (k • p1) (k • p2) (vs.map fun v => k • v) (st.scaled k) i =
      (satCircleStep eps rad p1 p2 vs st i).scaled k ∧ (satCircleStep eps rad p1 p2 vs st i).Fresh := by
  cases st with
  | gap j => exact ⟨rfl, trivial⟩
  | go b d l =>
    have key : ∀ (e : V2), vget vs ((i + 1) % vs.length) - vget vs i = e →
        satCircleStep (k * eps) (k * rad) (k • p1) (k • p2) (vs.map fun v => k • v) ((SatRun.go b d l).scaled k) i =
          (satCircleStep eps rad p1 p2 vs (.go b d l) i).scaled k ∧
        (satCircleStep eps rad p1 p2 vs (.go b d l) i).Fresh := by
      intro e he
      have hgen : ∀ (b' : Option CHull) (d' : ℝ), (SatRun.go b d l).scaled k = .go b' d' l →
          (nrm e ≠ 0 → (k * (dot ((1 / nrm e) • left_orthogonal e) (p1 - p2 - vget vs i) - rad) > d' ↔
            dot ((1 / nrm e) • left_orthogonal e) (p1 - p2 - vget vs i) - rad > d)) →
          satCircleStep (k * eps) (k * rad) (k • p1) (k • p2) (vs.map fun v => k • v) (.go b' d' l) i =
            (satCircleStep eps rad p1 p2 vs (.go b d l) i).scaled k ∧
          (satCircleStep eps rad p1 p2 vs (.go b d l) i).Fresh := by
        intro b' d' hb hcmp
        have hz : (k * nrm e = 0) = (nrm e = 0) := by simp [hk.ne']
        simp only [satCircleStep, List.length_map, vget_scale, ← smul_sub, he, nrm_scale hk, left_scale, unit_scale hk,
          dot_scale_right, hz, ← mul_sub]
        by_cases h0 : nrm e = 0
        · simp only [h0, if_true]
          exact ⟨hb.symm, hst⟩
        · simp only [h0, if_false, hcmp h0]
          by_cases h1 : dot ((1 / nrm e) • left_orthogonal e) (p1 - p2 - vget vs i) - rad > d
          · simp only [h1, if_true, gt_iff_lt, lt_scale hk]
            split
            · exact ⟨rfl, trivial⟩
            · refine ⟨?_, trivial⟩
              simp only [SatRun.scaled, CHull.scaled]
              have e1 : ∀ (x : ℝ) (n : V2), (-(k * (x - rad) + k * rad)) • n = k • (-(x - rad + rad)) • n := by
                intro x n; rw [smul_smul]; congr 1; ring
              simp only [e1, ← smul_add, ← smul_sub]
          · simp only [h1, if_false]
            exact ⟨hb.symm, hst⟩
      cases b with
      | none =>
        refine hgen none d rfl fun h0 => ?_
        have hd : d = -10 ^ 10 := hst
        have h1 := unit_dot_ge (x := p1 - p2 - vget vs i) h0
        have h2 := nrm_sub_le' (p1 - p2) (vget vs i)
        have h3 := nrm_vget hS.pos hvs i
        have h4 : -(6 * R) ≤ dot ((1 / nrm e) • left_orthogonal e) (p1 - p2 - vget vs i) - rad := by linarith
        have h5 := hS.one
        have h6 := hS.len
        rw [hd]
        constructor
        · intro _; linarith
        · intro _; nlinarith
      | some c =>
        refine hgen (some (c.scaled k)) (k * d) rfl fun _ => ?_
        simp only [gt_iff_lt, lt_scale hk]
    exact key _ rfl

theorem satCircle_scale {k R : ℝ} (hk : 0 < k) (hS : Small k R) (eps rad : ℝ) (hrad : rad ≤ R) (p1 p2 : V2)
    (hp : nrm (p1 - p2) ≤ 4 * R) (vs : List V2) (hvs : ∀ v ∈ vs, len v ≤ R) (start : ℕ) :
    satCircle (k * eps) (k * rad) (k • p1) (k • p2) (vs.map fun v => k • v) start =
      (satCircle eps rad p1 p2 vs start).scaled k := by
  unfold satCircle
  rw [List.length_map]
  have key : ∀ (l : List ℕ) (st : SatRun), st.Fresh →
      l.foldl (satCircleStep (k * eps) (k * rad) (k • p1) (k • p2) (vs.map fun v => k • v)) (st.scaled k) =
        (l.foldl (satCircleStep eps rad p1 p2 vs) st).scaled k := by
    intro l
    induction l with
    | nil => intro st _; rfl
    | cons i l ih =>
      intro st hst
      obtain ⟨h1, h2⟩ := satStep_scale hk hS eps rad hrad p1 p2 hp vs hvs st hst i
      rw [List.foldl_cons, List.foldl_cons, h1, ih _ h2]
  exact key _ (.go none (-10 ^ 10) start) rfl

theorem circleHull_scale {k R : ℝ} (hk : 0 < k) (hS : Small k R) (fuel : ℕ) (eps rad : ℝ) (hrad : rad ≤ R) (p1 p2 : V2)
    (hp : nrm (p1 - p2) ≤ 4 * R) (vs : List V2) (hvs : ∀ v ∈ vs, len v ≤ R) (hc : Centred vs) (seed last : ℕ) :
    circleHull fuel (k * eps) (k * rad) (k • p1) (k • p2) (vs.map fun v => k • v) seed last =
      Outcome.map (fun r => (r.1.map (CHull.scaled k), r.2)) (circleHull fuel eps rad p1 p2 vs seed last) := by
  unfold circleHull
  rw [← smul_sub, gjkLoop_scale hk vs hc, List.length_map]
  cases gjkLoop vs (p1 - p2) fuel [seed % vs.length] with
  | running => rfl
  | raised e => rfl
  | done r =>
    simp only [Outcome.map, Run.bind, shallow_scale hk, satCircle_scale hk hS eps rad hrad p1 p2 hp vs hvs]
    split
    · rfl
    · cases satCircle eps rad p1 p2 vs last with
      | gap i => rfl
      | go b d l => cases b <;> rfl

/-- A contact point in the other unit of length. -/
def Pt.scaled (k : ℝ) (p : Pt) : Pt := { p with p1 := k • p.p1, p2 := k • p.p2, pen := k * p.pen }

theorem toPt_scaled (k : ℝ) (c : CHull) (fl : Bool) : (c.scaled k).toPt fl = (c.toPt fl).scaled k := by
  cases fl <;> simp [CHull.toPt, CHull.scaled, Pt.scaled]

theorem circleCircle_scale {k : ℝ} (hk : 0 < k) (eps r1 r2 : ℝ) (p1 p2 : V2) :
    circleCircle (k * eps) (k * r1) (k * r2) (k • p1) (k • p2) =
      (circleCircle eps r1 r2 p1 p2).map (Pt.scaled k) := by
  unfold circleCircle
  simp only [← smul_sub, nrm_scale hk, ← mul_add, ← mul_sub, ← mul_neg, lt_scale hk]
  split
  · rfl
  · have e : (k * nrm (p1 - p2) = 0) = (nrm (p1 - p2) = 0) := by simp [hk.ne']
    have e2 : ∀ (r q : ℝ) (n : V2), (k * r - k * q / 2) • n = k • (r - q / 2) • n := by
      intro r q n; rw [smul_smul]; congr 1; ring
    simp only [List.map_cons, List.map_nil, Pt.scaled, unit_scale hk, e, e2]

/-! ## Hull against hull -/

/-- Result of `test_separations` in the other unit. -/
def Sep.scaled (k : ℝ) : Sep → Sep
  | .gap d i => .gap (k * d) i
  | .best d a b n v e i => .best (k * d) (k • a) (k • b) n v (k * e) i

theorem scaled_dist (k : ℝ) (x : Sep) : (x.scaled k).dist = k * x.dist := by cases x <;> rfl
theorem scaled_edge (k : ℝ) (x : Sep) : (x.scaled k).edge = x.edge := by cases x <;> rfl

/-- The loop of `test_separations` in the other unit; the initial best is an absolute number. -/
def SepRun.scaled (k : ℝ) : SepRun → SepRun
  | .fail e => .fail e
  | .gap d i => .gap (k * d) i
  | .go none d => .go none d
  | .go (some b) d => .go (some (b.scaled k)) (k * d)

/-- The loop has its absolute initial best only as long as nothing was found. -/
def SepRun.Fresh : SepRun → Prop
  | .go none d => d = -10 ^ 10
  | _ => True

theorem sepStep_scale {k R : ℝ} (hk : 0 < k) (hS : Small k R) (eps : ℝ) (p1 p2 : V2) (hp : nrm (p1 - p2) ≤ 4 * R)
    (vs ws : List V2) (hvs : ∀ v ∈ vs, len v ≤ R) (hws : ∀ v ∈ ws, len v ≤ R) (hc : Centred ws) (st : SepRun)
    (hst : st.Fresh) (i : ℕ) :
    sepStep (k * eps) (k • p1) (k • p2) (vs.map fun v => k • v) (ws.map fun v => k • v) (st.scaled k) i =
      (sepStep eps p1 p2 vs ws st i).scaled k ∧ (sepStep eps p1 p2 vs ws st i).Fresh := by
  cases st with
  | fail e => exact ⟨rfl, trivial⟩
  | gap d j => exact ⟨rfl, trivial⟩
  | go b d =>
    have key : ∀ (e : V2), vget vs ((i + 1) % vs.length) - vget vs i = e →
        sepStep (k * eps) (k • p1) (k • p2) (vs.map fun v => k • v) (ws.map fun v => k • v)
          ((SepRun.go b d).scaled k) i = (sepStep eps p1 p2 vs ws (.go b d) i).scaled k ∧
        (sepStep eps p1 p2 vs ws (.go b d) i).Fresh := by
      intro e he
      obtain ⟨b', d', hb⟩ : ∃ b' d', (SepRun.go b d).scaled k = .go b' d' := by
        cases b <;> exact ⟨_, _, rfl⟩
      have hz : (k * nrm e = 0) = (nrm e = 0) := by simp [hk.ne']
      rw [hb]
      have hsup := get_support_scale hk (-((1 / nrm e) • left_orthogonal e)) (-((1 / nrm e) • left_orthogonal e))
        (fun p => dot_scale_left k p _) ws (hc _)
      simp only [sepStep, List.length_map, vget_scale, ← smul_sub, he, nrm_scale hk, left_scale, unit_scale hk, hz, hsup]
      by_cases h0 : nrm e = 0
      · simp only [h0, if_true]
        exact ⟨rfl, trivial⟩
      · simp only [h0, if_false]
        cases hr : get_support ws (-((1 / nrm e) • left_orthogonal e)) with
        | error x => exact ⟨rfl, trivial⟩
        | ok r =>
          obtain ⟨q, j⟩ := r
          have hq : len q ≤ R := hws q (by
            obtain ⟨hj, h, -⟩ := get_support_argmax ws _ q j hr
            rw [h]; exact List.getElem_mem hj)
          simp only [ok_map, offset_scale, ← smul_sub, dot_scale_right]
          have hcmp : (k * dot ((1 / nrm e) • left_orthogonal e) (q + p2 - p1 - vget vs i) > d') =
              (dot ((1 / nrm e) • left_orthogonal e) (q + p2 - p1 - vget vs i) > d) := by
            cases b with
            | none =>
              have hd : d = -10 ^ 10 := hst
              have hd' : d' = -10 ^ 10 := by cases hb; exact hd
              have h1 := unit_dot_ge (x := q + p2 - p1 - vget vs i) h0
              have h2 := nrm_sub_le' (q + p2 - p1) (vget vs i)
              have h3 := nrm_vget hS.pos hvs i
              have h7 := nrm_sub_le' q (p1 - p2)
              have e7 : q - (p1 - p2) = q + p2 - p1 := by abel
              rw [e7] at h7
              rw [← nrm_eq_len] at hq
              have h4 : -(6 * R) ≤ dot ((1 / nrm e) • left_orthogonal e) (q + p2 - p1 - vget vs i) := by linarith
              have h5 := hS.one
              have h6 := hS.len
              rw [hd, hd']
              apply propext
              constructor
              · intro _; linarith
              · intro _; nlinarith
            | some c =>
              have hd' : d' = k * d := by cases hb; rfl
              rw [hd', gt_iff_lt, gt_iff_lt, lt_scale hk]
          simp only [hcmp]
          by_cases h1 : dot ((1 / nrm e) • left_orthogonal e) (q + p2 - p1 - vget vs i) > d
          · simp only [h1, if_true, gt_iff_lt, lt_scale hk]
            split
            · exact ⟨rfl, trivial⟩
            · refine ⟨?_, trivial⟩
              have e1 : ∀ (x : ℝ) (n : V2), (-(k * x)) • n = k • (-x) • n := by
                intro x n; rw [smul_smul]; congr 1; ring
              simp only [SepRun.scaled, Sep.scaled, e1, ← smul_add, ← smul_sub]
          · simp only [h1, if_false]
            exact ⟨hb.symm, hst⟩
    exact key _ rfl

theorem test_separations_scale {k R : ℝ} (hk : 0 < k) (hS : Small k R) (eps : ℝ) (p1 p2 : V2)
    (hp : nrm (p1 - p2) ≤ 4 * R) (vs ws : List V2) (hvs : ∀ v ∈ vs, len v ≤ R) (hws : ∀ v ∈ ws, len v ≤ R)
    (hc : Centred ws) (start : ℕ) :
    test_separations (k * eps) (k • p1) (k • p2) (vs.map fun v => k • v) (ws.map fun v => k • v) start =
      (test_separations eps p1 p2 vs ws start).map (Sep.scaled k) := by
  unfold test_separations
  rw [List.length_map]
  have key : ∀ (l : List ℕ) (st : SepRun), st.Fresh →
      l.foldl (sepStep (k * eps) (k • p1) (k • p2) (vs.map fun v => k • v) (ws.map fun v => k • v))
        (st.scaled k) = (l.foldl (sepStep eps p1 p2 vs ws) st).scaled k := by
    intro l
    induction l with
    | nil => intro st _; rfl
    | cons i l ih =>
      intro st hst
      obtain ⟨h1, h2⟩ := sepStep_scale hk hS eps p1 p2 hp vs ws hvs hws hc st hst i
      rw [List.foldl_cons, List.foldl_cons, h1, ih _ h2]
  have q := key (satOrder vs.length start) (.go none (-10 ^ 10)) rfl
  rw [show (SepRun.go none (-10 ^ 10)).scaled k = .go none (-10 ^ 10) from rfl] at q
  rw [q]
  cases (satOrder vs.length start).foldl (sepStep eps p1 p2 vs ws) (.go none (-10 ^ 10)) with
  | fail e => rfl
  | gap d i => rfl
  | go b d => cases b <;> rfl

theorem incStep_scale {k : ℝ} (hk : 0 < k) (n : V2) (vs : List V2) (st : ℝ × ℕ) (i : ℕ) :
    incStep n (vs.map fun v => k • v) st i = incStep n vs st i := by
  have hz : ∀ x : ℝ, (k * x = 0) = (x = 0) := fun x => by simp [hk.ne']
  simp only [incStep, List.length_map, vget_scale, ← smul_sub, nrm_scale hk, left_scale, unit_scale hk, hz]

theorem get_incident_edge_scale {k : ℝ} (hk : 0 < k) (n : V2) (vs : List V2) (i : ℕ) :
    get_incident_edge n (vs.map fun v => k • v) i = get_incident_edge n vs i := by
  unfold get_incident_edge
  rw [List.length_map]
  simp only [List.foldl_cons, List.foldl_nil, incStep_scale hk]

theorem clip_scale {k : ℝ} (hk : 0 < k) (a b n : V2) (o : ℝ) : clip_segment_to_line (k • a) (k • b) n (k * o) =
    (clip_segment_to_line a b n o).map (Option.map fun v => k • v) := by
  unfold clip_segment_to_line
  have hz : ∀ x : ℝ, (k * x = 0) = (x = 0) := fun x => by simp [hk.ne']
  have hge : ∀ x : ℝ, (k * x ≥ 0) = (x ≥ 0) := fun x => by
    apply propext
    constructor
    · intro h; by_contra h'; push Not at h'; nlinarith
    · intro h; have : 0 ≤ x := h; positivity
  have hlt : ∀ x y : ℝ, (k * x * (k * y) < 0) = (x * y < 0) := fun x y => by
    have : 0 < k * k := by positivity
    rw [show k * x * (k * y) = k * k * (x * y) by ring, neg_iff_scale this]
  have hdiv : ∀ x y : ℝ, k * x / (k * y) = x / y := fun x y => mul_div_mul_left x y hk.ne'
  simp only [dot_scale_right, ← mul_add, ← mul_sub, hz, hge, hlt, hdiv, ← smul_sub]
  have hs : ∀ (u : ℝ) (x y : V2), k • x + u • k • y = k • (x + u • y) := fun u x y => by
    rw [smul_add, smul_comm u k]
  simp only [hs]
  by_cases h0 : dot n a + o ≥ 0 <;> by_cases h1 : dot n b + o ≥ 0 <;>
    simp only [h0, h1, if_true, if_false, List.nil_append, List.cons_append, List.length_cons, List.length_nil] <;>
    split_ifs <;> rfl

theorem emitPts_scale {k : ℝ} (hk : 0 < k) (eps : ℝ) (n rv rp ip : V2) (rf : Bool) (l : List (Option V2)) :
    emitPts (k * eps) n (k • rv) (k • rp) (k • ip) rf (l.map (Option.map fun v => k • v)) =
      (emitPts eps n rv rp ip rf l).map (List.map (Pt.scaled k)) := by
  induction l with
  | nil => rfl
  | cons x l ih =>
    cases x with
    | none => rfl
    | some v =>
      simp only [List.map_cons, Option.map_some, emitPts, ih]
      cases emitPts eps n rv rp ip rf l with
      | error e => rfl
      | ok r =>
        have e1 : ∀ (x : ℝ) (n : V2), (-(k * x)) • n = k • (-x) • n := by
          intro x n; rw [smul_smul]; congr 1; ring
        simp only [ok_map, ← smul_sub, dot_scale_right, le_scale hk, e1, ← smul_add]
        split
        · cases rf <;> simp [Pt.scaled, ok_map]
        · rfl

theorem manifold_scale {k : ℝ} (hk : 0 < k) (eps : ℝ) (rp ip : V2) (rvs ivs : List V2) (nn : V2) (vx : ℕ) (en : ℝ)
    (ed : ℕ) (rf : Bool) :
    manifold (k * eps) (k • rp) (k • ip) (rvs.map fun v => k • v) (ivs.map fun v => k • v) nn vx (k * en)
      ed rf = (manifold eps rp ip rvs ivs nn vx en ed rf).map (List.map (Pt.scaled k)) := by
  unfold manifold
  simp only [get_incident_edge_scale hk, List.length_map, vget_scale, offset_scale, mul_div_assoc, clip_scale hk]
  generalize clip_segment_to_line _ _ _ _ = l
  match l with
  | [] => rfl
  | [none] => rfl
  | [some x] => rfl
  | [none, none] => rfl
  | [none, some y] => rfl
  | [some a, none] => rfl
  | [some a, some b] =>
    simp only [List.map_cons, List.map_nil, Option.map_some, clip_scale hk, emitPts_scale hk]
  | x :: y :: z :: l => cases x <;> cases y <;> rfl

theorem hullHull_scale {k R : ℝ} (hk : 0 < k) (hS : Small k R) (eps : ℝ) (p1 p2 : V2) (hp : nrm (p1 - p2) ≤ 4 * R)
    (vs ws : List V2) (hvs : ∀ v ∈ vs, len v ≤ R) (hws : ∀ v ∈ ws, len v ≤ R) (hcv : Centred vs) (hcw : Centred ws)
    (i1 i2 : ℕ) (f : Finder) :
    hullHull (k * eps) (k • p1) (k • p2) (vs.map fun v => k • v) (ws.map fun v => k • v) i1 i2 f =
      (hullHull eps p1 p2 vs ws i1 i2 f).map fun r => (r.1, r.2.map (Pt.scaled k)) := by
  have hp' : nrm (p2 - p1) ≤ 4 * R := by
    rw [nrm_eq_len, ← len_neg, neg_sub, ← nrm_eq_len]; exact hp
  unfold hullHull
  simp only [test_separations_scale hk hS eps p1 p2 hp vs ws hvs hws hcw,
    test_separations_scale hk hS eps p2 p1 hp' ws vs hws hvs hcv]
  cases test_separations eps p1 p2 vs ws (f.sat i1) with
  | error e => rfl
  | ok c1 =>
    simp only [ok_map, scaled_dist, scaled_edge, gt_iff_lt, lt_scale hk]
    split
    · rfl
    · cases test_separations eps p2 p1 ws vs ((f.setSat i1 c1.edge).sat i2) with
      | error e => rfl
      | ok c2 =>
        simp only [ok_map, scaled_dist, scaled_edge, lt_scale hk]
        split
        · rfl
        · split
          · cases c2 with
            | gap d i => rfl
            | best d a b n v e i =>
              simp only [Sep.scaled, manifold_scale hk]
              cases manifold eps p2 p1 ws vs n v e i false <;> rfl
          · cases c1 with
            | gap d i => rfl
            | best d a b n v e i =>
              simp only [Sep.scaled, manifold_scale hk]
              cases manifold eps p1 p2 vs ws n v e i true <;> rfl

/-! ## The whole search -/

theorem body_units_isCircle (U : Units) (b : Body) : (U.body b).isCircle = b.isCircle := by
  unfold Body.isCircle Units.body Units.shape
  cases b.shape <;> rfl

theorem body_units_rad (U : Units) (b : Body) : (U.body b).rad = U.len * b.rad := by
  unfold Body.rad Units.body Units.shape
  cases b.shape <;> simp

theorem body_units_verts (U : Units) (b : Body) : (U.body b).verts = b.verts.map fun v => U.len • v := by
  unfold Body.verts Units.body Units.shape
  cases b.shape <;> rfl

theorem body_units_pos (U : Units) (b : Body) : (U.body b).pos = U.len • b.pos := rfl

theorem bodyAt_units (U : Units) (bs : List Body) {i : ℕ} (h : i < bs.length) :
    bodyAt (bs.map U.body) i = U.body (bodyAt bs i) := by
  simp [bodyAt, List.getD_eq_getElem?_getD, h]

/-- What the search needs of a pair of bodies: two circles, or bodies that are small and near each other. -/
def PairFits (k R : ℝ) (b1 b2 : Body) : Prop :=
  (b1.isCircle = true ∧ b2.isCircle = true) ∨
    (Small k R ∧ Fits R b1 ∧ Fits R b2 ∧ nrm (b1.pos - b2.pos) ≤ 4 * R)

theorem handlePair_units (U : Units) {R : ℝ} (fuel : ℕ) (eps : ℝ) (bs : List Body) (f : Finder) (i1 i2 : ℕ)
    (h1 : i1 < bs.length) (h2 : i2 < bs.length) (hf : PairFits U.len R (bodyAt bs i1) (bodyAt bs i2)) :
    handlePair fuel (U.len * eps) (bs.map U.body) f i1 i2 =
      Outcome.map (fun r => (r.1, r.2.map U.contact)) (handlePair fuel eps bs f i1 i2) := by
  unfold handlePair
  rw [bodyAt_units U bs h1, bodyAt_units U bs h2]
  revert hf
  generalize bodyAt bs i1 = b1
  generalize bodyAt bs i2 = b2
  intro hf
  have hk := U.len_pos
  simp only [body_units_isCircle, body_units_rad, body_units_pos, body_units_verts]
  rcases hf with ⟨c1, c2⟩ | ⟨hS, f1, f2, hp⟩
  · simp only [c1, c2, and_self, if_true, circleCircle_scale hk, Outcome.map, List.map_map]
    rfl
  have hp' : nrm (b2.pos - b1.pos) ≤ 4 * R := by
    rw [nrm_eq_len, ← len_neg, neg_sub, ← nrm_eq_len]; exact hp
  split
  · simp only [circleCircle_scale hk, Outcome.map, List.map_map]
    rfl
  · rename_i hnb
    split
    · cases hc : b2.isCircle with
      | true =>
        have hc1 : b1.isCircle = false := by
          cases h : b1.isCircle
          · rfl
          · exact absurd ⟨h, hc⟩ hnb
        simp only [if_true, body_units_rad, body_units_pos, body_units_verts,
          circleHull_scale hk hS fuel eps b2.rad f2.rad b2.pos b1.pos hp' b1.verts f1.verts (f1.centred hc1)]
        cases circleHull fuel eps b2.rad b2.pos b1.pos b1.verts (f.rnd 0) (f.sat i1) with
        | running => rfl
        | raised e => rfl
        | done r =>
          obtain ⟨o, k⟩ := r
          cases o with
          | none => rfl
          | some c =>
            simp only [Outcome.map, Run.bind, Option.map_some, Option.toList_some, List.map_cons, List.map_nil,
              toPt_scaled]
            rfl
      | false =>
        simp only [Bool.false_eq_true, if_false, body_units_rad, body_units_pos, body_units_verts,
          circleHull_scale hk hS fuel eps b1.rad f1.rad b1.pos b2.pos hp b2.verts f2.verts (f2.centred hc)]
        cases circleHull fuel eps b1.rad b1.pos b2.pos b2.verts (f.rnd 0) (f.sat i2) with
        | running => rfl
        | raised e => rfl
        | done r =>
          obtain ⟨o, k⟩ := r
          cases o with
          | none => rfl
          | some c =>
            simp only [Outcome.map, Run.bind, Option.map_some, Option.toList_some, List.map_cons, List.map_nil,
              toPt_scaled]
            rfl
    · rename_i hno
      have hc1 : b1.isCircle = false := by
        cases h : b1.isCircle
        · rfl
        · exact absurd (Or.inl h) hno
      have hc2 : b2.isCircle = false := by
        cases h : b2.isCircle
        · rfl
        · exact absurd (Or.inr h) hno
      rw [hullHull_scale hk hS eps _ _ hp _ _ f1.verts f2.verts (f1.centred hc1) (f2.centred hc2)]
      cases hullHull eps b1.pos b2.pos b1.verts b2.verts i1 i2 f with
      | error e => rfl
      | ok r =>
        simp only [ok_map, Run.ofExcept, Outcome.map, List.map_map]
        rfl

theorem handleAll_units (U : Units) {R : ℝ} (fuel : ℕ) (nc : ℕ → List ℕ) (eps : ℝ) (bs : List Body) :
    ∀ (ps : List (ℕ × ℕ)) (f : Finder), (∀ p ∈ ps, p.1 < bs.length ∧ p.2 < bs.length) →
      (∀ p ∈ ps, PairFits U.len R (bodyAt bs p.1) (bodyAt bs p.2)) →
    handleAll fuel nc (U.len * eps) (bs.map U.body) ps f =
      Outcome.map (fun r => (r.1, r.2.map U.contact)) (handleAll fuel nc eps bs ps f)
  | [], f, _, _ => rfl
  | p :: ps, f, h, hf => by
    obtain ⟨h1, h2⟩ := h p (by simp)
    have hh : handle fuel nc (U.len * eps) (bs.map U.body) f p.1 p.2 =
        Outcome.map (fun r => (r.1, r.2.map U.contact)) (handle fuel nc eps bs f p.1 p.2) := by
      unfold handle
      split
      · rfl
      · exact handlePair_units U fuel eps bs f _ _ h1 h2 (hf p (by simp))
    simp only [handleAll, hh]
    cases handle fuel nc eps bs f p.1 p.2 with
    | running => rfl
    | raised e => rfl
    | done r =>
      simp only [Outcome.map, Run.bind]
      rw [handleAll_units U fuel nc eps bs ps r.1 (fun q hq => h q (by simp [hq])) fun q hq => hf q (by simp [hq])]
      cases handleAll fuel nc eps bs ps r.1 with
      | running => rfl
      | raised e => rfl
      | done q => simp only [Outcome.map, List.map_append]

/-! ## Moving bodies -/

theorem matmul_scale (a k : ℝ) (v : V2) : (rotation_matrix a).matmul (k • v) = k • (rotation_matrix a).matmul v := by
  rw [matmul_eq_rot, matmul_eq_rot, rot_map_smul]

theorem hullRotate_scale (a k : ℝ) (vs : List V2) :
    hullRotate a (vs.map fun v => k • v) = (hullRotate a vs).map fun v => k • v := by
  unfold hullRotate
  simp only [List.map_map, Function.comp_def, matmul_scale]

theorem rectRotate_scale (a k : ℝ) (vs : List V2) :
    rectRotate a (vs.map fun v => k • v) = (rectRotate a vs).map fun v => k • v := by
  match vs with
  | [] => rfl
  | [_] => rfl
  | [_, _] => rfl
  | [_, _, _] => rfl
  | [v0, v1, v2, v3] => simp only [List.map_cons, List.map_nil, rectRotate, matmul_scale, smul_neg]
  | _ :: _ :: _ :: _ :: _ :: _ => rfl

theorem set_p_units (U : Units) (b : Body) (q : V3) : (U.body b).set_p (U.pose q) = U.body (b.set_p q) := by
  obtain ⟨p, v, m, I, r, mu, e, shape, geom⟩ := b
  have hr : (U.pose q).r - (U.pose p).r = q.r - p.r := rfl
  cases shape with
  | circle rad => rfl
  | hull vs =>
    simp only [Body.set_p, Units.body, Units.shape, hr, Body.baseSetP]
    congr 1
    split
    · rw [hullRotate_scale]
    · rfl
  | rect d vs =>
    simp only [Body.set_p, Units.body, Units.shape, hr, Body.baseSetP]
    congr 1
    split
    · rw [rectRotate_scale]
    · rfl

theorem move_units (U : Units) (d : ℝ) (b : Body) : (U.body b).move (U.time * d) = U.body (b.move d) := by
  have ht := U.time_pos.ne'
  unfold Body.move
  rw [← set_p_units U]
  congr 1
  apply V3.ext
  · simp [Units.body, Units.pose, Units.vel]; field_simp
  · simp [Units.body, Units.pose, Units.vel]; field_simp
  · simp [Units.body, Units.pose, Units.vel]; field_simp

end LcpPhysics
