import Verif.Spec.Frame
import Verif.Model.Contacts
import Verif.Lemmas.Plane
import Verif.Lemmas.Bodies

/-! # Lemmas: the contact search and a change of frame -/

noncomputable section

namespace LcpPhysics
open Spec

theorem dot_rot (t : ℝ) (a b : V2) : dot (rot t a) (rot t b) = dot a b := rot_inner t a b

theorem nrm_rot (t : ℝ) (a : V2) : nrm (rot t a) = nrm a := by
  have := dot_rot t a a
  unfold dot at this
  unfold nrm
  rw [this]

theorem left_orthogonal_rot (t : ℝ) (a : V2) : left_orthogonal (rot t a) = rot t (left_orthogonal a) := by
  ext <;> simp [left_orthogonal, rot] <;> ring

theorem rot_inj (t : ℝ) {a b : V2} : rot t a = rot t b ↔ a = b := by
  constructor
  · intro h
    have := congrArg (rot (-t)) h
    rwa [rot_add, rot_add, add_neg_cancel, rot_zero, rot_zero] at this
  · rintro rfl; rfl

theorem rot_eq_zero (t : ℝ) {a : V2} : ((rot t a).1 = 0 ∧ (rot t a).2 = 0) ↔ (a.1 = 0 ∧ a.2 = 0) := by
  have h1 : ∀ b : V2, (b.1 = 0 ∧ b.2 = 0) ↔ b = 0 := fun b => by
    constructor
    · rintro ⟨h1, h2⟩; exact Prod.ext h1 h2
    · rintro rfl; exact ⟨rfl, rfl⟩
  rw [h1, h1, ← rot_map_zero t, rot_inj]
  rw [rot_map_zero]

theorem vget_rot (t : ℝ) (vs : List V2) (i : ℕ) : vget (vs.map (rot t)) i = rot t (vget vs i) := by
  unfold vget
  simp only [List.getD_eq_getElem?_getD, List.getElem?_map]
  cases vs[i]? with
  | none => exact (rot_map_zero t).symm
  | some x => rfl

theorem supportLoop_rot (t : ℝ) (d : V2) (ps : List V2) (i : ℕ) (best : Option (V2 × ℕ)) (bn : ℝ) :
    supportLoop (rot t d) (ps.map (rot t)) i (best.map fun r => (rot t r.1, r.2)) bn =
      (supportLoop d ps i best bn).map fun r => (rot t r.1, r.2) := by
  induction ps generalizing i best bn with
  | nil => rfl
  | cons p ps ih =>
    simp only [List.map_cons, supportLoop, dot_rot]
    split
    · exact ih (i + 1) (some (p, i)) _
    · exact ih (i + 1) best bn

theorem get_support_rot (t : ℝ) (ps : List V2) (d : V2) :
    get_support (ps.map (rot t)) (rot t d) = (get_support ps d).map fun r => (rot t r.1, r.2) := by
  unfold get_support
  have h := supportLoop_rot t d ps 0 none (-1)
  simp only [Option.map_none] at h
  rw [h]
  cases supportLoop d ps 0 none (-1) <;> rfl

theorem bary2_rot (t : ℝ) (p a b : V2) : bary2 (rot t p) (rot t a) (rot t b) = bary2 p a b := by
  simp only [bary2, ← rot_map_sub, nrm_rot, ← rot_map_smul, dot_rot]

theorem bary3_rot (t : ℝ) (p a b c : V2) : bary3 (rot t p) (rot t a) (rot t b) (rot t c) = bary3 p a b c := by
  set T : Matrix (Fin 3) (Fin 3) ℝ := !![Real.cos t, -Real.sin t, 0; Real.sin t, Real.cos t, 0; 0, 0, 1] with hT
  have hdet : T.det = 1 := by
    rw [hT, Matrix.det_fin_three]
    simp
    nlinarith [Real.sin_sq_add_cos_sq t]
  have hM : baryMat (rot t a) (rot t b) (rot t c) = T * baryMat a b c := by
    rw [hT]
    ext i j
    fin_cases i <;> fin_cases j <;> simp [baryMat, rot, Matrix.mul_apply, Fin.sum_univ_three] <;> ring
  have hp : (![(rot t p).1, (rot t p).2, 1] : Fin 3 → ℝ) = T.mulVec ![p.1, p.2, 1] := by
    rw [hT]
    ext i
    fin_cases i <;> simp [rot, Matrix.mulVec, dotProduct, Fin.sum_univ_three]; ring
  unfold bary3
  have hd : (baryMat (rot t a) (rot t b) (rot t c)).det = (baryMat a b c).det := by
    rw [hM, Matrix.det_mul, hdet, one_mul]
  rw [hd]
  split
  · rfl
  · rename_i h
    have hU : IsUnit T.det := by rw [hdet]; exact isUnit_one
    have : (baryMat (rot t a) (rot t b) (rot t c))⁻¹.mulVec ![(rot t p).1, (rot t p).2, 1] =
        (baryMat a b c)⁻¹.mulVec ![p.1, p.2, 1] := by
      rw [hM, hp, Matrix.mul_inv_rev, Matrix.mulVec_mulVec, Matrix.mul_assoc, Matrix.nonsing_inv_mul T hU,
        Matrix.mul_one]
    simp only [this]

theorem ok_map {α β : Type} (g : α → β) (a : α) : Except.map g (Except.ok a : Except Err α) = .ok (g a) := rfl
theorem error_map {α β : Type} (g : α → β) (e : Err) : Except.map g (Except.error e : Except Err α) = .error e := rfl

theorem get_closest_rot (t : ℝ) (p : V2) (s : List V2) :
    get_closest (rot t p) (s.map (rot t)) = (get_closest p s).map fun r => (rot t r.1, r.2) := by
  match s with
  | [] => rfl
  | [a] => rfl
  | [a, b] =>
    simp only [get_closest, List.map_cons, List.map_nil, rot_inj, bary2_rot]
    split
    · rfl
    · split
      · rfl
      · split
        · rfl
        · simp only [ok_map, rot_map_add, rot_map_smul]
  | [a, b, c] =>
    simp only [get_closest, List.map_cons, List.map_nil, bary2_rot, bary3_rot]
    cases bary3 p a b c with
    | error e => rfl
    | ok r =>
      obtain ⟨u, v, w⟩ := r
      simp only
      split_ifs <;> simp only [ok_map, error_map, rot_map_add, rot_map_smul]
  | a :: b :: c :: d :: l => rfl

theorem gjkDir_rot (t : ℝ) (tp : V2) (s : List V2) (cl : V2) (ids : List ℕ) :
    gjkDir (rot t tp) (s.map (rot t)) (rot t cl) ids = rot t (gjkDir tp s cl ids) := by
  unfold gjkDir
  split
  · simp only [vget_rot, ← rot_map_sub, left_orthogonal_rot, dot_rot]
    split
    · rw [rot_map_neg]
    · rfl
  · rw [rot_map_sub]

theorem map_vget_rot (t : ℝ) (vs : List V2) (s : List ℕ) :
    s.map (vget (vs.map (rot t))) = (s.map (vget vs)).map (rot t) := by
  rw [List.map_map]
  exact List.map_congr_left fun i _ => vget_rot t vs i

theorem gjkLoop_rot (t : ℝ) (vs : List V2) (tp : V2) : ∀ (fuel : ℕ) (s : List ℕ),
    gjkLoop (vs.map (rot t)) (rot t tp) fuel s = Outcome.map (fun r => (rot t r.1, r.2)) (gjkLoop vs tp fuel s)
  | 0, _ => rfl
  | fuel + 1, s => by
    simp only [gjkLoop, map_vget_rot, get_closest_rot]
    cases get_closest tp (s.map (vget vs)) with
    | error e => rfl
    | ok r =>
      obtain ⟨cl, ids⟩ := r
      simp only [ok_map, gjkDir_rot, rot_eq_zero, get_support_rot]
      split
      · rfl
      · split
        · rfl
        · cases get_support vs (gjkDir tp (s.map (vget vs)) cl ids) with
          | error e => rfl
          | ok q =>
            obtain ⟨q1, q2⟩ := q
            simp only [ok_map]
            split
            · rfl
            · exact gjkLoop_rot t vs tp fuel _

/-- A circle-hull result as seen from the turned frame. -/
def CHull.turned (t : ℝ) (c : CHull) : CHull :=
  { c with normal := rot t c.normal, pt1 := rot t c.pt1, pt2 := rot t c.pt2 }

variable {F : Frame} {s : ℝ}

/-- Offsets between points turn. -/
theorem point_sub (F : Frame) (s : ℝ) (a b : V2) : F.point s a - F.point s b = rot F.turn (a - b) := by
  unfold Frame.point
  rw [rot_map_sub]; abel

theorem offset_sub (F : Frame) (s : ℝ) (x a b : V2) :
    rot F.turn x + F.point s a - F.point s b = rot F.turn (x + a - b) := by
  rw [add_sub_assoc, point_sub, ← rot_map_add, add_sub_assoc]

theorem shallow_frame (F : Frame) (s eps rad : ℝ) (p1 p2 cl : V2) :
    shallowContact eps rad (F.point s p1) (F.point s p2) (rot F.turn cl) =
      (shallowContact eps rad p1 p2 cl).map (CHull.turned F.turn) := by
  unfold shallowContact
  simp only [offset_sub, nrm_rot]
  split
  · rfl
  · simp only [Option.map_some, CHull.turned, rot_map_smul, rot_map_neg]

/-- The state of the SAT loop as seen from the turned frame. -/
def SatRun.turned (t : ℝ) : SatRun → SatRun
  | .gap i => .gap i
  | .go b d l => .go (b.map (CHull.turned t)) d l

theorem edge_rot (t : ℝ) (vs : List V2) (i : ℕ) :
    vget (vs.map (rot t)) ((i + 1) % (vs.map (rot t)).length) - vget (vs.map (rot t)) i =
      rot t (vget vs ((i + 1) % vs.length) - vget vs i) := by
  rw [vget_rot, vget_rot, List.length_map, rot_map_sub]

theorem satRun_turned_go (t : ℝ) (b : Option CHull) (d : ℝ) (l : ℕ) :
    SatRun.turned t (.go b d l) = .go (b.map (CHull.turned t)) d l := rfl

theorem satStep_frame (F : Frame) (s eps rad : ℝ) (p1 p2 : V2) (vs : List V2) (st : SatRun) (i : ℕ) :
    satCircleStep eps rad (F.point s p1) (F.point s p2) (vs.map (rot F.turn)) (st.turned F.turn) i =
      (satCircleStep eps rad p1 p2 vs st i).turned F.turn := by
  cases st with
  | gap j => rfl
  | go b d l =>
    have key : ∀ (e : V2), vget vs ((i + 1) % vs.length) - vget vs i = e →
        satCircleStep eps rad (F.point s p1) (F.point s p2) (vs.map (rot F.turn)) ((SatRun.go b d l).turned F.turn) i =
          (satCircleStep eps rad p1 p2 vs (.go b d l) i).turned F.turn := by
      intro e he
      simp only [satCircleStep, satRun_turned_go, List.length_map, vget_rot, ← rot_map_sub, he, nrm_rot, left_orthogonal_rot, ← rot_map_smul,
        point_sub, dot_rot]
      by_cases h0 : nrm e = 0
      · simp only [h0, if_true, satRun_turned_go]
      · simp only [h0, if_false]
        by_cases h1 : dot ((1 / nrm e) • left_orthogonal e) (p1 - p2 - vget vs i) - rad > d
        · simp only [h1, if_true]
          by_cases h2 : dot ((1 / nrm e) • left_orthogonal e) (p1 - p2 - vget vs i) - rad > eps
          · simp only [h2, if_true]; rfl
          · simp only [h2, if_false, satRun_turned_go, Option.map_some, CHull.turned, ← rot_map_smul, ← rot_map_add,
              offset_sub]
        · simp only [h1, if_false, satRun_turned_go]
    exact key _ rfl

theorem satCircle_frame (F : Frame) (s eps rad : ℝ) (p1 p2 : V2) (vs : List V2) (start : ℕ) :
    satCircle eps rad (F.point s p1) (F.point s p2) (vs.map (rot F.turn)) start =
      (satCircle eps rad p1 p2 vs start).turned F.turn := by
  unfold satCircle
  rw [List.length_map]
  have key : ∀ (l : List ℕ) (st : SatRun),
      l.foldl (satCircleStep eps rad (F.point s p1) (F.point s p2) (vs.map (rot F.turn))) (st.turned F.turn) =
        (l.foldl (satCircleStep eps rad p1 p2 vs) st).turned F.turn := by
    intro l
    induction l with
    | nil => intro st; rfl
    | cons i l ih =>
      intro st
      rw [List.foldl_cons, List.foldl_cons, satStep_frame, ih]
  exact key _ (.go none (-10 ^ 10) start)

theorem circleHull_frame (F : Frame) (s : ℝ) (fuel : ℕ) (eps rad : ℝ) (p1 p2 : V2) (vs : List V2) (seed last : ℕ) :
    circleHull fuel eps rad (F.point s p1) (F.point s p2) (vs.map (rot F.turn)) seed last =
      Outcome.map (fun r => (r.1.map (CHull.turned F.turn), r.2)) (circleHull fuel eps rad p1 p2 vs seed last) := by
  unfold circleHull
  rw [point_sub, gjkLoop_rot, List.length_map]
  cases gjkLoop vs (p1 - p2) fuel [seed % vs.length] with
  | running => rfl
  | raised e => rfl
  | done r =>
    simp only [Outcome.map, Run.bind, shallow_frame, satCircle_frame]
    split
    · rfl
    · cases satCircle eps rad p1 p2 vs last with
      | gap i => rfl
      | go b d l => cases b <;> rfl

/-- A contact point as seen from the turned frame. -/
def Pt.turned (t : ℝ) (p : Pt) : Pt := { p with normal := rot t p.normal, p1 := rot t p.p1, p2 := rot t p.p2 }

theorem toPt_turned (t : ℝ) (c : CHull) (fl : Bool) : (c.turned t).toPt fl = (c.toPt fl).turned t := by
  cases fl <;> simp [CHull.toPt, CHull.turned, Pt.turned, rot_map_neg]

theorem circleCircle_frame (F : Frame) (s eps r1 r2 : ℝ) (p1 p2 : V2) :
    circleCircle eps r1 r2 (F.point s p1) (F.point s p2) = (circleCircle eps r1 r2 p1 p2).map (Pt.turned F.turn) := by
  unfold circleCircle
  simp only [point_sub, nrm_rot]
  split
  · rfl
  · simp only [List.map_cons, List.map_nil, Pt.turned, rot_map_smul, rot_map_neg]

/-- Result of `test_separations` as seen from the turned frame. -/
def Sep.turned (t : ℝ) : Sep → Sep
  | .gap d i => .gap d i
  | .best d a b n v e i => .best d (rot t a) (rot t b) (rot t n) v e i

theorem turned_dist (t : ℝ) (x : Sep) : (x.turned t).dist = x.dist := by cases x <;> rfl
theorem turned_edge (t : ℝ) (x : Sep) : (x.turned t).edge = x.edge := by cases x <;> rfl

/-- The loop of `test_separations` as seen from the turned frame. -/
def SepRun.turned (t : ℝ) : SepRun → SepRun
  | .fail e => .fail e
  | .gap d i => .gap d i
  | .go b d => .go (b.map (Sep.turned t)) d

theorem sepStep_frame (F : Frame) (s eps : ℝ) (p1 p2 : V2) (vs ws : List V2) (st : SepRun) (i : ℕ) :
    sepStep eps (F.point s p1) (F.point s p2) (vs.map (rot F.turn)) (ws.map (rot F.turn)) (st.turned F.turn) i =
      (sepStep eps p1 p2 vs ws st i).turned F.turn := by
  cases st with
  | fail e => rfl
  | gap d j => rfl
  | go b d =>
    simp only [sepStep, SepRun.turned, edge_rot, nrm_rot, left_orthogonal_rot, ← rot_map_smul, ← rot_map_neg,
      get_support_rot]
    split
    · rfl
    · generalize hn : (1 / nrm (vget vs ((i + 1) % vs.length) - vget vs i)) •
        left_orthogonal (vget vs ((i + 1) % vs.length) - vget vs i) = n
      cases get_support ws (-n) with
      | error e => rfl
      | ok r =>
        obtain ⟨q, k⟩ := r
        simp only [ok_map, offset_sub, vget_rot, ← rot_map_sub, dot_rot]
        split
        · split
          · rfl
          · simp only [← rot_map_smul, ← rot_map_add, offset_sub, SepRun.turned, Option.map_some, Sep.turned]
        · rfl

theorem test_separations_frame (F : Frame) (s eps : ℝ) (p1 p2 : V2) (vs ws : List V2) (start : ℕ) :
    test_separations eps (F.point s p1) (F.point s p2) (vs.map (rot F.turn)) (ws.map (rot F.turn)) start =
      (test_separations eps p1 p2 vs ws start).map (Sep.turned F.turn) := by
  unfold test_separations
  rw [List.length_map]
  have key : ∀ (l : List ℕ) (st : SepRun),
      l.foldl (sepStep eps (F.point s p1) (F.point s p2) (vs.map (rot F.turn)) (ws.map (rot F.turn)))
        (st.turned F.turn) = (l.foldl (sepStep eps p1 p2 vs ws) st).turned F.turn := by
    intro l
    induction l with
    | nil => intro st; rfl
    | cons i l ih =>
      intro st
      rw [List.foldl_cons, List.foldl_cons, sepStep_frame, ih]
  have k := key (satOrder vs.length start) (.go none (-10 ^ 10))
  simp only [SepRun.turned, Option.map_none] at k
  rw [k]
  cases (satOrder vs.length start).foldl (sepStep eps p1 p2 vs ws) (.go none (-10 ^ 10)) with
  | fail e => rfl
  | gap d i => rfl
  | go b d => cases b <;> rfl

theorem incStep_rot (t : ℝ) (n : V2) (vs : List V2) (st : ℝ × ℕ) (i : ℕ) :
    incStep (rot t n) (vs.map (rot t)) st i = incStep n vs st i := by
  simp only [incStep, edge_rot, nrm_rot, left_orthogonal_rot, ← rot_map_smul, dot_rot]

theorem get_incident_edge_rot (t : ℝ) (n : V2) (vs : List V2) (i : ℕ) :
    get_incident_edge (rot t n) (vs.map (rot t)) i = get_incident_edge n vs i := by
  unfold get_incident_edge
  rw [List.length_map]
  simp only [List.foldl_cons, List.foldl_nil, incStep_rot]

theorem clip_rot (t : ℝ) (a b n : V2) (o : ℝ) : clip_segment_to_line (rot t a) (rot t b) (rot t n) o =
    (clip_segment_to_line a b n o).map (Option.map (rot t)) := by
  unfold clip_segment_to_line
  simp only [dot_rot, ← rot_map_sub, ← rot_map_smul, ← rot_map_add]
  by_cases h0 : dot n a + o ≥ 0 <;> by_cases h1 : dot n b + o ≥ 0 <;>
    simp only [h0, h1, if_true, if_false, List.nil_append, List.cons_append, List.length_cons, List.length_nil] <;>
    split_ifs <;> rfl

theorem emitPts_frame (F : Frame) (s eps : ℝ) (n rv rp ip : V2) (rf : Bool) (l : List (Option V2)) :
    emitPts eps (rot F.turn n) (rot F.turn rv) (F.point s rp) (F.point s ip) rf (l.map (Option.map (rot F.turn))) =
      (emitPts eps n rv rp ip rf l).map (List.map (Pt.turned F.turn)) := by
  induction l with
  | nil => rfl
  | cons x l ih =>
    cases x with
    | none => rfl
    | some v =>
      simp only [List.map_cons, Option.map_some, emitPts, ih]
      cases emitPts eps n rv rp ip rf l with
      | error e => rfl
      | ok r =>
        simp only [ok_map, ← rot_map_sub, dot_rot]
        split
        · cases rf <;> simp [Pt.turned, ← rot_map_smul, ← rot_map_add, offset_sub, ← rot_map_neg, ok_map]
        · rfl

theorem manifold_frame (F : Frame) (s eps : ℝ) (rp ip : V2) (rvs ivs : List V2) (nn : V2) (vx : ℕ) (en : ℝ) (ed : ℕ)
    (rf : Bool) :
    manifold eps (F.point s rp) (F.point s ip) (rvs.map (rot F.turn)) (ivs.map (rot F.turn)) (rot F.turn nn) vx en
      ed rf = (manifold eps rp ip rvs ivs nn vx en ed rf).map (List.map (Pt.turned F.turn)) := by
  unfold manifold
  simp only [← rot_map_neg, get_incident_edge_rot, List.length_map, vget_rot, offset_sub, left_orthogonal_rot, clip_rot]
  generalize clip_segment_to_line _ _ _ _ = l
  match l with
  | [] => rfl
  | [none] => rfl
  | [some x] => rfl
  | [none, none] => rfl
  | [none, some y] => rfl
  | [some a, none] => rfl
  | [some a, some b] =>
    simp only [List.map_cons, List.map_nil, Option.map_some, clip_rot, emitPts_frame]
  | x :: y :: z :: l => cases x <;> cases y <;> rfl

theorem hullHull_frame (F : Frame) (s eps : ℝ) (p1 p2 : V2) (vs ws : List V2) (i1 i2 : ℕ) (f : Finder) :
    hullHull eps (F.point s p1) (F.point s p2) (vs.map (rot F.turn)) (ws.map (rot F.turn)) i1 i2 f =
      (hullHull eps p1 p2 vs ws i1 i2 f).map fun r => (r.1, r.2.map (Pt.turned F.turn)) := by
  unfold hullHull
  simp only [test_separations_frame]
  cases test_separations eps p1 p2 vs ws (f.sat i1) with
  | error e => rfl
  | ok c1 =>
    simp only [ok_map, turned_dist, turned_edge]
    split
    · rfl
    · cases test_separations eps p2 p1 ws vs ((f.setSat i1 c1.edge).sat i2) with
      | error e => rfl
      | ok c2 =>
        simp only [ok_map, turned_dist, turned_edge]
        split
        · rfl
        · split
          · cases c2 with
            | gap d i => rfl
            | best d a b n v e i =>
              simp only [Sep.turned, manifold_frame]
              cases manifold eps p2 p1 ws vs n v e i false <;> rfl
          · cases c1 with
            | gap d i => rfl
            | best d a b n v e i =>
              simp only [Sep.turned, manifold_frame]
              cases manifold eps p1 p2 vs ws n v e i true <;> rfl

theorem body_frame_isCircle (F : Frame) (s : ℝ) (b : Body) : (F.body s b).isCircle = b.isCircle := by
  unfold Body.isCircle Frame.body Frame.shape
  cases b.shape <;> rfl

theorem body_frame_rad (F : Frame) (s : ℝ) (b : Body) : (F.body s b).rad = b.rad := by
  unfold Body.rad Frame.body Frame.shape
  cases b.shape <;> rfl

theorem body_frame_verts (F : Frame) (s : ℝ) (b : Body) : (F.body s b).verts = b.verts.map (rot F.turn) := by
  unfold Body.verts Frame.body Frame.shape
  cases b.shape <;> rfl

theorem body_frame_pos (F : Frame) (s : ℝ) (b : Body) : (F.body s b).pos = F.point s b.pos := rfl

theorem bodyAt_frame (F : Frame) (s : ℝ) (bs : List Body) {i : ℕ} (h : i < bs.length) :
    bodyAt (bs.map (F.body s)) i = F.body s (bodyAt bs i) := by
  simp [bodyAt, List.getD_eq_getElem?_getD, h]

theorem handlePair_frame (F : Frame) (s : ℝ) (fuel : ℕ) (eps : ℝ) (bs : List Body) (f : Finder) (i1 i2 : ℕ)
    (h1 : i1 < bs.length) (h2 : i2 < bs.length) :
    handlePair fuel eps (bs.map (F.body s)) f i1 i2 =
      Outcome.map (fun r => (r.1, r.2.map F.contact)) (handlePair fuel eps bs f i1 i2) := by
  unfold handlePair
  rw [bodyAt_frame F s bs h1, bodyAt_frame F s bs h2]
  generalize bodyAt bs i1 = b1
  generalize bodyAt bs i2 = b2
  simp only [body_frame_isCircle, body_frame_rad, body_frame_pos, body_frame_verts]
  split
  · simp only [circleCircle_frame, Outcome.map, List.map_map]
    rfl
  · split
    · cases hc : b2.isCircle with
      | true =>
        simp only [if_true, body_frame_rad, body_frame_pos, body_frame_verts, circleHull_frame]
        cases circleHull fuel eps b2.rad b2.pos b1.pos b1.verts (f.rnd 0) (f.sat i1) with
        | running => rfl
        | raised e => rfl
        | done r =>
          obtain ⟨o, k⟩ := r
          cases o with
          | none => rfl
          | some c =>
            simp only [Outcome.map, Run.bind, Option.map_some, Option.toList_some, List.map_cons, List.map_nil,
              toPt_turned]
            rfl
      | false =>
        simp only [Bool.false_eq_true, if_false, body_frame_rad, body_frame_pos, body_frame_verts, circleHull_frame]
        cases circleHull fuel eps b1.rad b1.pos b2.pos b2.verts (f.rnd 0) (f.sat i2) with
        | running => rfl
        | raised e => rfl
        | done r =>
          obtain ⟨o, k⟩ := r
          cases o with
          | none => rfl
          | some c =>
            simp only [Outcome.map, Run.bind, Option.map_some, Option.toList_some, List.map_cons, List.map_nil,
              toPt_turned]
            rfl
    · rw [hullHull_frame]
      cases hullHull eps b1.pos b2.pos b1.verts b2.verts i1 i2 f with
      | error e => rfl
      | ok r =>
        simp only [ok_map, Run.ofExcept, Outcome.map, List.map_map]
        rfl

theorem handleAll_frame (F : Frame) (s : ℝ) (fuel : ℕ) (nc : ℕ → List ℕ) (eps : ℝ) (bs : List Body) :
    ∀ (ps : List (ℕ × ℕ)) (f : Finder), (∀ p ∈ ps, p.1 < bs.length ∧ p.2 < bs.length) →
    handleAll fuel nc eps (bs.map (F.body s)) ps f =
      Outcome.map (fun r => (r.1, r.2.map F.contact)) (handleAll fuel nc eps bs ps f)
  | [], f, _ => rfl
  | p :: ps, f, h => by
    obtain ⟨h1, h2⟩ := h p (by simp)
    have hh : handle fuel nc eps (bs.map (F.body s)) f p.1 p.2 =
        Outcome.map (fun r => (r.1, r.2.map F.contact)) (handle fuel nc eps bs f p.1 p.2) := by
      unfold handle
      split
      · rfl
      · exact handlePair_frame F s fuel eps bs f _ _ h1 h2
    simp only [handleAll, hh]
    cases handle fuel nc eps bs f p.1 p.2 with
    | running => rfl
    | raised e => rfl
    | done r =>
      simp only [Outcome.map, Run.bind]
      rw [handleAll_frame F s fuel nc eps bs ps r.1 fun q hq => h q (by simp [hq])]
      cases handleAll fuel nc eps bs ps r.1 with
      | running => rfl
      | raised e => rfl
      | done q => simp only [Outcome.map, List.map_append]

/-! ## Moving bodies -/

theorem matmul_rot_comm (a t : ℝ) (v : V2) : (rotation_matrix a).matmul (rot t v) = rot t ((rotation_matrix a).matmul v) := by
  rw [matmul_eq_rot, matmul_eq_rot, rot_add, rot_add, add_comm]

theorem hullRotate_rot (a t : ℝ) (vs : List V2) : hullRotate a (vs.map (rot t)) = (hullRotate a vs).map (rot t) := by
  unfold hullRotate
  simp only [List.map_map, Function.comp_def, matmul_rot_comm]

theorem rectRotate_rot (a t : ℝ) (vs : List V2) : rectRotate a (vs.map (rot t)) = (rectRotate a vs).map (rot t) := by
  match vs with
  | [] => rfl
  | [_] => rfl
  | [_, _] => rfl
  | [_, _, _] => rfl
  | [v0, v1, v2, v3] => simp only [List.map_cons, List.map_nil, rectRotate, matmul_rot_comm, rot_map_neg]
  | _ :: _ :: _ :: _ :: _ :: _ => rfl

theorem quatOf_turn (F : Frame) (a : ℝ) : some (quatOf (a + F.turn)) = F.quat (some (quatOf a)) := by
  unfold Frame.quat
  split
  · rename_i h; rw [h, add_zero]
  · simp only [Option.getD_some, quatOf, turnQuat, Option.some.injEq, Prod.mk.injEq]
    have e1 : -(a + F.turn) / 2 = -a / 2 - F.turn / 2 := by ring
    rw [e1, Real.sin_sub, Real.cos_sub]
    refine ⟨by ring, by ring, by ring, by ring⟩

theorem pose_frame_set_p (F : Frame) (s : ℝ) (s' : ℝ) (b : Body) (q : V3) :
    (F.body s b).set_p (F.pose s' q) = F.body s' (b.set_p q) := by
  obtain ⟨p, v, m, I, r, mu, e, shape, geom⟩ := b
  have hr : (F.pose s' q).r - (F.pose s p).r = q.r - p.r := by
    simp [Frame.pose]
  cases shape with
  | circle rad => rfl
  | hull vs =>
    simp only [Body.set_p, Frame.body, Frame.shape, hr, Body.baseSetP]
    congr 1
    · split
      · rw [hullRotate_rot]
      · rfl
  | rect d vs =>
    simp only [Body.set_p, Frame.body, Frame.shape, hr, Body.baseSetP]
    congr 1
    · split
      · rw [rectRotate_rot]
      · rfl
    · simp only [if_true, Geom.mk.injEq]
      exact ⟨trivial, rfl, quatOf_turn F q.r⟩

theorem move_frame (F : Frame) (s d : ℝ) (b : Body) : (F.body s b).move d = F.body (s + d) (b.move d) := by
  unfold Body.move
  rw [← pose_frame_set_p F s (s + d)]
  congr 1
  apply V3.ext
  · simp [Frame.body, Frame.pose, Frame.vel]; ring
  · simp [Frame.body, Frame.pose, Frame.vel, Frame.point, V3.xy, rot]; ring
  · simp [Frame.body, Frame.pose, Frame.vel, Frame.point, V3.xy, rot]; ring

end LcpPhysics
