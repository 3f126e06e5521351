import Verif.Props.SearchTotal
import Verif.Props.BreakoutSimExamples
import Verif.Lemmas.LuExists

/-!
# Concrete scenes for C93 and C94
-/

noncomputable section

namespace LcpPhysics
open Spec Breakout

/-- A circle and a rectangle. -/
def lobScene (c : V2) : List Body := [mkCircle (.two c) 2 {}, plate 1 topBlock]

theorem lob_plain (c : V2) : ∀ b ∈ lobScene c, PlainBody b := by
  intro b hb
  simp only [lobScene, List.mem_cons, List.not_mem_nil, or_false] at hb
  rcases hb with rfl | rfl
  · exact Or.inl ⟨_, _, _, [], rfl, by norm_num⟩
  · exact plate_plain _ _ (by norm_num [topBlock]) (len_le_of (by norm_num) (by norm_num [topBlock]))

/-- The only pair. -/
def lobPairs : List Body → List (ℕ × ℕ) := fun bs => if 1 < bs.length then [(0, 1)] else []

theorem lob_pairs (bs : List Body) : ∀ p ∈ lobPairs bs, p.1 < bs.length ∧ p.2 < bs.length ∧ p.1 ≠ p.2 := by
  intro p hp
  unfold lobPairs at hp
  split_ifs at hp with h
  · simp only [List.mem_singleton] at hp
    subst hp
    exact ⟨by simp; omega, h, by simp⟩
  · cases hp

/-- Example for `C94_search_total`: a circle anywhere with respect to a rectangle, touching it or not. -/
example (c : V2) (f : Finder) : ∃ r, diffCollide 66 (fun _ => []) lobPairs (1 / 10) f (lobScene c) = .ok r :=
  C94_search_total 66 le_rfl _ _ _ f _ (fun p hp => ⟨(lob_pairs _ p hp).1, (lob_pairs _ p hp).2.1⟩) (lob_plain c)

/-- A circle centred on the vertex with which GJK starts gets a NaN normal. -/
theorem vertex_nan (fuel : ℕ) (eps rad : ℝ) (heps : 0 ≤ eps) (hr : 0 ≤ rad) (p : V2) (P : List V2) (last : ℕ) :
    ∃ k, circleHull (fuel + 1) eps rad (p + vget P 0) p P 0 last = .done (some k, last) ∧ k.nan = true := by
  have e : p + vget P 0 - p = vget P 0 := by abel
  have g : get_closest (vget P 0) ([0].map (vget P)) = .ok (vget P 0, [0]) := rfl
  have hl : gjkLoop P (vget P 0) (fuel + 1) [0] = .done (vget P 0, [0]) := by
    rw [gjkLoop]
    simp only [g]
    rw [if_neg (by norm_num), if_pos (by simp [gjkDir])]
    rfl
  unfold circleHull
  rw [e, Nat.zero_mod, hl]
  simp only [Run.bind, List.length_singleton]
  rw [if_pos (by norm_num)]
  have hz : vget P 0 + p - (p + vget P 0) = 0 := by abel
  have hn : nrm (0 : V2) = 0 := by rw [nrm_eq_len]; simp [len]
  refine ⟨{ normal := (1 / 0 : ℝ) • -(0 : V2), pt1 := 0, pt2 := vget P 0, dist := 0 - rad, nan := true }, ?_, rfl⟩
  unfold shallowContact
  simp only [hz, hn]
  rw [if_neg (by linarith)]
  simp

/-- The search finds a contact with NaN normal between a circle and a hull it is centred on the first vertex of. -/
theorem nan_pair (fuel : ℕ) (nc : ℕ → List ℕ) (pairs : List Body → List (ℕ × ℕ)) (eps : ℝ) (heps : 0 ≤ eps) (f : Finder)
    (bs : List Body) (i : ℕ) (hp : pairs bs = [(0, i)]) (hnc : 0 ∉ nc i) (hc : (bodyAt bs 0).isCircle = true)
    (hh : (bodyAt bs i).isCircle = false) (hr : 0 ≤ (bodyAt bs 0).rad) (hf : f.rnd 0 = 0)
    (hv : (bodyAt bs 0).pos = (bodyAt bs i).pos + vget (bodyAt bs i).verts 0) :
    ∃ f' c, diffCollide (fuel + 1) nc pairs eps f bs = .ok (f', [c]) ∧ c.nan = true := by
  obtain ⟨k, hk, hn⟩ := vertex_nan fuel eps _ heps hr (bodyAt bs i).pos (bodyAt bs i).verts (f.sat i)
  rw [← hv] at hk
  unfold diffCollide
  rw [hp]
  unfold handleAll handle handlePair
  simp only [hc, hh, if_neg hnc, hf, hk, Run.bind, handleAll, Option.toList, CHull.toPt, Run.toExcept, List.map_cons, List.map_nil,
    List.append_nil, Bool.false_eq_true, and_false, or_false, if_true, if_false]
  exact ⟨_, _, rfl, hn⟩

/-- Example for `C94_nan_contact`: a circle centred on a corner of the rectangle. -/
example (f : Finder) (hf : f.rnd 0 = 0) : ∃ f' c,
    diffCollide 66 (fun _ => []) lobPairs (1 / 10) f (lobScene (24, 63)) = .ok (f', [c]) ∧ c.nan = true ∧
      Degenerate (bodyAt (lobScene (24, 63)) c.i1) (bodyAt (lobScene (24, 63)) c.i2) := by
  obtain ⟨f', c, h1, h2⟩ := nan_pair 65 (fun _ => []) lobPairs (1 / 10) (by norm_num) f (lobScene (24, 63)) 1 rfl (by simp) rfl rfl
    (by show (0 : ℝ) ≤ 2; norm_num) hf (by
      show ((24 : ℝ), (63 : ℝ)) = (topBlock.px, topBlock.py) + (topBlock.w / 2, topBlock.h / 2)
      norm_num [topBlock])
  exact ⟨f', c, h1, h2, (C94_nan_contact 66 _ _ _ f f' _ _ (fun p hp => ⟨(lob_pairs _ p hp).1, (lob_pairs _ p hp).2.1⟩)
    (fun b hb hc => plain_verts (lob_plain _ b hb) hc) h1 c (by simp) h2).2.2⟩

/-- Example for `C94_search_fails`: there the search with NaN normals rejected fails. -/
example (f : Finder) (hf : f.rnd 0 = 0) : ∃ e,
    rejectNan (diffCollide 66 (fun _ => []) lobPairs) (1 / 10) f (lobScene (24, 63)) = .error e ∧ e = .raised "nonfinite" := by
  obtain ⟨f', c, h1, h2⟩ := nan_pair 65 (fun _ => []) lobPairs (1 / 10) (by norm_num) f (lobScene (24, 63)) 1 rfl (by simp) rfl rfl
    (by show (0 : ℝ) ≤ 2; norm_num) hf (by
      show ((24 : ℝ), (63 : ℝ)) = (topBlock.px, topBlock.py) + (topBlock.w / 2, topBlock.h / 2)
      norm_num [topBlock])
  have : rejectNan (diffCollide 66 (fun _ => []) lobPairs) (1 / 10) f (lobScene (24, 63)) = .error (.raised "nonfinite") := by
    unfold rejectNan
    rw [h1]
    simp [h2]
  exact ⟨_, this, (C94_search_fails 66 le_rfl _ _ _ f _ (fun p hp => ⟨(lob_pairs _ p hp).1, (lob_pairs _ p hp).2.1⟩)
    (lob_plain _) _ this).1⟩

/-! ## A game that raises -/

open Classical in
/-- The broad phase: the ball comes near the block once it has left line 70. -/
def cornerPairs : List Body → List (ℕ × ℕ) := fun bs =>
  if bs.length = 8 ∧ (bodyAt bs 0).p.y ≠ 70 then [(0, 7)] else []

theorem corner_pairs (bs : List Body) : ∀ p ∈ cornerPairs bs, p.1 < bs.length ∧ p.2 < bs.length ∧ p.1 ≠ p.2 := by
  intro p hp
  unfold cornerPairs at hp
  split_ifs at hp with h
  · simp only [List.mem_singleton] at hp
    subst hp
    simp [h.1]
  · cases hp

/-- The contact search of this game. -/
abbrev cornerSearch : ℝ → Finder → List Body → Except Err (Finder × List Contact) :=
  rejectNan (diffCollide 66 (breakoutNc [topBlock].length) cornerPairs)

/-- The ball is about to be moved onto the corner of the block. -/
def cornerBall : BallParams := ⟨24, 70, 2⟩

/-- The game. -/
theorem corner_made (paddle : BoxParams) (hp : 0 < paddle.w * paddle.h) (lcp : LcpSolver) (fnd : Finder) :
    ∃ w, make_world lcp 10 cornerSearch fnd paddle [topBlock] cornerBall (0, -7) = .done w ∧ w.contacts = [] ∧ w.fnd = fnd ∧
      w.eps = 1 / 10 ∧ w.bodies = gameBodies paddle [topBlock] cornerBall (0, -7) := by
  have hn : cornerPairs (gameBodies paddle [topBlock] cornerBall (0, -7)) = [] := by
    unfold cornerPairs
    rw [if_neg]
    rintro ⟨-, h⟩
    exact h rfl
  have hcol : cornerSearch (1 / 10) fnd (gameBodies paddle [topBlock] cornerBall (0, -7)) = .ok (fnd, []) := by
    simp [cornerSearch, rejectNan, diffCollide, hn, handleAll, Run.toExcept]
  obtain ⟨w, h1, h2, h3, h4, h5, h6, h7, -⟩ := C76_make_world_returns lcp 10 cornerSearch fnd paddle [topBlock] cornerBall (0, -7) hp
    topBlock_good fnd [] hcol (by simp)
  exact ⟨w, h1, h2, h4, h5, h7⟩

theorem moved_bodyAt (w : World (Option Mat) Finder) (e : Option Mat) (v : Vec) (d : ℝ) (i : ℕ) (hi : i < w.bodies.length) :
    bodyAt ((({ w with eng := e } : World (Option Mat) Finder).set_v v).bodies.map fun b => b.move d) i =
      ({ bodyAt w.bodies i with v := slice3 v i } : Body).move d := by
  simp [bodyAt, World.set_v, List.getD_eq_getElem?_getD, hi]

/-- C93: such a pose does arise: the ball is carried onto the corner of a block in one step, and if GJK happens to start
from that corner the step raises. -/
theorem C93_corner_raises (paddle : BoxParams) (hp : 0 < paddle.w * paddle.h) (f : Btrifact) (eps : ℝ)
    (lim fuel : ℕ) (fnd : Finder) (hf : fnd.rnd 0 = 0) :
    ∃ w, make_world (libraryLcp f eps lim) 10 cornerSearch fnd paddle [topBlock] cornerBall (0, -7) = .done w ∧
      w.step_dt (breakoutEnv (libraryLcp f eps lim) 10 cornerSearch) (fuel + 1) 1 = .raised (.raised "nonfinite") := by
  obtain ⟨w, hw, hcs, hfn, heps, hbod⟩ := corner_made paddle hp (libraryLcp f eps lim) fnd
  have hr : cornerBall.rad ≠ 0 := by norm_num [cornerBall]
  have hfd : GameFinder 1 cornerSearch := C76_library_search 66 1 cornerPairs corner_pairs
  have hreg := C93_made_regular _ _ _ _ _ [topBlock] _ _ w hr hfd hw
  have hg : GameInv 1 w := (C76_constructed _ _ _ _ _ [topBlock] _ _ w hr hfd hw).1
  refine ⟨w, hw, ?_⟩
  obtain ⟨⟨e, v⟩, hs⟩ := C93_free_engine_returns (libraryLcp f eps lim) 10 cornerSearch w hreg hcs 1
  obtain ⟨fl, l, hfl, hlaw⟩ := C35_no_contact_solution 2 breakoutForces (libraryLcp f eps lim) 10 w 1 e v hg.inv.joints hcs
    hg.inv.cache.ok hs
  rw [breakoutForces_cat] at hfl
  injection hfl with hfl
  subst hfl
  rw [game_impulse] at hlaw
  have hlen : w.bodies.length = 8 := hg.len
  have hm := hg.coeff 0 (by norm_num)
  obtain ⟨v0, v1, v2⟩ := C78_isolated_body _ _ _ _ _ _ _ _ _ _ _ hlaw 0 (by omega)
    (fun j hj => by
      obtain ⟨-, a, b⟩ := hg.total j hj
      rw [a]
      exact ⟨by omega, by simp⟩)
    (by simp) (by rw [hm.1]; norm_num) hm.2.2.2
  have hvel := bodyAt_vel hg.inv.good 0 (by omega)
  have hbv : (bodyAt w.bodies 0).v = ⟨0, 0, -7⟩ := by rw [hbod]; rfl
  rw [hbv] at hvel
  have e1 := congrArg V3.x hvel
  have e2 := congrArg V3.y hvel
  simp only [twist, Nat.mul_zero, Nat.zero_add] at e1 e2
  simp only [Nat.mul_zero, Nat.zero_add, V3.zero_x, V3.zero_y, zero_div, add_zero] at v1 v2
  have h7 := law_rest hg (hcs.symm ▸ hlaw) 7 (by norm_num) (by norm_num)
  have hs7 : slice3 v 7 = 0 := h7
  rw [step_dt_eq _ _ w hg.inv.good 1, hs]
  simp only [Run.ofExcept, Run.bind]
  unfold specLoop
  generalize hbs : ((({ w with eng := e } : World (Option Mat) Finder).set_v v).bodies.map fun b => b.move 1) = bs
  have b0 : bodyAt bs 0 = ({ bodyAt w.bodies 0 with v := slice3 v 0 } : Body).move 1 := by
    rw [← hbs]; exact moved_bodyAt w e v 1 0 (by omega)
  have b7 : bodyAt bs 7 = ({ bodyAt w.bodies 7 with v := slice3 v 7 } : Body).move 1 := by
    rw [← hbs]; exact moved_bodyAt w e v 1 7 (by omega)
  have hl : bs.length = 8 := by
    rw [← hbs, List.length_map, set_v_length]; exact hlen
  have hp0 : (bodyAt bs 0).p.x = 24 ∧ (bodyAt bs 0).p.y = 63 := by
    rw [b0, hbod]
    have f1 : v 1 = 0 := by rw [v1, ← e1]
    have f2 : v 2 = -7 := by rw [v2, ← e2]
    constructor
    · show 24 + 1 * v 1 = 24
      rw [f1]; norm_num
    · show 70 + 1 * v 2 = 63
      rw [f2]; norm_num
  have hpr : cornerPairs bs = [(0, 7)] := by
    unfold cornerPairs
    rw [if_pos ⟨hl, by rw [hp0.2]; norm_num⟩]
  have h7p : (bodyAt bs 7).pos = (16, 60) ∧ vget (bodyAt bs 7).verts 0 = (8, 3) ∧ (bodyAt bs 7).isCircle = false := by
    have hz : ((plate 1 topBlock).p + (1 : ℝ) • (0 : V3)) = (plate 1 topBlock).p := by
      apply V3.ext <;> simp
    have : bodyAt bs 7 = ({ plate 1 topBlock with v := 0 } : Body).set_p (plate 1 topBlock).p := by
      rw [b7, hs7, hbod]
      show Body.set_p _ ((plate 1 topBlock).p + (1 : ℝ) • (0 : V3)) = _
      rw [hz]
      rfl
    rw [this]
    simp [plate, rectBase, Body.set_p, Body.baseSetP, Body.pos, Body.verts, Body.isCircle, rectCorners, vget, topBlock,
      Arg.toV3, V3.xy]
    norm_num
  obtain ⟨f', c, hc, hn⟩ := nan_pair 65 (breakoutNc [topBlock].length) cornerPairs w.eps (by rw [heps]; norm_num) w.fnd bs 7 hpr
    (by decide) (by rw [b0, isCircle_move, hbod]; rfl) h7p.2.2 (by rw [b0, hbod]; show (0 : ℝ) ≤ 2; norm_num)
    (by rw [hfn]; exact hf) (by
      rw [h7p.1, h7p.2.1]
      show ((bodyAt bs 0).p.x, (bodyAt bs 0).p.y) = _
      rw [hp0.1, hp0.2]; norm_num)
  have hrej : cornerSearch w.eps w.fnd bs = .error (.raised "nonfinite") := by
    unfold cornerSearch rejectNan
    rw [hc]
    simp [hn]
  have hcol : (breakoutEnv (libraryLcp f eps lim) 10 cornerSearch).collide
      (({ w with eng := e } : World (Option Mat) Finder).set_v v).eps w.fnd bs = .error (.raised "nonfinite") := hrej
  rw [hcol]

/-- Example for `C93_game_raises`, `C93_step_raises` and `C93_library_engine_returns`: in this game, with some LU
factorisation, the engine returns and the step raises, because the ball gets onto the corner. -/
example (fnd : Finder) (hf : fnd.rnd 0 = 0) :
    ∃ w, make_world (libraryLcp someBtrifact (1 / 10 ^ 12) 3) 10 cornerSearch fnd ⟨80, 192, 16, 6⟩ [topBlock] cornerBall
        (0, -7) = .done w ∧
      (∃ r, (breakoutEnv (libraryLcp someBtrifact (1 / 10 ^ 12) 3) 10 cornerSearch).solve_dynamics w 1 = .ok r) ∧
      (∃ f' bs, Posed w.bodies bs ∧ cornerSearch w.eps f' bs = .error (.raised "nonfinite")) ∧
      ∃ bs, Posed w.bodies bs ∧ ∃ i < bs.length, i ≠ 0 ∧ OnSide (bodyAt bs 0) (bodyAt bs i) := by
  have hp : (0 : ℝ) < (16 : ℝ) * 6 := by norm_num
  obtain ⟨w, hw, hs⟩ := C93_corner_raises ⟨80, 192, 16, 6⟩ hp someBtrifact (1 / 10 ^ 12) 3 0 fnd hf
  have hr : cornerBall.rad ≠ 0 := by norm_num [cornerBall]
  have hfd : GameFinder 1 cornerSearch := C76_library_search 66 1 cornerPairs corner_pairs
  refine ⟨w, hw, C93_library_engine_returns _ someBtrifact_ok _ _ _ (by norm_num) _ _ _ [topBlock] _ _ hr hfd w w hw
    Relation.ReflTransGen.refl 1, C93_step_raises _ someBtrifact_ok _ _ _ (by norm_num) _ _ _ [topBlock] _ _ hr hfd w w hw
    Relation.ReflTransGen.refl 1 1 _ hs, ?_⟩
  exact (C93_game_raises someBtrifact someBtrifact_ok _ _ _ (by norm_num) 66 le_rfl cornerPairs corner_pairs fnd _ [topBlock] _ _ hr
    (by norm_num [cornerBall]) (len_le_of (by norm_num) (by norm_num))
    (by
      intro b hb
      rw [List.mem_singleton.1 hb]
      exact len_le_of (by norm_num) (by norm_num [topBlock]))
    w w hw Relation.ReflTransGen.refl 1 1 _ hs).2

/-- Example for `C94_step_raises`: the same step. -/
example (fnd : Finder) (hf : fnd.rnd 0 = 0) :
    ∃ w : World (Option Mat) Finder, Regular w ∧ ∃ bs i j, Posed w.bodies bs ∧ (i, j) ∈ cornerPairs bs ∧
      Degenerate (bodyAt bs i) (bodyAt bs j) := by
  have hp : (0 : ℝ) < (16 : ℝ) * 6 := by norm_num
  obtain ⟨w, hw, hs⟩ := C93_corner_raises ⟨80, 192, 16, 6⟩ hp someBtrifact (1 / 10 ^ 12) 3 0 fnd hf
  have hr : cornerBall.rad ≠ 0 := by norm_num [cornerBall]
  have hfd : GameFinder 1 cornerSearch := C76_library_search 66 1 cornerPairs corner_pairs
  have hbod := (C76_constructed _ _ _ _ _ [topBlock] _ _ w hr hfd hw).2.2.2.2
  have hreg := C93_made_regular _ _ _ _ _ [topBlock] _ _ w hr hfd hw
  obtain ⟨-, bs, i, j, h1, h2, -, h3⟩ := C94_step_raises someBtrifact someBtrifact_ok _ _ _ (by norm_num) breakoutForces 66 le_rfl _ cornerPairs
    corner_pairs w hreg (hbod ▸ game_plain (by norm_num [cornerBall]) (len_le_of (by norm_num) (by norm_num))
      (by
        intro b hb
        rw [List.mem_singleton.1 hb]
        exact len_le_of (by norm_num) (by norm_num [topBlock])) hp topBlock_good)
    (fun _ => ⟨_, breakoutForces_cat _ _⟩) 1 1 _ hs
  exact ⟨w, hreg, bs, i, j, h1, h2, h3⟩

end LcpPhysics
