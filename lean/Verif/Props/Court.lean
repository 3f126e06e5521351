import Verif.Props.NoOverlap
import Verif.Props.BreakoutWorld
import Verif.Props.Frame
import Verif.Props.Screen
import Mathlib.Topology.Order.Basic

/-!
# C87: the court of the Breakout world

Where the scenery of the simulated game stands, and that it keeps the ball in.
-/

noncomputable section

namespace LcpPhysics
open Spec Breakout

/-! ## Places -/

/-- The rectangle of the screen that parameters describe. -/
def boxArea (b : BoxParams) : Set V2 :=
  Set.Icc (b.px - b.w / 2, b.py - b.h / 2) (b.px + b.w / 2, b.py + b.h / 2)

theorem plate_built (e : ℝ) (b : BoxParams) (h : 0 < b.w * b.h) :
    mkRect (.two (b.px, b.py)) (b.w, b.h) { restitution := e, fric_coeff := 0 } = .ok (plate e b) := by
  rw [mkRect_eq _ _ _ h]; rfl

/-- A rectangle of the world, back at its place, covers what its parameters say. -/
theorem plate_region (e : ℝ) (b : BoxParams) (hw : 0 < b.w) (hh : 0 < b.h) (ops : List BodyOp)
    (hp : ((plate e b).run ops).p = (plate e b).p) : bodyRegion ((plate e b).run ops) = boxArea b := by
  have hb := plate_built e b (mul_pos hw hh)
  have hv := C05_rect_rigid _ _ _ _ hb ops
  have hrot : ((plate e b).run ops).rot = 0 := by
    unfold Body.rot; rw [hp]; rfl
  have hpos : ((plate e b).run ops).pos = (b.px, b.py) := by
    unfold Body.pos; rw [hp]; rfl
  have hal : Alive ((plate e b).run ops) := ⟨_, ops, .rect _ _ _ _ hb hw hh, rfl⟩
  have hf := rot_rectForm (dims := (b.w, b.h)) (mul_pos hw hh) ((plate e b).run ops).rot
  rw [← hv] at hf
  have hc : ((plate e b).run ops).isCircle = false := by
    have := rect_length hf
    unfold Body.verts at this
    unfold Body.isCircle
    cases hs : ((plate e b).run ops).shape with
    | circle r => rw [hs] at this; simp at this
    | hull vs => rfl
    | rect d vs => rfl
  ext x
  rw [(alive_verts hal hc).2, hv, hrot, hpos]
  change x - (b.px, b.py) ∈ solid ((rectCorners (b.w, b.h)).map (rot 0)) ↔ _
  rw [corners_solid (b.w, b.h) hw hh]
  simp only [rot_zero, exists_eq_right, boxRegion, boxArea, Set.mem_ofPred_eq, Set.mem_Icc, Prod.le_def,
    Prod.fst_sub, Prod.snd_sub, abs_le]
  constructor
  · rintro ⟨⟨h1, h2⟩, h3, h4⟩; exact ⟨⟨by linarith, by linarith⟩, by linarith, by linarith⟩
  · rintro ⟨⟨h1, h2⟩, h3, h4⟩; exact ⟨⟨by linarith, by linarith⟩, by linarith, by linarith⟩

/-- C76: where `make_world` puts things on the screen (160 wide, the y axis downwards): the walls at the sides, the
roof between them, the stoppers at the paddle's height, the right one beyond the edge of the screen; ball, paddle and
blocks as their parameters say. -/
theorem C76_scenery_places (paddle : BoxParams) (blocks : List BoxParams) (ball : BallParams) (vel : V2) :
    let bs := gameBodies paddle blocks ball vel
    bodyRegion (bodyAt bs 0) = {x | Spec.dist x (ball.px, ball.py) ≤ ball.rad} ∧
    (0 < paddle.w → 0 < paddle.h → bodyRegion (bodyAt bs 1) = boxArea paddle) ∧
    bodyRegion (bodyAt bs 2) = Set.Icc (0, 0) (8, 189) ∧
    bodyRegion (bodyAt bs 3) = Set.Icc (152, 0) (160, 195) ∧
    bodyRegion (bodyAt bs 4) = Set.Icc (8, 0) (152, 31) ∧
    bodyRegion (bodyAt bs 5) = Set.Icc (0, 189) (8, 195) ∧
    bodyRegion (bodyAt bs 6) = Set.Icc (160, 189) (168, 195) ∧
    ∀ (k : ℕ) (hk : k < blocks.length), 0 < blocks[k].w → 0 < blocks[k].h →
      bodyRegion (bodyAt bs (7 + k)) = boxArea blocks[k] := by
  have key : ∀ e b, 0 < b.w → 0 < b.h → bodyRegion (plate e b) = boxArea b :=
    fun e b hw hh => plate_region e b hw hh [] rfl
  intro bs
  refine ⟨rfl, key 1 paddle, ?_, ?_, ?_, ?_, ?_, ?_⟩
  · change bodyRegion (plate 1 leftWall) = _
    rw [key 1 leftWall (by norm_num [leftWall]) (by norm_num [leftWall])]
    norm_num [boxArea, leftWall]
  · change bodyRegion (plate 1 rightWall) = _
    rw [key 1 rightWall (by norm_num [rightWall]) (by norm_num [rightWall])]
    norm_num [boxArea, rightWall]
  · change bodyRegion (plate 1 roof) = _
    rw [key 1 roof (by norm_num [roof]) (by norm_num [roof])]
    norm_num [boxArea, roof]
  · change bodyRegion (plate (-1) leftStopper) = _
    rw [key (-1) leftStopper (by norm_num [leftStopper]) (by norm_num [leftStopper])]
    norm_num [boxArea, leftStopper]
  · change bodyRegion (plate (-1) rightStopper) = _
    rw [key (-1) rightStopper (by norm_num [rightStopper]) (by norm_num [rightStopper])]
    norm_num [boxArea, rightStopper]
  · intro k hk hw hh
    rw [show bodyAt bs (7 + k) = plate 1 blocks[k] from game_block _ _ _ _ k hk]
    exact key 1 _ hw hh

/-- C88: the world built from what was read off a screen has its bodies where the screen showed them: pixel `(i, j)`
covers the square with corners `(j, i)` and `(j + 1, i + 1)`.  If no ball is seen, the one in the world is more than 20000
below everything else. -/
theorem C88_world_from_screen (fr : Breakout.Frame) (P : Picture) (hs : Shows fr P) (hP : P.Possible) (hc : P.Clear)
    (vel : V2) :
    ∃ paddle blocks ball bs, extract_params 161 fr = .done (paddle, blocks, ball) ∧
      breakoutBodies paddle blocks ball vel = .ok bs ∧
      bodyRegion (bodyAt bs 1) = Set.Icc ((P.paddle : ℝ), 189) ((P.paddle : ℝ) + 16, 193) ∧
      (∀ n < blocks.length, ∃ k < 6, ∃ s ∈ P.rows k,
        bodyRegion (bodyAt bs (7 + n)) = Set.Icc ((s.1 : ℝ), 57 + 6 * (k : ℝ)) ((s.2 : ℝ), 63 + 6 * (k : ℝ))) ∧
      (∀ k < 6, ∀ s ∈ P.rows k, ∃ n < blocks.length,
        bodyRegion (bodyAt bs (7 + n)) = Set.Icc ((s.1 : ℝ), 57 + 6 * (k : ℝ)) ((s.2 : ℝ), 63 + 6 * (k : ℝ))) ∧
      (∀ t l b r, P.ball = some (t, l, b, r) → (bodyAt bs 0).pos = (((r : ℝ) + l) / 2, ((b : ℝ) + t) / 2)) ∧
      (P.ball = none → ∀ i, 0 < i → i < bs.length → ∀ x ∈ bodyRegion (bodyAt bs 0), ∀ y ∈ bodyRegion (bodyAt bs i),
        20000 < x.2 - y.2) := by
  obtain ⟨ball, he, hball, hlost⟩ : ∃ ball, extract_params 161 fr = .done (⟨P.paddle + 8, 191, 16, 4⟩,
      (List.range 6).flatMap fun k => (P.rows k).map fun s => ⟨((s.1 : ℝ) + s.2) / 2, 60 + 6 * k, (s.2 : ℝ) - s.1, 6⟩, ball) ∧
      (∀ t l b r, P.ball = some (t, l, b, r) → ball.px = ((r : ℝ) + l) / 2 ∧ ball.py = ((b : ℝ) + t) / 2) ∧
      (P.ball = none → ball = ⟨80, 21000, 1⟩) := by
    refine ⟨_, C88_reads_picture fr P hs hP hc, fun t l b r h => ?_, fun h => ?_⟩
    · rw [h]; exact ⟨rfl, rfl⟩
    · rw [h]
  refine ⟨_, _, _, _, he, (C77_extracted_world 161 fr hs.width _ _ _ he vel).1, ?_⟩
  have hbox : ∀ (k : ℕ) (s : ℕ × ℕ), boxArea ⟨((s.1 : ℝ) + s.2) / 2, 60 + 6 * k, (s.2 : ℝ) - s.1, 6⟩ =
      Set.Icc ((s.1 : ℝ), 57 + 6 * (k : ℝ)) ((s.2 : ℝ), 63 + 6 * (k : ℝ)) := by
    intro k s
    unfold boxArea
    congr 1 <;> ext <;> simp <;> ring
  generalize hbl : ((List.range 6).flatMap fun k => (P.rows k).map fun s =>
    (⟨((s.1 : ℝ) + s.2) / 2, 60 + 6 * k, (s.2 : ℝ) - s.1, 6⟩ : BoxParams)) = blocks
  have hmem : ∀ x ∈ blocks, ∃ k < 6, ∃ s ∈ P.rows k, x = ⟨((s.1 : ℝ) + s.2) / 2, 60 + 6 * k, (s.2 : ℝ) - s.1, 6⟩ := by
    intro x hx
    rw [← hbl] at hx
    obtain ⟨k, hk, hx⟩ := List.mem_flatMap.1 hx
    obtain ⟨s, hs', rfl⟩ := List.mem_map.1 hx
    exact ⟨k, List.mem_range.1 hk, s, hs', rfl⟩
  have hmem' : ∀ k < 6, ∀ s ∈ P.rows k, (⟨((s.1 : ℝ) + s.2) / 2, 60 + 6 * k, (s.2 : ℝ) - s.1, 6⟩ : BoxParams) ∈ blocks := by
    intro k hk s h
    rw [← hbl]
    exact List.mem_flatMap.2 ⟨k, List.mem_range.2 hk, List.mem_map.2 ⟨s, h, rfl⟩⟩
  have hpl := C76_scenery_places ⟨P.paddle + 8, 191, 16, 4⟩ blocks ball vel
  obtain ⟨p0, p1, p2, p3, p4, p5, p6, p7⟩ := hpl
  have hpad : boxArea ⟨P.paddle + 8, 191, 16, 4⟩ = Set.Icc ((P.paddle : ℝ), 189) ((P.paddle : ℝ) + 16, 193) := by
    unfold boxArea
    congr 1 <;> ext <;> simp <;> ring
  have q1 := (p1 (by norm_num) (by norm_num)).trans hpad
  have q7 : ∀ n < blocks.length, ∃ k < 6, ∃ s ∈ P.rows k, bodyRegion (bodyAt
      (gameBodies ⟨P.paddle + 8, 191, 16, 4⟩ blocks ball vel) (7 + n)) =
      Set.Icc ((s.1 : ℝ), 57 + 6 * (k : ℝ)) ((s.2 : ℝ), 63 + 6 * (k : ℝ)) := by
    intro n hn
    obtain ⟨k, hk, s, h, e⟩ := hmem _ (List.getElem_mem hn)
    have hlt := (hP.inside k hk s h).2.1
    refine ⟨k, hk, s, h, (p7 n hn ?_ ?_).trans (by rw [e, hbox])⟩
    · rw [e]
      have : (s.1 : ℝ) < s.2 := by exact_mod_cast hlt
      simpa using this
    · rw [e]; norm_num
  refine ⟨q1, q7, ?_, ?_, ?_⟩
  · intro k hk s h
    obtain ⟨n, hn, e⟩ := List.getElem_of_mem (hmem' k hk s h)
    refine ⟨n, hn, (p7 n hn ?_ ?_).trans (by rw [e, hbox])⟩
    · rw [e]
      have : (s.1 : ℝ) < s.2 := by exact_mod_cast (hP.inside k hk s h).2.1
      simpa using this
    · rw [e]; norm_num
  · intro t l b r hb
    obtain ⟨e1, e2⟩ := hball t l b r hb
    rw [← e1, ← e2]
    rfl
  · intro hb i hi hil x hx y hy
    rw [game_length] at hil
    rw [p0, hlost hb] at hx
    simp only [Set.mem_ofPred_eq] at hx
    have hx2 := (abs_snd_le_len (x - ((80 : ℝ), (21000 : ℝ)))).trans hx
    rw [abs_le] at hx2
    simp only [Prod.snd_sub] at hx2
    have hy2 : y.2 ≤ 195 := by
      rcases (by omega : i = 1 ∨ i = 2 ∨ i = 3 ∨ i = 4 ∨ i = 5 ∨ i = 6 ∨ 7 ≤ i) with rfl | rfl | rfl | rfl | rfl | rfl | h7
      · rw [q1] at hy; have := hy.2.2; simp only at this; linarith
      · rw [p2] at hy; have := hy.2.2; simp only at this; linarith
      · rw [p3] at hy; have := hy.2.2; simp only at this; linarith
      · rw [p4] at hy; have := hy.2.2; simp only at this; linarith
      · rw [p5] at hy; have := hy.2.2; simp only at this; linarith
      · rw [p6] at hy; have := hy.2.2; simp only at this; linarith
      · obtain ⟨n, rfl⟩ : ∃ n, i = 7 + n := ⟨i - 7, by omega⟩
        obtain ⟨k, hk, s, -, e⟩ := q7 n (by omega)
        rw [e] at hy
        have h2 := hy.2.2
        simp only at h2
        have : (k : ℝ) ≤ 5 := by exact_mod_cast Nat.lt_succ_iff.1 hk
        linarith
    linarith

/-- The painted picture with the ball at rows 120 to 123: the paddle and the ball of the world. -/
example (vel : V2) : ∃ paddle blocks ball bs, extract_params 161 (paint (somePicture (some (120, 80, 124, 82)))) =
    .done (paddle, blocks, ball) ∧ breakoutBodies paddle blocks ball vel = .ok bs ∧
    bodyRegion (bodyAt bs 1) = Set.Icc (40, 189) (56, 193) ∧ (bodyAt bs 0).pos = (81, 122) := by
  have hP := somePicture_possible 120 (by omega)
  obtain ⟨paddle, blocks, ball, bs, h1, h2, h3, -, -, h4, -⟩ := C88_world_from_screen _ _
    (paint_shows _ (somePicture_clear 120)) hP (fun t l b r e => ⟨by
      simp only [somePicture, Option.some.injEq, Prod.mk.injEq] at e
      omega, by
      simp only [somePicture, Option.some.injEq, Prod.mk.injEq] at e
      omega, somePicture_clear 120 t l b r e⟩) vel
  refine ⟨paddle, blocks, ball, bs, h1, h2, ?_, ?_⟩
  · rw [h3]; norm_num [somePicture]
  · rw [h4 _ _ _ _ rfl]; norm_num

/-! ## A disc beside a box -/

theorem dist_continuous (c : V2) : Continuous fun x : V2 => Spec.dist x c := by
  unfold Spec.dist len
  fun_prop

/-- A disc that does not reach into an upright box by more than `t`: wherever its centre is level with the inside of the
box, it is beside it; wherever it is over or under the inside, it is above or below. -/
theorem disc_beside_box {t r : ℝ} {c l u : V2} (hr : 0 < r) (hl1 : l.1 < u.1) (hl2 : l.2 < u.2)
    (h : OverlapAtMost t {x | Spec.dist x c ≤ r} (Set.Icc l u)) :
    (l.2 + t < c.2 → c.2 < u.2 - t → c.1 ≤ l.1 - r + t ∨ u.1 + r - t ≤ c.1) ∧
    (l.1 + t < c.1 → c.1 < u.1 - t → c.2 ≤ l.2 - r + t ∨ u.2 + r - t ≤ c.2) := by
  obtain ⟨v, hv, h⟩ := h
  have hin : ∀ x : V2, Spec.dist x c < r → x ∈ interior {x | Spec.dist x c ≤ r} := by
    intro x hx
    refine interior_maximal (s := {x | Spec.dist x c ≤ r}) (t := {x | Spec.dist x c < r}) (fun y hy => ?_)
      (isOpen_lt (dist_continuous c) continuous_const) hx
    have : Spec.dist y c < r := hy
    exact this.le
  have hbox : ∀ y : V2, l.1 < y.1 → y.1 < u.1 → l.2 < y.2 → y.2 < u.2 → y ∈ interior (Set.Icc l u) := by
    intro y h1 h2 h3 h4
    refine interior_maximal (s := Set.Icc l u) (t := (Set.Ioo l.1 u.1) ×ˢ (Set.Ioo l.2 u.2)) (fun z hz => ?_)
      (isOpen_Ioo.prod isOpen_Ioo) ⟨⟨h1, h2⟩, h3, h4⟩
    obtain ⟨⟨a, b⟩, c', d⟩ := hz
    exact ⟨⟨a.le, c'.le⟩, b.le, d.le⟩
  have hv1 : |v.1| ≤ t := (abs_fst_le_len v).trans hv
  have hv2 : |v.2| ≤ t := (abs_snd_le_len v).trans hv
  rw [abs_le] at hv1 hv2
  constructor
  · intro h1 h2
    by_contra hc
    push Not at hc
    obtain ⟨h3, h4⟩ := hc
    obtain ⟨y, hy1, hy2⟩ := exists_between (a₁ := max l.1 (c.1 + v.1 - r)) (a₂ := min u.1 (c.1 + v.1 + r))
      (max_lt (lt_min hl1 (by linarith)) (lt_min (by linarith) (by linarith)))
    obtain ⟨a1, a2⟩ := max_lt_iff.1 hy1
    obtain ⟨a3, a4⟩ := lt_min_iff.1 hy2
    refine h ((y, c.2 + v.2) - v) (hin _ ?_) ?_
    · have : (y, c.2 + v.2) - v - c = (y - v.1 - c.1, 0) := by ext <;> simp
      unfold Spec.dist len
      rw [this]
      simp only [add_zero, ne_eq, OfNat.ofNat_ne_zero, not_false_eq_true, zero_pow]
      rw [Real.sqrt_sq_eq_abs, abs_lt]
      constructor <;> linarith
    · rw [sub_add_cancel]
      exact hbox _ a1 a3 (by simp only; linarith) (by simp only; linarith)
  · intro h1 h2
    by_contra hc
    push Not at hc
    obtain ⟨h3, h4⟩ := hc
    obtain ⟨y, hy1, hy2⟩ := exists_between (a₁ := max l.2 (c.2 + v.2 - r)) (a₂ := min u.2 (c.2 + v.2 + r))
      (max_lt (lt_min hl2 (by linarith)) (lt_min (by linarith) (by linarith)))
    obtain ⟨a1, a2⟩ := max_lt_iff.1 hy1
    obtain ⟨a3, a4⟩ := lt_min_iff.1 hy2
    refine h ((c.1 + v.1, y) - v) (hin _ ?_) ?_
    · have : (c.1 + v.1, y) - v - c = (0, y - v.2 - c.2) := by ext <;> simp
      unfold Spec.dist len
      rw [this]
      simp only [zero_add, ne_eq, OfNat.ofNat_ne_zero, not_false_eq_true, zero_pow]
      rw [Real.sqrt_sq_eq_abs, abs_lt]
      constructor <;> linarith
    · rw [sub_add_cancel]
      exact hbox _ (by simp only; linarith) (by simp only; linarith) a1 a3

/-! ## The game -/

/-- The rectangles of a game are wider and higher than zero and not larger than a thousand screens. -/
def GoodBox (b : BoxParams) : Prop := 0 < b.w ∧ b.w ≤ 100000 ∧ 0 < b.h ∧ b.h ≤ 100000

theorem plate_box (e : ℝ) (b : BoxParams) (h : GoodBox b) : BoxBody (plate e b) := by
  obtain ⟨h1, h2, h3, h4⟩ := h
  refine ⟨_, _, _, _, [], plate_built e b (mul_pos h1 h3), h1, h3, ?_, rfl⟩
  have : len (b.w, b.h) ≤ 1000000 := by
    rw [len, show (1000000 : ℝ) = Real.sqrt (1000000 ^ 2) from (Real.sqrt_sq (by norm_num)).symm]
    refine Real.sqrt_le_sqrt ?_
    simp only
    nlinarith
  norm_num
  linarith

theorem game_kinds {paddle : BoxParams} {blocks : List BoxParams} {ball : BallParams} {vel : V2}
    (hp : GoodBox paddle) (hb : ∀ b ∈ blocks, GoodBox b) {i : ℕ} (h1 : 1 ≤ i) (hi : i < 7 + blocks.length) :
    BoxBody (bodyAt (gameBodies paddle blocks ball vel) i) := by
  by_cases h7 : i < 7
  · interval_cases i
    · exact plate_box 1 paddle hp
    · exact plate_box 1 leftWall (by norm_num [GoodBox, leftWall])
    · exact plate_box 1 rightWall (by norm_num [GoodBox, rightWall])
    · exact plate_box 1 roof (by norm_num [GoodBox, roof])
    · exact plate_box (-1) leftStopper (by norm_num [GoodBox, leftStopper])
    · exact plate_box (-1) rightStopper (by norm_num [GoodBox, rightStopper])
  · obtain ⟨k, rfl⟩ := Nat.exists_eq_add_of_le (not_lt.1 h7)
    have hk : k < blocks.length := by omega
    rw [game_block _ _ _ _ k hk]
    exact plate_box 1 _ (hb _ (List.getElem_mem hk))

theorem boxBody_alive {b : Body} (h : BoxBody b) : Alive b := (boxBody_facts h).1

/-- What `make_world` returns, with the library's contact search: nothing reaches into anything by more than
`1e-6`. -/
theorem game_scene (lcp : LcpSolver) (mi fuel : ℕ) (pairs : List Body → List (ℕ × ℕ)) (hbp : BroadPhase pairs)
    (collide : ℝ → Finder → List Body → Except Err (Finder × List Contact)) (fnd : Finder) (paddle : BoxParams)
    (blocks : List BoxParams) (ball : BallParams) (vel : V2)
    (hl : LibrarySearch fuel (breakoutNc blocks.length) pairs collide) (hp : GoodBox paddle)
    (hb : ∀ b ∈ blocks, GoodBox b) (hr : 1 / 1000000 < ball.rad) (w : World (Option Mat) Finder)
    (h : make_world lcp mi collide fnd paddle blocks ball vel = .done w) :
    OverlapScene (breakoutNc blocks.length) w ∧ w.bodies = gameBodies paddle blocks ball vel ∧ w.tol = 1 / 1000000 := by
  have hnc : ∀ i j, i ∈ breakoutNc blocks.length j → j ∈ breakoutNc blocks.length i := by
    intro i j hij
    rw [C76_excluded_pairs] at hij ⊢
    exact hij.symm
  unfold make_world at h
  cases hbs : breakoutBodies paddle blocks ball vel with
  | error e => rw [hbs] at h; cases h
  | ok bs =>
    rw [hbs] at h
    simp only at h
    have e := ((C76_bodies _ _ _ _ _).1 hbs).2
    have hlen : bs.length = 7 + blocks.length := by rw [e, game_length]
    have hball : DiscBody (1 / 1000000) (bodyAt bs 0) := by
      rw [e]; exact ⟨_, _, _, [], hr, rfl⟩
    have hbox : ∀ i, 1 ≤ i → i < bs.length → BoxBody (bodyAt bs i) := by
      intro i h1 hi
      rw [e]; exact game_kinds hp hb h1 (by omega)
    have heps : ∀ b ∈ bs, 0 ≤ b.eps := by
      intro b hbm
      rw [e] at hbm
      simp only [gameBodies, List.mem_append, List.mem_cons, List.not_mem_nil, or_false, List.mem_map] at hbm
      rcases hbm with (rfl | rfl | rfl | rfl | rfl | rfl | rfl) | ⟨x, -, rfl⟩ <;>
        norm_num [ballBody, mkCircle, plate, rectBase]
    have := C86_constructed fuel _ hnc pairs hbp (breakoutEnv lcp mi collide) hl none fnd bs (breakoutJoints bs) 1 (1 / 10)
      (1 / 1000000) w (by norm_num) (by norm_num) ?_ ?_ ?_ h
    · rwa [e] at this
    · intro b hbm
      refine ⟨?_, heps b hbm⟩
      obtain ⟨i, hi, rfl⟩ := mem_bodyAt hbm
      by_cases h0 : i = 0
      · subst h0; exact (discBody_facts hball).1
      · exact boxBody_alive (hbox i (by omega) hi)
    · intro i hi j hj hij _
      by_cases h0 : i = 0
      · subst h0; exact .inl ⟨hball, .inr (.inr (hbox j (by omega) hj))⟩
      · by_cases h0' : j = 0
        · subst h0'; exact .inr (.inl ⟨.inr (.inr (hbox i (by omega) hi)), hball⟩)
        · exact .inr (.inr ⟨hbox i (by omega) hi, hbox j (by omega) hj⟩)
    · intro j hj
      obtain ⟨k, -, rfl⟩ := List.mem_map.1 hj
      exact mkTotal_fix bs bs _ rfl

/-- The library's contact search in the game. -/
abbrev gameSearch (fuel n : ℕ) (pairs : List Body → List (ℕ × ℕ)) :
    ℝ → Finder → List Body → Except Err (Finder × List Contact) :=
  rejectNan (diffCollide fuel (breakoutNc n) pairs)

/-- C87: at no moment of a game do two things that may touch reach into each other by more than `1e-6`: the ball and a
block, the ball and the paddle, the paddle and a stopper. -/
theorem C87_nothing_overlaps (lcp : LcpSolver) (mi fuel : ℕ) (pairs : List Body → List (ℕ × ℕ)) (hbp : BroadPhase pairs)
    (fnd : Finder) (paddle : BoxParams) (blocks : List BoxParams) (ball : BallParams) (vel : V2) (hp : GoodBox paddle)
    (hb : ∀ b ∈ blocks, GoodBox b) (hr : 1 / 1000000 < ball.rad) (w0 w : World (Option Mat) Finder)
    (h : make_world lcp mi (gameSearch fuel blocks.length pairs) fnd paddle blocks ball vel = .done w0)
    (hplay : Play (breakoutEnv lcp mi (gameSearch fuel blocks.length pairs)) 1 (fun _ => True) w0 w)
    (i j : ℕ) (hi : i < 7 + blocks.length) (hj : j < 7 + blocks.length) (hij : i ≠ j)
    (hx : ¬ (NoTouch blocks.length i j ∨ NoTouch blocks.length j i)) :
    OverlapAtMost (1 / 1000000) (bodyRegion (bodyAt w.bodies i)) (bodyRegion (bodyAt w.bodies j)) := by
  have hl := rejectNan_library fuel (breakoutNc blocks.length) pairs
  have hnc : ∀ i j, i ∈ breakoutNc blocks.length j → j ∈ breakoutNc blocks.length i := by
    intro i j hij
    rw [C76_excluded_pairs] at hij ⊢
    exact hij.symm
  obtain ⟨hs, hbod, ht⟩ := game_scene lcp mi fuel pairs hbp _ fnd paddle blocks ball vel hl hp hb hr w0 h
  have hlen : w0.bodies.length = 7 + blocks.length := by rw [hbod, game_length]
  have := (C86_run_bounds_overlap fuel _ hnc pairs hbp _ hl 1 w0 w hs hplay).2.2.1 i (by omega) j (by omega) hij
    (by rw [C76_excluded_pairs]; exact hx)
  rwa [ht] at this

/-- C87: walls, roof and stoppers cover the same rectangles of the screen at every moment of a game, and the ball is a
disc of the same radius. -/
theorem C87_scenery_stays (lcp : LcpSolver) (mi fuel : ℕ) (pairs : List Body → List (ℕ × ℕ)) (hbp : BroadPhase pairs)
    (hx : Exact lcp)
    (fnd : Finder) (paddle : BoxParams) (blocks : List BoxParams) (ball : BallParams) (vel : V2) (hp : GoodBox paddle)
    (hb : ∀ b ∈ blocks, GoodBox b) (hr : 1 / 1000000 < ball.rad) (w0 w : World (Option Mat) Finder)
    (h : make_world lcp mi (gameSearch fuel blocks.length pairs) fnd paddle blocks ball vel = .done w0)
    (hplay : Play (breakoutEnv lcp mi (gameSearch fuel blocks.length pairs)) 1 (fun _ => True) w0 w) :
    bodyRegion (bodyAt w.bodies 0) = {x | Spec.dist x (bodyAt w.bodies 0).pos ≤ ball.rad} ∧
    bodyRegion (bodyAt w.bodies 2) = Set.Icc (0, 0) (8, 189) ∧
    bodyRegion (bodyAt w.bodies 3) = Set.Icc (152, 0) (160, 195) ∧
    bodyRegion (bodyAt w.bodies 4) = Set.Icc (8, 0) (152, 31) ∧
    bodyRegion (bodyAt w.bodies 5) = Set.Icc (0, 189) (8, 195) ∧
    bodyRegion (bodyAt w.bodies 6) = Set.Icc (160, 189) (168, 195) ∧
    ∀ (k : ℕ) (hk : k < blocks.length), bodyRegion (bodyAt w.bodies (7 + k)) = boxArea blocks[k] := by
  have hl := rejectNan_library fuel (breakoutNc blocks.length) pairs
  have hnc : ∀ i j, i ∈ breakoutNc blocks.length j → j ∈ breakoutNc blocks.length i := by
    intro i j hij
    rw [C76_excluded_pairs] at hij ⊢
    exact hij.symm
  have hgf := C76_library_search fuel blocks.length pairs hbp.valid
  obtain ⟨hs, hbod, ht⟩ := game_scene lcp mi fuel pairs hbp _ fnd paddle blocks ball vel hl hp hb hr w0 h
  have hlen : w0.bodies.length = 7 + blocks.length := by rw [hbod, game_length]
  have hrun := (C86_run_bounds_overlap fuel _ hnc pairs hbp _ hl 1 w0 w hs hplay).2.2.2
  rw [hbod] at hrun
  have hrest := C76_scenery_rests lcp mi _ fnd paddle blocks ball vel (by linarith) hgf hx w0 w h hplay
  have key : ∀ i, 2 ≤ i → i < 7 + blocks.length → ∀ e b, bodyAt (gameBodies paddle blocks ball vel) i = plate e b →
      GoodBox b → bodyRegion (bodyAt w.bodies i) = boxArea b := by
    intro i h2 hi e b he hg
    obtain ⟨ops, ho⟩ := hrun i (by rw [game_length]; exact hi)
    rw [he] at ho
    rw [ho]
    refine plate_region e b hg.1 hg.2.2.1 ops ?_
    rw [← ho, (hrest i h2 hi).1, he]
  refine ⟨?_, ?_, ?_, ?_, ?_, ?_, ?_⟩
  · obtain ⟨ops, ho⟩ := hrun 0 (by rw [game_length]; omega)
    have hs0 : (bodyAt w.bodies 0).shape = .circle ball.rad := by
      rw [ho]; exact run_circle _ rfl ops
    ext x
    unfold bodyRegion
    rw [hs0]
  · rw [key 2 (by omega) (by omega) 1 leftWall rfl (by norm_num [GoodBox, leftWall])]
    norm_num [boxArea, leftWall]
  · rw [key 3 (by omega) (by omega) 1 rightWall rfl (by norm_num [GoodBox, rightWall])]
    norm_num [boxArea, rightWall]
  · rw [key 4 (by omega) (by omega) 1 roof rfl (by norm_num [GoodBox, roof])]
    norm_num [boxArea, roof]
  · rw [key 5 (by omega) (by omega) (-1) leftStopper rfl (by norm_num [GoodBox, leftStopper])]
    norm_num [boxArea, leftStopper]
  · rw [key 6 (by omega) (by omega) (-1) rightStopper rfl (by norm_num [GoodBox, rightStopper])]
    norm_num [boxArea, rightStopper]
  · intro k hk
    exact key (7 + k) (by omega) (by omega) 1 _ (game_block _ _ _ _ k hk) (hb _ (List.getElem_mem hk))

/-! ## The ball stays -/

/-- The centre of a ball of radius `r` that reaches neither into a wall nor into the roof by more than `t`. -/
def InCourt (r t : ℝ) (c : V2) : Prop := 8 + r - t ≤ c.1 ∧ c.1 ≤ 152 - r + t ∧ 31 + r - t ≤ c.2

/-- A move of the game during which the ball is displaced by less than the thickness of a wall and after which it is
still above the lower end of the left wall. -/
def CourtMove (env : Env (Option Mat) Finder) (w w' : World (Option Mat) Finder) : Prop :=
  PlayStep env 1 (fun _ => True) w w' ∧ Spec.dist (bodyAt w'.bodies 0).pos (bodyAt w.bodies 0).pos < 8 ∧
    (bodyAt w'.bodies 0).pos.2 < 189 - 1 / 1000000

/-- C87: a ball that starts between the walls, below the roof and above the lower end of the left wall, and that is never
displaced by 8 or more in a step, stays there as long as it does not drop below: it passes neither through the walls nor
through the roof, whatever the paddle does and whatever it hits. -/
theorem C87_ball_stays_in_court (lcp : LcpSolver) (mi fuel : ℕ) (pairs : List Body → List (ℕ × ℕ))
    (hbp : BroadPhase pairs) (hx : Exact lcp)
    (fnd : Finder) (paddle : BoxParams) (blocks : List BoxParams) (ball : BallParams) (vel : V2) (hp : GoodBox paddle)
    (hb : ∀ b ∈ blocks, GoodBox b) (hr : 2 / 1000000 < ball.rad) (w0 w : World (Option Mat) Finder)
    (h : make_world lcp mi (gameSearch fuel blocks.length pairs) fnd paddle blocks ball vel = .done w0)
    (h1 : 8 ≤ ball.px) (h2 : ball.px ≤ 152) (h3 : 31 ≤ ball.py) (h4 : ball.py < 189 - 1 / 1000000)
    (hplay : Relation.ReflTransGen (CourtMove (breakoutEnv lcp mi (gameSearch fuel blocks.length pairs))) w0 w) :
    InCourt ball.rad (1 / 1000000) (bodyAt w.bodies 0).pos := by
  have clear : ∀ w, Play (breakoutEnv lcp mi (gameSearch fuel blocks.length pairs)) 1 (fun _ => True) w0 w →
      0 ≤ (bodyAt w.bodies 0).pos.1 → (bodyAt w.bodies 0).pos.1 ≤ 160 → 16 ≤ (bodyAt w.bodies 0).pos.2 →
      (bodyAt w.bodies 0).pos.2 < 189 - 1 / 1000000 → InCourt ball.rad (1 / 1000000) (bodyAt w.bodies 0).pos := by
    intro w hw a1 a2 a3 a4
    obtain ⟨r0, r2, r3, r4, -⟩ := C87_scenery_stays lcp mi fuel pairs hbp hx fnd paddle blocks ball vel hp hb
      (by linarith) w0 w h hw
    have ov := C87_nothing_overlaps lcp mi fuel pairs hbp fnd paddle blocks ball vel hp hb (by linarith) w0 w h hw
    have o2 := ov 0 2 (by omega) (by omega) (by omega) (by unfold NoTouch; omega)
    have o3 := ov 0 3 (by omega) (by omega) (by omega) (by unfold NoTouch; omega)
    have o4 := ov 0 4 (by omega) (by omega) (by omega) (by unfold NoTouch; omega)
    rw [r0, r2] at o2
    rw [r0, r3] at o3
    rw [r0, r4] at o4
    have k2 := (disc_beside_box (by linarith) (by norm_num) (by norm_num) o2).1 (by simp only; linarith) a4
    have k3 := (disc_beside_box (by linarith) (by norm_num) (by norm_num) o3).1 (by simp only; linarith)
      (by simp only; linarith)
    have b2 : 8 + ball.rad - 1 / 1000000 ≤ (bodyAt w.bodies 0).pos.1 := by
      rcases k2 with k | k
      · simp only at k; linarith
      · exact k
    have b3 : (bodyAt w.bodies 0).pos.1 ≤ 152 - ball.rad + 1 / 1000000 := by
      rcases k3 with k | k
      · exact k
      · simp only at k; linarith
    have k4 := (disc_beside_box (by linarith) (by norm_num) (by norm_num) o4).2 (by simp only; linarith)
      (by simp only; linarith)
    refine ⟨b2, b3, ?_⟩
    rcases k4 with k | k
    · simp only at k; linarith
    · exact k
  have key : Play (breakoutEnv lcp mi (gameSearch fuel blocks.length pairs)) 1 (fun _ => True) w0 w ∧
      InCourt ball.rad (1 / 1000000) (bodyAt w.bodies 0).pos := by
    induction hplay with
    | refl =>
      have hl := rejectNan_library fuel (breakoutNc blocks.length) pairs
      obtain ⟨-, hbod, -⟩ := game_scene lcp mi fuel pairs hbp _ fnd paddle blocks ball vel hl hp hb (by linarith) w0 h
      have hpos : (bodyAt w0.bodies 0).pos = (ball.px, ball.py) := by rw [hbod]; rfl
      refine ⟨.refl, clear w0 .refl ?_ ?_ ?_ ?_⟩ <;> rw [hpos] <;> simp only <;> linarith
    | @tail wa wb _ hs ih =>
      obtain ⟨hpl, c1, c2, c3⟩ := ih
      obtain ⟨hs, hd, hy⟩ := hs
      have d1 := (abs_fst_le_len ((bodyAt wb.bodies 0).pos - (bodyAt wa.bodies 0).pos)).trans hd.le
      have d2 := (abs_snd_le_len ((bodyAt wb.bodies 0).pos - (bodyAt wa.bodies 0).pos)).trans hd.le
      rw [abs_le] at d1 d2
      simp only [Prod.fst_sub, Prod.snd_sub] at d1 d2
      exact ⟨hpl.tail hs, clear wb (hpl.tail hs) (by linarith) (by linarith) (by linarith) hy⟩
  exact key.2

/-- A move of the game that starts without a contact of ball and paddle, is not longer than one unit of time, and after
which the ball is still above the lower end of the left wall. -/
def FreeMove (env : Env (Option Mat) Finder) (w w' : World (Option Mat) Finder) : Prop :=
  (((∀ c ∈ w.contacts, ¬ BallPaddle c) ∧ ∃ n dt, 0 ≤ dt ∧ dt ≤ 1 ∧ w.step_dt env n dt = .done w') ∨
    ∃ v : Vec, (∀ k, k / 3 ≠ 1 → v k = w.v k) ∧ w' = w.set_v v) ∧ (bodyAt w'.bodies 0).pos.2 < 189 - 1 / 1000000

/-- C87: in particular a ball thrown with a speed below 8 never leaves the court sideways or upwards until the paddle
touches it. -/
theorem C87_slow_ball_stays (lcp : LcpSolver) (mi fuel : ℕ) (pairs : List Body → List (ℕ × ℕ))
    (hbp : BroadPhase pairs) (hx : Exact lcp)
    (fnd : Finder) (paddle : BoxParams) (blocks : List BoxParams) (ball : BallParams) (vel : V2) (hp : GoodBox paddle)
    (hb : ∀ b ∈ blocks, GoodBox b) (hr : 2 / 1000000 < ball.rad) (hv : len vel < 8) (w0 w : World (Option Mat) Finder)
    (h : make_world lcp mi (gameSearch fuel blocks.length pairs) fnd paddle blocks ball vel = .done w0)
    (h1 : 8 ≤ ball.px) (h2 : ball.px ≤ 152) (h3 : 31 ≤ ball.py) (h4 : ball.py < 189 - 1 / 1000000)
    (hplay : Relation.ReflTransGen (FreeMove (breakoutEnv lcp mi (gameSearch fuel blocks.length pairs))) w0 w) :
    InCourt ball.rad (1 / 1000000) (bodyAt w.bodies 0).pos := by
  refine C87_ball_stays_in_court lcp mi fuel pairs hbp hx fnd paddle blocks ball vel hp hb hr w0 w h h1 h2 h3 h4 ?_
  have hgf := C76_library_search fuel blocks.length pairs hbp.valid
  obtain ⟨h0, -, -, -, hbod⟩ := C76_constructed lcp mi _ fnd paddle blocks ball vel w0 (by linarith) hgf h
  have hv0 : w0.v 1 ^ 2 + w0.v 2 ^ 2 = len vel ^ 2 := by
    have e := bodyAt_vel h0.inv.good 0 (by rw [h0.len]; omega)
    rw [hbod] at e
    have e1 : w0.v 1 = vel.1 := congrArg V3.x e.symm
    have e2 : w0.v 2 = vel.2 := congrArg V3.y e.symm
    rw [e1, e2, len, Real.sq_sqrt (by positivity)]
  have key : Play (breakoutEnv lcp mi (gameSearch fuel blocks.length pairs)) 1
      (fun w => ∀ c ∈ w.contacts, ¬ BallPaddle c) w0 w ∧
      Relation.ReflTransGen (CourtMove (breakoutEnv lcp mi (gameSearch fuel blocks.length pairs))) w0 w := by
    induction hplay with
    | refl => exact ⟨.refl, .refl⟩
    | @tail wa wb _ hs ih =>
      obtain ⟨ih1, ih2⟩ := ih
      have hg := play_inv hgf hx h0 ih1
      obtain ⟨hs, hy⟩ := hs
      rcases hs with ⟨hnb, n, dt, d0, d1, hs⟩ | ⟨v, hv', rfl⟩
      · have hpl : Play (breakoutEnv lcp mi (gameSearch fuel blocks.length pairs)) 1
            (fun w => ∀ c ∈ w.contacts, ¬ BallPaddle c) w0 wb := ih1.tail (Or.inl ⟨hnb, n, dt, hs⟩)
        refine ⟨hpl, ih2.tail ⟨Or.inl ⟨trivial, n, dt, hs⟩, ?_, hy⟩⟩
        have hsp := (C76_ball_keeps_speed lcp mi _ hgf hx w0 wb h0 hpl).1
        rw [hv0] at hsp
        have hpose := game_pose hg hs 0 (by omega)
        obtain ⟨e, v, k, -, -, ht, -⟩ := C21_step_exact _ n wa wb dt hg.inv.good hg.noPost hs
        have hd : (bodyAt wb.bodies 0).pos - (bodyAt wa.bodies 0).pos = (wb.t - wa.t) • (wb.v 1, wb.v 2) := by
          unfold Body.pos
          rw [hpose]
          ext <;> simp [V3.xy, twist]
        have hlen : len (wb.v 1, wb.v 2) = len vel := by
          have e1 : len ((wb.v 1, wb.v 2) : V2) ^ 2 = len vel ^ 2 := by
            rw [← hsp, len, Real.sq_sqrt (by positivity)]
          exact (sq_eq_sq₀ (len_nonneg _) (len_nonneg _)).1 e1
        unfold Spec.dist
        rw [hd, len_smul, hlen, ht, add_sub_cancel_left]
        have hk : |dt / 2 ^ k| ≤ 1 := by
          rw [abs_of_nonneg (by positivity)]
          exact (div_le_self d0 (one_le_pow₀ (by norm_num))).trans d1
        have := mul_le_mul hk le_rfl (len_nonneg vel) (by norm_num)
        linarith
      · refine ⟨ih1.tail (Or.inr ⟨v, hv', rfl⟩), ih2.tail ⟨Or.inr ⟨v, hv', rfl⟩, ?_, hy⟩⟩
        have : (bodyAt (wa.set_v v).bodies 0).pos = (bodyAt wa.bodies 0).pos := by
          unfold Body.pos
          rw [bodyAt_of_map (set_v_poses wa v) 0]
        rw [this, Spec.dist_self]
        norm_num
  exact key.2

/-! ## One call of `step_breakout` -/

/-- C76: `step_breakout` gives the paddle the linear velocity `action * (vx, vy)`, leaves its spin and all other
velocities, and then lets the world run for exactly `dt`. -/
theorem C76_step_breakout {σ φ : Type} (env : Env σ φ) (fuel sub : ℕ) (w w' : World σ φ) (action vx vy : ℝ)
    (hg : w.Good) (hdt : 0 ≤ w.dt) (h : step_breakout env fuel sub w action vx vy = .done w') :
    ∃ v : Vec, twist v 1 = ⟨w.v 3, action * vx, action * vy⟩ ∧ (∀ k, k / 3 ≠ 1 → v k = w.v k) ∧
      (w.set_v v).step env fuel sub true = .done w' ∧ w'.t = w.t + w.dt ∧ Play env 1 (fun _ => True) w w' := by
  unfold step_breakout at h
  simp only at h
  refine ⟨_, ?_, ?_, h, ?_, ?_⟩
  · apply V3.ext <;> simp [twist, mul_comm]
  · intro k hk
    have h4 : k ≠ 1 * 3 + 1 := by rintro rfl; exact hk rfl
    have h5 : k ≠ 1 * 3 + 2 := by rintro rfl; exact hk rfl
    simp [h4, h5]
  · exact C24_fixed_step_exact_time env fuel sub (w.set_v _) w' (good_set_v hg _ w.eng) hdt h
  · unfold World.step at h
    rw [if_pos rfl] at h
    refine .head (Or.inr ⟨_, ?_, rfl⟩) (reaches_play (fixedLoop_reaches _ _ _ h))
    intro k hk
    have h4 : k ≠ 1 * 3 + 1 := by rintro rfl; exact hk rfl
    have h5 : k ≠ 1 * 3 + 2 := by rintro rfl; exact hk rfl
    simp [h4, h5]

/-! ## A concrete game -/

theorem boxPairs_broad : BroadPhase boxPairs where
  valid bs p hp := by
    have := (allPairs_mem bs p.1 p.2).1 (List.mem_of_mem_filter hp)
    omega
  complete bs i j hi hj hij h := by
    rcases lt_or_gt_of_ne hij with hlt | hlt
    · exact .inl (List.mem_filter.2 ⟨(allPairs_mem bs i j).2 (by omega), by simpa using h⟩)
    · refine .inr (List.mem_filter.2 ⟨(allPairs_mem bs j i).2 (by omega), ?_⟩)
      obtain ⟨⟨x, hx, y, hy, e⟩, x', hx', y', hy', e'⟩ := h
      exact (@decide_eq_true _ (Classical.propDecidable _)) (⟨⟨y, hy, x, hx, e.symm⟩, y', hy', x', hx', e'.symm⟩ : AabbOverlap _ _)

/-- If every reported pair is excluded, no contact is found. -/
theorem handleAll_excluded (fuel : ℕ) (nc : ℕ → List ℕ) (eps : ℝ) (bs : List Body) (f : Finder) :
    ∀ ps : List (ℕ × ℕ), (∀ p ∈ ps, p.1 ∈ nc p.2) → handleAll fuel nc eps bs ps f = .done (f, [])
  | [], _ => rfl
  | p :: ps, h => by
    unfold handleAll handle
    rw [if_pos (h p (List.mem_cons_self ..))]
    simp only [Run.bind]
    rw [handleAll_excluded fuel nc eps bs f ps fun q hq => h q (List.mem_cons_of_mem _ hq)]
    rfl

/-- The range of coordinates a rectangle's geometry covers. -/
theorem plate_range (e : ℝ) (b : BoxParams) (x : V2) (hx : x ∈ geomRegion (plate e b).geom) :
    b.px - b.w / 2 - 1 / 10 ≤ x.1 ∧ x.1 ≤ b.px + b.w / 2 + 1 / 10 ∧
      b.py - b.h / 2 - 1 / 10 ≤ x.2 ∧ x.2 ≤ b.py + b.h / 2 + 1 / 10 := by
  simp only [geomRegion, plate, rectBase, Arg.toV3, V3.xy, boxRegion, Set.mem_ofPred_eq, Prod.fst_sub, Prod.snd_sub,
    abs_le] at hx
  obtain ⟨⟨h1, h2⟩, h3, h4⟩ := hx
  refine ⟨?_, ?_, ?_, ?_⟩ <;> linarith

theorem ball_range (b : BallParams) (vel : V2) (x : V2) (hx : x ∈ geomRegion (ballBody b vel).geom) :
    b.px - b.rad - 1 / 10 ≤ x.1 ∧ x.1 ≤ b.px + b.rad + 1 / 10 ∧
      b.py - b.rad - 1 / 10 ≤ x.2 ∧ x.2 ≤ b.py + b.rad + 1 / 10 := by
  have h : Spec.dist x (b.px, b.py) ≤ b.rad + 1 / 10 := by
    have : Spec.dist x (b.px, b.py) ≤ b.rad + 0.1 := hx
    norm_num at this ⊢
    exact this
  have h1 := (abs_fst_le_len (x - (b.px, b.py))).trans h
  have h2 := (abs_snd_le_len (x - (b.px, b.py))).trans h
  simp only [Prod.fst_sub, Prod.snd_sub, abs_le] at h1 h2
  refine ⟨?_, ?_, ?_, ?_⟩ <;> linarith

/-- The pairs that may touch if there are no blocks. -/
theorem open_pairs : ∀ j < 7, ∀ i < j, ¬ (NoTouch 0 i j ∨ NoTouch 0 j i) →
    (i = 0 ∧ j = 1) ∨ (i = 0 ∧ j = 2) ∨ (i = 0 ∧ j = 3) ∨ (i = 0 ∧ j = 4) ∨ (i = 1 ∧ j = 5) ∨ (i = 1 ∧ j = 6) ∨
      (i = 2 ∧ j = 3) ∨ (i = 2 ∧ j = 6) ∨ (i = 3 ∧ j = 5) ∨ (i = 4 ∧ j = 5) ∨ (i = 4 ∧ j = 6) ∨ (i = 5 ∧ j = 6) := by
  intro j hj i hi
  interval_cases j <;> interval_cases i <;> simp [NoTouch]

/-- A ball in the middle of the screen, no blocks left: nothing touches. -/
theorem open_game_search (fuel : ℕ) (f : Finder) (vel : V2) :
    gameSearch fuel 0 boxPairs (1 / 10) f (gameBodies ⟨80, 191, 16, 4⟩ [] ⟨80, 100, 1⟩ vel) = .ok (f, []) := by
  have h : diffCollide fuel (breakoutNc 0) boxPairs (1 / 10) f (gameBodies ⟨80, 191, 16, 4⟩ [] ⟨80, 100, 1⟩ vel) =
      .ok (f, []) := by
    unfold diffCollide
    rw [handleAll_excluded]
    · rfl
    · intro p hp
      obtain ⟨hm, ho⟩ := List.mem_filter.1 hp
      have hr := (allPairs_mem _ p.1 p.2).1 hm
      rw [game_length] at hr
      rw [C76_excluded_pairs]
      by_contra hne
      have ho := @of_decide_eq_true _ (Classical.propDecidable _) ho
      obtain ⟨⟨x, hx, y, hy, e⟩, x', hx', y', hy', e'⟩ := ho
      obtain ⟨i, j⟩ := p
      simp only [List.length_nil] at hr
      have b0 := ball_range ⟨80, 100, 1⟩ vel
      have b1 := plate_range 1 ⟨80, 191, 16, 4⟩
      have b2 := plate_range 1 leftWall
      have b3 := plate_range 1 rightWall
      have b4 := plate_range 1 roof
      have b5 := plate_range (-1) leftStopper
      have b6 := plate_range (-1) rightStopper
      simp only [leftWall, rightWall, roof, leftStopper, rightStopper] at b2 b3 b4 b5 b6
      rcases open_pairs j (by omega) i (by omega) hne with ⟨rfl, rfl⟩ | ⟨rfl, rfl⟩ | ⟨rfl, rfl⟩ | ⟨rfl, rfl⟩ | ⟨rfl, rfl⟩ | ⟨rfl, rfl⟩ | ⟨rfl, rfl⟩ |
        ⟨rfl, rfl⟩ | ⟨rfl, rfl⟩ | ⟨rfl, rfl⟩ | ⟨rfl, rfl⟩ | ⟨rfl, rfl⟩
      · have q1 := b0 x' hx'; have q2 := b1 y' hy'; rw [e'] at q1; norm_num at q1 q2; linarith
      · have q1 := b0 x hx; have q2 := b2 y hy; rw [e] at q1; norm_num at q1 q2; linarith
      · have q1 := b0 x hx; have q2 := b3 y hy; rw [e] at q1; norm_num at q1 q2; linarith
      · have q1 := b0 x' hx'; have q2 := b4 y' hy'; rw [e'] at q1; norm_num at q1 q2; linarith
      · have q1 := b1 x hx; have q2 := b5 y hy; rw [e] at q1; norm_num at q1 q2; linarith
      · have q1 := b1 x hx; have q2 := b6 y hy; rw [e] at q1; norm_num at q1 q2; linarith
      · have q1 := b2 x hx; have q2 := b3 y hy; rw [e] at q1; norm_num at q1 q2; linarith
      · have q1 := b2 x hx; have q2 := b6 y hy; rw [e] at q1; norm_num at q1 q2; linarith
      · have q1 := b3 x hx; have q2 := b5 y hy; rw [e] at q1; norm_num at q1 q2; linarith
      · have q1 := b4 x' hx'; have q2 := b5 y' hy'; rw [e'] at q1; norm_num at q1 q2; linarith
      · have q1 := b4 x hx; have q2 := b6 y hy; rw [e] at q1; norm_num at q1 q2; linarith
      · have q1 := b5 x hx; have q2 := b6 y hy; rw [e] at q1; norm_num at q1 q2; linarith
  unfold gameSearch rejectNan
  rw [h]
  simp

/-- A game without blocks, the ball in the middle: whatever the player does, as long as the ball has not come down to the
paddle it is in the court, and nothing that may touch overlaps. -/
example (fuel : ℕ) (f : Finder) : ∃ w0, make_world exactLcp 10 (gameSearch fuel 0 boxPairs) f ⟨80, 191, 16, 4⟩ []
    ⟨80, 100, 1⟩ (1, 2) = .done w0 ∧
    ∀ w, Relation.ReflTransGen (FreeMove (breakoutEnv exactLcp 10 (gameSearch fuel 0 boxPairs))) w0 w →
      InCourt 1 (1 / 1000000) (bodyAt w.bodies 0).pos := by
  obtain ⟨w0, h0, -⟩ := C76_make_world_returns exactLcp 10 (gameSearch fuel 0 boxPairs) f ⟨80, 191, 16, 4⟩ []
    ⟨80, 100, 1⟩ (1, 2) (by norm_num) (by simp) f [] (open_game_search fuel f _) (by simp)
  refine ⟨w0, h0, fun w hw => ?_⟩
  refine C87_slow_ball_stays exactLcp 10 fuel boxPairs boxPairs_broad exactLcp_exact f ⟨80, 191, 16, 4⟩ [] ⟨80, 100, 1⟩
    (1, 2) (by unfold GoodBox; norm_num) (by simp) (by norm_num) ?_ w0 w h0 (by norm_num) (by norm_num) (by norm_num)
    (by norm_num) hw
  rw [len, show (8 : ℝ) = Real.sqrt (8 ^ 2) from (Real.sqrt_sq (by norm_num)).symm]
  exact Real.sqrt_lt_sqrt (by norm_num) (by norm_num)

end LcpPhysics
