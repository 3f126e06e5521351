import Verif.Props.BreakoutWorld

/-!
# C77: the paddle in the frame, and from the frame to the world
-/

noncomputable section

namespace LcpPhysics
open Spec Breakout

theorem foldr_max_mem : ∀ l : List ℕ, l ≠ [] → l.foldr max 0 ∈ l
  | [], h => absurd rfl h
  | [a], _ => by simp
  | a :: b :: l, _ => by
    have ih := foldr_max_mem (b :: l) (by simp)
    rw [List.foldr_cons]
    rcases le_total a ((b :: l).foldr max 0) with h | h
    · rw [max_eq_right h]; exact List.mem_cons_of_mem _ ih
    · rw [max_eq_left h]; simp

theorem le_foldr_max : ∀ (l : List ℕ) (a : ℕ), a ∈ l → a ≤ l.foldr max 0
  | b :: l, a, h => by
    rw [List.foldr_cons]
    rcases List.mem_cons.1 h with rfl | h
    · exact le_max_left _ _
    · exact (le_foldr_max l a h).trans (le_max_right _ _)

/-- The first index of the largest entry. -/
theorem argmaxN_range (n : ℕ) (hn : 0 < n) (q : ℕ → ℕ) :
    argmaxN ((List.range n).map q) < n ∧ (∀ j < n, q j ≤ q (argmaxN ((List.range n).map q))) ∧
      ∀ j < argmaxN ((List.range n).map q), q j < q (argmaxN ((List.range n).map q)) := by
  set l := (List.range n).map q with hl
  have hlen : l.length = n := by simp [hl]
  have hmem := foldr_max_mem l (by intro h; rw [h] at hlen; simp at hlen; omega)
  have hle := le_foldr_max l
  have hlt : argmaxN l < l.length := by
    unfold argmaxN
    rw [List.findIdx_lt_length]
    exact ⟨_, hmem, by simp⟩
  have hget : ∀ (j : ℕ) (hj : j < l.length), l[j] = q j := by intro j hj; simp [hl]
  have hval : q (argmaxN l) = l.foldr max 0 := by
    have h : (fun a => a == l.foldr max 0) (l[argmaxN l]'hlt) = true := List.findIdx_getElem (w := hlt)
    rw [hget] at h
    simpa using h
  refine ⟨by omega, ?_, ?_⟩
  · intro j hj
    rw [hval, ← hget j (by omega)]
    exact hle _ (List.getElem_mem _)
  · intro j hj
    have hj' : j < l.length := by omega
    have := List.not_of_lt_findIdx (p := fun a => a == l.foldr max 0) (i := j) hj
    rw [hget j hj', ← hval] at this
    have h2 := hle _ (List.getElem_mem hj')
    rw [hget j hj', ← hval] at h2
    have h3 : q j ≠ q (argmaxN l) := by simpa using this
    omega

theorem row_drop (fr : Frame) (i x : ℕ) :
    (fr.row i).drop x = (List.range (fr.width - x)).map fun j => fr.px i (x + j) := by
  apply List.ext_getElem
  · simp [Frame.row]
  · intro j h1 h2
    simp [Frame.row]

theorem row_getD (fr : Frame) (i x : ℕ) (h : x < fr.width) : (fr.row i).getD x 0 = fr.px i x := by
  simp [Frame.row, List.getD_eq_getElem?_getD, h]

/-- The first column of the largest value in row 189. -/
def firstMax (fr : Frame) : ℕ := argmaxN (fr.row 189)

theorem firstMax_spec (fr : Frame) (hw : 0 < fr.width) (m : ℕ) (hm : m < fr.width)
    (hmax : ∀ j < fr.width, fr.px 189 j ≤ fr.px 189 m) (hfirst : ∀ j < m, fr.px 189 j < fr.px 189 m) :
    firstMax fr = m := by
  obtain ⟨h1, h2, h3⟩ := argmaxN_range fr.width hw (fr.px 189)
  change firstMax fr < _ at h1
  change ∀ j < fr.width, _ ≤ fr.px 189 (firstMax fr) at h2
  change ∀ j < firstMax fr, _ < fr.px 189 (firstMax fr) at h3
  rcases lt_trichotomy (firstMax fr) m with h | h | h
  · have := hfirst _ h
    have := h2 m hm
    omega
  · exact h
  · have := h3 _ h
    have := hmax _ h1
    omega

/-- C77: the search fails exactly if the first maximum of the row is in its last three columns; otherwise it gives a
box of the paddle's height and of a width between 1 and 16 inside the 160 columns. -/
theorem C77_paddle_box (fr : Frame) (hw : fr.width = 160) :
    (findPaddle fr = .error (.raised "IndexError") ↔ 157 ≤ firstMax fr) ∧
    ∀ t l b r, findPaddle fr = .ok (t, l, b, r) → t = 189 ∧ b = 193 ∧ l < r ∧ r ≤ l + 16 ∧ r ≤ 160 := by
  obtain ⟨h1, -, -⟩ := argmaxN_range fr.width (by omega) (fr.px 189)
  change firstMax fr < _ at h1
  unfold findPaddle
  simp only
  rw [show argmaxN (fr.row 189) = firstMax fr from rfl]
  by_cases hx : firstMax fr + 2 + 1 < fr.width
  · rw [if_pos hx]
    refine ⟨⟨fun h => by simp at h, fun h => by omega⟩, ?_⟩
    intro t l b r h
    have hl : l < 160 ∧ r = min (if argminB (((fr.row 189).drop l).map (· == 200)) + l ≠ l then
        argminB (((fr.row 189).drop l).map (· == 200)) + l else 160) (l + 16) ∧ t = 189 ∧ b = 193 := by
      simp only [Except.ok.injEq, Prod.mk.injEq] at h
      obtain ⟨h3, h4, h5, h6⟩ := h
      rw [← h4]
      refine ⟨?_, h6.symm, h3.symm, h5.symm⟩
      split
      · rw [row_drop]
        have := (argmaxN_range (fr.width - (firstMax fr + 2 + 1)) (by omega)
          fun j => fr.px 189 (firstMax fr + 2 + 1 + j)).1
        omega
      · omega
    obtain ⟨hl, hr, ht, hb⟩ := hl
    have ha : argminB (((fr.row 189).drop l).map (· == 200)) ≤ 160 - l := by
      have : argminB (((fr.row 189).drop l).map (· == 200)) =
          argmaxB ((List.range (fr.width - l)).map fun j => !(fr.px 189 (l + j) == 200)) := by
        unfold argminB
        rw [row_drop]
        simp [Function.comp_def]
      rw [this]
      rcases argmaxB_range (fr.width - l) fun j => !(fr.px 189 (l + j) == 200) with ⟨-, h⟩ | ⟨h, -⟩ <;> omega
    refine ⟨ht, hb, ?_⟩
    generalize argminB (((fr.row 189).drop l).map (· == 200)) = m at *
    rw [hr]
    split <;> omega
  · rw [if_neg hx]
    exact ⟨⟨fun _ => by omega, fun _ => rfl⟩, fun t l b r h => by cases h⟩

/-- What the search does once it has settled on a column of the paddle's colour that starts a run. -/
theorem right_of_run (fr : Frame) (hw : fr.width = 160) (l r : ℕ) (hrun : IsRun fr.width (fr.px 189) 200 l r) :
    (if argminB (((fr.row 189).drop l).map (· == 200)) + l ≠ l then
      argminB (((fr.row 189).drop l).map (· == 200)) + l else 160) = r := by
  have hl : l < fr.width := by have := hrun.lt; have := hrun.le; omega
  rcases right_spec fr 189 200 l hl (hrun.color l le_rfl hrun.lt) with ⟨h1, h2⟩ | ⟨h1, h2, h3, h4⟩
  · rw [if_neg (by omega)]
    rcases hrun.right with h | h
    · omega
    · by_contra hne
      have := hrun.le
      exact h (h1 r hrun.lt.le (by omega))
  · rw [if_pos (by omega)]
    set m := argminB (((fr.row 189).drop l).map (· == 200)) + l
    rcases lt_trichotomy m r with h | h | h
    · exact absurd (hrun.color m h1.le h) h3
    · exact h
    · rcases hrun.right with h5 | h5
      · omega
      · exact absurd (h4 r hrun.lt.le h) h5

/-- C77: if nothing on row 189 is brighter than the paddle's colour and the first run of that colour has at least four
columns, it is taken for the paddle, cut to sixteen columns. -/
theorem C77_paddle_exact (fr : Frame) (hw : fr.width = 160) (l r : ℕ)
    (hrun : IsRun fr.width (fr.px 189) 200 l r) (h4 : l + 4 ≤ r) (hmax : ∀ j < 160, fr.px 189 j ≤ 200)
    (hfirst : ∀ j < l, fr.px 189 j ≠ 200) : findPaddle fr = .ok (189, l, 193, min r (l + 16)) := by
  have hle := hrun.le
  have hl200 := hrun.color l le_rfl hrun.lt
  have hx : firstMax fr = l := firstMax_spec fr (by omega) l (by omega)
    (fun j hj => by rw [hl200]; exact hmax j (by omega))
    (fun j hj => by
      rw [hl200]
      have := hmax j (by omega)
      have := hfirst j hj
      omega)
  unfold findPaddle
  simp only
  rw [show argmaxN (fr.row 189) = firstMax fr from rfl, hx, if_pos (by omega), row_getD _ _ _ (by omega),
    hrun.color (l + 2 + 1) (by omega) (by omega)]
  simp only [ne_eq, not_true_eq_false, if_false]
  have := right_of_run fr hw l r hrun
  simp only [ne_eq] at this
  rw [this]

/-- C77: the same if the ball stands left of the paddle on that row: a first spot at `a` whose fourth column is dark
is skipped, and the next run is taken. -/
theorem C77_ball_left_of_paddle (fr : Frame) (hw : fr.width = 160) (a l r : ℕ) (ha : fr.px 189 a = 200)
    (hfirst : ∀ j < a, fr.px 189 j ≠ 200) (hdark : fr.px 189 (a + 3) ≠ 200)
    (hrun : IsRun fr.width (fr.px 189) 200 l r) (hal : a + 3 < l) (hgap : ∀ j, a + 3 ≤ j → j < l → fr.px 189 j ≠ 200)
    (hmax : ∀ j < 160, fr.px 189 j ≤ 200) : findPaddle fr = .ok (189, l, 193, min r (l + 16)) := by
  have hle := hrun.le
  have hlt := hrun.lt
  have hl200 := hrun.color l le_rfl hlt
  have hx : firstMax fr = a := firstMax_spec fr (by omega) a (by omega)
    (fun j hj => by rw [ha]; exact hmax j (by omega))
    (fun j hj => by
      rw [ha]
      have := hmax j (by omega)
      have := hfirst j hj
      omega)
  have hsecond : argmaxN ((fr.row 189).drop (a + 2 + 1)) + a + 2 + 1 = l := by
    rw [row_drop]
    obtain ⟨h1, h2, h3⟩ := argmaxN_range (fr.width - (a + 2 + 1)) (by omega) fun j => fr.px 189 (a + 2 + 1 + j)
    set m := argmaxN ((List.range (fr.width - (a + 2 + 1))).map fun j => fr.px 189 (a + 2 + 1 + j)) with hm
    have h2' := h2 (l - (a + 2 + 1)) (by omega)
    rw [show a + 2 + 1 + (l - (a + 2 + 1)) = l by omega, hl200] at h2'
    have hm200 : fr.px 189 (a + 2 + 1 + m) = 200 := by
      have := hmax (a + 2 + 1 + m) (by omega)
      omega
    rcases lt_trichotomy (a + 2 + 1 + m) l with h | h | h
    · exact absurd hm200 (hgap _ (by omega) h)
    · omega
    · have := h3 (l - (a + 2 + 1)) (by omega)
      rw [show a + 2 + 1 + (l - (a + 2 + 1)) = l by omega, hl200, hm200] at this
      omega
  unfold findPaddle
  simp only
  rw [show argmaxN (fr.row 189) = firstMax fr from rfl, hx, if_pos (by omega), row_getD _ _ _ (by omega),
    if_pos (by rw [show a + 2 + 1 = a + 3 from rfl]; exact hdark), hsecond]
  have := right_of_run fr hw l r hrun
  rw [this]

/-- C77: but with the ball exactly one column left of the paddle the ball is taken for the paddle. -/
theorem C77_ball_taken_for_paddle (fr : Frame) (hw : fr.width = 160) (a : ℕ) (hb : a + 3 < 160)
    (h0 : fr.px 189 a = 200) (h1 : fr.px 189 (a + 1) = 200) (h2 : fr.px 189 (a + 2) ≠ 200)
    (h3 : fr.px 189 (a + 3) = 200) (hfirst : ∀ j < a, fr.px 189 j ≠ 200) (hmax : ∀ j < 160, fr.px 189 j ≤ 200) :
    findPaddle fr = .ok (189, a, 193, a + 2) := by
  have hrun : IsRun fr.width (fr.px 189) 200 a (a + 2) := by
    refine ⟨by omega, by omega, fun j hj hj2 => ?_, ?_, Or.inr h2⟩
    · rcases (by omega : j = a ∨ j = a + 1) with rfl | rfl
      · exact h0
      · exact h1
    · rcases Nat.eq_zero_or_pos a with h | h
      · exact Or.inl h
      · exact Or.inr (hfirst _ (by omega))
  have hx : firstMax fr = a := firstMax_spec fr (by omega) a (by omega)
    (fun j hj => by rw [h0]; exact hmax j (by omega))
    (fun j hj => by
      rw [h0]
      have := hmax j (by omega)
      have := hfirst j hj
      omega)
  unfold findPaddle
  simp only
  rw [show argmaxN (fr.row 189) = firstMax fr from rfl, hx, if_pos (by omega), row_getD _ _ _ (by omega),
    show a + 2 + 1 = a + 3 from rfl, h3]
  simp only [ne_eq, not_true_eq_false, if_false]
  have := right_of_run fr hw a (a + 2) hrun
  simp only [ne_eq] at this
  rw [this, show min (a + 2) (a + 16) = a + 2 by omega]

/-! ## Blocks -/

theorem clear_empty (fr : Frame) (t l b : ℕ) : fr.clear t l b l = fr := by
  unfold Frame.clear
  congr 1
  funext i j
  rw [if_neg (by omega)]

/-- A scan that ends has found proper rectangles. -/
theorem scanRow_proper (top c : ℕ) : ∀ (fuel : ℕ) (fr : Frame) (res : List Corners) (fr' : Frame),
    scanRow top c fuel fr = some (res, fr') → ∀ x ∈ res, ∃ l r, x = (top, l, top + 6, r) ∧ l < r := by
  intro fuel
  induction fuel with
  | zero => intro fr res fr' h; cases h
  | succ n ih =>
    intro fr res fr' h
    unfold scanRow at h
    simp only at h
    split_ifs at h with hpos
    · set left := argmaxB ((fr.row top).map (· == c)) with hleft
      set right := argminB (((fr.row top).drop left).map (· == c)) + left with hright
      have hne : left < right := by
        by_contra hcon
        have he : right = left := by omega
        have hnone : ∀ m, scanRow top c m fr = none := by
          intro m
          induction m with
          | zero => rfl
          | succ m ihm =>
            unfold scanRow
            simp only
            rw [← hleft, if_pos hpos, ← hright, he, clear_empty, ihm]
            rfl
        rw [he, clear_empty, hnone n] at h
        cases h
      rw [Option.map_eq_some_iff] at h
      obtain ⟨⟨r1, f1⟩, hr, he⟩ := h
      injection he with he1 he2
      subst he1
      intro x hx
      rcases List.mem_cons.1 hx with rfl | hx
      · exact ⟨left, right, rfl, hne⟩
      · exact ih _ _ _ hr x hx
    · injection h with h
      injection h with h1 h2
      subst h1
      intro x hx; cases hx

theorem scanBlocks_proper (fuel : ℕ) : ∀ (colors : List ℕ) (top : ℕ) (fr : Frame) (res : List Corners) (fr' : Frame),
    scanBlocks fuel top colors fr = some (res, fr') → ∀ x ∈ res, ∃ k l r, k < colors.length ∧
      x = (top + 6 * k, l, top + 6 * k + 6, r) ∧ l < r
  | [], _, _, _, _, h => by
    injection h with h
    injection h with h1 h2
    subst h1
    intro x hx; cases hx
  | c :: colors, top, fr, res, fr', h => by
    unfold scanBlocks at h
    rw [Option.bind_eq_some_iff] at h
    obtain ⟨⟨r1, f1⟩, h1, h2⟩ := h
    rw [Option.map_eq_some_iff] at h2
    obtain ⟨⟨r2, f2⟩, h3, h4⟩ := h2
    injection h4 with h5 h6
    subst h5
    intro x hx
    rcases List.mem_append.1 hx with hx | hx
    · obtain ⟨l, r, rfl, hlr⟩ := scanRow_proper top c fuel fr r1 f1 h1 x hx
      exact ⟨0, l, r, by simp, by simp, hlr⟩
    · obtain ⟨k, l, r, hk, rfl, hlr⟩ := scanBlocks_proper fuel colors (top + 6) f1 r2 f2 h3 x hx
      refine ⟨k + 1, l, r, by simpa using hk, ?_, hlr⟩
      rw [show top + 6 + 6 * k = top + 6 * (k + 1) by ring]

theorem block_good (k l r : ℕ) (hk : k < 6) (hlr : l < r) :
    GoodBlock (get_pos_dims (57 + 6 * k, l, 57 + 6 * k + 6, r)) := by
  have hlr' : (l : ℝ) < r := by exact_mod_cast hlr
  refine ⟨?_, ?_⟩
  · have : blockLevel (get_pos_dims (57 + 6 * k, l, 57 + 6 * k + 6, r)) = k := by
      unfold blockLevel get_pos_dims
      have e : (((57 + 6 * k + 6 : ℕ) : ℝ) + ((57 + 6 * k : ℕ) : ℝ)) / 2 -
          (((57 + 6 * k + 6 : ℕ) : ℝ) - ((57 + 6 * k : ℕ) : ℝ)) / 2 - 57 = 6 * k := by
        push_cast; ring
      simp only [e]
      rw [mul_div_cancel_left₀ _ (by norm_num)]
      unfold pyInt
      rw [if_pos (by positivity)]
      simp
    rw [this]
    omega
  · simp only [get_pos_dims]
    push_cast
    have : (0 : ℝ) < r - l := by linarith
    nlinarith

/-- C77: whatever frame `extract_params` returns on, `make_world` can build the bodies from its result, directly or
through `to_vector` and `from_vector` (which put a dummy block in an empty list). -/
theorem C77_extracted_world (fuel : ℕ) (fr : Frame) (hw : fr.width = 160) (paddle : BoxParams)
    (blocks : List BoxParams) (ball : BallParams) (h : extract_params fuel fr = .done (paddle, blocks, ball))
    (vel : V2) :
    breakoutBodies paddle blocks ball vel = .ok (gameBodies paddle blocks ball vel) ∧
    breakoutBodies paddle (if blocks = [] then [⟨1000, 60, 1, 1⟩] else blocks) ball vel =
      .ok (gameBodies paddle (if blocks = [] then [⟨1000, 60, 1, 1⟩] else blocks) ball vel) ∧
    0 ≤ ball.rad ∧ ball.rad ≤ 1 := by
  unfold extract_params at h
  rw [Run.bind_eq_done] at h
  obtain ⟨c, hc, h⟩ := h
  rw [Run.ofExcept_eq_done] at hc
  obtain ⟨t, l, b, r⟩ := c
  obtain ⟨rfl, rfl, hlr, -, -⟩ := (C77_paddle_box fr hw).2 t l b r hc
  simp only at h
  generalize hsb : scanBlocks fuel 57 blockColors _ = sb at h
  cases sb with
  | none => cases h
  | some q =>
    obtain ⟨bl, fr2⟩ := q
    simp only at h
    injection h with h
    simp only [Prod.mk.injEq] at h
    obtain ⟨rfl, rfl, rfl⟩ := h
    have hp : 0 < (get_pos_dims (189, l, 193, r)).w * (get_pos_dims (189, l, 193, r)).h := by
      have : (l : ℝ) < r := by exact_mod_cast hlr
      simp only [get_pos_dims]
      push_cast
      have : (0 : ℝ) < r - l := by linarith
      nlinarith
    have hg : ∀ b ∈ bl.map get_pos_dims, GoodBlock b := by
      intro b hb
      obtain ⟨x, hx, rfl⟩ := List.mem_map.1 hb
      obtain ⟨k, l, r, hk, rfl, hlr⟩ := scanBlocks_proper fuel _ _ _ _ _ hsb x hx
      exact block_good k l r (by simpa [blockColors] using hk) hlr
    refine ⟨(C76_bodies _ _ _ _ _).2 ⟨⟨hp, hg⟩, rfl⟩, (C76_bodies _ _ _ _ _).2 ⟨⟨hp, ?_⟩, rfl⟩, ?_⟩
    · split
      · intro b hb
        simp only [List.mem_singleton] at hb
        subst hb
        norm_num [GoodBlock, blockLevel, pyInt]
      · exact hg
    · cases hfb : findBall 200 (Frame.clear fr2 189 (160 - 8) (189 + 6 - 1 + 1) (160 + 1)) with
      | none => simp [ballParams]
      | some c =>
        obtain ⟨i, j, b, r⟩ := c
        have := C69_ball_radius _ 200 i j b r hfb
        rw [hfb] at this
        exact ⟨this.1, this.2.1⟩

/-! ## A ball of radius zero -/

/-- C77: a body without inertia that neither touches anything nor is held makes the system matrix singular, so
`solve_dynamics` raises.  A ball at the border of the frame gets radius zero (C69) and hence inertia zero. -/
theorem C77_no_inertia_raises {φ : Type} (fd : ℕ) (H : ForceHeap) (lcp : LcpSolver) (mi : ℕ)
    (w : World (Option Mat) φ) (dt : ℝ) (hj : JointsOk w) (hc : w.contacts = []) (he : w.eng = none) (i : ℕ)
    (hi : i < w.bodies.length) (hI : (bodyAt w.bodies i).ang_inertia = 0) (hfree : ∀ j ∈ w.joints, j.i1 ≠ i ∧ i ∉ j.i2)
    (hf : ∃ fl, forceCat H w.t w.bodies.length = .ok fl) :
    pdipmSolve fd H lcp mi w dt = .error (.raised "RuntimeError: singular") := by
  obtain ⟨fl, hfl⟩ := hf
  unfold pdipmSolve
  simp only [hfl, hc, if_true, he]
  have : torchInverse (3 * w.bodies.length + w.num_constraints) (systemMatrix w.M w.Je (3 * w.bodies.length)) =
      .error (.raised "RuntimeError: singular") := by
    cases hinv : torchInverse (3 * w.bodies.length + w.num_constraints)
        (systemMatrix w.M w.Je (3 * w.bodies.length)) with
    | error e =>
      unfold torchInverse at hinv
      split_ifs at hinv
      exact hinv.symm ▸ rfl
    | ok inv =>
      exfalso
      set x : Vec := onlyOn (· = i) fun k => if k = 3 * i then 1 else 0 with hxd
      have hx0 : ∀ k, k ≠ 3 * i → x k = 0 := by
        intro k hk
        simp [hxd, onlyOn, hk]
      have hx1 : x (3 * i) = 1 := by simp [hxd, onlyOn]
      have hkern : ∀ r < 3 * w.bodies.length + w.num_constraints,
          mv (systemMatrix w.M w.Je (3 * w.bodies.length)) (3 * w.bodies.length + w.num_constraints) x r = 0 := by
        intro r hr
        obtain ⟨s1, s2⟩ := systemMatrix_mv w.M w.Je (3 * w.bodies.length) w.num_constraints x
        by_cases hlt : r < 3 * w.bodies.length
        · have ht : tmv w.Je w.num_constraints (fun q => x (3 * w.bodies.length + q)) r = 0 := by
            unfold tmv
            refine Finset.sum_eq_zero fun q _ => ?_
            simp only
            rw [hx0 _ (by omega), mul_zero]
          rw [s1 r hlt, ht, sub_zero]
          have hm := M_mv w x (r / 3) (by omega)
          have e : (w.bodies[r / 3]'(by omega)) = bodyAt w.bodies (r / 3) := by
            simp [bodyAt, List.getD_eq_getElem?_getD, show r / 3 < w.bodies.length by omega]
          rcases (by omega : r = 3 * (r / 3) ∨ r = 3 * (r / 3) + 1 ∨ r = 3 * (r / 3) + 2) with h | h | h
          · rw [h, hm.1, e]
            by_cases hri : r / 3 = i
            · rw [hri, hI, zero_mul]
            · rw [hx0 _ (by omega), mul_zero]
          · rw [h, hm.2.1, hx0 _ (by omega), mul_zero]
          · rw [h, hm.2.2, hx0 _ (by omega), mul_zero]
        · obtain ⟨q, rfl⟩ := Nat.exists_eq_add_of_le (not_lt.1 hlt)
          rw [s2 q (by omega)]
          refine (C32_kernel w hj x).2 (fun j hjm y hy => ?_) q (by omega)
          refine jointVel_out (S := (· = i)) ?_ _ y hy
          simp only [holds, decide_eq_true_eq, not_or, not_exists, not_and]
          exact ⟨(hfree j hjm).1, fun k hk hki => (hfree j hjm).2 (hki ▸ hk)⟩
      have h1 := torchInverse_unique hinv (fun _ => 0) x hkern (3 * i) (by omega)
      have h2 := torchInverse_unique hinv (fun _ => 0) (fun _ => 0) (fun r _ => by simp [mv]) (3 * i) (by omega)
      rw [← h2, hx1] at h1
      exact one_ne_zero h1
  rw [this]

/-! ## Examples -/

/-- A frame with the paddle at columns 40 to 55. -/
def paddleFrame : Frame := ⟨210, 160, fun i j => if i = 189 ∧ 40 ≤ j ∧ j < 56 then 200 else 0⟩

theorem paddleFrame_found : findPaddle paddleFrame = .ok (189, 40, 193, 56) := by
  have := C77_paddle_exact paddleFrame rfl 40 56
    ⟨by omega, by simp [paddleFrame], fun j h1 h2 => by simp [paddleFrame, h1, h2], by simp [paddleFrame],
      by simp [paddleFrame]⟩ (by omega)
    (fun j _ => by simp only [paddleFrame]; split <;> omega)
    (fun j hj => by simp only [paddleFrame]; rw [if_neg (by omega)]; omega)
  simpa using this

/-- The ball at columns 20 and 21, the paddle at columns 40 to 55. -/
example : findPaddle ⟨210, 160, fun i j => if i = 189 ∧ (20 ≤ j ∧ j < 22 ∨ 40 ≤ j ∧ j < 56) then 200 else 0⟩ =
    .ok (189, 40, 193, 56) := by
  have := C77_ball_left_of_paddle
    ⟨210, 160, fun i j => if i = 189 ∧ (20 ≤ j ∧ j < 22 ∨ 40 ≤ j ∧ j < 56) then 200 else 0⟩ rfl 20 40 56
    (by simp) (fun j hj => by simp only; rw [if_neg (by omega)]; omega) (by simp)
    ⟨by omega, by simp, fun j h1 h2 => by simp [h1, h2], by simp, by simp⟩ (by omega)
    (fun j h1 h2 => by simp only; rw [if_neg (by omega)]; omega)
    (fun j _ => by simp only; split <;> omega)
  simpa using this

/-- The ball at columns 37 and 38, one column left of the paddle at columns 40 to 55: the box found is the ball's. -/
example : findPaddle ⟨210, 160, fun i j => if i = 189 ∧ (37 ≤ j ∧ j < 39 ∨ 40 ≤ j ∧ j < 56) then 200 else 0⟩ =
    .ok (189, 37, 193, 39) :=
  C77_ball_taken_for_paddle _ rfl 37 (by omega) (by simp) (by simp) (by simp) (by simp)
    (fun j hj => by simp only; rw [if_neg (by omega)]; omega) (fun j _ => by simp only; split <;> omega)

/-- A dark row ending in a bright column cannot be read. -/
example : findPaddle ⟨210, 160, fun i j => if i = 189 ∧ j = 159 then 200 else 0⟩ = .error (.raised "IndexError") := by
  refine (C77_paddle_box _ rfl).1.2 ?_
  rw [firstMax_spec ⟨210, 160, fun i j => if i = 189 ∧ j = 159 then 200 else 0⟩ (by simp) 159 (by simp)
    (fun j hj => by simp only; split <;> simp) (fun j hj => by simp only; rw [if_neg (by omega)]; simp)]
  omega

/-- `extract_params` reads the paddle off the frame with nothing else in it. -/
example : ∃ blocks ball, extract_params 161 paddleFrame = .done (⟨48, 191, 16, 4⟩, blocks, ball) ∧
    breakoutBodies ⟨48, 191, 16, 4⟩ blocks ball (1, 1) = .ok (gameBodies ⟨48, 191, 16, 4⟩ blocks ball (1, 1)) := by
  obtain ⟨res, fr', h, -⟩ := C60_scan_blocks blockColors 57 (paddleFrame.clear 189 40 194 57) (by simp [paddleFrame, Frame.clear])
    (by simp [blockColors])
    (by
      intro k hk
      have h0 : ∀ c ∈ blockColors, (0 : ℕ) ≠ c := by simp [blockColors]
      have := h0 _ (List.getElem_mem hk)
      constructor <;> simp [paddleFrame, Frame.clear] <;> exact this)
  have he : extract_params 161 paddleFrame = .done (⟨48, 191, 16, 4⟩, res.map get_pos_dims,
      ballParams (findBall 200 (fr'.clear 189 (160 - 8) (189 + 6 - 1 + 1) (160 + 1)))) := by
    unfold extract_params
    rw [paddleFrame_found]
    simp only [Run.ofExcept, Run.bind]
    have h' : scanBlocks 161 57 blockColors (paddleFrame.clear 189 40 (193 + 1) (56 + 1)) = some (res, fr') := h
    rw [h']
    norm_num [get_pos_dims]
  exact ⟨_, _, he, (C77_extracted_world 161 paddleFrame rfl _ _ _ he (1, 1)).1⟩

/-- With a ball of radius zero the world is built but its first step raises. -/
example : ∃ w : World (Option Mat) Unit,
    make_world exactLcp 10 (fun _ f _ => .ok (f, [])) () ⟨48, 191, 16, 4⟩ [] ⟨159, 100, 0⟩ (1, 1) = .done w ∧
    w.step_dt (breakoutEnv exactLcp 10 fun _ f _ => .ok (f, [])) 5 1 = .raised (.raised "RuntimeError: singular") := by
  obtain ⟨w, hw, hcs, -, -, -, -, hb, hj, he⟩ := C76_make_world_returns exactLcp 10 (fun _ f _ => .ok (f, []))
    () ⟨48, 191, 16, 4⟩ [] ⟨159, 100, 0⟩ (1, 1) (by norm_num) (by simp) () [] rfl (by simp)
  have hl : w.bodies.length = 7 := by rw [hb, game_length]; rfl
  have hjm : ∀ j ∈ w.joints, 2 ≤ j.i1 ∧ j.i1 < 7 ∧ j.i2 = none := by
    intro j hjm
    rw [hj] at hjm
    obtain ⟨k, hk, rfl⟩ := List.mem_map.1 hjm
    have := List.mem_range.1 hk
    rw [game_length] at this
    simp at this
    exact ⟨by simp [mkTotal], by show k + 2 < 7; omega, rfl⟩
  have := C77_no_inertia_raises 2 breakoutForces exactLcp 10 w 1
    (fun j h => ⟨by rw [hl]; exact (hjm j h).2.1, by simp [(hjm j h).2.2]⟩) hcs he 0 (by omega)
    (by rw [hb]; simp [bodyAt, gameBodies, ballBody, mkCircle, circleInertia])
    (fun j h => ⟨by have := (hjm j h).1; omega, by simp [(hjm j h).2.2]⟩) ⟨_, breakoutForces_cat _ _⟩
  refine ⟨w, hw, ?_⟩
  unfold World.step_dt
  have h2 : (breakoutEnv exactLcp 10 fun _ f _ => .ok (f, [])).solve_dynamics w 1 =
      .error (.raised "RuntimeError: singular") := this
  rw [h2]
  rfl

end LcpPhysics
