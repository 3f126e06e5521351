import Verif.Props.Paddle
import Verif.Spec.Picture

/-!
# C88: reading a drawn screen

`extract_params` on a frame that shows a given picture of the game.
-/

noncomputable section

namespace LcpPhysics
open Spec Breakout

/-! ## One row of blocks, with order and what is left of the frame -/

open Classical in
/-- The frame without the runs `L` of the six rows from `top` on. -/
def eraseRuns (top : ℕ) (L : List (ℕ × ℕ)) (fr : Breakout.Frame) : Breakout.Frame :=
  { fr with px := fun i j => if (top ≤ i ∧ i < top + 6) ∧ ∃ s ∈ L, s.1 ≤ j ∧ j < s.2 then 0 else fr.px i j }

theorem scanRow_runs (top c : ℕ) (hc : c ≠ 0) : ∀ (L : List (ℕ × ℕ)) (fuel : ℕ) (fr : Breakout.Frame), L.length < fuel →
    L.Pairwise (fun a b => a.2 < b.1) → (∀ s ∈ L, 0 < s.1 ∧ s.1 < s.2 ∧ s.2 < fr.width) →
    (∀ j < fr.width, fr.px top j = c ↔ ∃ s ∈ L, s.1 ≤ j ∧ j < s.2) →
    scanRow top c fuel fr = some (L.map fun s => (top, s.1, top + 6, s.2), eraseRuns top L fr)
  | _, 0, _, h, _, _, _ => absurd h (Nat.not_lt_zero _)
  | [], fuel + 1, fr, _, _, _, hpx => by
    unfold scanRow
    simp only
    rcases left_spec fr top c with ⟨hno, hz⟩ | ⟨hlw, hlc, -⟩
    · rw [hz, if_neg (lt_irrefl 0)]
      simp [eraseRuns]
    · simpa using (hpx _ hlw).1 hlc
  | s :: L, fuel + 1, fr, hf, hpw, hin, hpx => by
    obtain ⟨hs, hpw⟩ := List.pairwise_cons.1 hpw
    obtain ⟨h1, h2, h3⟩ := hin s (List.mem_cons_self ..)
    have hbefore : ∀ j < s.1, fr.px top j ≠ c := by
      intro j hj hcj
      obtain ⟨q, hq, hq1, hq2⟩ := (hpx j (by omega)).1 hcj
      rcases List.mem_cons.1 hq with rfl | hq
      · omega
      · have := hs q hq
        omega
    have hcol : ∀ j, s.1 ≤ j → j < s.2 → fr.px top j = c := fun j a b => (hpx j (by omega)).2 ⟨s, List.mem_cons_self .., a, b⟩
    have hafter : fr.px top s.2 ≠ c := by
      intro hcj
      obtain ⟨q, hq, hq1, hq2⟩ := (hpx s.2 h3).1 hcj
      rcases List.mem_cons.1 hq with rfl | hq
      · omega
      · have := hs q hq
        omega
    have hleft : argmaxB ((fr.row top).map (· == c)) = s.1 := by
      rcases left_spec fr top c with ⟨hno, hz⟩ | ⟨hlw, hlc, hlb⟩
      · exact absurd (hcol s.1 le_rfl h2) (hno _ (by omega))
      · rcases lt_trichotomy (argmaxB ((fr.row top).map (· == c))) s.1 with h | h | h
        · exact absurd hlc (hbefore _ h)
        · exact h
        · exact absurd (hcol s.1 le_rfl h2) (hlb _ h)
    have hright : argminB (((fr.row top).drop s.1).map (· == c)) + s.1 = s.2 := by
      rcases right_spec fr top c s.1 (by omega) (hcol s.1 le_rfl h2) with ⟨hall, -⟩ | ⟨hlr, hrw, hrc, hrun⟩
      · exact absurd (hall s.2 h2.le h3) hafter
      · rcases lt_trichotomy (argminB (((fr.row top).drop s.1).map (· == c)) + s.1) s.2 with h | h | h
        · exact absurd (hcol _ hlr.le h) hrc
        · exact h
        · exact absurd (hrun s.2 h2.le h) hafter
    unfold scanRow
    simp only
    rw [hleft, if_pos h1, hright]
    rw [scanRow_runs top c hc L fuel (fr.clear top s.1 (top + 6) s.2) (by simpa using hf) hpw
      (fun q hq => hin q (List.mem_cons_of_mem _ hq)) ?_]
    · simp only [Option.map_some, List.map_cons, Option.some.injEq, Prod.mk.injEq, true_and]
      unfold eraseRuns Frame.clear
      simp only [Breakout.Frame.mk.injEq, true_and]
      funext i j
      by_cases hi : top ≤ i ∧ i < top + 6
      · by_cases hj : s.1 ≤ j ∧ j < s.2
        · simp [hi, hj]
        · have : ¬ (top ≤ i ∧ i < top + 6 ∧ s.1 ≤ j ∧ j < s.2) := fun h => hj h.2.2
          simp only [hi, true_and, List.mem_cons, exists_eq_or_imp, hj, false_or, if_neg this]
          rfl
      · have : ¬ (top ≤ i ∧ i < top + 6 ∧ s.1 ≤ j ∧ j < s.2) := fun h => hi ⟨h.1, h.2.1⟩
        simp [hi, if_neg this]
    · intro j hj
      have hq : (fr.clear top s.1 (top + 6) s.2).px top j = if s.1 ≤ j ∧ j < s.2 then 0 else fr.px top j := by
        simp [Frame.clear]
      rw [hq]
      split_ifs with hsj
      · constructor
        · intro h; exact absurd h.symm hc
        · rintro ⟨q, hq, hq1, hq2⟩
          have := hs q hq
          omega
      · rw [hpx j hj]
        simp only [List.mem_cons, exists_eq_or_imp, hsj, false_or]

open Classical in
/-- The frame without the runs `rows k` of the bands of six rows from `top` on. -/
def eraseRows (top n : ℕ) (rows : ℕ → List (ℕ × ℕ)) (fr : Breakout.Frame) : Breakout.Frame :=
  { fr with px := fun i j => if ∃ k < n, (top + 6 * k ≤ i ∧ i < top + 6 * k + 6) ∧ ∃ s ∈ rows k, s.1 ≤ j ∧ j < s.2 then 0
      else fr.px i j }

theorem scanBlocks_runs (fuel : ℕ) : ∀ (colors : List ℕ) (top : ℕ) (rows : ℕ → List (ℕ × ℕ)) (fr : Breakout.Frame),
    (∀ c ∈ colors, c ≠ 0) →
    (∀ k < colors.length, (rows k).length < fuel ∧ (rows k).Pairwise (fun a b => a.2 < b.1) ∧
      (∀ s ∈ rows k, 0 < s.1 ∧ s.1 < s.2 ∧ s.2 < fr.width)) →
    (∀ k (h : k < colors.length), ∀ j < fr.width, fr.px (top + 6 * k) j = colors[k] ↔ ∃ s ∈ rows k, s.1 ≤ j ∧ j < s.2) →
    scanBlocks fuel top colors fr =
      some ((List.range colors.length).flatMap fun k => (rows k).map fun s => (top + 6 * k, s.1, top + 6 * k + 6, s.2),
        eraseRows top colors.length rows fr)
  | [], top, rows, fr, _, _, _ => by simp [scanBlocks, eraseRows]
  | c :: colors, top, rows, fr, hc, hrow, hpx => by
    obtain ⟨a1, a2, a3⟩ := hrow 0 (by simp)
    unfold scanBlocks
    rw [scanRow_runs top c (hc c (List.mem_cons_self ..)) (rows 0) fuel fr a1 a2 a3 (fun j hj => hpx 0 (by simp) j hj)]
    simp only [Option.bind_some]
    rw [scanBlocks_runs fuel colors (top + 6) (fun k => rows (k + 1)) (eraseRuns top (rows 0) fr)
      (fun d hd => hc d (List.mem_cons_of_mem _ hd)) (fun k hk => hrow (k + 1) (by simpa using hk)) ?_]
    · simp only [Option.map_some, Option.some.injEq, Prod.mk.injEq]
      constructor
      · rw [List.length_cons, List.range_succ_eq_map, List.flatMap_cons, List.flatMap_map]
        congr 1
        refine List.flatMap_congr fun k _ => ?_
        rw [show top + 6 * (k + 1) = top + 6 + 6 * k by ring]
      · unfold eraseRows eraseRuns
        simp only [Breakout.Frame.mk.injEq, true_and]
        funext i j
        have e : (∃ k < (c :: colors).length, (top + 6 * k ≤ i ∧ i < top + 6 * k + 6) ∧ ∃ s ∈ rows k, s.1 ≤ j ∧ j < s.2) ↔
            ((top ≤ i ∧ i < top + 6) ∧ ∃ s ∈ rows 0, s.1 ≤ j ∧ j < s.2) ∨
            ∃ k < colors.length, (top + 6 + 6 * k ≤ i ∧ i < top + 6 + 6 * k + 6) ∧ ∃ s ∈ rows (k + 1), s.1 ≤ j ∧ j < s.2 := by
          constructor
          · rintro ⟨k, hk, h1, h2⟩
            rcases k with _ | k
            · exact .inl ⟨by simpa using h1, h2⟩
            · exact .inr ⟨k, by simpa using hk, by omega, h2⟩
          · rintro (⟨h1, h2⟩ | ⟨k, hk, h1, h2⟩)
            · exact ⟨0, by simp, by simpa using h1, h2⟩
            · exact ⟨k + 1, by simpa using hk, by omega, h2⟩
        by_cases h1 : (top ≤ i ∧ i < top + 6) ∧ ∃ s ∈ rows 0, s.1 ≤ j ∧ j < s.2
        · rw [if_pos (e.2 (.inl h1)), if_pos h1]
          split_ifs <;> rfl
        · rw [if_neg h1]
          by_cases h2 : ∃ k < colors.length, (top + 6 + 6 * k ≤ i ∧ i < top + 6 + 6 * k + 6) ∧ ∃ s ∈ rows (k + 1), s.1 ≤ j ∧ j < s.2
          · rw [if_pos (e.2 (.inr h2)), if_pos h2]
          · rw [if_neg (fun h => (e.1 h).elim h1 h2), if_neg h2]
    · intro k hk j hj
      have h6 : (eraseRuns top (rows 0) fr).px (top + 6 + 6 * k) j = fr.px (top + 6 + 6 * k) j := by
        unfold eraseRuns
        simp only
        rw [if_neg (by omega)]
      rw [h6]
      have := hpx (k + 1) (by simpa using hk) j hj
      rw [show top + 6 * (k + 1) = top + 6 + 6 * k by ring] at this
      simpa using this

theorem runs_short (W : ℕ) : ∀ (L : List (ℕ × ℕ)) (lo : ℕ), L.Pairwise (fun a b => a.2 < b.1) →
    (∀ s ∈ L, lo ≤ s.1 ∧ s.1 < s.2 ∧ s.2 ≤ W) → L.length ≤ W - lo
  | [], _, _, _ => Nat.zero_le _
  | s :: L, lo, hpw, hin => by
    obtain ⟨hs, hpw⟩ := List.pairwise_cons.1 hpw
    have h := hin s (List.mem_cons_self ..)
    have := runs_short W L (s.2) hpw fun q hq =>
      ⟨(hs q hq).le, (hin q (List.mem_cons_of_mem _ hq)).2⟩
    simp only [List.length_cons]
    omega

/-! ## The whole frame -/

open Classical in
/-- What is left of a frame when paddle, blocks and the right stopper are wiped off. -/
def wiped (l : ℕ) (rows : ℕ → List (ℕ × ℕ)) (fr : Breakout.Frame) : Breakout.Frame :=
  (eraseRows 57 6 rows (fr.clear 189 l (193 + 1) (l + 16 + 1))).clear 189 (160 - 8) (189 + 6 - 1 + 1) (160 + 1)

/-- The blocks on given intervals, row by row and from left to right. -/
def blocksOf (rows : ℕ → List (ℕ × ℕ)) : List BoxParams :=
  (List.range 6).flatMap fun k => (rows k).map fun s => ⟨((s.1 : ℝ) + s.2) / 2, 60 + 6 * k, (s.2 : ℝ) - s.1, 6⟩

/-- `extract_params` of a frame with a given paddle and given runs of the block colours in the lines read. -/
theorem extract_runs (fr : Breakout.Frame) (l : ℕ) (rows : ℕ → List (ℕ × ℕ)) (hw : fr.width = 160)
    (hl : l + 16 ≤ 160) (hp : ∀ j, l ≤ j → j < l + 16 → fr.px 189 j = 200) (hmax : ∀ j < 160, fr.px 189 j ≤ 200)
    (hfirst : ∀ j < l, fr.px 189 j ≠ 200)
    (hrow : ∀ k < 6, (rows k).Pairwise (fun a b => a.2 < b.1) ∧ ∀ s ∈ rows k, 0 < s.1 ∧ s.1 < s.2 ∧ s.2 < 160)
    (hpx : ∀ k < 6, ∀ j < 160, fr.px (57 + 6 * k) j = blockRed k ↔ ∃ s ∈ rows k, s.1 ≤ j ∧ j < s.2) :
    extract_params 161 fr =
      .done (⟨l + 8, 191, 16, 4⟩, blocksOf rows, ballParams (findBall 200 (wiped l rows fr))) := by
  have hpad : findPaddle fr = .ok (189, l, 193, l + 16) := by
    obtain ⟨r, h1, h2⟩ : ∃ r, IsRun fr.width (fr.px 189) 200 l r ∧ l + 16 ≤ r := by
      rcases right_spec fr 189 200 l (by omega) (hp l le_rfl (by omega)) with ⟨hall, -⟩ | ⟨hlr, hrw, hrc, hrun⟩
      · refine ⟨160, ⟨by omega, by omega, fun j h1 h2 => hall j h1 (by omega), ?_, .inl hw.symm⟩, hl⟩
        rcases Nat.eq_zero_or_pos l with h | h
        · exact .inl h
        · exact .inr (hfirst _ (by omega))
      · refine ⟨_, ⟨hlr, hrw.le, hrun, ?_, .inr hrc⟩, ?_⟩
        · rcases Nat.eq_zero_or_pos l with h | h
          · exact .inl h
          · exact .inr (hfirst _ (by omega))
        · by_contra hcon
          exact hrc (hp _ hlr.le (by omega))
    rw [C77_paddle_exact fr hw l r h1 (by omega) hmax hfirst, min_eq_right h2]
  have hcol : ∀ k (h : k < blockColors.length), blockColors[k] = blockRed k := by
    intro k h
    have h6 : k < 6 := h
    interval_cases k <;> rfl
  have hscan := scanBlocks_runs 161 blockColors 57 rows (fr.clear 189 l (193 + 1) (l + 16 + 1)) (by simp [blockColors])
    (fun k hk => ⟨by
        have := runs_short 160 (rows k) 0 (hrow k hk).1 fun s hs => ⟨Nat.zero_le _, ((hrow k hk).2 s hs).2.1,
          ((hrow k hk).2 s hs).2.2.le⟩
        omega, (hrow k hk).1, fun s hs => by
          change _ ∧ _ ∧ _ < fr.width
          rw [hw]; exact (hrow k hk).2 s hs⟩)
    (by
      intro k hk j hj
      have h6 : k < 6 := hk
      have : (fr.clear 189 l (193 + 1) (l + 16 + 1)).px (57 + 6 * k) j = fr.px (57 + 6 * k) j := by
        unfold Frame.clear
        simp only
        rw [if_neg (by omega)]
      rw [this, hcol k hk]
      exact hpx k h6 j (by rw [← hw]; exact hj))
  unfold extract_params
  rw [hpad]
  simp only [Run.ofExcept, Run.bind]
  rw [hscan]
  simp only [Run.done.injEq, Prod.mk.injEq]
  refine ⟨?_, ?_, rfl⟩
  · simp only [get_pos_dims, BoxParams.mk.injEq]
    push_cast
    refine ⟨by ring, by norm_num, by ring, by norm_num⟩
  · rw [List.map_flatMap]
    unfold blocksOf
    refine List.flatMap_congr fun k _ => ?_
    rw [List.map_map]
    refine List.map_congr_left fun s _ => ?_
    simp only [Function.comp, get_pos_dims, BoxParams.mk.injEq]
    push_cast
    refine ⟨by ring, by ring, trivial, by ring⟩

/-! ## C88 -/

/-- The line through the paddle. -/
theorem shows_line {fr : Breakout.Frame} {P : Picture} (hs : Shows fr P) (hP : P.Possible)
    (hb : ∀ j, ¬ P.InBall 189 j) :
    (∀ j, P.paddle ≤ j → j < P.paddle + 16 → fr.px 189 j = 200) ∧ (∀ j < 160, fr.px 189 j ≤ 200) ∧
      ∀ j < P.paddle, fr.px 189 j ≠ 200 := by
  have hrow : ∀ k < 6, ∀ j, ¬ P.InRow k 189 j := fun k hk j h => by
    have := h.1; omega
  have hpd := hP.paddle
  refine ⟨fun j h1 h2 => hs.paddle _ _ ⟨⟨by omega, by omega⟩, h1, h2⟩, fun j hj => ?_, fun j hj => ?_⟩
  · by_cases h1 : InBox 189 P.paddle 193 (P.paddle + 16) 189 j
    · exact (hs.paddle _ _ h1).le
    · by_cases h2 : InBox 189 152 195 160 189 j
      · exact (hs.stopper _ _ h2).le
      · exact (hs.rest _ _ h1 h2 (fun k hk => hrow k hk j) (hb j)).1.le
  · refine (hs.rest _ _ (fun h => ?_) (fun h => ?_) (fun k hk => hrow k hk j) (hb j)).1.ne
    · have := h.2; omega
    · have := h.2; omega

/-- The lines the blocks are read from: the colour of the row is on the blocks and, if it is red, on the ball. -/
theorem shows_rows {fr : Breakout.Frame} {P : Picture} (hs : Shows fr P) {k : ℕ} (hk : k < 6) (j : ℕ) :
    (fr.px (57 + 6 * k) j = blockRed k ↔ P.InRow k (57 + 6 * k) j ∨ P.InBall (57 + 6 * k) j ∧ k = 0) := by
  have hpd : ¬ InBox 189 P.paddle 193 (P.paddle + 16) (57 + 6 * k) j := fun h => by have := h.1; omega
  have hst : ¬ InBox 189 152 195 160 (57 + 6 * k) j := fun h => by have := h.1; omega
  constructor
  · intro h
    by_contra hcon
    push Not at hcon
    by_cases hb : P.InBall (57 + 6 * k) j
    · have h2 := hs.ball _ _ hb
      have h3 := hcon.2 hb
      rw [h2] at h
      interval_cases k <;> simp_all [blockRed]
    · refine (hs.rest _ _ hpd hst (fun m hm h' => ?_) hb).2 k hk le_rfl (by omega) h
      have : m = k := by have := h'.1; omega
      exact hcon.1 (this ▸ h')
  · rintro (h | ⟨h, rfl⟩)
    · exact hs.blocks k hk _ _ h
    · exact hs.ball _ _ h

/-- After wiping, red is only on the ball. -/
theorem wiped_red {fr : Breakout.Frame} {P : Picture} (hs : Shows fr P) (i j : ℕ)
    (hd : ∀ t l b r, P.ball = some (t, l, b, r) → InBox t l b r i j →
      (b ≤ 189 ∨ 193 < t) ∧ r ≤ 152 ∧ ∀ k < 6, ¬ P.InRow k i j) :
    ((wiped P.paddle P.rows fr).px i j = 200 ↔ P.InBall i j) := by
  have key : ∀ A B C : Prop, [Decidable A] → [Decidable B] → [Decidable C] → ∀ x : ℕ,
      ((if A then 0 else if B then 0 else if C then 0 else x) = 200 ↔ (¬ A ∧ ¬ B ∧ ¬ C) ∧ x = 200) := by
    intro A B C _ _ _ x
    split_ifs <;> simp [*]
  unfold wiped eraseRows Frame.clear
  simp only
  rw [key]
  constructor
  · rintro ⟨⟨h1, h2, h3⟩, h4⟩
    by_contra hb
    refine absurd h4 (hs.rest i j (fun h => h3 ?_) (fun h => h1 ?_) (fun k hk h => h2 ⟨k, hk, ?_, h.2⟩) hb).1.ne
    · obtain ⟨⟨a, b⟩, c, d⟩ := h
      exact ⟨a, by omega, c, by omega⟩
    · obtain ⟨⟨a, b⟩, c, d⟩ := h
      exact ⟨a, by omega, c, by omega⟩
    · have := h.1; omega
  · intro hb
    obtain ⟨t, l, b, r, e, hbx⟩ := id hb
    obtain ⟨h1, h2, h3⟩ := hd t l b r e hbx
    obtain ⟨⟨a1, a2⟩, a3, a4⟩ := hbx
    refine ⟨⟨fun h => ?_, ?_, fun h => ?_⟩, hs.ball i j hb⟩
    · omega
    · rintro ⟨k, hk, h, h'⟩
      exact h3 k hk ⟨by omega, h'⟩
    · omega

/-- C88: from a frame that shows a picture of the game in which the ball is clear of blocks, of the paddle's rows and of
line 57, `extract_params` reads exactly this picture: the paddle, all blocks from top to bottom and left to right with
their boxes, and the ball's centre and radius, or a ball far below the screen if there is none. -/
theorem C88_reads_picture (fr : Breakout.Frame) (P : Picture) (hs : Shows fr P) (hP : P.Possible) (hc : P.Clear) :
    extract_params 161 fr = .done (⟨P.paddle + 8, 191, 16, 4⟩,
      (List.range 6).flatMap fun k => (P.rows k).map fun s => ⟨((s.1 : ℝ) + s.2) / 2, 60 + 6 * k, (s.2 : ℝ) - s.1, 6⟩,
      match P.ball with
      | some (t, l, b, r) => ⟨((r : ℝ) + l) / 2, ((b : ℝ) + t) / 2, min (min ((r : ℝ) - l) ((b : ℝ) - t) / 2) 1⟩
      | none => ⟨80, 21000, 1⟩) := by
  have hb189 : ∀ j, ¬ P.InBall 189 j := by
    rintro j ⟨t, l, b, r, e, h⟩
    have h1 := hc t l b r e
    have := h.1
    omega
  have hb57 : ∀ j, ¬ P.InBall 57 j := by
    rintro j ⟨t, l, b, r, e, h⟩
    have h1 := hc t l b r e
    have := h.1
    omega
  obtain ⟨l1, l2, l3⟩ := shows_line hs hP hb189
  rw [extract_runs fr P.paddle P.rows hs.width (by have := hP.paddle; omega) l1 l2 l3
    (fun k hk => ⟨hP.apart k hk, fun s h => by have := hP.inside k hk s h; omega⟩)
    (by
      intro k hk j _
      rw [shows_rows hs hk]
      constructor
      · rintro (h | ⟨h, rfl⟩)
        · exact h.2
        · exact absurd h (hb57 j)
      · intro h
        exact .inl ⟨by omega, h⟩)]
  refine congrArg Run.done (Prod.ext rfl (Prod.ext rfl ?_))
  simp only
  have hred : ∀ i j, (wiped P.paddle P.rows fr).px i j = 200 ↔ P.InBall i j := by
    intro i j
    refine wiped_red hs i j fun t l b r e hbx => ⟨(hc t l b r e).2.1, (hP.ball t l b r e).2.2.2.2, fun k hk h => ?_⟩
    exact (hc t l b r e).2.2 k hk i j ⟨h, hbx⟩
  have hH : (wiped P.paddle P.rows fr).height = 210 := hs.height
  have hW : (wiped P.paddle P.rows fr).width = 160 := hs.width
  obtain ⟨f1, f2⟩ := C69_find_ball (wiped P.paddle P.rows fr) 200
  cases hball : P.ball with
  | none =>
    have : findBall 200 (wiped P.paddle P.rows fr) = none := by
      refine f1.2 fun i _ j _ h => ?_
      obtain ⟨t, l, b, r, e, -⟩ := (hred i j).1 h
      rw [hball] at e; cases e
    rw [this]
    norm_num [ballParams]
  | some q =>
    obtain ⟨t, l, b, r⟩ := q
    have hin : ∀ i j, P.InBall i j ↔ InBox t l b r i j := by
      intro i j
      constructor
      · rintro ⟨t', l', b', r', e, h⟩
        rw [hball] at e
        injection e with e
        simp only [Prod.mk.injEq] at e
        obtain ⟨rfl, rfl, rfl, rfl⟩ := e
        exact h
      · intro h; exact ⟨t, l, b, r, hball, h⟩
    obtain ⟨g1, g2, g3, g4, g5⟩ := hP.ball t l b r hball
    have hsome : findBall 200 (wiped P.paddle P.rows fr) = some (t, l, b, r) := by
      cases hfb : findBall 200 (wiped P.paddle P.rows fr) with
      | none =>
        exact absurd ((hred t l).2 ((hin t l).2 ⟨⟨le_rfl, g1⟩, le_rfl, g4⟩)) (f1.1 hfb t (by omega) l (by omega))
      | some q =>
        obtain ⟨i, j, b', r'⟩ := q
        obtain ⟨a1, a2, a3, a4, a5, a6⟩ := f2 i j b' r' hfb
        rw [hred, hin] at a3
        obtain ⟨⟨c1, c2⟩, c3, c4⟩ := a3
        have hfirst : ¬ (t < i ∨ t = i ∧ l < j) := fun h =>
          a4 t l (by omega) h ((hred t l).2 ((hin t l).2 ⟨⟨le_rfl, g1⟩, le_rfl, g4⟩))
        obtain ⟨rfl, rfl⟩ : t = i ∧ l = j := by omega
        have er : r' = r := by
          rcases a5 with ⟨hall, -⟩ | ⟨hrun, hlt⟩
          · have := (hin _ _).1 ((hred _ _).1 (hall 159 (by omega) (by omega)))
            have := this.2; omega
          · rcases lt_trichotomy r' r with h | h | h
            · rcases hrun.right with h' | h'
              · omega
              · exact absurd ((hred _ _).2 ((hin t r').2 ⟨⟨le_rfl, g1⟩, hrun.lt.le, h⟩)) h'
            · exact h
            · have := (hin _ _).1 ((hred _ _).1 (hrun.color r (by omega) h))
              have := this.2; omega
        have eb : b' = b := by
          rcases a6 with ⟨hall, -⟩ | ⟨hrun, hlt⟩
          · have := (hin _ _).1 ((hred _ _).1 (hall 209 (by omega) (by omega)))
            have := this.1; omega
          · rcases lt_trichotomy b' b with h | h | h
            · rcases hrun.right with h' | h'
              · omega
              · exact absurd ((hred _ _).2 ((hin b' l).2 ⟨⟨hrun.lt.le, h⟩, le_rfl, g4⟩)) h'
            · exact h
            · have := (hin _ _).1 ((hred _ _).1 (hrun.color b (by omega) h))
              have := this.1; omega
        rw [er, eb]
    rw [hsome]
    rfl


/-- The runs of line 57 when the ball is on it. -/
def withBall (rows : ℕ → List (ℕ × ℕ)) (l r : ℕ) : ℕ → List (ℕ × ℕ) :=
  fun k => if k = 0 then (rows 0).filter (fun s => s.2 < l) ++ (l, r) :: (rows 0).filter (fun s => r < s.1) else rows k

theorem withBall_mem {rows : ℕ → List (ℕ × ℕ)} {l r : ℕ} (hap : ∀ s ∈ rows 0, s.2 < l ∨ r < s.1) (k : ℕ) (s : ℕ × ℕ) :
    s ∈ withBall rows l r k ↔ s ∈ rows k ∨ (k = 0 ∧ s = (l, r)) := by
  unfold withBall
  split_ifs with h
  · subst h
    simp only [List.mem_append, List.mem_filter, decide_eq_true_eq, List.mem_cons, true_and]
    constructor
    · rintro (⟨h, -⟩ | h | ⟨h, -⟩)
      · exact .inl h
      · exact .inr h
      · exact .inl h
    · rintro (h | h)
      · rcases hap s h with h' | h'
        · exact .inl ⟨h, h'⟩
        · exact .inr (.inr ⟨h, h'⟩)
      · exact .inr (.inl h)
  · simp [h]

/-- C88: where the ball is on line 57, at some distance from the red blocks, it is read as one more block, six rows high;
if it lies within these six rows it is then wiped off and the ball is reported lost.  (Ball and top blocks are equally
red.) -/
theorem C88_ball_read_as_block (fr : Breakout.Frame) (P : Picture) (hs : Shows fr P) (hP : P.Possible) (t l b r : ℕ)
    (hb : P.ball = some (t, l, b, r)) (h57 : t ≤ 57) (hb57 : 57 < b) (hb189 : b ≤ 189)
    (hap : ∀ s ∈ P.rows 0, s.2 < l ∨ r < s.1) :
    ∃ blocks ball, extract_params 161 fr = .done (⟨P.paddle + 8, 191, 16, 4⟩, blocks, ball) ∧
      ⟨((l : ℝ) + r) / 2, 60, (r : ℝ) - l, 6⟩ ∈ blocks ∧ (t = 57 → b ≤ 63 → ball = ⟨80, 21000, 1⟩) := by
  obtain ⟨g1, g2, g3, g4, g5⟩ := hP.ball t l b r hb
  have hin : ∀ i j, P.InBall i j ↔ InBox t l b r i j := by
    intro i j
    constructor
    · rintro ⟨t', l', b', r', e, h⟩
      rw [hb] at e
      injection e with e
      simp only [Prod.mk.injEq] at e
      obtain ⟨rfl, rfl, rfl, rfl⟩ := e
      exact h
    · intro h; exact ⟨t, l, b, r, hb, h⟩
  obtain ⟨l1, l2, l3⟩ := shows_line hs hP (fun j h => by have := ((hin 189 j).1 h).1; omega)
  have hmem := withBall_mem hap
  have hsub : ∀ k < 6, ∀ s ∈ withBall P.rows l r k, 8 ≤ s.1 ∧ s.1 < s.2 ∧ s.2 ≤ 152 := by
    intro k hk s h
    rcases (hmem k s).1 h with h | ⟨-, rfl⟩
    · exact hP.inside k hk s h
    · exact ⟨g3, g4, g5⟩
  have hpw : ∀ k < 6, (withBall P.rows l r k).Pairwise (fun a b => a.2 < b.1) := by
    intro k hk
    unfold withBall
    split_ifs with h
    · rw [List.pairwise_append]
      refine ⟨(hP.apart 0 (by omega)).filter _, List.pairwise_cons.2 ⟨?_, (hP.apart 0 (by omega)).filter _⟩, ?_⟩
      · intro s hs'
        have := (List.mem_filter.1 hs').2
        simpa using this
      · intro a ha s hs'
        have h1 := List.mem_filter.1 ha
        have h2 : a.2 < l := by simpa using h1.2
        rcases List.mem_cons.1 hs' with rfl | hs'
        · exact h2
        · have h3 := List.mem_filter.1 hs'
          have h4 : r < s.1 := by simpa using h3.2
          omega
    · exact hP.apart k hk
  have he := extract_runs fr P.paddle (withBall P.rows l r) hs.width (by have := hP.paddle; omega) l1 l2 l3
    (fun k hk => ⟨hpw k hk, fun s h => by have := hsub k hk s h; omega⟩)
    (by
      intro k hk j _
      rw [shows_rows hs hk, hin]
      constructor
      · rintro (h | ⟨h, rfl⟩)
        · obtain ⟨s, hs', h'⟩ := h.2
          exact ⟨s, (hmem k s).2 (.inl hs'), h'⟩
        · exact ⟨(l, r), (hmem 0 _).2 (.inr ⟨rfl, rfl⟩), h.2⟩
      · rintro ⟨s, hs', h'⟩
        rcases (hmem k s).1 hs' with h | ⟨rfl, rfl⟩
        · exact .inl ⟨⟨by omega, by omega⟩, s, h, h'⟩
        · exact .inr ⟨⟨⟨by omega, by omega⟩, h'⟩, rfl⟩)
  refine ⟨_, _, he, ?_, ?_⟩
  · unfold blocksOf
    refine List.mem_flatMap.2 ⟨0, by simp, List.mem_map.2 ⟨(l, r), (hmem 0 _).2 (.inr ⟨rfl, rfl⟩), ?_⟩⟩
    simp
  · intro ht hb63
    have : findBall 200 (wiped P.paddle (withBall P.rows l r) fr) = none := by
      refine (C69_find_ball _ 200).1.2 fun i _ j _ h => ?_
      unfold wiped eraseRows Frame.clear at h
      simp only at h
      split_ifs at h with h1 h2 h3
      refine absurd h (hs.rest i j (fun h => h3 ?_) (fun h => h1 ?_) (fun k hk h => h2 ⟨k, hk, ?_, ?_⟩) fun h => h2 ?_).1.ne
      · obtain ⟨⟨a, b⟩, c, d⟩ := h
        exact ⟨a, by omega, c, by omega⟩
      · obtain ⟨⟨a, b⟩, c, d⟩ := h
        exact ⟨a, by omega, c, by omega⟩
      · have := h.1; omega
      · obtain ⟨s, hs', h'⟩ := h.2
        exact ⟨s, (hmem k s).2 (.inl hs'), h'⟩
      · obtain ⟨⟨a1, a2⟩, a3⟩ := (hin i j).1 h
        exact ⟨0, by omega, by omega, (l, r), (hmem 0 _).2 (.inr ⟨rfl, rfl⟩), a3⟩
    rw [this]
    norm_num [ballParams]

/-! ## A drawn screen -/

open Classical in
/-- A screen on which the picture is painted on black. -/
def paint (P : Picture) : Breakout.Frame where
  height := 210
  width := 160
  px i j :=
    if P.InBall i j ∨ InBox 189 P.paddle 193 (P.paddle + 16) i j ∨ InBox 189 152 195 160 i j then 200
    else if h : ∃ k < 6, P.InRow k i j then blockRed h.choose else 0

theorem paint_shows (P : Picture)
    (hc : ∀ t l b r, P.ball = some (t, l, b, r) → ∀ k < 6, ∀ i j, ¬ (P.InRow k i j ∧ InBox t l b r i j)) :
    Shows (paint P) P where
  height := rfl
  width := rfl
  paddle i j h := if_pos (.inr (.inl h))
  stopper i j h := if_pos (.inr (.inr h))
  blocks k hk i j h := by
    have hi := h.1
    have h1 : ¬ (P.InBall i j ∨ InBox 189 P.paddle 193 (P.paddle + 16) i j ∨ InBox 189 152 195 160 i j) := by
      rintro (⟨t, l, b, r, e, h'⟩ | h' | h')
      · exact hc t l b r e k hk i j ⟨h, h'⟩
      · have := h'.1; omega
      · have := h'.1; omega
    have h2 : ∃ k < 6, P.InRow k i j := ⟨k, hk, h⟩
    have h3 : h2.choose = k := by
      have := h2.choose_spec.2.1; omega
    unfold paint
    simp only [if_neg h1, dif_pos h2, h3]
  ball i j h := if_pos (.inl h)
  rest i j h1 h2 h3 h4 := by
    have : (paint P).px i j = 0 := by
      unfold paint
      simp only
      rw [if_neg (by simp only [not_or]; exact ⟨h4, h1, h2⟩), dif_neg (by simpa using h3)]
    rw [this]
    refine ⟨by omega, fun k hk _ _ => ?_⟩
    interval_cases k <;> simp [blockRed]

/-- Two red blocks, one green one, the ball below them. -/
def somePicture (ball : Option (ℕ × ℕ × ℕ × ℕ)) : Picture where
  paddle := 40
  rows k := if k = 0 then [(8, 40), (48, 56)] else if k = 4 then [(100, 108)] else []
  ball := ball

theorem somePicture_possible (t : ℕ) (ht : t + 4 < 210) : (somePicture (some (t, 80, t + 4, 82))).Possible where
  paddle := by simp [somePicture]
  inside k hk s h := by
    simp only [somePicture] at h
    interval_cases k <;> simp at h
    · rcases h with rfl | rfl <;> simp
    · subst h; simp
  apart k hk := by
    simp only [somePicture]
    interval_cases k <;> simp
  ball t' l b r h := by
    simp only [somePicture, Option.some.injEq, Prod.mk.injEq] at h
    omega

theorem somePicture_clear (t t' l b r : ℕ) (h : (somePicture (some (t, 80, t + 4, 82))).ball = some (t', l, b, r)) (k : ℕ)
    (hk : k < 6) (i j : ℕ) : ¬ ((somePicture (some (t, 80, t + 4, 82))).InRow k i j ∧ InBox t' l b r i j) := by
  rintro ⟨⟨-, s, hs, h1⟩, -, h2⟩
  simp only [somePicture, Option.some.injEq, Prod.mk.injEq] at h hs
  interval_cases k <;> simp at hs
  · rcases hs with rfl | rfl
    · simp only at h1; omega
    · simp only at h1; omega
  · subst hs; simp only at h1; omega

/-- The picture is read as it was painted. -/
example : extract_params 161 (paint (somePicture (some (120, 80, 124, 82)))) =
    .done (⟨48, 191, 16, 4⟩, [⟨24, 60, 32, 6⟩, ⟨52, 60, 8, 6⟩, ⟨104, 84, 8, 6⟩], ⟨81, 122, 1⟩) := by
  have hP := somePicture_possible 120 (by omega)
  rw [C88_reads_picture _ _ (paint_shows _ (somePicture_clear 120)) hP
    (fun t l b r e => ⟨?_, ?_, somePicture_clear 120 t l b r e⟩)]
  · norm_num [somePicture, List.range_succ]
  · simp only [somePicture, Option.some.injEq, Prod.mk.injEq] at e
    omega
  · simp only [somePicture, Option.some.injEq, Prod.mk.injEq] at e
    omega

/-- The ball right under the roof of the blocks: a fourth block is seen and no ball. -/
example : ∃ blocks, extract_params 161 (paint (somePicture (some (57, 80, 61, 82)))) =
    .done (⟨48, 191, 16, 4⟩, blocks, ⟨80, 21000, 1⟩) ∧ ⟨81, 60, 2, 6⟩ ∈ blocks := by
  have hP := somePicture_possible 57 (by omega)
  obtain ⟨blocks, ball, h1, h2, h3⟩ := C88_ball_read_as_block _ _ (paint_shows _ (somePicture_clear 57)) hP
    57 80 61 82 rfl (by omega) (by omega) (by omega) (by simp [somePicture])
  refine ⟨blocks, ?_, by norm_num at h2; exact h2⟩
  rw [h1, h3 rfl (by omega)]
  norm_num [somePicture]

end LcpPhysics
