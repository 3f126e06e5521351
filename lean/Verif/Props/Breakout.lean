import Verif.Model.Breakout
import Verif.Spec.Breakout
import Mathlib.Tactic.NormNum
import Mathlib.Tactic.Linarith
import Mathlib.Algebra.Order.Floor.Ring

/-! # C59, C60, C68, C69: the Breakout experiment -/

noncomputable section

namespace LcpPhysics
open Breakout Spec

/-! ## C59: state vectors -/

theorem flatMap_toList_length (l : List BoxParams) : (l.flatMap BoxParams.toList).length = 4 * l.length := by
  induction l with
  | nil => rfl
  | cons b l ih => simp [List.flatMap_cons, ih, BoxParams.toList]; ring

theorem slice_append_right (u v : List ℝ) (a b : ℕ) (ha : u.length ≤ a) (hb : u.length ≤ b) :
    slice (u ++ v) a b = slice v (a - u.length) (b - u.length) := by
  unfold slice
  rw [List.take_append, List.take_of_length_le hb, List.drop_append, List.drop_eq_nil_of_le ha, List.nil_append]

theorem slice_append_left (u v : List ℝ) (a b : ℕ) (hb : b ≤ u.length) : slice (u ++ v) a b = slice u a b := by
  unfold slice
  rw [List.take_append_of_le_length hb]

/-- The blocks read from a vector that starts with them. -/
theorem blocks_map (l : List BoxParams) (rest : List ℝ) :
    (List.range l.length).map (fun k => (slice (l.flatMap BoxParams.toList ++ rest) (4 * k) (4 * k + 2),
      slice (l.flatMap BoxParams.toList ++ rest) (4 * k + 2) (4 * k + 4))) =
    l.map fun b => ([b.px, b.py], [b.w, b.h]) := by
  induction l with
  | nil => rfl
  | cons b l ih =>
    rw [List.length_cons, List.range_succ_eq_map, List.map_cons, List.map_cons, List.map_map]
    congr 1

/-- `from_vector` on a packed vector. -/
theorem from_vector_packed (paddle : BoxParams) (blocks : List BoxParams) (ball : BallParams) :
    from_vector (paddle.toList ++ blocks.flatMap BoxParams.toList ++ ([ball.px, ball.py] ++ [ball.rad])) =
      some (([paddle.px, paddle.py], [paddle.w, paddle.h]), blocks.map (fun b => ([b.px, b.py], [b.w, b.h])),
        ([ball.px, ball.py], ball.rad)) := by
  have hp : paddle.toList.length = 4 := rfl
  have hb := flatMap_toList_length blocks
  set bs := blocks.flatMap BoxParams.toList with hbs
  have hlen : (paddle.toList ++ bs ++ ([ball.px, ball.py] ++ [ball.rad])).length = 4 + 4 * blocks.length + 3 := by
    simp only [List.length_append, hp, hb]; rfl
  unfold from_vector
  simp only [hlen]
  have hlast : (paddle.toList ++ bs ++ ([ball.px, ball.py] ++ [ball.rad])).getLast? = some ball.rad := by
    rw [← List.append_assoc, List.getLast?_append]; rfl
  rw [hlast]
  have h3 : (slice (paddle.toList ++ bs ++ ([ball.px, ball.py] ++ [ball.rad])) 0 (4 + 4 * blocks.length + 3 - 3)).length =
      4 + 4 * blocks.length := by
    simp [slice, hp, hb]
  rw [h3]
  simp only [Option.some.injEq, Prod.mk.injEq]
  refine ⟨⟨rfl, rfl⟩, ?_, ?_⟩
  · have hr : range4 4 (4 + 4 * blocks.length) = (List.range blocks.length).map fun k => 4 + 4 * k := by
      unfold range4
      congr 2
      omega
    rw [hr, List.map_map, ← blocks_map blocks ([ball.px, ball.py] ++ [ball.rad])]
    apply List.map_congr_left
    intro k _
    simp only [Function.comp, List.append_assoc]
    rw [slice_append_right paddle.toList _ _ _ (by rw [hp]; omega) (by rw [hp]; omega),
      slice_append_right paddle.toList _ (4 + 4 * k + 2) _ (by rw [hp]; omega) (by rw [hp]; omega)]
    have e1 : 4 + 4 * k - 4 = 4 * k := by omega
    have e2 : 4 + 4 * k + 2 - 4 = 4 * k + 2 := by omega
    have e3 : 4 + 4 * k + 4 - 4 = 4 * k + 4 := by omega
    rw [hp, e1, e2, e3, hbs]
  · refine ⟨?_, trivial⟩
    have hl : (paddle.toList ++ bs).length = 4 + 4 * blocks.length := by
      simp only [List.length_append, hp, hb]
    rw [slice_append_right _ _ _ _ (by omega) (by omega), hl]
    have e1 : 4 + 4 * blocks.length + 3 - 3 - (4 + 4 * blocks.length) = 0 := by omega
    have e2 : 4 + 4 * blocks.length + 3 - 1 - (4 + 4 * blocks.length) = 2 := by omega
    rw [e1, e2]
    rfl

/-- C59: packing and unpacking returns the parameters, for any number of blocks but zero; without
blocks one placeholder block off the screen appears. -/
theorem C59_round_trip (paddle : BoxParams) (blocks : List BoxParams) (ball : BallParams) :
    from_vector (to_vector paddle blocks ball) = some (([paddle.px, paddle.py], [paddle.w, paddle.h]),
      (if blocks = [] then [([1000, 60], [1, 1])] else blocks.map fun b => ([b.px, b.py], [b.w, b.h])),
      ([ball.px, ball.py], ball.rad)) := by
  by_cases h : blocks = []
  · subst h
    have e : to_vector paddle [] ball =
        paddle.toList ++ [⟨1000, 60, 1, 1⟩].flatMap BoxParams.toList ++ ([ball.px, ball.py] ++ [ball.rad]) := by
      simp [to_vector, BoxParams.toList]
    rw [e, from_vector_packed]
    simp
  · have e : to_vector paddle blocks ball =
        paddle.toList ++ blocks.flatMap BoxParams.toList ++ ([ball.px, ball.py] ++ [ball.rad]) := by
      simp [to_vector, h]
    rw [e, from_vector_packed, if_neg h]

theorem slice_two (v : List ℝ) (i : ℕ) (h : i + 2 ≤ v.length) : slice v i (i + 2) = [v.getD i 0, v.getD (i + 1) 0] := by
  unfold slice
  apply List.ext_getElem
  · simp; omega
  · intro j h1 h2
    simp only [List.length_cons, List.length_nil] at h2
    have hj : j = 0 ∨ j = 1 := by omega
    rcases hj with rfl | rfl
    · simp [List.getD_eq_getElem?_getD, show i < v.length by omega]
    · simp [List.getD_eq_getElem?_getD, show i + 1 < v.length by omega]

/-- C59: what `from_vector` makes of a vector of any length from 4 on. A length that does not fit is not noticed: the
remaining entries are read as one more block, which shares entries with the ball. -/
theorem C59_any_length (v : List ℝ) (hv : 4 ≤ v.length) :
    from_vector v = some (([v.getD 0 0, v.getD 1 0], [v.getD 2 0, v.getD 3 0]),
      (List.range ((v.length - 4) / 4)).map (fun k =>
        ([v.getD (4 * k + 4) 0, v.getD (4 * k + 5) 0], [v.getD (4 * k + 6) 0, v.getD (4 * k + 7) 0])),
      ([v.getD (v.length - 3) 0, v.getD (v.length - 2) 0], v.getD (v.length - 1) 0)) := by
  have hlast : v.getLast? = some (v.getD (v.length - 1) 0) := by
    rw [List.getLast?_eq_getElem?, List.getD_eq_getElem?_getD,
      List.getElem?_eq_getElem (show v.length - 1 < v.length by omega)]
    rfl
  have e3 : (slice v 0 (v.length - 3)).length = v.length - 3 := by simp [slice]
  have h1 : v.length - 1 = v.length - 3 + 2 := by omega
  have h2 : v.length - 2 = v.length - 3 + 1 := by omega
  unfold from_vector
  simp only [hlast, e3]
  refine congrArg some ?_
  rw [Prod.mk.injEq, Prod.mk.injEq, Prod.mk.injEq, Prod.mk.injEq]
  refine ⟨⟨slice_two v 0 (by omega), slice_two v 2 (by omega)⟩, ?_, ?_, rfl⟩
  · unfold range4
    rw [List.map_map, show v.length - 3 - 4 + 3 = if 7 ≤ v.length then v.length - 4 else 3 by split_ifs <;> omega]
    have hn : (if 7 ≤ v.length then v.length - 4 else 3) / 4 = (v.length - 4) / 4 := by split_ifs <;> omega
    rw [hn]
    apply List.map_congr_left
    intro k hk
    have hk := List.mem_range.1 hk
    simp only [Function.comp]
    rw [slice_two v (4 + 4 * k) (by omega), show 4 + 4 * k + 4 = 4 + 4 * k + 2 + 2 by ring, slice_two v (4 + 4 * k + 2) (by omega),
      show 4 + 4 * k = 4 * k + 4 by ring]
  · rw [h1, h2]
    exact slice_two v _ (by omega)

/-- Eight numbers make a paddle, a ball and a block that overlap. -/
example : from_vector [1, 2, 3, 4, 5, 6, 7, 8] = some (([1, 2], [3, 4]), [([5, 6], [7, 8])], ([6, 7], 8)) := by
  rw [C59_any_length _ (by simp)]
  simp

/-- C59: every vector of length `4 k + 7` with `k ≥ 1` is the packing of its own unpacking. -/
theorem C59_unpack_pack (k : ℕ) (hk : 1 ≤ k) (v : List ℝ) (hv : v.length = 4 * k + 7) :
    ∃ paddle blocks ball, blocks.length = k ∧ to_vector paddle blocks ball = v ∧
      from_vector v = some (([paddle.px, paddle.py], [paddle.w, paddle.h]),
        blocks.map (fun b => ([b.px, b.py], [b.w, b.h])), ([ball.px, ball.py], ball.rad)) := by
  have hchunk : ∀ (k : ℕ) (u : List ℝ), u.length = 4 * k → ∃ l : List BoxParams, l.length = k ∧ l.flatMap BoxParams.toList = u := by
    intro k
    induction k with
    | zero => intro u hu; exact ⟨[], rfl, by simpa using (List.length_eq_zero_iff.1 (by simpa using hu)).symm⟩
    | succ k ih =>
      intro u hu
      match u, hu with
      | a :: b :: c :: d :: u, hu =>
        obtain ⟨l, hl, rfl⟩ := ih u (by simp at hu; omega)
        exact ⟨⟨a, b, c, d⟩ :: l, by simp [hl], by simp [BoxParams.toList]⟩
      | [], hu => simp at hu
      | [_], hu => simp at hu; omega
      | [_, _], hu => simp at hu; omega
      | [_, _, _], hu => simp at hu; omega
  obtain ⟨l, hl, he⟩ := hchunk (k + 1) (v.take (4 * (k + 1))) (by rw [List.length_take]; omega)
  match l, hl, he with
  | paddle :: blocks, hl, he =>
    have hd : (v.drop (4 * (k + 1))).length = 3 := by rw [List.length_drop]; omega
    match hq : v.drop (4 * (k + 1)), hd with
    | [a, b, c], _ =>
      have hb : blocks.length = k := by simpa using hl
      have hne : blocks ≠ [] := by
        intro h0; subst h0; simp at hb; omega
      have e : to_vector paddle blocks ⟨a, b, c⟩ = v := by
        conv_rhs => rw [← List.take_append_drop (4 * (k + 1)) v, hq, ← he]
        simp [to_vector, hne]
      refine ⟨paddle, blocks, ⟨a, b, c⟩, hb, e, ?_⟩
      rw [← e, C59_round_trip, if_neg hne]

example : from_vector (to_vector ⟨1, 2, 3, 4⟩ [⟨5, 6, 7, 8⟩] ⟨9, 10, 11⟩) =
    some (([1, 2], [3, 4]), [([5, 6], [7, 8])], ([9, 10], 11)) := by
  rw [C59_round_trip]; simp

/-! ## C68: the action -/

/-- C68: for a positive threshold the action is 3 (right) or 2 (left) according to the sign when the
control is at least the threshold in size, and 0 otherwise. -/
theorem C68_get_action (a threshold : ℝ) (ht : 0 < threshold) :
    (threshold ≤ a → get_action a threshold = 3) ∧ (a ≤ -threshold → get_action a threshold = 2) ∧
    (|a| < threshold → get_action a threshold = 0) := by
  refine ⟨fun h => ?_, fun h => ?_, fun h => ?_⟩
  · have : 0 < a := by linarith
    rw [get_action, if_pos (by rw [abs_of_pos this]; linarith), Real.sign_of_pos this]
    norm_num
  · have : a < 0 := by linarith
    rw [get_action, if_pos (by rw [abs_of_neg this]; linarith), Real.sign_of_neg this]
    norm_num
  · rw [get_action, if_neg (by linarith)]

/-- C68: with a zero threshold the zero control is taken as "left". -/
theorem C68_zero_threshold : get_action 0 0 = 2 := by
  rw [get_action, if_pos (by simp), Real.sign_zero]
  norm_num

example : get_action (1 / 2) (1 / 4) = 3 := (C68_get_action _ _ (by norm_num)).1 (by norm_num)

/-! ## C60: the scan for blocks -/

theorem argmaxB_false (l : List Bool) (h : ∀ b ∈ l, b = false) : argmaxB l = 0 := by
  unfold argmaxB
  rw [if_neg]
  intro hlt
  rw [List.findIdx_lt_length] at hlt
  obtain ⟨b, hb, ht⟩ := hlt
  rw [h b hb] at ht
  simp at ht

/-- `argmax` of a row given by a function. -/
theorem argmaxB_range (n : ℕ) (q : ℕ → Bool) :
    (∀ j < n, q j = false) ∧ argmaxB ((List.range n).map q) = 0 ∨
    argmaxB ((List.range n).map q) < n ∧ q (argmaxB ((List.range n).map q)) = true ∧
      ∀ j < argmaxB ((List.range n).map q), q j = false := by
  by_cases h : ∃ j < n, q j = true
  · right
    have hlt : ((List.range n).map q).findIdx id < ((List.range n).map q).length := by
      rw [List.findIdx_lt_length]
      obtain ⟨j, hj, hq⟩ := h
      exact ⟨q j, List.mem_map.2 ⟨j, List.mem_range.2 hj, rfl⟩, hq⟩
    have e : argmaxB ((List.range n).map q) = ((List.range n).map q).findIdx id := if_pos hlt
    rw [e]
    refine ⟨by simpa using hlt, ?_, fun j hj => ?_⟩
    · have := List.findIdx_getElem (w := hlt)
      simpa using this
    · have := List.not_of_lt_findIdx hj
      simpa using this
  · left
    push Not at h
    have h' : ∀ j < n, q j = false := fun j hj => by simpa using h j hj
    refine ⟨h', argmaxB_false _ fun b hb => ?_⟩
    obtain ⟨j, hj, rfl⟩ := List.mem_map.1 hb
    exact h' j (List.mem_range.1 hj)

/-- The column where the scan starts. -/
theorem left_spec (fr : Frame) (top c : ℕ) :
    (∀ j < fr.width, fr.px top j ≠ c) ∧ argmaxB ((fr.row top).map (· == c)) = 0 ∨
    argmaxB ((fr.row top).map (· == c)) < fr.width ∧ fr.px top (argmaxB ((fr.row top).map (· == c))) = c ∧
      ∀ j < argmaxB ((fr.row top).map (· == c)), fr.px top j ≠ c := by
  have h := argmaxB_range fr.width fun j => fr.px top j == c
  have e : (fr.row top).map (· == c) = (List.range fr.width).map fun j => fr.px top j == c := by
    simp [Frame.row]
  rw [e]
  simpa using h

/-- The column where the run ends. -/
theorem right_spec (fr : Frame) (top c left : ℕ) (hl : left < fr.width) (hc : fr.px top left = c) :
    (∀ j, left ≤ j → j < fr.width → fr.px top j = c) ∧
      argminB (((fr.row top).drop left).map (· == c)) + left = left ∨
    left < argminB (((fr.row top).drop left).map (· == c)) + left ∧
      argminB (((fr.row top).drop left).map (· == c)) + left < fr.width ∧
      fr.px top (argminB (((fr.row top).drop left).map (· == c)) + left) ≠ c ∧
      ∀ j, left ≤ j → j < argminB (((fr.row top).drop left).map (· == c)) + left → fr.px top j = c := by
  have h := argmaxB_range (fr.width - left) fun j => !(fr.px top (left + j) == c)
  have e : argminB (((fr.row top).drop left).map (· == c)) =
      argmaxB ((List.range (fr.width - left)).map fun j => !(fr.px top (left + j) == c)) := by
    unfold argminB
    congr 1
    apply List.ext_getElem
    · simp [Frame.row]
    · intro i h1 h2
      simp [Frame.row]
  rw [e]
  set m := argmaxB ((List.range (fr.width - left)).map fun j => !(fr.px top (left + j) == c))
  rcases h with ⟨h1, h2⟩ | ⟨h1, h2, h3⟩
  · left
    refine ⟨fun j hj hw => ?_, by omega⟩
    have := h1 (j - left) (by omega)
    rw [Nat.add_sub_cancel' hj] at this
    simpa using this
  · right
    have hm : m ≠ 0 := by
      intro h0
      rw [h0] at h2
      simp [hc] at h2
    refine ⟨by omega, by omega, by rw [add_comm]; simpa using h2, fun j hj hj2 => ?_⟩
    have := h3 (j - left) (by omega)
    rw [Nat.add_sub_cancel' hj] at this
    simpa using this

/-- One row of blocks, from a state in which the columns before `k` are free of the colour. -/
theorem scanRow_spec (top c : ℕ) (hc : c ≠ 0) : ∀ (fuel k : ℕ) (fr : Frame), fr.width - k < fuel →
    (∀ j < k, j < fr.width → fr.px top j ≠ c) → fr.px top 0 ≠ c → fr.px top (fr.width - 1) ≠ c → 0 < fr.width →
    ∃ res fr', scanRow top c fuel fr = some (res, fr') ∧
      (∀ x, x ∈ res ↔ ∃ l r, x = (top, l, top + 6, r) ∧ IsRun fr.width (fr.px top) c l r) ∧
      res.Pairwise (fun a b => a.2.2.2 < b.2.1) ∧
      fr'.width = fr.width ∧ fr'.height = fr.height ∧
      ∀ i j, i < top ∨ top + 6 ≤ i → fr'.px i j = fr.px i j
  | 0, _, _, h, _, _, _, _ => absurd h (Nat.not_lt_zero _)
  | fuel + 1, k, fr, hf, hk, h0, hw, hpos => by
    unfold scanRow
    simp only
    have hl := left_spec fr top c
    set left := argmaxB ((fr.row top).map (· == c)) with hleft
    rcases hl with ⟨hno, hz⟩ | ⟨hlw, hlc, hlb⟩
    · rw [hz, if_neg (lt_irrefl 0)]
      refine ⟨[], fr, rfl, ?_, List.Pairwise.nil, rfl, rfl, fun _ _ _ => rfl⟩
      intro x
      simp only [List.not_mem_nil, false_iff]
      rintro ⟨l, r, -, hr⟩
      exact hno l (lt_of_lt_of_le hr.lt hr.le) (hr.color l le_rfl hr.lt)
    · have hl0 : left > 0 := by
        rcases Nat.eq_zero_or_pos left with h | h
        · rw [h] at hlc; exact absurd hlc h0
        · exact h
      rw [if_pos hl0]
      have hr := right_spec fr top c left hlw hlc
      set right := argminB (((fr.row top).drop left).map (· == c)) + left with hright
      rcases hr with ⟨hall, -⟩ | ⟨hlr, hrw, hrc, hrun⟩
      · exact absurd (hall (fr.width - 1) (by omega) (by omega)) hw
      · have hkl : k ≤ left := by
          by_contra hcon
          exact hk left (by omega) hlw hlc
        have hp : ∀ j, (fr.clear top left (top + 6) right).px top j = if left ≤ j ∧ j < right then 0 else fr.px top j := by
          intro j
          simp [Frame.clear]
        obtain ⟨res, fr', e, hmem, hpw, hw', hh', hpx⟩ := scanRow_spec top c hc fuel right
          (fr.clear top left (top + 6) right) (by simp only [Frame.clear]; omega)
          (by
            intro j hj hjw
            rw [hp]
            split_ifs with h1
            · exact hc.symm
            · rcases Nat.lt_or_ge j left with h2 | h2
              · exact hlb j h2
              · exact absurd ⟨h2, hj⟩ h1)
          (by rw [hp, if_neg (by omega)]; exact h0)
          (by rw [hp, if_neg (by simp only [Frame.clear]; omega)]; exact hw)
          hpos
        have hwid : (fr.clear top left (top + 6) right).width = fr.width := rfl
        rw [hwid] at hmem hw'
        have runs : ∀ l r, IsRun fr.width (fr.px top) c l r ↔ (l = left ∧ r = right) ∨
            IsRun fr.width ((fr.clear top left (top + 6) right).px top) c l r := by
          intro l r
          constructor
          · intro h
            have hlc' := h.color l le_rfl h.lt
            have hll : left ≤ l := by
              by_contra hcon
              exact hlb l (by omega) hlc'
            rcases Nat.lt_or_ge l right with h1 | h1
            · have hle : l = left := by
                rcases h.left with h2 | h2
                · omega
                · by_contra hne
                  exact h2 (hrun (l - 1) (by omega) (by omega))
              left
              refine ⟨hle, ?_⟩
              rcases lt_trichotomy r right with h3 | h3 | h3
              · rcases h.right with h4 | h4
                · omega
                · exact absurd (hrun r (by have := h.lt; omega) h3) h4
              · exact h3
              · exact absurd (h.color right (by omega) h3) hrc
            · right
              have hne : l ≠ right := fun h2 => hrc (h2 ▸ hlc')
              refine ⟨h.lt, h.le, fun j h2 h3 => ?_, ?_, ?_⟩
              · rw [hp, if_neg (by omega)]; exact h.color j h2 h3
              · right
                rw [hp, if_neg (by omega)]
                rcases h.left with h2 | h2
                · omega
                · exact h2
              · rcases h.right with h2 | h2
                · left; exact h2
                · right; rw [hp, if_neg (by have := h.lt; omega)]; exact h2
          · rintro (⟨rfl, rfl⟩ | h)
            · exact ⟨hlr, hrw.le, hrun, .inr (hlb _ (by omega)), .inr hrc⟩
            · have hlc' := h.color l le_rfl h.lt
              rw [hp] at hlc'
              have hlr2 : ¬ (left ≤ l ∧ l < right) := by
                intro h1
                rw [if_pos h1] at hlc'
                exact hc hlc'.symm
              rw [if_neg hlr2] at hlc'
              have hll : left ≤ l := by
                by_contra hcon
                exact hlb l (by omega) hlc'
              have hne : l ≠ right := fun h2 => hrc (h2 ▸ hlc')
              refine ⟨h.lt, h.le, fun j h2 h3 => ?_, ?_, ?_⟩
              · have := h.color j h2 h3
                rwa [hp, if_neg (by omega)] at this
              · rcases h.left with h2 | h2
                · omega
                · right; rwa [hp, if_neg (by omega)] at h2
              · rcases h.right with h2 | h2
                · left; exact h2
                · right; rwa [hp, if_neg (by have := h.lt; omega)] at h2
        refine ⟨(top, left, top + 6, right) :: res, fr', by rw [e]; rfl, ?_, ?_, hw', hh', ?_⟩
        · intro x
          rw [List.mem_cons, hmem]
          constructor
          · rintro (rfl | ⟨l, r, rfl, hr⟩)
            · exact ⟨left, right, rfl, (runs _ _).2 (.inl ⟨rfl, rfl⟩)⟩
            · exact ⟨l, r, rfl, (runs _ _).2 (.inr hr)⟩
          · rintro ⟨l, r, rfl, hr⟩
            rcases (runs _ _).1 hr with ⟨rfl, rfl⟩ | h
            · exact .inl rfl
            · exact .inr ⟨l, r, rfl, h⟩
        · refine List.pairwise_cons.2 ⟨?_, hpw⟩
          intro x hx
          obtain ⟨l, r, rfl, h⟩ := (hmem x).1 hx
          simp only
          have hlc' := h.color l le_rfl h.lt
          rw [hp] at hlc'
          by_contra hcon
          rcases Nat.lt_or_ge l left with h1 | h1
          · rw [if_neg (by omega)] at hlc'; exact hlb l h1 hlc'
          · rcases Nat.lt_or_ge l right with h2 | h2
            · rw [if_pos ⟨h1, h2⟩] at hlc'; exact hc hlc'.symm
            · have : l = right := by omega
              rw [if_neg (by omega), this] at hlc'
              exact hrc hlc'
        · intro i j hij
          rw [hpx i j hij]
          simp only [Frame.clear]
          rw [if_neg (by omega)]

/-- C60: a row whose first and last pixels do not have the colour: the scan ends after at most
`width + 1` passes and returns exactly the maximal runs of the colour, from left to right. -/
theorem C60_scan_row (fr : Frame) (top c : ℕ) (hc : c ≠ 0) (hpos : 0 < fr.width) (h0 : fr.px top 0 ≠ c)
    (hw : fr.px top (fr.width - 1) ≠ c) :
    ∃ res fr', scanRow top c (fr.width + 1) fr = some (res, fr') ∧
      (∀ x, x ∈ res ↔ ∃ l r, x = (top, l, top + 6, r) ∧ IsRun fr.width (fr.px top) c l r) ∧
      res.Pairwise (fun a b => a.2.2.2 < b.2.1) := by
  obtain ⟨res, fr', h1, h2, h3, -⟩ := scanRow_spec top c hc (fr.width + 1) 0 fr (by omega)
    (fun j hj => absurd hj (Nat.not_lt_zero j)) h0 hw hpos
  exact ⟨res, fr', h1, h2, h3⟩

/-- C60: if the first pixel of the row has the colour the scan stops at once: every run of the row is
missed, not only the first. -/
theorem C60_first_column_hides_row (fr : Frame) (top c fuel : ℕ) (h0 : fr.px top 0 = c) :
    scanRow top c (fuel + 1) fr = some ([], fr) := by
  unfold scanRow
  simp only
  rcases left_spec fr top c with ⟨-, hz⟩ | ⟨-, -, hlb⟩
  · rw [hz, if_neg (lt_irrefl 0)]
  · rw [if_neg]
    intro hpos
    exact hlb 0 hpos h0

/-- C60: if the last pixel of the row has the colour and the first has not, the loop never ends. -/
theorem C60_right_edge_never_ends (top c : ℕ) : ∀ (fuel : ℕ) (fr : Frame), 0 < fr.width → fr.px top 0 ≠ c →
    fr.px top (fr.width - 1) = c → scanRow top c fuel fr = none
  | 0, _, _, _, _ => rfl
  | fuel + 1, fr, hpos, h0, hw => by
    unfold scanRow
    simp only
    rcases left_spec fr top c with ⟨hno, -⟩ | ⟨hlw, hlc, hlb⟩
    · exact absurd hw (hno _ (by omega))
    · set left := argmaxB ((fr.row top).map (· == c)) with hleft
      have hl0 : left > 0 := by
        rcases Nat.eq_zero_or_pos left with h | h
        · rw [h] at hlc; exact absurd hlc h0
        · exact h
      rw [if_pos hl0]
      have hr := right_spec fr top c left hlw hlc
      set right := argminB (((fr.row top).drop left).map (· == c)) + left with hright
      have hp : ∀ j, (fr.clear top left (top + 6) right).px top j = if left ≤ j ∧ j < right then 0 else fr.px top j := by
        intro j
        simp [Frame.clear]
      rw [C60_right_edge_never_ends top c fuel (fr.clear top left (top + 6) right) hpos]
      · rfl
      · rw [hp, if_neg (by omega)]; exact h0
      · have hwid : (fr.clear top left (top + 6) right).width = fr.width := rfl
        rw [hwid, hp, if_neg]
        · exact hw
        · rcases hr with ⟨-, h⟩ | ⟨-, h, -⟩ <;> omega

/-- C60, the whole scan: rows at distance six do not disturb each other, the result lists the maximal
runs of each colour in its row. -/
theorem C60_scan_blocks : ∀ (colors : List ℕ) (top : ℕ) (fr : Frame), 0 < fr.width → (∀ c ∈ colors, c ≠ 0) →
    (∀ k (h : k < colors.length), fr.px (top + 6 * k) 0 ≠ colors[k] ∧ fr.px (top + 6 * k) (fr.width - 1) ≠ colors[k]) →
    ∃ res fr', scanBlocks (fr.width + 1) top colors fr = some (res, fr') ∧
      ∀ x, x ∈ res ↔ ∃ k l r, ∃ h : k < colors.length, x = (top + 6 * k, l, top + 6 * k + 6, r) ∧
        IsRun fr.width (fr.px (top + 6 * k)) colors[k] l r
  | [], top, fr, _, _, _ => ⟨[], fr, rfl, by simp⟩
  | c :: colors, top, fr, hpos, hc, hedge => by
    have he0 := hedge 0 (by simp)
    simp only [mul_zero, add_zero, List.getElem_cons_zero] at he0
    obtain ⟨res, fr1, h1, hm1, -, hw1, -, hpx⟩ := scanRow_spec top c (hc c (by simp)) (fr.width + 1) 0 fr (by omega)
      (fun j hj => absurd hj (Nat.not_lt_zero j)) he0.1 he0.2 hpos
    have hrow : ∀ k, fr1.px (top + 6 + 6 * k) = fr.px (top + 6 + 6 * k) := fun k => funext fun j => hpx _ j (.inr (by omega))
    have hadd : ∀ k, top + 6 + 6 * k = top + 6 * (k + 1) := fun k => by ring
    obtain ⟨res2, fr2, h2, hm2⟩ := C60_scan_blocks colors (top + 6) fr1 (by omega) (fun c' hc' => hc c' (by simp [hc'])) (by
      intro k hk
      have := hedge (k + 1) (by simp; omega)
      rw [hrow, hw1, hadd]
      simpa using this)
    rw [hw1] at h2 hm2
    refine ⟨res ++ res2, fr2, by simp [scanBlocks, h1, h2], ?_⟩
    intro x
    rw [List.mem_append, hm1, hm2]
    constructor
    · rintro (⟨l, r, rfl, hr⟩ | ⟨k, l, r, hk, rfl, hr⟩)
      · exact ⟨0, l, r, by simp, by simp, by simpa using hr⟩
      · rw [hrow, hadd] at hr
        exact ⟨k + 1, l, r, by simp; omega, by rw [hadd], by simpa using hr⟩
    · rintro ⟨k, l, r, hk, rfl, hr⟩
      cases k with
      | zero => left; exact ⟨l, r, by simp, by simpa using hr⟩
      | succ k =>
        right
        refine ⟨k, l, r, by simp at hk; omega, by rw [hadd], ?_⟩
        rw [hrow, hadd]
        simpa using hr

/-- A frame of width six with the colour `7` in columns 1 and 2 of row 0. -/
def smallFrame : Frame := { height := 6, width := 6, px := fun i j => if i = 0 ∧ (j = 1 ∨ j = 2) then 7 else 0 }

example : (scanRow 0 7 7 smallFrame).map Prod.fst = some [(0, 1, 6, 3)] := by
  rfl

example : scanRow 0 7 1000 { smallFrame with px := fun _ j => if j = 5 then 7 else 0 } = none :=
  C60_right_edge_never_ends 0 7 1000 _ (by simp [smallFrame]) (by simp) (by simp [smallFrame])

/-! ## C69: the ball -/

/-- C69: the ball is found exactly if a pixel has its colour; it is the first one in reading order, and its
box ends with the run of the colour to the right and downwards, unless the run reaches the border, in
which case the box is empty. -/
theorem C69_find_ball (fr : Frame) (c : ℕ) :
    (findBall c fr = none ↔ ∀ i < fr.height, ∀ j < fr.width, fr.px i j ≠ c) ∧
    ∀ i j b r, findBall c fr = some (i, j, b, r) →
      i < fr.height ∧ j < fr.width ∧ fr.px i j = c ∧
      (∀ i' j', j' < fr.width → (i' < i ∨ i' = i ∧ j' < j) → fr.px i' j' ≠ c) ∧
      ((∀ k, j ≤ k → k < fr.width → fr.px i k = c) ∧ r = j ∨ IsRun fr.width (fr.px i) c j r ∧ r < fr.width) ∧
      ((∀ k, i ≤ k → k < fr.height → fr.px k j = c) ∧ b = i ∨
        IsRun fr.height (fun k => fr.px k j) c i b ∧ b < fr.height) := by
  set L := (List.range fr.height).flatMap fun i => (List.range fr.width).map fun j => (i, j) with hL
  have hmem : ∀ p : ℕ × ℕ, p ∈ L ↔ p.1 < fr.height ∧ p.2 < fr.width := by
    rintro ⟨i, j⟩
    simp [hL]
  have hsorted : L.Pairwise fun p q => p.1 < q.1 ∨ p.1 = q.1 ∧ p.2 < q.2 := by
    rw [hL, List.pairwise_flatMap]
    refine ⟨fun i _ => ?_, ?_⟩
    · rw [List.pairwise_map]
      exact List.pairwise_lt_range.imp fun h => .inr ⟨rfl, h⟩
    · refine List.pairwise_lt_range.imp fun h => ?_
      intro p hp q hq
      obtain ⟨_, -, rfl⟩ := List.mem_map.1 hp
      obtain ⟨_, -, rfl⟩ := List.mem_map.1 hq
      exact .inl h
  have hdef : findBall c fr = (L.find? fun p => fr.px p.1 p.2 == c).map fun p =>
      (p.1, p.2, argminB ((((List.range fr.height).map fun i => fr.px i p.2).drop p.1).map (· == c)) + p.1,
        argminB (((fr.row p.1).drop p.2).map (· == c)) + p.2) := rfl
  refine ⟨?_, ?_⟩
  · rw [hdef, Option.map_eq_none_iff, List.find?_eq_none]
    constructor
    · intro h i hi j hj
      simpa using h (i, j) ((hmem _).2 ⟨hi, hj⟩)
    · rintro h ⟨i, j⟩ hp
      obtain ⟨hi, hj⟩ := (hmem _).1 hp
      simpa using h i hi j hj
  · intro i j b r h
    rw [hdef, Option.map_eq_some_iff] at h
    obtain ⟨⟨i', j'⟩, hf, he⟩ := h
    simp only [Prod.mk.injEq] at he
    obtain ⟨rfl, rfl, rfl, rfl⟩ := he
    obtain ⟨hc, as, bs, hsplit, has⟩ := List.find?_eq_some_iff_append.1 hf
    simp only [beq_iff_eq] at hc
    obtain ⟨hi, hj⟩ := (hmem (i', j')).1 (by rw [hsplit]; simp)
    simp only at hi hj
    have hearly : ∀ i2 j2, j2 < fr.width → (i2 < i' ∨ i2 = i' ∧ j2 < j') → fr.px i2 j2 ≠ c := by
      intro i2 j2 hj2 hlt
      have hm : (i2, j2) ∈ L := (hmem _).2 ⟨by simp only; omega, hj2⟩
      rw [hsplit, List.mem_append, List.mem_cons] at hm
      rw [hsplit] at hsorted
      rcases hm with h1 | h1 | h1
      · simpa using has _ h1
      · cases h1; omega
      · have := List.rel_of_pairwise_cons (List.pairwise_append.1 hsorted).2.1 h1
        simp only at this
        omega
    refine ⟨hi, hj, hc, hearly, ?_, ?_⟩
    · rcases right_spec fr i' c j' hj hc with h1 | ⟨h1, h2, h3, h4⟩
      · exact .inl h1
      · refine .inr ⟨⟨h1, h2.le, h4, ?_, .inr h3⟩, h2⟩
        rcases Nat.eq_zero_or_pos j' with h | h
        · exact .inl h
        · exact .inr (hearly i' (j' - 1) (by omega) (.inr ⟨rfl, by omega⟩))
    · rcases right_spec { height := 1, width := fr.height, px := fun _ k => fr.px k j' } 0 c i' hi hc with h1 | ⟨h1, h2, h3, h4⟩
      · exact .inl h1
      · refine .inr ⟨⟨h1, h2.le, h4, ?_, .inr h3⟩, h2⟩
        rcases Nat.eq_zero_or_pos i' with h | h
        · exact .inl h
        · exact .inr (hearly (i' - 1) j' hj (.inl (by omega)))

/-- C69: the radius is positive and at most one unless the ball touches the right or lower border, where it
degenerates to zero. -/
theorem C69_ball_radius (fr : Frame) (c i j b r : ℕ) (h : findBall c fr = some (i, j, b, r)) :
    0 ≤ (ballParams (findBall c fr)).rad ∧ (ballParams (findBall c fr)).rad ≤ 1 ∧
    ((ballParams (findBall c fr)).rad = 0 ↔ (∀ k, j ≤ k → k < fr.width → fr.px i k = c) ∨
      ∀ k, i ≤ k → k < fr.height → fr.px k j = c) := by
  obtain ⟨hi, hj, hc, -, h1, h2⟩ := (C69_find_ball fr c).2 i j b r h
  have hjr : j ≤ r := by rcases h1 with ⟨-, rfl⟩ | ⟨h, -⟩; exacts [le_rfl, h.lt.le]
  have hib : i ≤ b := by rcases h2 with ⟨-, rfl⟩ | ⟨h, -⟩; exacts [le_rfl, h.lt.le]
  have e : (ballParams (findBall c fr)).rad = min (min ((r : ℝ) - j) ((b : ℝ) - i) / 2) 1 := by rw [h]; rfl
  have hr : (j : ℝ) ≤ r := by exact_mod_cast hjr
  have hb : (i : ℝ) ≤ b := by exact_mod_cast hib
  have hm : 0 ≤ min ((r : ℝ) - j) ((b : ℝ) - i) := le_min (by linarith) (by linarith)
  rw [e]
  refine ⟨le_min (by linarith) zero_le_one, min_le_right _ _, ?_⟩
  constructor
  · intro h0
    have hm0 : min ((r : ℝ) - j) ((b : ℝ) - i) = 0 := by
      rcases min_choice (min ((r : ℝ) - j) ((b : ℝ) - i) / 2) 1 with h3 | h3
      · rw [h3] at h0; linarith
      · rw [h3] at h0; norm_num at h0
    rcases min_choice ((r : ℝ) - j) ((b : ℝ) - i) with h3 | h3
    · left
      rw [h3] at hm0
      have : r = j := by exact_mod_cast (by linarith : (r : ℝ) = j)
      rcases h1 with ⟨h1, -⟩ | ⟨h1, -⟩
      · exact h1
      · have := h1.lt; omega
    · right
      rw [h3] at hm0
      have : b = i := by exact_mod_cast (by linarith : (b : ℝ) = i)
      rcases h2 with ⟨h2, -⟩ | ⟨h2, -⟩
      · exact h2
      · have := h2.lt; omega
  · intro h3
    have hz : min ((r : ℝ) - j) ((b : ℝ) - i) = 0 := by
      rcases h3 with h3 | h3
      · have : r = j := by
          rcases h1 with ⟨-, h1⟩ | ⟨h1, hlt⟩
          · exact h1
          · rcases h1.right with h4 | h4
            · omega
            · exact absurd (h3 r h1.lt.le hlt) h4
        rw [this, sub_self]
        exact min_eq_left (by linarith)
      · have : b = i := by
          rcases h2 with ⟨-, h2⟩ | ⟨h2, hlt⟩
          · exact h2
          · rcases h2.right with h4 | h4
            · omega
            · exact absurd (h3 b h2.lt.le hlt) h4
        rw [this, sub_self]
        exact min_eq_right (by linarith)
    rw [hz]
    norm_num

example : findBall 7 smallFrame = some (0, 1, 1, 3) := rfl

/-- C69: the rectangle `get_pos_dims` describes by its centre and dimensions has exactly the given sides, and the ball,
if seen, is centred in its box. -/
theorem C69_box_corners (t l b r : ℕ) :
    (get_pos_dims (t, l, b, r)).px - (get_pos_dims (t, l, b, r)).w / 2 = l ∧
    (get_pos_dims (t, l, b, r)).px + (get_pos_dims (t, l, b, r)).w / 2 = r ∧
    (get_pos_dims (t, l, b, r)).py - (get_pos_dims (t, l, b, r)).h / 2 = t ∧
    (get_pos_dims (t, l, b, r)).py + (get_pos_dims (t, l, b, r)).h / 2 = b ∧
    (ballParams (some (t, l, b, r))).px = ((l : ℝ) + r) / 2 ∧
    (ballParams (some (t, l, b, r))).py = ((t : ℝ) + b) / 2 := by
  simp only [get_pos_dims, ballParams]
  refine ⟨?_, ?_, ?_, ?_, ?_, ?_⟩ <;> ring

example : (get_pos_dims (189, 20, 193, 36)).px = 28 ∧ (get_pos_dims (189, 20, 193, 36)).w = 16 := by
  norm_num [get_pos_dims]

end LcpPhysics
