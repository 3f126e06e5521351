import Verif.Model.Breakout

/-!
# Specification vocabulary: a picture of the game

What a Breakout screen (160 x 210) shows: paddle, blocks, ball, in the red channel.  Independent of how the program
searches for them.
-/

namespace LcpPhysics.Spec
open Breakout

/-- The pixel in row `i` and column `j` lies in rows `[t, b)` and columns `[l, r)`. -/
def InBox (t l b r i j : ℕ) : Prop := (t ≤ i ∧ i < b) ∧ l ≤ j ∧ j < r

/-- What there is to see: the first column of the paddle (16 wide), in each of the six rows of blocks the intervals of
columns covered by blocks, and the box `top, left, bottom, right` of the ball if there is one. -/
structure Picture where
  paddle : ℕ
  rows : ℕ → List (ℕ × ℕ)
  ball : Option (ℕ × ℕ × ℕ × ℕ)

/-- The red parts of the six colours of blocks: red, orange, beige, yellow, green, blue. -/
def blockRed : ℕ → ℕ
  | 0 => 200
  | 1 => 198
  | 2 => 180
  | 3 => 162
  | 4 => 72
  | 5 => 66
  | _ => 0

/-- The pixel belongs to a block of row `k`. -/
def Picture.InRow (P : Picture) (k i j : ℕ) : Prop :=
  (57 + 6 * k ≤ i ∧ i < 63 + 6 * k) ∧ ∃ s ∈ P.rows k, s.1 ≤ j ∧ j < s.2

/-- The pixel belongs to the ball. -/
def Picture.InBall (P : Picture) (i j : ℕ) : Prop := ∃ t l b r, P.ball = some (t, l, b, r) ∧ InBox t l b r i j

/-- The frame shows the picture: paddle, ball and the right stopper are red (200), blocks have the colour of their row,
and any other pixel is less red and, in a row of blocks, not of that row's colour. -/
structure Shows (fr : Frame) (P : Picture) : Prop where
  height : fr.height = 210
  width : fr.width = 160
  paddle : ∀ i j, InBox 189 P.paddle 193 (P.paddle + 16) i j → fr.px i j = 200
  stopper : ∀ i j, InBox 189 152 195 160 i j → fr.px i j = 200
  blocks : ∀ k < 6, ∀ i j, P.InRow k i j → fr.px i j = blockRed k
  ball : ∀ i j, P.InBall i j → fr.px i j = 200
  rest : ∀ i j, ¬ InBox 189 P.paddle 193 (P.paddle + 16) i j → ¬ InBox 189 152 195 160 i j → (∀ k < 6, ¬ P.InRow k i j) →
    ¬ P.InBall i j → fr.px i j < 200 ∧ ∀ k < 6, 57 + 6 * k ≤ i → i < 63 + 6 * k → fr.px i j ≠ blockRed k

/-- The picture is one of a game: everything between the walls (columns 8 to 151), intervals of blocks in order and not
touching. -/
structure Picture.Possible (P : Picture) : Prop where
  paddle : 8 ≤ P.paddle ∧ P.paddle + 16 ≤ 152
  inside : ∀ k < 6, ∀ s ∈ P.rows k, 8 ≤ s.1 ∧ s.1 < s.2 ∧ s.2 ≤ 152
  apart : ∀ k < 6, (P.rows k).Pairwise fun a b => a.2 < b.1
  ball : ∀ t l b r, P.ball = some (t, l, b, r) → t < b ∧ b < 210 ∧ 8 ≤ l ∧ l < r ∧ r ≤ 152

/-- The ball is off the paddle's rows and the line 57 where the top blocks start, and does not cover a block. -/
def Picture.Clear (P : Picture) : Prop :=
  ∀ t l b r, P.ball = some (t, l, b, r) →
    (b ≤ 57 ∨ 57 < t) ∧ (b ≤ 189 ∨ 193 < t) ∧ ∀ k < 6, ∀ i j, ¬ (P.InRow k i j ∧ InBox t l b r i j)

end LcpPhysics.Spec
