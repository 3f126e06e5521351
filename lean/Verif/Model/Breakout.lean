import Verif.Model.World
import Mathlib.Data.Real.Basic
import Mathlib.Data.Real.Sign

/-!
# Model of `experiments/breakout/encoder.py` and `experiments/breakout/run_breakout.py`

The pure parts: reading parameters off a frame, packing them into a vector, choosing an action
(`Model/BreakoutWorld` has the simulation).
A frame is its first colour channel (the only one read; `remove_rect` clears all channels).
-/

noncomputable section

namespace LcpPhysics.Breakout

/-! ## State vectors -/

/-- `[pos, dims]` of a rectangle. -/
structure BoxParams where
  px : ℝ
  py : ℝ
  w : ℝ
  h : ℝ

/-- `[pos, rad]` of the ball. -/
structure BallParams where
  px : ℝ
  py : ℝ
  rad : ℝ

/-- `torch.cat` of position and dimensions. -/
def BoxParams.toList (b : BoxParams) : List ℝ := [b.px, b.py] ++ [b.w, b.h]

/-- run_breakout.py:47-60 `to_vector`. -/
def to_vector (paddle : BoxParams) (blocks : List BoxParams) (ball : BallParams) : List ℝ :=
  let ballV := [ball.px, ball.py] ++ [ball.rad]
  let blocksV := if blocks ≠ [] then blocks.flatMap BoxParams.toList else [1000, 60, 1, 1]
  paddle.toList ++ blocksV ++ ballV

/-- `v[a:b]` for `0 ≤ a`, `0 ≤ b`. -/
def slice (v : List ℝ) (a b : ℕ) : List ℝ := (v.take b).drop a

/-- `range(start, stop, 4)`. -/
def range4 (start stop : ℕ) : List ℕ := (List.range ((stop - start + 3) / 4)).map fun k => start + 4 * k

/-- run_breakout.py:63-69 `from_vector`: pairs of slices; `v[-1]` raises on an empty vector (then also
every slice is empty).  Negative bounds count from the end and are cut off at zero. -/
def from_vector (v : List ℝ) : Option ((List ℝ × List ℝ) × List (List ℝ × List ℝ) × (List ℝ × ℝ)) :=
  let n := v.length
  let paddle := (slice v 0 2, slice v 2 4)
  let blocks := (range4 4 (slice v 0 (n - 3)).length).map fun i => (slice v i (i + 2), slice v (i + 2) (i + 4))
  match v.getLast? with
  | none => none
  | some last => some (paddle, blocks, (slice v (n - 3) (n - 1), last))

open Classical in
/-- run_breakout.py:157-164 `get_action`; `int` truncates towards zero (the argument is positive). -/
def get_action (a threshold : ℝ) : ℤ :=
  if |a| ≥ 1 * threshold then ⌊(Real.sign a + 1) / 2 + 2⌋ else 0

/-! ## Frames -/

/-- The first channel of a frame with its size. -/
structure Frame where
  height : ℕ
  width : ℕ
  px : ℕ → ℕ → ℕ

/-- `frame[i, :, 0]`. -/
def Frame.row (fr : Frame) (i : ℕ) : List ℕ := (List.range fr.width).map (fr.px i)

/-- encoder.py:136-137 `remove_rect`; the arguments are the inclusive bounds of the rectangle plus one
(the code adds one to the lower right corner before slicing). -/
def Frame.clear (fr : Frame) (top left bottom right : ℕ) : Frame :=
  { fr with px := fun i j => if top ≤ i ∧ i < bottom ∧ left ≤ j ∧ j < right then 0 else fr.px i j }

/-- `np.argmax` of a boolean row: the first `True`, or zero. -/
def argmaxB (l : List Bool) : ℕ := if l.findIdx id < l.length then l.findIdx id else 0

/-- `np.argmin` of a boolean row: the first `False`, or zero. -/
def argminB (l : List Bool) : ℕ := argmaxB (l.map not)

/-- A rectangle found on the screen: top, left, bottom, right. -/
abbrev Corners := ℕ × ℕ × ℕ × ℕ

/-- encoder.py:95-101: the scan of one row of blocks; `none` if still running after `fuel` passes. -/
def scanRow (top color : ℕ) : ℕ → Frame → Option (List Corners × Frame)
  | 0, _ => none
  | fuel + 1, fr =>
    let left := argmaxB ((fr.row top).map (· == color))
    if left > 0 then
      let right := argminB (((fr.row top).drop left).map (· == color)) + left
      (scanRow top color fuel (fr.clear top left (top + 6) right)).map fun r =>
        ((top, left, top + 6, right) :: r.1, r.2)
    else some ([], fr)

/-- encoder.py:93-101: the loop over the colours from row `top` on. -/
def scanBlocks (fuel : ℕ) : ℕ → List ℕ → Frame → Option (List Corners × Frame)
  | _, [], fr => some ([], fr)
  | top, c :: colors, fr =>
    (scanRow top c fuel fr).bind fun r =>
      (scanBlocks fuel (top + 6) colors r.2).map fun q => (r.1 ++ q.1, q.2)

/-- encoder.py:107-121: the search for the ball, the first pixel of the colour in reading order. -/
def findBall (color : ℕ) (fr : Frame) : Option Corners :=
  ((List.range fr.height).flatMap fun i => (List.range fr.width).map fun j => (i, j)).find?
      (fun p => fr.px p.1 p.2 == color) |>.map fun p =>
    let right := argminB (((fr.row p.1).drop p.2).map (· == color)) + p.2
    let bottom := argminB ((((List.range fr.height).map fun i => fr.px i p.2).drop p.1).map (· == color)) + p.1
    (p.1, p.2, bottom, right)

/-- encoder.py:140-145 `get_pos_dims`. -/
def get_pos_dims (c : Corners) : BoxParams :=
  { px := ((c.2.2.2 : ℝ) + c.2.1) / 2, py := ((c.2.2.1 : ℝ) + c.1) / 2
    w := (c.2.2.2 : ℝ) - c.2.1, h := (c.2.2.1 : ℝ) - c.1 }

/-- encoder.py:123-129: the ball's parameters; far off the screen if no ball is seen. -/
def ballParams (c : Option Corners) : BallParams :=
  match c with
  | some c =>
    let b := get_pos_dims c
    { px := b.px, py := b.py, rad := min (min b.w b.h / 2) 1 }
  | none => { px := 160 / 2, py := 210 * 100, rad := 1 }

/-- `np.argmax` of a row of numbers: the first index of the largest entry. -/
def argmaxN (l : List ℕ) : ℕ := l.findIdx fun a => a == l.foldr max 0

/-- encoder.py:67-82: the search for the paddle in row `PADDLE_TOP_LINE = 189`.  Reading past the end of the
row raises; the later slices are never empty. -/
def findPaddle (fr : Frame) : Except Err Corners :=
  let row := fr.row 189
  let x := argmaxN row
  if x + 2 + 1 < fr.width then
    let x := if row.getD (x + 2 + 1) 0 ≠ 200 then argmaxN (row.drop (x + 2 + 1)) + x + 2 + 1 else x
    let right := argminB ((row.drop x).map (· == 200)) + x
    let right := if right ≠ x then right else 160
    let right := min right (x + 16)
    .ok (189, x, 189 + 4, right)
  else .error (.raised "IndexError")

/-- encoder.py:25-40: the first channel of `BLOCK_COLORS`. -/
def blockColors : List ℕ := [200, 198, 180, 162, 72, 66]

/-- encoder.py:63-133 `extract_params` of a 160 x 210 frame. -/
def extract_params (fuel : ℕ) (fr : Frame) : Run (BoxParams × List BoxParams × BallParams) :=
  (Run.ofExcept (findPaddle fr)).bind fun c =>
    let fr := fr.clear c.1 c.2.1 (c.2.2.1 + 1) (c.2.2.2 + 1)
    match scanBlocks fuel 57 blockColors fr with
    | none => .running
    | some (blocks, fr) =>
      let fr := fr.clear 189 (160 - 8) (189 + 6 - 1 + 1) (160 + 1)
      .done (get_pos_dims c, blocks.map get_pos_dims, ballParams (findBall 200 fr))

end LcpPhysics.Breakout
