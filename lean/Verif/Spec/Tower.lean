import Verif.Spec.Statics
import Verif.Lemmas.Bodies
import Verif.Model.Joints
import Verif.Model.Engine
import Mathlib.Algebra.BigOperators.Intervals

/-! # Specification: a tower of level bricks on a fixed floor -/

noncomputable section

namespace LcpPhysics.Spec

/-- A level rectangle: abscissa of its centre, width, height, mass, restitution, friction, safety margin. -/
structure Block where
  x : ℝ
  w : ℝ
  h : ℝ
  m : ℝ
  e : ℝ
  μ : ℝ
  eps : ℝ

/-- Block 0 is the floor, with its centre at height `y0`; blocks `1 … n` stand on one another.  The y axis points
downwards. -/
structure Tower where
  n : ℕ
  blk : ℕ → Block
  y0 : ℝ

namespace Tower

/-- Height of the centre of a block: each rests on the top of the previous one. -/
def y (T : Tower) : ℕ → ℝ
  | 0 => T.y0
  | k + 1 => T.y k - ((T.blk k).h + (T.blk (k + 1)).h) / 2

def body (T : Tower) (k : ℕ) : Body :=
  rectBase (.two ((T.blk k).x, T.y k)) ((T.blk k).w, (T.blk k).h)
    { vel := .two (0, 0), mass := (T.blk k).m, restitution := (T.blk k).e, fric_coeff := (T.blk k).μ,
      eps := (T.blk k).eps }

def bodies (T : Tower) : List Body := (List.range (T.n + 1)).map T.body

/-- Left and right end of the area in which block `k + 1` rests on block `k`. -/
def left (T : Tower) (k : ℕ) : ℝ :=
  max ((T.blk k).x - (T.blk k).w / 2) ((T.blk (k + 1)).x - (T.blk (k + 1)).w / 2)

def right (T : Tower) (k : ℕ) : ℝ :=
  min ((T.blk k).x + (T.blk k).w / 2) ((T.blk (k + 1)).x + (T.blk (k + 1)).w / 2)

/-- Mass of the blocks from `k` upwards, and their mass times the abscissa of their centre of mass. -/
def massFrom (T : Tower) (k : ℕ) : ℝ := ∑ j ∈ Finset.Ico k (T.n + 1), (T.blk j).m

def momentFrom (T : Tower) (k : ℕ) : ℝ := ∑ j ∈ Finset.Ico k (T.n + 1), (T.blk j).m * (T.blk j).x

/-- Blocks have positive sizes and masses, and each rests on the previous one in an area, not just a corner. -/
structure Valid (T : Tower) : Prop where
  w : ∀ k ≤ T.n, 0 < (T.blk k).w
  h : ∀ k ≤ T.n, 0 < (T.blk k).h
  m : ∀ k ≤ T.n, 0 < (T.blk k).m
  eps : ∀ k ≤ T.n, 0 ≤ (T.blk k).eps
  rests : ∀ k < T.n, T.left k < T.right k

/-- At every interface the centre of mass of all that is above it lies over the area of contact. -/
def Stable (T : Tower) : Prop :=
  ∀ k < T.n, T.left k * T.massFrom (k + 1) ≤ T.momentFrom (k + 1) ∧
    T.momentFrom (k + 1) ≤ T.right k * T.massFrom (k + 1)

/-- Whatever the time, gravity `g` is what acts on the bricks; anything may act on the floor. -/
def Weigh (T : Tower) (H : ForceHeap) (g : ℝ) : Prop :=
  ∀ t fl, forceCat H t (T.n + 1) = .ok fl → ∀ k, 1 ≤ k → k ≤ T.n → fl.getD k 0 = ⟨0, 0, (T.blk k).m * g⟩

/-- A contact between the bottom of block `k + 1` and the top of block `k` at abscissa `X`. -/
def RestsAt (T : Tower) (k : ℕ) (X : ℝ) (c : Contact) : Prop :=
  let Y := T.y k - (T.blk k).h / 2
  (c.i1 = k + 1 ∧ c.i2 = k ∧ c.normal = (0, -1) ∧ c.p1 = (X - (T.blk (k + 1)).x, Y - T.y (k + 1)) ∧
    c.p2 = (X - (T.blk k).x, Y - T.y k)) ∨
  (c.i1 = k ∧ c.i2 = k + 1 ∧ c.normal = (0, 1) ∧ c.p1 = (X - (T.blk k).x, Y - T.y k) ∧
    c.p2 = (X - (T.blk (k + 1)).x, Y - T.y (k + 1)))

end Tower

end LcpPhysics.Spec
