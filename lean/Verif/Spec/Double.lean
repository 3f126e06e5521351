import Mathlib.Data.Int.Log
import Mathlib.Data.Real.Archimedean
import Mathlib.Algebra.Order.Round
import Mathlib.Tactic.Linarith
import Mathlib.Tactic.Positivity
import Mathlib.Tactic.FieldSimp

/-!
# IEEE 754 double precision numbers, without infinities

A number is `m · 2^e` with a mantissa of 53 bits and an exponent of at least -1074.  Overflow is left out: there is no upper bound for
the exponent.
-/

noncomputable section

namespace LcpPhysics.Spec

/-- The double precision numbers. -/
def Rep (x : ℝ) : Prop := ∃ m e : ℤ, x = m * (2 : ℝ) ^ e ∧ |m| < 2 ^ 53 ∧ -1074 ≤ e

/-- A rounding to nearest, however ties are broken. -/
def Nearest (rnd : ℝ → ℝ) : Prop := ∀ x, Rep (rnd x) ∧ ∀ y, Rep y → |rnd x - x| ≤ |y - x|

open Classical in
/-- The nearest integer, the even one of two. -/
def roundEven (s : ℝ) : ℤ := if Int.fract s = 1 / 2 then (if Even ⌊s⌋ then ⌊s⌋ else ⌊s⌋ + 1) else round s

open Classical in
/-- Round to nearest, ties to even. -/
def rne (x : ℝ) : ℝ :=
  if x = 0 then 0 else
    let e := max (Int.log 2 |x| - 52) (-1074)
    roundEven (x / (2 : ℝ) ^ e) * (2 : ℝ) ^ e

end LcpPhysics.Spec
