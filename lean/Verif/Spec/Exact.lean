import Verif.Model.Float
import Mathlib.Algebra.Order.Field.Rat
import Mathlib.Data.Rat.Floor

/-!
# Exact arithmetic

The operations of `Model/Float.lean` on the rationals, without rounding. Theorems about this instance say what the
geometric code computes apart from floating point error.
-/

namespace Rqrr

/-- Clamp to the range `[lo, hi]`, as the saturating conversions of Rust do. -/
def saturate (lo hi z : Int) : Int := max lo (min hi z)

/-- The integer part: rounding towards zero. -/
def truncate (x : ℚ) : Int := if 0 ≤ x then ⌊x⌋ else ⌈x⌉

/-- Rounding to the nearest integer, halves away from zero. -/
def nearest (x : ℚ) : Int := if 0 ≤ x then ⌊x + 1 / 2⌋ else ⌈x - 1 / 2⌉

/-- Exact arithmetic on the rationals. -/
instance ratOps : FloatOps ℚ where
  add := (· + ·)
  sub := (· - ·)
  mul := (· * ·)
  div := (· / ·)
  neg := (- ·)
  abs := fun x => |x|
  round := fun x => (nearest x : ℚ)
  floor := fun x => (⌊x⌋ : ℚ)
  lt := fun a b => decide (a < b)
  le := fun a b => decide (a ≤ b)
  ofInt := fun i => (i : ℚ)
  lit := fun m e => (m : ℚ) / 10 ^ e
  epsilon := 1 / 2 ^ 52
  toI32 := fun x => saturate (-(2 ^ 31)) (2 ^ 31 - 1) (truncate x)
  toUsize := fun x => (saturate 0 (2 ^ 64 - 1) (truncate x)).toNat

end Rqrr
