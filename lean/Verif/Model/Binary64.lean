import Verif.Spec.Exact
import Mathlib.Data.Int.Log
import Mathlib.Algebra.Order.Round

/-!
# Model of `f64`

IEEE 754 binary64 with the operations the code uses: `+ - * /`, negation, comparison and literals as defined by the Rust reference
and IEEE 754 (round to nearest, ties to even, gradual underflow, overflow to infinity), `f64::abs`, `f64::round` (ties away from
zero), `f64::floor`, and the saturating casts `as i32`, `as usize`, `i32 as f64`, `usize as f64`. There is one NaN: the code never
looks at its sign or payload. Here a finite number is its sign and any magnitude; `Model/Double.lean` has the type of those with 53 bit
significands and exponents of at least -1074, which `Proofs/Binary64.lean` shows to be closed under the operations.
-/

namespace Rqrr

/-- A sign and a magnitude, infinite or not a number. The doubles are those with magnitudes that can be represented (`Model/Double.lean`). -/
inductive Raw64 where
  | nan
  | inf (neg : Bool)
  | fin (neg : Bool) (mag : ℚ)
  deriving DecidableEq

namespace Raw64

/-- Nearest integer, ties to even. -/
def nearestEven (x : ℚ) : Int :=
  if x - ⌊x⌋ < 1 / 2 then ⌊x⌋
  else if 1 / 2 < x - ⌊x⌋ then ⌊x⌋ + 1
  else if ⌊x⌋ % 2 = 0 then ⌊x⌋ else ⌊x⌋ + 1

/-- The exponent of the last bit of the significand of a number of this magnitude. -/
def exponent (q : ℚ) : Int := max (-1074) (Int.log 2 q - 52)

/-- The magnitude rounded to a significand of 53 bits, without regard to overflow. -/
def roundMag (q : ℚ) : ℚ := nearestEven (q / 2 ^ exponent q) * 2 ^ exponent q

/-- A result with its sign and its exact magnitude. -/
def ofMag (neg : Bool) (q : ℚ) : Raw64 := if roundMag q < 2 ^ 1024 then .fin neg (roundMag q) else .inf neg

/-- A result with its exact value; `zero` is the sign if that is 0. -/
def ofValue (zero : Bool) (q : ℚ) : Raw64 := ofMag (if q = 0 then zero else decide (q < 0)) |q|

/-- The value of a finite number. -/
def signed (neg : Bool) (m : ℚ) : ℚ := if neg then -m else m

/-- The value, if finite. -/
def value : Raw64 → Option ℚ
  | .nan => none
  | .inf _ => none
  | .fin s m => some (signed s m)

def neg : Raw64 → Raw64
  | .nan => .nan
  | .inf s => .inf !s
  | .fin s m => .fin (!s) m

def add : Raw64 → Raw64 → Raw64
  | .nan, _ => .nan
  | _, .nan => .nan
  | .inf s, .inf t => if s = t then .inf s else .nan
  | .inf s, .fin _ _ => .inf s
  | .fin _ _, .inf t => .inf t
  | .fin s m, .fin t n => ofValue (s && t) (signed s m + signed t n)

def sub (x y : Raw64) : Raw64 := add x (neg y)

def mul : Raw64 → Raw64 → Raw64
  | .nan, _ => .nan
  | _, .nan => .nan
  | .inf s, .inf t => .inf (s ^^ t)
  | .inf s, .fin t n => if n = 0 then .nan else .inf (s ^^ t)
  | .fin s m, .inf t => if m = 0 then .nan else .inf (s ^^ t)
  | .fin s m, .fin t n => ofMag (s ^^ t) (m * n)

def div : Raw64 → Raw64 → Raw64
  | .nan, _ => .nan
  | _, .nan => .nan
  | .inf _, .inf _ => .nan
  | .inf s, .fin t _ => .inf (s ^^ t)
  | .fin s _, .inf t => .fin (s ^^ t) 0
  | .fin s m, .fin t n => if n = 0 then (if m = 0 then .nan else .inf (s ^^ t)) else ofMag (s ^^ t) (m / n)

def abs : Raw64 → Raw64
  | .nan => .nan
  | .inf _ => .inf false
  | .fin _ m => .fin false m

/-- `f64::round`: ties away from zero; the sign is kept. -/
def round : Raw64 → Raw64
  | .fin s m => .fin s (nearest m)
  | x => x

/-- `f64::floor`; the sign is kept. -/
def floor : Raw64 → Raw64
  | .fin s m => .fin s |(⌊signed s m⌋ : ℚ)|
  | x => x

def lt : Raw64 → Raw64 → Bool
  | .nan, _ => false
  | _, .nan => false
  | .inf s, .inf t => s && !t
  | .inf s, .fin _ _ => s
  | .fin _ _, .inf t => !t
  | .fin s m, .fin t n => decide (signed s m < signed t n)

def le : Raw64 → Raw64 → Bool
  | .nan, _ => false
  | _, .nan => false
  | .inf s, .inf t => s || !t
  | .inf s, .fin _ _ => s
  | .fin _ _, .inf t => !t
  | .fin s m, .fin t n => decide (signed s m ≤ signed t n)

/-- `as` to an integer type with this range. -/
def toInt (lo hi : Int) : Raw64 → Int
  | .nan => 0
  | .inf s => if s then lo else hi
  | .fin s m => saturate lo hi (truncate (signed s m))

end Raw64

end Rqrr
