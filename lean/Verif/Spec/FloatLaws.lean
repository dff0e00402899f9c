import Verif.Model.Float

/-!
# Laws of floating point arithmetic

The only fact about rounding used outside exact arithmetic: subtracting 15 from a small integer is exact. It holds for IEEE
double precision, where all integers below `2^53` are represented exactly.
-/

namespace Rqrr.Spec

open FloatOps

/-- Small integers are exact: `(n as f64 - 15.0).floor() as usize` is `n - 15`, or 0 if that is negative. -/
def SmallIntegersExact (F : Type) [FloatOps F] : Prop :=
  ∀ n : Nat, n < 2 ^ 53 → toUsize (FloatOps.floor (ofInt (n : Int) - lit 15 0 : F)) = n - 15

end Rqrr.Spec
