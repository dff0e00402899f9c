import Verif.Proofs.Binary64

/-!
# Model of `f64`: the type

The finite numbers with significands of 53 bits and exponents from -1074 that are below `2^1024`, the infinities and NaN. That the
operations do not lead out of them is shown in `Proofs/Binary64.lean`.
-/

namespace Rqrr

/-- An `f64`. -/
structure F64 where
  raw : Raw64
  valid : raw.Valid

namespace F64

/-- The value, if finite. -/
def value (x : F64) : Option ℚ := x.raw.value

end F64

/-- The operations of `f64`. -/
instance f64Ops : FloatOps F64 where
  add x y := ⟨x.raw.add y.raw, Raw64.valid_add⟩
  sub x y := ⟨x.raw.sub y.raw, Raw64.valid_add⟩
  mul x y := ⟨x.raw.mul y.raw, Raw64.valid_mul x.valid y.valid⟩
  div x y := ⟨x.raw.div y.raw, Raw64.valid_div x.valid y.valid⟩
  neg x := ⟨x.raw.neg, Raw64.valid_neg x.valid⟩
  abs x := ⟨x.raw.abs, Raw64.valid_abs x.valid⟩
  round x := ⟨x.raw.round, Raw64.valid_round x.valid⟩
  floor x := ⟨x.raw.floor, Raw64.valid_floor x.valid⟩
  lt x y := x.raw.lt y.raw
  le x y := x.raw.le y.raw
  ofInt i := ⟨.ofValue false i, Raw64.valid_ofValue _ _⟩
  lit m e := ⟨.ofValue false ((m : ℚ) / 10 ^ e), Raw64.valid_ofValue _ _⟩
  epsilon := ⟨.fin false (1 / 2 ^ 52), by positivity, ⟨1, -52, by norm_num, by norm_num, by norm_num⟩,
    (show (1 : ℚ) / 2 ^ 52 ≤ 1 by norm_num).trans_lt (one_lt_pow₀ (by norm_num) (by norm_num))⟩
  toI32 x := x.raw.toInt (-(2 ^ 31)) (2 ^ 31 - 1)
  toUsize x := (x.raw.toInt 0 (2 ^ 64 - 1)).toNat

end Rqrr
