import Verif.Model.Basic

/-!
# Floating point interface

The `f64` operations used by the code, as an interface. The model is parametric in it: what is proved for an arbitrary
instance holds whatever the rounding, NaN or infinity behaviour is; what needs more assumes the laws of
`Spec/FloatLaws.lean`. Lean's `Float` is an instance, used to run the model.
-/

namespace Rqrr

/-- The operations of `f64` that occur in /repo. -/
class FloatOps (F : Type) where
  add : F → F → F
  sub : F → F → F
  mul : F → F → F
  div : F → F → F
  neg : F → F
  abs : F → F
  round : F → F
  floor : F → F
  /-- `a < b` -/
  lt : F → F → Bool
  /-- `a <= b` -/
  le : F → F → Bool
  /-- `i as f64`, for `i32` and `usize` values. -/
  ofInt : Int → F
  /-- the literal `m * 10^-e` -/
  lit : Nat → Nat → F
  /-- `f64::EPSILON` -/
  epsilon : F
  /-- `a as i32` (saturating, NaN becomes 0) -/
  toI32 : F → Int
  /-- `a as usize` (saturating, NaN becomes 0) -/
  toUsize : F → Nat

namespace FloatOps

scoped instance {F : Type} [FloatOps F] : Add F := ⟨FloatOps.add⟩
scoped instance {F : Type} [FloatOps F] : Sub F := ⟨FloatOps.sub⟩
scoped instance {F : Type} [FloatOps F] : Mul F := ⟨FloatOps.mul⟩
scoped instance {F : Type} [FloatOps F] : Div F := ⟨FloatOps.div⟩
scoped instance {F : Type} [FloatOps F] : Neg F := ⟨FloatOps.neg⟩

end FloatOps

/-- Lean's `Float` (IEEE double), for running the model. -/
@[instance_reducible] def floatOps : FloatOps Float where
  add := (· + ·)
  sub := (· - ·)
  mul := (· * ·)
  div := (· / ·)
  neg := (- ·)
  abs := Float.abs
  round := Float.round
  floor := Float.floor
  lt a b := a < b
  le a b := a ≤ b
  ofInt i := if i < 0 then -(Float.ofNat i.natAbs) else Float.ofNat i.natAbs
  lit m e := OfScientific.ofScientific m true e
  epsilon := OfScientific.ofScientific 2220446049250313 true 31
  toI32 a := a.toInt32.toInt
  toUsize a := a.toUInt64.toNat

end Rqrr
