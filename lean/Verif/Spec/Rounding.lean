import Verif.Spec.Exact
import Mathlib.Tactic.Positivity

/-!
# Correctly rounded arithmetic

What the theorems about drawings assume of the numbers: every operation gives the exact result, rounded; rounding moves a number by
at most the fraction `2^-53` of itself (or by next to nothing, if it is next to nothing), and leaves small integers alone. Nothing is
assumed about results beyond `2^200`. Exact arithmetic is an instance, and so is IEEE 754 binary64 (`Proofs/Binary64.lean`).
-/

namespace Rqrr.Spec

open FloatOps

/-- Correctly rounded arithmetic. -/
class Rounding (F : Type) [FloatOps F] where
  /-- The number is finite and has this value. -/
  Is : F → ℚ → Prop
  /-- Rounding. -/
  rnd : ℚ → ℚ
  rnd_near : ∀ q, |rnd q - q| ≤ |q| / 2 ^ 53 + 1 / 2 ^ 200
  rnd_int : ∀ m : Int, |m| ≤ 2 ^ 53 → rnd m = m
  unique : ∀ {x : F} {p q}, Is x p → Is x q → p = q
  add : ∀ {x y : F} {p q}, Is x p → Is y q → |p + q| ≤ 2 ^ 200 → Is (FloatOps.add x y) (rnd (p + q))
  sub : ∀ {x y : F} {p q}, Is x p → Is y q → |p - q| ≤ 2 ^ 200 → Is (FloatOps.sub x y) (rnd (p - q))
  mul : ∀ {x y : F} {p q}, Is x p → Is y q → |p * q| ≤ 2 ^ 200 → Is (FloatOps.mul x y) (rnd (p * q))
  div : ∀ {x y : F} {p q}, Is x p → Is y q → q ≠ 0 → |p / q| ≤ 2 ^ 200 → Is (FloatOps.div x y) (rnd (p / q))
  neg : ∀ {x : F} {p}, Is x p → Is (FloatOps.neg x) (-p)
  abs : ∀ {x : F} {p}, Is x p → Is (FloatOps.abs x) |p|
  round : ∀ {x : F} {p}, Is x p → Is (FloatOps.round x) (nearest p)
  floor : ∀ {x : F} {p}, Is x p → Is (FloatOps.floor x) ⌊p⌋
  lt : ∀ {x y : F} {p q}, Is x p → Is y q → FloatOps.lt x y = decide (p < q)
  le : ∀ {x y : F} {p q}, Is x p → Is y q → FloatOps.le x y = decide (p ≤ q)
  ofInt : ∀ i : Int, |i| ≤ 2 ^ 200 → Is (FloatOps.ofInt i : F) (rnd i)
  lit : ∀ m e : Nat, ((m : ℚ) / 10 ^ e) ≤ 2 ^ 200 → Is (FloatOps.lit m e : F) (rnd ((m : ℚ) / 10 ^ e))
  epsilon : Is (FloatOps.epsilon : F) (1 / 2 ^ 52)
  toI32 : ∀ {x : F} {p}, Is x p → FloatOps.toI32 x = saturate (-(2 ^ 31)) (2 ^ 31 - 1) (truncate p)
  toUsize : ∀ {x : F} {p}, Is x p → FloatOps.toUsize x = (saturate 0 (2 ^ 64 - 1) (truncate p)).toNat

/-- Exact arithmetic rounds correctly. -/
instance : Rounding ℚ where
  Is x q := x = q
  rnd q := q
  rnd_near q := by rw [sub_self, abs_zero]; positivity
  rnd_int _ _ := rfl
  unique h1 h2 := h1.symm.trans h2
  add h1 h2 _ := by subst h1; subst h2; rfl
  sub h1 h2 _ := by subst h1; subst h2; rfl
  mul h1 h2 _ := by subst h1; subst h2; rfl
  div h1 h2 _ _ := by subst h1; subst h2; rfl
  neg h := by subst h; rfl
  abs h := by subst h; rfl
  round h := by subst h; rfl
  floor h := by subst h; rfl
  lt h1 h2 := by subst h1; subst h2; rfl
  le h1 h2 := by subst h1; subst h2; rfl
  ofInt _ _ := rfl
  lit _ _ _ := rfl
  epsilon := rfl
  toI32 h := by subst h; rfl
  toUsize h := by subst h; rfl

end Rqrr.Spec
