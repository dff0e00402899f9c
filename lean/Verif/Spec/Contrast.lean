import Verif.Spec.Binarise
import Mathlib.Data.Rat.Defs
import Mathlib.Algebra.Order.Field.Rat

/-!
# Specification: contrast

Binarisation without the rounding: a pixel is compared with what lies before it on two paths through the image, where nearer places have more
weight.
-/

namespace Rqrr.Spec

/-- The mean of a quantity over the places of a path up to `(x, y)`. The place `i` steps before has the weight `(1 - 1 / t) ^ i / t`, with `t`
an eighth of the width. -/
def weightedMean (w : Nat) (f : Nat → Nat → ℚ) (right : Bool) (x y : Nat) : ℚ :=
  ((List.range (snakeIndex w right x y + 1)).map fun i =>
    f (snake w right (snakeIndex w right x y - i)).1 (snake w right (snakeIndex w right x y - i)).2 *
      (1 - 1 / (averageWindow w : ℚ)) ^ i).sum / averageWindow w

/-- The luminance up to which a pixel counts as dark: 95 percent of the mean of the two means. -/
def threshold (w : Nat) (f : Nat → Nat → Byte) (x y : Nat) : ℚ :=
  95 / 100 * ((weightedMean w (fun x y => ((f x y).toNat : ℚ)) true x y + weightedMean w (fun x y => ((f x y).toNat : ℚ)) false x y) / 2)

/-- A greyscale picture shows a bitmap with enough contrast: dark pixels are at least two levels below the threshold, light ones are not
below it. -/
structure Contrast (w h : Nat) (f : Nat → Nat → Byte) (d : Nat → Nat → Bool) : Prop where
  dark : ∀ x y, x < w → y < h → d x y = true → ((f x y).toNat : ℚ) + 2 ≤ threshold w f x y
  light : ∀ x y, x < w → y < h → d x y = false → threshold w f x y ≤ (f x y).toNat

/-- How much light there is before a pixel of a bitmap: the weight of the light places on the two paths, from 0 to 2. -/
def lightBefore (w : Nat) (d : Nat → Nat → Bool) (x y : Nat) : ℚ :=
  weightedMean w (fun x y => if d x y then 0 else 1) true x y + weightedMean w (fun x y => if d x y then 0 else 1) false x y

/-- A picture of a bitmap in two tones: dark pixels have at most the luminance `k`, light ones have at least `a` and at most `b`, which differ
by at most five percent; and there is enough light before every dark pixel. -/
structure TwoTones (w h : Nat) (f : Nat → Nat → Byte) (d : Nat → Nat → Bool) (k a b : Nat) : Prop where
  dark : ∀ x y, x < w → y < h → d x y = true → (f x y).toNat ≤ k
  light : ∀ x y, x < w → y < h → d x y = false → a ≤ (f x y).toNat ∧ (f x y).toNat ≤ b
  lights : 19 * b ≤ 20 * a
  order : k ≤ b
  enough : ∀ x y, x < w → y < h → d x y = true → 200 * ((k : ℚ) + 2) ≤ 95 * (a * lightBefore w d x y)

/-- A picture in two tones of a bitmap that is light but for the columns from `l` to `r - 1`, with margins of at least `m` columns. How dark
the dark pixels have to be depends only on the sizes: with `t` an eighth of the width and `q = 1 - 1 / t`, 100 times their luminance plus 200 is
at most `95 * a * (1 - q ^ m)` times the square root of `q ^ (r - l + 1)`. -/
structure Framed (w h : Nat) (f : Nat → Nat → Byte) (d : Nat → Nat → Bool) (k a b l r m : Nat) : Prop where
  dark : ∀ x y, x < w → y < h → d x y = true → (f x y).toNat ≤ k
  light : ∀ x y, x < w → y < h → d x y = false → a ≤ (f x y).toNat ∧ (f x y).toNat ≤ b
  lights : 19 * b ≤ 20 * a
  order : k ≤ b
  columns : ∀ x y, x < w → y < h → d x y = true → l ≤ x ∧ x < r
  left : m ≤ l
  right : r + m ≤ w
  enough : (100 * ((k : ℚ) + 2)) ^ 2 ≤ (95 * (a * (1 - (1 - 1 / (averageWindow w : ℚ)) ^ m))) ^ 2 * (1 - 1 / (averageWindow w : ℚ)) ^ (r - l + 1)

end Rqrr.Spec
