import Verif.Model.Basic

/-!
# Specification: adaptive binarisation

Two running averages follow the image along two mirrored paths that go row by row, alternately left to right and right to
left. A pixel is black iff it is darker than 95 % of the mean of the two averages at that pixel.
-/

namespace Rqrr.Spec

/-- Weight of the averages: an eighth of the width, at least 1. -/
def averageWindow (w : Nat) : Nat := max (w / 8) 1

/-- The average (times the window) after the first `k` values of a sequence: the old average loses a `ts`-th of itself,
the new value is added. -/
def running (ts : Nat) (seq : Nat → Nat) : Nat → Nat
  | 0 => 0
  | k + 1 => running ts seq k * (ts - 1) / ts + seq k

/-- The pixels in the order of the path that starts to the right (`true`) or to the left (`false`). -/
def snake (w : Nat) (right : Bool) (k : Nat) : Nat × Nat :=
  (if (k / w % 2 == 0) == right then k % w else w - 1 - k % w, k / w)

/-- The place of pixel `(x, y)` on the path. -/
def snakeIndex (w : Nat) (right : Bool) (x y : Nat) : Nat :=
  y * w + if (y % 2 == 0) == right then x else w - 1 - x

/-- The average at pixel `(x, y)` along a path. -/
def averageAt (w : Nat) (f : Nat → Nat → Byte) (right : Bool) (x y : Nat) : Nat :=
  running (averageWindow w) (fun k => (f (snake w right k).1 (snake w right k).2).toNat) (snakeIndex w right x y + 1)

/-- Is pixel `(x, y)` of an image of width `w` black after binarisation? -/
def black (w : Nat) (f : Nat → Nat → Byte) (x y : Nat) : Bool :=
  decide ((f x y).toNat < (averageAt w f true x y + averageAt w f false x y) * 95 / (200 * averageWindow w))

/-- The sum of the luminances of the last `n` pixels of a path up to `(x, y)`. -/
def recentSum (w : Nat) (f : Nat → Nat → Byte) (right : Bool) (n x y : Nat) : Nat :=
  ((List.range n).map fun i => if i ≤ snakeIndex w right x y then
    (f (snake w right (snakeIndex w right x y - i)).1 (snake w right (snakeIndex w right x y - i)).2).toNat else 0).sum

end Rqrr.Spec
