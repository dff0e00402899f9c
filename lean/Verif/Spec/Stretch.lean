import Verif.Spec.Render

/-!
# Specification: a symbol drawn with modules of unequal sizes

As by a program that stretches a picture of a symbol to a given width and height: the modules of a column are all equally wide, but some
columns may be a pixel wider than others, and modules need not be as high as they are wide.
-/

namespace Rqrr.Spec

/-- The numbers are as evenly spaced as integers can be, with a distance of at least seven: each of the first `n + 1` is at most a half from
`β + α k`. -/
def Even (n : Nat) (f : Nat → Nat) : Prop := ∃ α β : ℚ, 7 ≤ α ∧ ∀ k ≤ n, |(f k : ℚ) - (β + α * k)| ≤ 1 / 2

/-- Where a symbol is drawn: the pixel of its first corner, the direction of its rows (one pixel long), and the places, counted in pixels
from the first corner, where each column and each row of modules begins. -/
structure Layout where
  corner : Point
  right : Point
  column : Nat → Nat
  row : Nat → Nat

/-- A drawing with one pixel per module. -/
def Layout.place (L : Layout) : Placement := ⟨L.corner, L.right, 1⟩

/-- The pixel in column `i` and row `j` of the drawing. -/
def Layout.pixel (L : Layout) (i j : Int) : Point := L.place.pixel i j

/-- The pixel in column `i` and row `j` of the drawing belongs to the module in column `x` and row `y`. -/
structure Layout.InModule (L : Layout) (x y i j : Nat) : Prop where
  left : L.column x ≤ i
  right : i < L.column (x + 1)
  top : L.row y ≤ j
  bottom : j < L.row (y + 1)

/-- A pixel of the drawing. -/
def Layout.InDrawing (L : Layout) (n : Nat) (p : Pos) : Prop :=
  ∃ i j : Nat, i < L.column n ∧ j < L.row n ∧ L.pixel i j = ⟨p.1, p.2⟩

/-- A pixel of one of the three finder patterns of the drawing. -/
def Layout.InFinders (L : Layout) (n : Nat) (p : Pos) : Prop := ∃ a b, FinderPlace n a b ∧
  ∃ i j : Nat, L.column a ≤ i ∧ i < L.column (a + 7) ∧ L.row b ≤ j ∧ j < L.row (b + 7) ∧ L.pixel i j = ⟨p.1, p.2⟩

variable {S : Type} [ImageBuffer S] [LawfulImage S]

open ImageBuffer

/-- The symbol is drawn at this place: each pixel of the drawing is black in the image exactly if its module is dark. Rows come first in the
matrix. The drawing lies in the image, and within the first 10001 rows and columns. Pixels outside the drawing that touch a finder pattern,
be it at a corner, are light; all others may be anything. -/
structure Stretches (img : PreparedImage S) (n : Nat) (M : Nat → Nat → Bool) (L : Layout) : Prop where
  axis : IsAxis L.right
  first : L.column 0 = 0 ∧ L.row 0 = 0
  columns : Even n L.column
  rows : Even n L.row
  inside : ∀ i j : Nat, i < L.column n → j < L.row n → 0 ≤ (L.pixel i j).x ∧ (L.pixel i j).x < width img.buffer ∧
    (L.pixel i j).x ≤ 10000 ∧ 0 ≤ (L.pixel i j).y ∧ (L.pixel i j).y < height img.buffer ∧ (L.pixel i j).y ≤ 10000
  black : ∀ (p : Pos) (x y i j : Nat), x < n → y < n → L.InModule x y i j → L.pixel i j = ⟨p.1, p.2⟩ → (IsBlack img p ↔ M y x = true)
  border : ∀ p q : Pos, L.InFinders n p → p.1 ≤ q.1 + 1 → q.1 ≤ p.1 + 1 → p.2 ≤ q.2 + 1 → q.2 ≤ p.2 + 1 → ¬ L.InDrawing n q →
    ¬ IsBlack img q

/-- The modules are small enough for the place: the product of the lengths of a finder pattern's sides, times either coordinate of the first
pixel of the bottom right 7 x 7 modules, is less than 2^31. -/
def Layout.InRange (L : Layout) (n : Nat) : Prop :=
  ((L.column 7 : Int) - 1) * (L.row 7 - 1) * (L.pixel (L.column (n - 7)) (L.row (n - 7))).x < 2 ^ 31 ∧
  ((L.column 7 : Int) - 1) * (L.row 7 - 1) * (L.pixel (L.column (n - 7)) (L.row (n - 7))).y < 2 ^ 31

/-- Nothing in the image looks like a finder pattern but the three finder patterns. -/
def Layout.Only (L : Layout) (img : PreparedImage S) (n : Nat) : Prop :=
  ∀ y x pos, FinderShape img y x pos → RingAndStone img y pos → L.InFinders n (pos.right, y)

/-- The corners that are reported: the first corner of the drawing, and the points one module beyond its other corners, to the pixel, for
modules as large as they are on average between the finder patterns. -/
def Layout.Bounds (L : Layout) (n : Nat) (bounds : List Point) : Prop :=
  ∃ a b c d : Int, bounds = [L.pixel 0 0, L.pixel a 0, L.pixel b c, L.pixel 0 d] ∧
    |(a : ℚ) - (n + 1) * ((L.column (n - 7) : ℚ) / (n - 7 : Nat))| < 1 ∧ |(b : ℚ) - (n + 1) * ((L.column (n - 7) : ℚ) / (n - 7 : Nat))| < 1 ∧
    |(c : ℚ) - (n + 1) * ((L.row (n - 7) : ℚ) / (n - 7 : Nat))| < 1 ∧ |(d : ℚ) - (n + 1) * ((L.row (n - 7) : ℚ) / (n - 7 : Nat))| < 1

/-- A picture of a symbol brought to a given width and height: its first corner, the direction of its rows (one pixel long), and the number of
its columns and rows of pixels. -/
structure Resized where
  corner : Point
  right : Point
  width : Nat
  height : Nat

/-- Column `i` of `width` columns of pixels shows column `i n / width` of the `n` columns of modules, rounded down, so that the modules of
column `k` begin at `k width / n`, rounded up; and so do rows. -/
def Resized.layout (Q : Resized) (n : Nat) : Layout :=
  ⟨Q.corner, Q.right, fun k => (k * Q.width + (n - 1)) / n, fun k => (k * Q.height + (n - 1)) / n⟩

/-- The colour of a pixel in such a picture; what is not in the picture is light. -/
def Resized.dark (Q : Resized) (n : Nat) (M : Nat → Nat → Bool) (x y : Nat) : Bool :=
  let i := (x - Q.corner.x) * Q.right.x + (y - Q.corner.y) * Q.right.y
  let j := (y - Q.corner.y) * Q.right.x - (x - Q.corner.x) * Q.right.y
  decide (0 ≤ i ∧ i < Q.width ∧ 0 ≤ j ∧ j < Q.height) && M (j.toNat * n / Q.height) (i.toNat * n / Q.width)

/-- The picture lies in an image of this size, is turned by quarter turns, has at least seven columns and rows of pixels for each one of
modules, and lies within the first 10001 rows and columns. -/
structure Resized.Fits (Q : Resized) (w h n : Nat) : Prop where
  axis : IsAxis Q.right
  wide : 7 * n ≤ Q.width
  high : 7 * n ≤ Q.height
  first : 0 ≤ Q.corner.x ∧ Q.corner.x < w ∧ Q.corner.x ≤ 10000 ∧ 0 ≤ Q.corner.y ∧ Q.corner.y < h ∧ Q.corner.y ≤ 10000
  last : ∀ p, p = (Q.layout n).pixel (Q.width - 1) (Q.height - 1) → 0 ≤ p.x ∧ p.x < w ∧ p.x ≤ 10000 ∧ 0 ≤ p.y ∧ p.y < h ∧ p.y ≤ 10000

end Rqrr.Spec
