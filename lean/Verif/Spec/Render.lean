import Verif.Spec.Patterns
import Verif.Spec.Finder
import Verif.Spec.Regions

/-!
# Specification: a symbol drawn into an image

Every module is a square of equally many pixels; the symbol may be turned by quarter turns. (A mirrored symbol is a drawing of the
transposed matrix.)
-/

namespace Rqrr.Spec

/-- Where a symbol is drawn: the pixel of its first corner, the direction of its rows (one pixel long), and the number of pixels
per module. -/
structure Placement where
  corner : Point
  right : Point
  scale : Nat

/-- The pixel in column `i` and row `j` of the drawing. The direction of the columns is a quarter turn from the direction of the rows. -/
def Placement.pixel (P : Placement) (i j : Int) : Point where
  x := P.corner.x + i * P.right.x - j * P.right.y
  y := P.corner.y + i * P.right.y + j * P.right.x

/-- One of the four directions along the axes. -/
def IsAxis (e : Point) : Prop := e = ⟨1, 0⟩ ∨ e = ⟨0, 1⟩ ∨ e = ⟨-1, 0⟩ ∨ e = ⟨0, -1⟩

variable {S : Type} [ImageBuffer S] [LawfulImage S]

open ImageBuffer

/-- A pixel of the drawing. -/
def InDrawing (n : Nat) (P : Placement) (p : Pos) : Prop :=
  ∃ i j : Nat, i < n * P.scale ∧ j < n * P.scale ∧ P.pixel i j = ⟨p.1, p.2⟩

/-- The place of a finder pattern: a corner of the matrix. -/
def FinderPlace (n a b : Nat) : Prop := (a = 0 ∧ b = 0) ∨ (a = n - 7 ∧ b = 0) ∨ (a = 0 ∧ b = n - 7)

/-- A pixel of one of the three finder patterns of the drawing. -/
def InFinders (n : Nat) (P : Placement) (p : Pos) : Prop := ∃ a b, FinderPlace n a b ∧
  ∃ i j : Nat, a * P.scale ≤ i ∧ i < (a + 7) * P.scale ∧ b * P.scale ≤ j ∧ j < (b + 7) * P.scale ∧ P.pixel i j = ⟨p.1, p.2⟩

/-- The module in this column and row belongs to the finder patterns, their separators, the timing patterns (with all of row 6 and
column 6) or the alignment patterns. -/
def Essential (n x y : Nat) : Prop :=
  x < 8 ∧ y < 8 ∨ n ≤ x + 8 ∧ y < 8 ∨ x < 8 ∧ n ≤ y + 8 ∨ x = 6 ∨ y = 6 ∨ ∃ m ∈ alignModules ((n - 17) / 4), m.1 = y ∧ m.2.1 = x

/-- In the middle of a module of `s` pixels: one pixel for even `s`, two for odd `s`. -/
def Middle (s i : Nat) : Prop := i % s = s / 2 ∨ i % s = (s + 1) / 2

/-- The pixel in column `i` and row `j` of a drawing must have the colour of its module: those of the function patterns that show where the
grid is, and those in the middle of any other module. -/
def Matters (n s i j : Nat) : Prop := Essential n (i / s) (j / s) ∨ Middle s i ∧ Middle s j

/-- The symbol is drawn at this place: each pixel of the drawing that matters is black in the image exactly if its module is dark. Rows come
first in the matrix. The drawing lies in the image, at least two pixels per module, and within the first 10001 rows and columns. Pixels
outside the drawing that touch a finder pattern, be it at a corner, are light; all others may be anything. -/
structure Renders (img : PreparedImage S) (n : Nat) (M : Nat → Nat → Bool) (P : Placement) : Prop where
  axis : IsAxis P.right
  scale : 2 ≤ P.scale
  inside : ∀ i j : Nat, i < n * P.scale → j < n * P.scale → 0 ≤ (P.pixel i j).x ∧ (P.pixel i j).x < width img.buffer ∧
    (P.pixel i j).x ≤ 10000 ∧ 0 ≤ (P.pixel i j).y ∧ (P.pixel i j).y < height img.buffer ∧ (P.pixel i j).y ≤ 10000
  black : ∀ (p : Pos) (i j : Nat), i < n * P.scale → j < n * P.scale → Matters n P.scale i j → P.pixel i j = ⟨p.1, p.2⟩ →
    (IsBlack img p ↔ M (j / P.scale) (i / P.scale) = true)
  border : ∀ p q : Pos, InFinders n P p → p.1 ≤ q.1 + 1 → q.1 ≤ p.1 + 1 → p.2 ≤ q.2 + 1 → q.2 ≤ p.2 + 1 → ¬ InDrawing n P q →
    ¬ IsBlack img q

/-- Each pixel of the drawing, whether it matters or not, is black in the image exactly if its module is dark. -/
def FullyDrawn (img : PreparedImage S) (n : Nat) (M : Nat → Nat → Bool) (P : Placement) : Prop :=
  ∀ (p : Pos) (i j : Nat), i < n * P.scale → j < n * P.scale → P.pixel i j = ⟨p.1, p.2⟩ → (IsBlack img p ↔ M (j / P.scale) (i / P.scale) = true)

/-- The symbol is drawn at this place and there is nothing else in the image: the black pixels are those of its dark modules. -/
structure Pictures (img : PreparedImage S) (n : Nat) (M : Nat → Nat → Bool) (P : Placement) : Prop where
  axis : IsAxis P.right
  scale : 2 ≤ P.scale
  inside : ∀ i j : Nat, i < n * P.scale → j < n * P.scale → 0 ≤ (P.pixel i j).x ∧ (P.pixel i j).x < width img.buffer ∧
    (P.pixel i j).x ≤ 10000 ∧ 0 ≤ (P.pixel i j).y ∧ (P.pixel i j).y < height img.buffer ∧ (P.pixel i j).y ≤ 10000
  black : ∀ p : Pos, IsBlack img p ↔ ∃ i j : Nat, i < n * P.scale ∧ j < n * P.scale ∧ P.pixel i j = ⟨p.1, p.2⟩ ∧
    M (j / P.scale) (i / P.scale) = true

/-- The number of pixels per module is small enough for the place: the square of the length of a finder pattern's side, times either
coordinate of the first pixel of the bottom right 7 x 7 modules, is less than 2^31. -/
def Placement.InRange (P : Placement) (n : Nat) : Prop :=
  (7 * P.scale - 1 : Int) ^ 2 * (P.pixel ((n - 7 : Nat) * P.scale) ((n - 7 : Nat) * P.scale)).x < 2 ^ 31 ∧
  (7 * P.scale - 1 : Int) ^ 2 * (P.pixel ((n - 7 : Nat) * P.scale) ((n - 7 : Nat) * P.scale)).y < 2 ^ 31

/-- The matrix has the finder, timing and alignment patterns of the version, and light separators. -/
structure Patterned (v : Nat) (M : Nat → Nat → Bool) : Prop where
  pattern : ∀ m ∈ patternModules v, M m.1 m.2.1 = m.2.2
  separators : ∀ i < 8, M 7 i = false ∧ M i 7 = false ∧ M 7 (side v - 1 - i) = false ∧ M i (side v - 8) = false ∧
    M (side v - 8) i = false ∧ M (side v - 1 - i) 7 = false

/-- Nothing in the image looks like a finder pattern but the three finder patterns: wherever a row crosses runs of the lengths
1 : 1 : 3 : 1 : 1 with connected outer runs around an inner region of the right size, the right end is in a finder pattern. -/
def OnlyFinders (img : PreparedImage S) (n : Nat) (P : Placement) : Prop :=
  ∀ y x pos, FinderShape img y x pos → RingAndStone img y pos → InFinders n P (pos.right, y)

/-- Five runs of a line, alternately dark and light: dark from `t0` to `t1`, light to `t2`, dark to `t3`, light to `t4`, dark to `t5`,
with light before and after. -/
structure FiveRuns (f : Nat → Bool) (t0 t1 t2 t3 t4 t5 : Nat) : Prop where
  before : t0 = 0 ∨ f (t0 - 1) = false
  after : f t5 = false
  lt0 : t0 < t1
  lt1 : t1 < t2
  lt2 : t2 < t3
  lt3 : t3 < t4
  lt4 : t4 < t5
  dark0 : ∀ t, t0 ≤ t → t < t1 → f t = true
  light1 : ∀ t, t1 ≤ t → t < t2 → f t = false
  dark2 : ∀ t, t2 ≤ t → t < t3 → f t = true
  light3 : ∀ t, t3 ≤ t → t < t4 → f t = false
  dark4 : ∀ t, t4 ≤ t → t < t5 → f t = true

/-- The module at the position along a row or a column of the matrix, as column and row. -/
def cell (column : Bool) (k t : Nat) : Pos := if column then (k, t) else (t, k)

/-- A dark module. -/
def DarkModule (n : Nat) (M : Nat → Nat → Bool) (m : Pos) : Prop := m.1 < n ∧ m.2 < n ∧ M m.2 m.1 = true

/-- A row or a column of the matrix, light beyond its end. -/
def lineOf (n : Nat) (M : Nat → Nat → Bool) (column : Bool) (k t : Nat) : Bool :=
  decide (t < n) && M (cell column k t).2 (cell column k t).1

/-- This part of a row or column belongs to a finder pattern. -/
def FinderSpan (n k t0 t5 : Nat) : Prop := (k < 7 ∧ (t5 ≤ 7 ∨ n - 7 ≤ t0)) ∨ (n - 7 ≤ k ∧ t5 ≤ 7)

/-- Nothing in the matrix looks like a finder pattern but the three finder patterns, when modules are drawn with `s` pixels: wherever
five runs of a row or column have lengths as 1 : 1 : 3 : 1 : 1, the outer ones are connected, and the inner one is not connected to
them, they are those of a finder pattern. -/
def Unmistakable (n : Nat) (M : Nat → Nat → Bool) (s : Nat) : Prop :=
  ∀ column k t0 t1 t2 t3 t4 t5, k < n → FiveRuns (lineOf n M column k) t0 t1 t2 t3 t4 t5 →
    FinderRatio ((t1 - t0) * s) ((t2 - t1) * s) ((t3 - t2) * s) ((t4 - t3) * s) ((t5 - t4) * s) →
    Reach (DarkModule n M) (cell column k t4) (cell column k t0) → ¬ Reach (DarkModule n M) (cell column k t4) (cell column k t2) →
    FinderSpan n k t0 t5

/-- A drawing of `n` by `n` modules at this place, as a function of column and row of the image: the pixel is dark if it belongs to
a dark module. -/
def Placement.dark (P : Placement) (n : Nat) (M : Nat → Nat → Bool) (x y : Nat) : Bool :=
  let i := (x - P.corner.x) * P.right.x + (y - P.corner.y) * P.right.y
  let j := (y - P.corner.y) * P.right.x - (x - P.corner.x) * P.right.y
  decide (0 ≤ i ∧ i < n * P.scale ∧ 0 ≤ j ∧ j < n * P.scale) && M (j.toNat / P.scale) (i.toNat / P.scale)

/-- The drawing of `n` by `n` modules lies in an image of this size, has at least two pixels per module, is turned by quarter turns,
and lies within the first 10001 rows and columns. -/
structure Placement.Fits (P : Placement) (w h n : Nat) : Prop where
  axis : IsAxis P.right
  scale : 2 ≤ P.scale
  first : 0 ≤ P.corner.x ∧ P.corner.x < w ∧ P.corner.x ≤ 10000 ∧ 0 ≤ P.corner.y ∧ P.corner.y < h ∧ P.corner.y ≤ 10000
  last : 0 ≤ (P.pixel (n * P.scale - 1) (n * P.scale - 1)).x ∧ (P.pixel (n * P.scale - 1) (n * P.scale - 1)).x < w ∧
    (P.pixel (n * P.scale - 1) (n * P.scale - 1)).x ≤ 10000 ∧ 0 ≤ (P.pixel (n * P.scale - 1) (n * P.scale - 1)).y ∧
    (P.pixel (n * P.scale - 1) (n * P.scale - 1)).y < h ∧ (P.pixel (n * P.scale - 1) (n * P.scale - 1)).y ≤ 10000

/-- The function patterns of a version, with light modules elsewhere. -/
def blank (v y x : Nat) : Bool :=
  if y < 8 ∧ x < 8 ∨ y < 8 ∧ side v ≤ x + 8 ∨ side v ≤ y + 8 ∧ x < 8 then
    let i := if y < 8 then y else y + 7 - side v
    let j := if x < 8 then x else x + 7 - side v
    decide (i < 7 ∧ j < 7 ∧ side v ≠ y + 8 ∧ side v ≠ x + 8) && finderDark i j
  else if y = 6 then timingDark x
  else if x = 6 then timingDark y
  else (alignCentres v).any fun c => decide (dist c.1 y ≤ 2 ∧ dist c.2 x ≤ 2) && (max (dist c.1 y) (dist c.2 x) != 1)

end Rqrr.Spec
