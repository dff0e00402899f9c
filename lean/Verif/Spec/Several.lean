import Verif.Spec.Render

/-!
# Specification: several symbols in one image
-/

namespace Rqrr.Spec

open ImageBuffer

/-- A symbol and the place where it is drawn. -/
structure Symbol where
  version : Nat
  modules : Nat → Nat → Bool
  place : Placement

/-- A pixel of the drawing of the symbol. -/
def Symbol.Covers (A : Symbol) (p : Pos) : Prop := InDrawing (side A.version) A.place p

/-- Twice the centre of the 7 x 7 modules that begin in this column and row: the sum of the first and the last pixel. -/
def Symbol.finder (A : Symbol) (a b : Nat) : Point :=
  let p := A.place.pixel (a * A.place.scale) (b * A.place.scale)
  let q := A.place.pixel (a * A.place.scale + (7 * A.place.scale - 1)) (b * A.place.scale + (7 * A.place.scale - 1))
  ⟨p.x + q.x, p.y + q.y⟩

/-- The first point, with the second above or below and the third beside it, looks like the corner of a square: the one is off the
vertical, the other off the horizontal by no more than a fifth of the distance, and the distances differ by no more than a quarter; all up to
a few pixels. The coordinates are doubled. -/
def AlmostCorner (f p q : Point) : Prop :=
  5 * |p.x - f.x| ≤ |p.y - f.y| + 24 ∧ 5 * |q.y - f.y| ≤ |q.x - f.x| + 24 ∧
  3 * |p.y - f.y| ≤ 4 * |q.x - f.x| + 24 ∧ 3 * |q.x - f.x| ≤ 4 * |p.y - f.y| + 24

/-- The two distances from the corner differ by more than an eighth. -/
def OffSquare (f p q : Point) : Prop := 8 * |p.y - f.y| + 48 < 7 * |q.x - f.x| ∨ 8 * |q.x - f.x| + 48 < 7 * |p.y - f.y|

variable {S : Type} [ImageBuffer S] [LawfulImage S]

/-- A symbol with the patterns of its version, any but 21, drawn in the image, and not too many pixels per module for its place. -/
structure Symbol.DrawnIn (img : PreparedImage S) (A : Symbol) : Prop where
  pos : 1 ≤ A.version
  le : A.version ≤ 40
  ne : A.version ≠ 21
  renders : Renders img (side A.version) A.modules A.place
  patterned : Patterned A.version A.modules
  inRange : A.place.InRange (side A.version)

/-- Finder patterns of different symbols do not look like the three of one symbol - unless the corner is the first of a symbol, another
one is of the same symbol, and their distances are clearly different. -/
def NoFalseCorners (syms : List Symbol) : Prop :=
  ∀ A ∈ syms, ∀ B ∈ syms, ∀ C ∈ syms, ∀ a b a' b' a'' b'', FinderPlace (side A.version) a b →
    FinderPlace (side B.version) a' b' → FinderPlace (side C.version) a'' b'' →
    AlmostCorner (A.finder a b) (B.finder a' b') (C.finder a'' b'') →
    (B = A ∧ C = A) ∨ (a = 0 ∧ b = 0 ∧ (B = A ∨ C = A) ∧ OffSquare (A.finder a b) (B.finder a' b') (C.finder a'' b''))

/-- The symbols are drawn in the image. Their drawings do not overlap; nothing in the image looks like a finder pattern but their
finder patterns; and finder patterns of different symbols do not look like the three of one symbol. -/
structure Several (img : PreparedImage S) (syms : List Symbol) : Prop where
  drawn : ∀ A ∈ syms, A.DrawnIn img
  apart : syms.Pairwise fun A B => ∀ p, ¬ (A.Covers p ∧ B.Covers p)
  only : ∀ y x pos, FinderShape img y x pos → RingAndStone img y pos →
    ∃ A ∈ syms, InFinders (side A.version) A.place (pos.right, y)
  corners : NoFalseCorners syms

/-- The pixels around the drawing are light. -/
def Bordered (img : PreparedImage S) (n : Nat) (P : Placement) : Prop :=
  ∀ p q, InDrawing n P p → Adj p q → ¬ InDrawing n P q → ¬ IsBlack img q

/-- The two drawings do not touch, not even at a corner. -/
def Symbol.Clear (A B : Symbol) : Prop :=
  ∀ p q, A.Covers p → B.Covers q → ¬ (p.1 ≤ q.1 + 1 ∧ q.1 ≤ p.1 + 1 ∧ p.2 ≤ q.2 + 1 ∧ q.2 ≤ p.2 + 1)

/-- A drawing of several symbols, as a function of column and row of the image. -/
def sheet (syms : List Symbol) (x y : Nat) : Bool := syms.any fun A => A.place.dark (side A.version) A.modules x y

/-- Symbols for one image of this size: each fits, has the patterns of its version, any but 21, not too many pixels per module, and
no part of it can be mistaken for a finder pattern; they do not touch each other; and there are no false corners. -/
structure Arranged (w h : Nat) (syms : List Symbol) : Prop where
  pos : ∀ A ∈ syms, 1 ≤ A.version
  le : ∀ A ∈ syms, A.version ≤ 40
  ne : ∀ A ∈ syms, A.version ≠ 21
  fits : ∀ A ∈ syms, A.place.Fits w h (side A.version)
  patterned : ∀ A ∈ syms, Patterned A.version A.modules
  inRange : ∀ A ∈ syms, A.place.InRange (side A.version)
  unmistakable : ∀ A ∈ syms, Unmistakable (side A.version) A.modules A.place.scale
  clear : syms.Pairwise Symbol.Clear
  corners : NoFalseCorners syms

/-- The distance between two symbols of one version and size, one beside the other: they do not touch; it is more than four thirds of the
distance between two finder patterns of a symbol; and it is clearly different from twice that. -/
def AtDistance (v s : Nat) (A B : Symbol) : Prop :=
  (side v * s : Nat) + 1 ≤ |A.place.corner.x - B.place.corner.x| ∧
  4 * (((side v - 7) * s : Nat) : Int) + 12 < 3 * |A.place.corner.x - B.place.corner.x| ∧
  (8 * |A.place.corner.x - B.place.corner.x| + 24 < 15 * (((side v - 7) * s : Nat) : Int) ∨
    15 * (((side v - 7) * s : Nat) : Int) + 24 < 7 * |A.place.corner.x - B.place.corner.x|)

/-- Symbols of one version and size in a row, upright. -/
structure SideBySide (v s : Nat) (y : Int) (syms : List Symbol) : Prop where
  pos : 1 ≤ v
  scale : 2 ≤ s
  same : ∀ A ∈ syms, A.version = v ∧ A.place.right = ⟨1, 0⟩ ∧ A.place.scale = s ∧ A.place.corner.y = y
  apart : syms.Pairwise (AtDistance v s)

end Rqrr.Spec
