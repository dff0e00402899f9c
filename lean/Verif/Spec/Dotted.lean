import Verif.Spec.Several

/-!
# Specification: a symbol drawn with dots

The function patterns that show where the grid is are drawn in full; every other module is light around a shape in its middle.
-/

namespace Rqrr.Spec

variable {S : Type} [ImageBuffer S] [LawfulImage S]

/-- The first or last of the `s` pixels of a module. -/
def AtEdge (s i : Nat) : Prop := i % s = 0 ∨ i % s = s - 1

/-- A symbol drawn with dots, at least four pixels per module: the pixels at the edges of its modules are light, but for the finder patterns,
the timing patterns and the alignment patterns; a row of the image crosses no dot twice; the pixels around the drawing are light. Whether a
module is dark only shows in its middle (`Matters`): apart from that dots may have any shape, in light modules too. -/
structure Dotted (img : PreparedImage S) (n : Nat) (M : Nat → Nat → Bool) (P : Placement) : Prop where
  renders : Renders img n M P
  scale : 4 ≤ P.scale
  edge : ∀ (p : Pos) (i j : Nat), i < n * P.scale → j < n * P.scale → ¬ Essential n (i / P.scale) (j / P.scale) →
    AtEdge P.scale i ∨ AtEdge P.scale j → P.pixel i j = ⟨p.1, p.2⟩ → ¬ IsBlack img p
  once : ∀ x x' x'' y i j i' j' : Nat, i < n * P.scale → j < n * P.scale → ¬ Essential n (i / P.scale) (j / P.scale) →
    P.pixel i j = ⟨x, y⟩ → P.pixel i' j' = ⟨x'', y⟩ → i / P.scale = i' / P.scale → j / P.scale = j' / P.scale →
    x ≤ x' → x' ≤ x'' → IsBlack img (x, y) → IsBlack img (x'', y) → IsBlack img (x', y)
  border : Bordered img n P

instance (n x y : Nat) : Decidable (Essential n x y) := by unfold Essential; infer_instance

instance (s i : Nat) : Decidable (AtEdge s i) := by unfold AtEdge; infer_instance

/-- A drawing with one light pixel around every module that does not belong to the finder, timing and alignment patterns, as a function of
column and row of the image. -/
def Placement.dots (P : Placement) (n : Nat) (M : Nat → Nat → Bool) (x y : Nat) : Bool :=
  let i := (x - P.corner.x) * P.right.x + (y - P.corner.y) * P.right.y
  let j := (y - P.corner.y) * P.right.x - (x - P.corner.x) * P.right.y
  P.dark n M x y && decide (Essential n (i.toNat / P.scale) (j.toNat / P.scale) ∨ ¬ AtEdge P.scale i.toNat ∧ ¬ AtEdge P.scale j.toNat)

/-- A drawing of several symbols with dots, as a function of column and row of the image. -/
def dotSheet (syms : List Symbol) (x y : Nat) : Bool := syms.any fun A => A.place.dots (side A.version) A.modules x y

/-- Symbols to be drawn with dots in one image of this size: each fits, with at least four pixels per module, has the patterns of its version,
any but 21, and not too many pixels per module; they do not touch each other; and there are no false corners. There is no further condition on
the matrices. -/
structure ArrangedDots (w h : Nat) (syms : List Symbol) : Prop where
  pos : ∀ A ∈ syms, 1 ≤ A.version
  le : ∀ A ∈ syms, A.version ≤ 40
  ne : ∀ A ∈ syms, A.version ≠ 21
  fits : ∀ A ∈ syms, A.place.Fits w h (side A.version)
  scale : ∀ A ∈ syms, 4 ≤ A.place.scale
  patterned : ∀ A ∈ syms, Patterned A.version A.modules
  inRange : ∀ A ∈ syms, A.place.InRange (side A.version)
  clear : syms.Pairwise Symbol.Clear
  corners : NoFalseCorners syms

end Rqrr.Spec
