import Verif.Model.Identify

/-!
# What a grouping of capstones is
-/

namespace Rqrr.Spec

/-- Indices of the capstones of a group; `corner` is the one between the two others. -/
structure Triple where
  first : Nat
  corner : Nat
  second : Nat
  deriving DecidableEq, Repr

/-- The capstones of the triple. -/
def Triple.indices (t : Triple) : List Nat := [t.first, t.corner, t.second]

/-- The group consists of the capstones with the indices of the triple. -/
def Triple.Names {F : Type} (caps : List (CapStone F)) (t : Triple) (g : CapStoneGroup F) : Prop :=
  caps[t.first]? = some g.a ∧ caps[t.corner]? = some g.b ∧ caps[t.second]? = some g.c

/-- Two groups have at most the corner in common. -/
def OnlyCornerShared (s t : Triple) : Prop := ∀ x, x ∈ s.indices → x ∈ t.indices → x = s.corner ∧ x = t.corner

/-- Number of changes of colour along a sequence of pixels. -/
def colourChanges : List PixelColor → Nat
  | a :: b :: l => (if a ≠ b then 1 else 0) + colourChanges (b :: l)
  | _ => 0

end Rqrr.Spec
