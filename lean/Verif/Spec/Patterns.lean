import Verif.Spec.Iso

/-!
# Specification: the colours of the function patterns

ISO/IEC 18004, 6.3.3 to 6.3.6: finder patterns, separators, timing patterns and alignment patterns. Coordinates are row first.
-/

namespace Rqrr.Spec

/-- 6.3.3: a dark ring of side 7, a light ring of side 5 and a dark square of side 3. -/
def finderDark (y x : Nat) : Bool := max (dist 3 y) (dist 3 x) != 2

/-- 6.3.6: a dark ring of side 5, a light ring of side 3 and a dark module. -/
def alignDark (y x : Nat) : Bool := max (dist 2 y) (dist 2 x) != 1

/-- 6.3.5: alternating, starting and ending dark. -/
def timingDark (i : Nat) : Bool := i % 2 == 0

/-- A square of modules with its colours: row, column, dark. -/
def square (n : Nat) (dark : Nat → Nat → Bool) (y x : Nat) : List (Nat × Nat × Bool) :=
  (List.range n).flatMap fun i => (List.range n).map fun j => (y + i, x + j, dark i j)

/-- The centres of the alignment patterns. -/
def alignCentres (v : Nat) : List (Nat × Nat) :=
  (alignCoords v).flatMap fun a => ((alignCoords v).filter fun b => isAlignCentre (alignCoords v) a b).map fun b => (a, b)

/-- The modules of the timing patterns between the finder patterns, with the separators next to them. -/
def timingModules (v : Nat) : List (Nat × Nat × Bool) :=
  (List.range (side v - 14)).flatMap fun i => [(6, i + 7, timingDark (i + 7)), (i + 7, 6, timingDark (i + 7))]

/-- The modules of the three finder patterns. -/
def finderModules (v : Nat) : List (Nat × Nat × Bool) :=
  square 7 finderDark 0 0 ++ square 7 finderDark 0 (side v - 7) ++ square 7 finderDark (side v - 7) 0

/-- The modules of the alignment patterns. -/
def alignModules (v : Nat) : List (Nat × Nat × Bool) :=
  (alignCentres v).flatMap fun c => square 5 alignDark (c.1 - 2) (c.2 - 2)

/-- The modules of fixed colour that show where the grid is: timing, finder and alignment patterns. A module that belongs to a
timing and an alignment pattern occurs twice. -/
def patternModules (v : Nat) : List (Nat × Nat × Bool) := timingModules v ++ finderModules v ++ alignModules v

end Rqrr.Spec
