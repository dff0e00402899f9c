import Verif.Model.Prepare
import Verif.Spec.Exact

/-!
# Plane geometry
-/

namespace Rqrr.Spec

/-- Twice the signed area of the triangle `a b c`. -/
def area2 (a b c : Point) : Int := (b.x - a.x) * (c.y - a.y) - (c.x - a.x) * (b.y - a.y)

/-- `(X, Y)` lies on the line through `a` and `b`. -/
def OnLine (a b : Point) (X Y : ℚ) : Prop := (b.x - a.x : ℚ) * (Y - a.y) = (b.y - a.y : ℚ) * (X - a.x)

/-- The lines `a b` and `c d` have the same direction (or one of them is a single point). -/
def Parallel (a b c d : Point) : Prop := (b.x - a.x) * (d.y - c.y) = (b.y - a.y) * (d.x - c.x)

/-- No three of the four corners are on a line. -/
def GeneralPosition (r : Vector Point 4) : Prop :=
  area2 r[0] r[1] r[2] ≠ (0 : Int) ∧ area2 r[0] r[1] r[3] ≠ (0 : Int) ∧ area2 r[0] r[2] r[3] ≠ (0 : Int) ∧ area2 r[1] r[2] r[3] ≠ (0 : Int)

/-- The corners go round a strictly convex quadrilateral in the positive direction. -/
def Convex (r : Vector Point 4) : Prop :=
  (0 : Int) < area2 r[0] r[1] r[2] ∧ (0 : Int) < area2 r[0] r[1] r[3] ∧ (0 : Int) < area2 r[0] r[2] r[3] ∧ (0 : Int) < area2 r[1] r[2] r[3]

end Rqrr.Spec
