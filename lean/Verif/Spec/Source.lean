import Verif.Spec.Finder
import Verif.Spec.Grouping
import Verif.Spec.Exact
import Verif.Model.Identify

/-!
# Where grids come from
-/

namespace Rqrr.Spec

variable {F : Type} [FloatOps F] {S : Type} [ImageBuffer S]

/-- The weighted mean of four coordinates for the point `(U, V)` of the unit square: in the projective map of the square to a quadrilateral,
each corner has the weight of its bilinear coordinate times the area of the triangle of the other three. -/
def meanOf (A1 A2 A3 A4 : Int) (U V : ℚ) (z0 z1 z2 z3 : Int) : ℚ :=
  ((1 - U) * (1 - V) * A4 * z0 + U * (1 - V) * A3 * z1 + U * V * A2 * z2 + (1 - U) * V * A1 * z3) /
    ((1 - U) * (1 - V) * A4 + U * (1 - V) * A3 + U * V * A2 + (1 - U) * V * A1)

/-- The pixel of the point `(u, v)` modules into a quadrilateral of seven modules, up to a millionth of a pixel. -/
def InnerPoint (r : Vector Point 4) (u v : ℚ) (p : Point) : Prop :=
  ∃ x y, p = ⟨nearest x, nearest y⟩ ∧
    |x - meanOf (area2 r[0] r[1] r[2]) (area2 r[0] r[1] r[3]) (area2 r[0] r[2] r[3]) (area2 r[1] r[2] r[3]) (u / 7) (v / 7) r[0].x r[1].x r[2].x r[3].x| ≤ 1 / 10 ^ 6 ∧
    |y - meanOf (area2 r[0] r[1] r[2]) (area2 r[0] r[1] r[3]) (area2 r[0] r[2] r[3]) (area2 r[1] r[2] r[3]) (u / 7) (v / 7) r[0].y r[1].y r[2].y r[3].y| ≤ 1 / 10 ^ 6

/-- The number of changes of colour along the line of C43 from one point to another. -/
def Changes (img : PreparedImage S) (p q : Point) (n : Nat) : Prop :=
  ∃ (color : Point → PixelColor) (l : List Point), (∀ a, img.get_pixel_at_point a = .ok (color a)) ∧
    BresenhamScan.points p q = .ok l ∧ n = colourChanges (l.map color)

/-- The changes of colour between three capstones: from the last module of the middle one to those of the others, whichever
are more. -/
def Measured (img : PreparedImage S) (a b c : CapStone F) (n : Nat) : Prop :=
  ∃ ta tb tc h v, InnerPoint a.corners (13 / 2) (1 / 2) ta ∧ InnerPoint b.corners (13 / 2) (13 / 2) tb ∧
    InnerPoint c.corners (1 / 2) (13 / 2) tc ∧ Changes img tb tc h ∧ Changes img tb ta v ∧ n = max h v

end Rqrr.Spec
