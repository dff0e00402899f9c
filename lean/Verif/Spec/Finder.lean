import Verif.Spec.Corners
import Verif.Spec.Geometry
import Verif.Model.Detect

/-!
# What a finder pattern is
-/

namespace Rqrr.Spec

/-- `[a, b)` is a run of equal values that cannot be extended to the left. -/
def IsRun {α : Type} (f : Nat → α) (a b : Nat) : Prop :=
  a < b ∧ (∀ i, a ≤ i → i < b → f i = f a) ∧ (a = 0 ∨ f (a - 1) ≠ f a)

/-- Five lengths in the ratio 1:1:3:1:1, up to three quarters of the module size, which is the mean of the four short ones. All
divisions round down. -/
def FinderRatio (a b c d e : Nat) : Prop :=
  let module := (a + b + d + e) / 4
  let tolerance := module * 3 / 4
  (module ≤ a + tolerance ∧ a ≤ module + tolerance) ∧ (module ≤ b + tolerance ∧ b ≤ module + tolerance) ∧
    (3 * module ≤ c + tolerance ∧ c ≤ 3 * module + tolerance) ∧
    (module ≤ d + tolerance ∧ d ≤ module + tolerance) ∧ (module ≤ e + tolerance ∧ e ≤ module + tolerance)

/-- The five runs before `x` have these lengths; the first, third and fifth of them start at the given positions. -/
def FinderRuns {α : Type} (f : Nat → α) (x : Nat) (pos : LinePosition) : Prop :=
  ∃ x1 x3, IsRun f pos.left x1 ∧ IsRun f x1 pos.stone ∧ IsRun f pos.stone x3 ∧ IsRun f x3 pos.right ∧ IsRun f pos.right x ∧
    FinderRatio (x1 - pos.left) (pos.stone - x1) (x3 - pos.stone) (pos.right - x3) (x - pos.right)

variable {S : Type} [ImageBuffer S] [LawfulImage S]

/-- The black pixels of a row; everything beyond its end is white. -/
noncomputable def rowOf (img : PreparedImage S) (y : Nat) : Nat → Bool := fun x => open Classical in decide (IsBlack img (x, y))

/-- A black-white-black-white-black pattern with these lengths in row `y`, ending before `x`. -/
def FinderShape (img : PreparedImage S) (y x : Nat) (pos : LinePosition) : Prop :=
  1 ≤ x ∧ rowOf img y (x - 1) = true ∧ rowOf img y x = false ∧ FinderRuns (rowOf img y) x pos

/-- The outer runs are connected, the inner one lies in another region, of between 11 and 69 percent of the pixels. -/
structure RingAndStone (img : PreparedImage S) (y : Nat) (pos : LinePosition) : Prop where
  joined : Reach (IsBlack img) (pos.right, y) (pos.left, y)
  apart : ¬ Reach (IsBlack img) (pos.right, y) (pos.stone, y)
  lower : 10 < area (IsBlack img) (pos.stone, y) * 100 / area (IsBlack img) (pos.right, y)
  upper : area (IsBlack img) (pos.stone, y) * 100 / area (IsBlack img) (pos.right, y) < 70

/-- The four corners of the region of `p`: its extreme points along and across the direction from `p` to the pixel of the
region that is farthest from `p`. -/
def ExtremeCorners (B : Pos → Prop) (p : Pos) (r : Vector Point 4) : Prop :=
  ∃ far, Reach B p far ∧ (∀ q, Reach B p q → dist2 (point p) (point q) ≤ dist2 (point p) (point far)) ∧
    ∃ c0 c1 c2 c3, r = #v[point c0, point c1, point c2, point c3] ∧
      Reach B p c0 ∧ Reach B p c1 ∧ Reach B p c2 ∧ Reach B p c3 ∧ ∀ q, Reach B p q →
        dot (vectorTo p far) (point q) ≤ dot (vectorTo p far) (point c0) ∧
        cross (vectorTo p far) (point q) ≤ cross (vectorTo p far) (point c1) ∧
        dot (vectorTo p far) (point c2) ≤ dot (vectorTo p far) (point q) ∧
        cross (vectorTo p far) (point c3) ≤ cross (vectorTo p far) (point q)

/-- The corners go round a convex quadrilateral, which may be degenerate. -/
def WeaklyConvex (r : Vector Point 4) : Prop :=
  (0 : Int) ≤ area2 r[0] r[1] r[2] ∧ (0 : Int) ≤ area2 r[0] r[1] r[3] ∧ (0 : Int) ≤ area2 r[0] r[2] r[3] ∧
    (0 : Int) ≤ area2 r[1] r[2] r[3]

/-- A requirement on the arithmetic: the centre of a convex quadrilateral with small corners is a point. -/
def CentresMap (F : Type) [FloatOps F] : Prop :=
  ∀ (r : Vector Point 4) (c : Perspective F), WeaklyConvex r →
    (∀ (j : Nat) (hj : j < 4), 0 ≤ r[j].x ∧ r[j].x ≤ 32767 ∧ 0 ≤ r[j].y ∧ r[j].y ≤ 32767) →
    Perspective.create r (FloatOps.lit 7 0) (FloatOps.lit 7 0) = some c → ∃ m, c.map (FloatOps.lit 35 1) (FloatOps.lit 35 1) = .ok m

/-- A capstone found at this place: a finder pattern in this row, the corners of its ring, the transform for these corners
and its centre. -/
structure CapstoneAt {F : Type} [FloatOps F] (img : PreparedImage S) (y : Nat) (pos : LinePosition) (cap : CapStone F) : Prop where
  shape : ∃ x, FinderShape img y x pos
  ring : RingAndStone img y pos
  corners : ExtremeCorners (IsBlack img) (pos.right, y) cap.corners
  transform : Perspective.create cap.corners (FloatOps.lit 7 0) (FloatOps.lit 7 0) = some cap.c
  center : cap.c.map (FloatOps.lit 35 1) (FloatOps.lit 35 1) = .ok cap.center

end Rqrr.Spec
