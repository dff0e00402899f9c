import Verif.Spec.Regions

/-!
# Extreme points of a region
-/

namespace Rqrr.Spec

/-- A pixel as a point. -/
def point (p : Pos) : Point := { x := (p.1 : Int), y := (p.2 : Int) }

/-- Squared distance. -/
def dist2 (a b : Point) : Int := (b.x - a.x) * (b.x - a.x) + (b.y - a.y) * (b.y - a.y)

/-- Scalar product. -/
def dot (a b : Point) : Int := a.x * b.x + a.y * b.y

/-- The oriented area spanned by two vectors. -/
def cross (a b : Point) : Int := a.x * b.y - a.y * b.x

/-- The vector from one pixel to another. -/
def vectorTo (p q : Pos) : Point := { x := (q.1 : Int) - p.1, y := (q.2 : Int) - p.2 }

/-- The region of the pixel is claimed, other claims stay. -/
noncomputable def claimRegion (B : Pos → Prop) (p : Pos) (c : Claim) (claims : Pos → Option Claim) : Pos → Option Claim :=
  fun q => open Classical in if Reach B p q then some c else claims q

end Rqrr.Spec
