import Verif.Spec.Regions
import Mathlib.Data.Nat.Sqrt

/-!
# Specification of the search for the alignment pattern

The square spiral, with the lengths of its sides and their corners in closed form, and what a pixel must be like to be taken for
the alignment pattern.
-/

namespace Rqrr.Spec

/-- The `j`-th corner of the spiral around the origin; the `y` axis points down. -/
def corner (j : Nat) : Point :=
  let m : Int := (j / 4 : Nat)
  if j % 4 = 0 then { x := -m, y := m }
  else if j % 4 = 1 then { x := m + 1, y := m }
  else if j % 4 = 2 then { x := m + 1, y := -(m + 1) }
  else { x := -(m + 1), y := -(m + 1) }

/-- The direction of the `j`-th side: right, up, left, down. -/
def direction (j : Nat) : Point :=
  if j % 4 = 0 then { x := 1, y := 0 } else if j % 4 = 1 then { x := 0, y := -1 }
  else if j % 4 = 2 then { x := -1, y := 0 } else { x := 0, y := 1 }

/-- The length of the `j`-th side. -/
def sideLength (j : Nat) : Nat := j / 2 + 1

/-- The `k`-th point of the `j`-th side of the spiral around `seed`. -/
def spiralPoint (seed : Point) (j k : Nat) : Point :=
  { x := seed.x + (corner j).x + k * (direction j).x, y := seed.y + (corner j).y + k * (direction j).y }

/-- The points of the first `n` sides of the spiral around `seed`, in order. -/
def spiral (seed : Point) (n : Nat) : List Point :=
  (List.range n).flatMap fun j => (List.range (sideLength j)).map fun k => spiralPoint seed j k

/-- The number of sides searched for a pattern of estimated size `n`: two for each length whose square is below `100 n`. -/
def searchedSides (n : Nat) : Nat := 2 * Nat.sqrt (100 * n - 1)

variable {S : Type} [ImageBuffer S] [LawfulImage S]

/-- The point lies in an unclaimed region of between half and twice the estimated size. -/
def Suitable (img : PreparedImage S) (claims : Pos → Option Claim) (n : Nat) (p : Point) : Prop :=
  ∃ x y : Nat, p = ⟨x, y⟩ ∧ IsBlack img (x, y) ∧ claims (x, y) = none ∧ n / 2 ≤ area (IsBlack img) (x, y) ∧
    area (IsBlack img) (x, y) ≤ 2 * n

/-- The point lies in a claimed region. -/
def InClaimed (img : PreparedImage S) (claims : Pos → Option Claim) (p : Point) : Prop :=
  ∃ x y : Nat, p = ⟨x, y⟩ ∧ IsBlack img (x, y) ∧ claims (x, y) ≠ none

end Rqrr.Spec
