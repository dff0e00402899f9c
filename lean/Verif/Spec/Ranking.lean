import Verif.Model.Identify

/-!
# What ranking neighbours of capstones is meant to compute, in any arithmetic
-/

namespace Rqrr

variable {F : Type} [FloatOps F]

/-- Distances along the two axes of capstone `cap`, in modules, of another centre. -/
def axes (cap : CapStone F) (p : Point) : F × F :=
  (FloatOps.abs (FloatOps.sub (cap.c.unmap p).1 (FloatOps.lit 35 1)), FloatOps.abs (FloatOps.sub (cap.c.unmap p).2 (FloatOps.lit 35 1)))

/-- The one distance is much less than the other. -/
def beside (x y : F) : Bool := FloatOps.lt x (FloatOps.mul (FloatOps.lit 2 1) y)

/-- The score of a pair of neighbours. -/
def pairing (h v : F) : F :=
  if FloatOps.lt h v = true then FloatOps.abs (FloatOps.sub (FloatOps.lit 1 0) (FloatOps.div h v))
  else FloatOps.abs (FloatOps.sub (FloatOps.lit 1 0) (FloatOps.div v h))

/-- The score of a pair of indices. -/
def pairScoreF (caps : List (CapStone F)) (cap : CapStone F) (p : Nat × Nat) : F :=
  match caps[p.1]?, caps[p.2]? with
  | some a, some b => pairing (axes cap a.center).2 (axes cap b.center).1
  | _, _ => FloatOps.lit 0 0

end Rqrr
