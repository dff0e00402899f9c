import Verif.Spec.Symbol

/-!
# Specification: the codewords of a version 21 symbol that the program reads from wrong places

The program's table has 92 instead of 94 as the last alignment coordinate of version 21. So it takes some alignment modules
for data and skips as many data modules, and reads the modules between them at shifted positions.
-/

namespace Rqrr.Spec

/-- The modules that carry data according to a list of alignment coordinates, in placement order. -/
def pathOf (cs : List Nat) (v : Nat) : List (Nat × Nat) := (zigzag (side v)).filter fun p => !isFunctionOf cs v p.1 p.2

/-- The codewords of the final message sequence of version 21 some bits of which are read from other modules than those
that show them: 94 of 1156. -/
def astray (k : Nat) : Bool :=
  (47 ≤ k && k ≤ 125) || [319, 320, 322, 360, 361, 563, 598, 599, 601, 602, 839, 840, 842, 880, 881].contains k

/-- Position `p` of the final message sequence belongs to block `i`. -/
def inBlock (v : Nat) (l : Level) (i p : Nat) : Bool :=
  match (layout v l)[p]? with
  | some (b, _) => b == i
  | none => false

/-- Number of codewords of block `i` of a version 21 symbol that were received wrong or are read from wrong places. -/
def strayDamage (l : Level) (R : Nat → BitVec 8) (c : Nat → List (BitVec 8)) (i : Nat) : Nat :=
  ((Finset.range (totalCodewords 21)).filter fun p => wrongAt 21 l R c i p || (astray p && inBlock 21 l i p)).card

/-- What the error correction of a level has left for damage, in every block of a version 21 symbol. -/
def spare : Level → Nat
  | .L => 0 | .M => 6 | .Q => 8 | .H => 9

end Rqrr.Spec
